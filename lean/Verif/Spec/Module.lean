import Verif.Model.Module
import Verif.Spec.Disk
/-!
# Specification: the kernel module
-/

namespace Scsi2Nvme.Spec
open Scsi2Nvme Engine Module

/-- What `kzalloc` and `kfree` of the kernel do: NULL and no effect, or the address of a block of zeros that was not
accessible before, everything else unchanged; a freed block becomes inaccessible, everything else stays unchanged. -/
structure GoodKernel (K : Kernel) : Prop where
  alloc : ∀ w n,
    ((K.kzalloc w n).1 = 0 ∧ (K.kzalloc w n).2 = w.mem) ∨
    ((K.kzalloc w n).1 ≠ 0 ∧ (K.kzalloc w n).1 < 2 ^ 64 ∧ (K.kzalloc w n).1 + n ≤ 2 ^ 64 ∧
      (∀ x, inRange (K.kzalloc w n).1 n x → w.mem x = none ∧ (K.kzalloc w n).2 x = some 0) ∧
      ∀ x, ¬ inRange (K.kzalloc w n).1 n x → (K.kzalloc w n).2 x = w.mem x)
  free : ∀ w a n x, K.kfree w a n x = if a ≤ x ∧ x < a + n then none else w.mem x

/-- One call of `scsi_queuecommand` which returned. -/
structure Queued (σ : Type) where
  K : Kernel
  /-- indeterminate stack memory -/
  junk : World → Nat → Byte
  /-- the driver and the device -/
  D : Device σ
  s : σ
  ws : Arr3 NvmeCmdWrapper
  /-- the uninitialised pointer -/
  uninit : U64
  /-- the world before -/
  w : World
  cmd : ScsiCmnd
  /-- what the caller sees -/
  out : Outcome
  s' : σ
  /-- the world after -/
  w' : World
  /-- the command block is in memory -/
  cdb : List Byte
  short : cdb.length < 65536
  len : cmd.cmd_len = BitVec.ofNat 16 cdb.length
  stored : w.mem.read cmd.cmnd cdb.length = some cdb
  call : scsi_queuecommand K junk D s ws uninit cmd w = .ok ((out, s'), w')

/-! ## Block storage behind the module -/

/-- A READ or WRITE as the SCSI layer of the kernel hands it to the module, and the memory when it does. -/
structure Command where
  mem : Mem
  ws : Arr3 NvmeCmdWrapper
  uninit : U64
  cdb : List Byte
  cmd : ScsiCmnd

/-- The command block is in memory, the sense buffer is accessible, there can be a namespace for the LUN, the
direction of the transfer is that of the command, and the scatter-gather list of a WRITE holds the blocks to be
written. -/
structure Command.Valid (q : Command) : Prop where
  stored : q.mem.read q.cmd.cmnd q.cdb.length = some q.cdb
  short : q.cdb.length < 65536
  len : q.cmd.cmd_len = BitVec.ofNat 16 q.cdb.length
  op : (isRead (byte q.cdb 0) ∧ q.cmd.is_data_in = true) ∨ (isWrite (byte q.cdb 0) ∧ q.cmd.is_data_in = false)
  sense : accessible q.mem ⟨q.cmd.sense_buffer, 96⟩
  lun : q.cmd.lun.toNat + 1 < 2 ^ 32
  matching : isWrite (byte q.cdb 0) → ∀ rw, decodeRw q.cdb = some rw → 4096 * rw.blocks ≤ q.cmd.sg.length

/-- A complete READ or WRITE for the blocks `lba … lba+n-1`, with a protection code that is not reserved, a
scatter-gather list that can hold the blocks, within the capacity `cap` of the disk. -/
def Command.asks (q : Command) (cap lba n : Nat) : Prop :=
  ∃ rw, decodeRw q.cdb = some rw ∧ (∀ c, rw.protect = some c → c ≤ 5) ∧ rw.lba = lba ∧ rw.blocks = n ∧ 1 ≤ n ∧
    4096 * n ≤ q.cmd.sg.length ∧ lba + n ≤ cap

/-- What the SCSI layer expects of one command: a correct READ is answered with result 0, the blocks are in the
scatter-gather list, what follows them there is unchanged, and the residual count is the number of bytes that were not
filled; a correct WRITE is answered with result 0 and the blocks are replaced by the data; any other command is not
answered with result 0.  Result 23 and no effect are acceptable if the module got no memory.  A READ does not touch the
disks, a WRITE does not touch the list. -/
inductive Handled (nomem : Prop) (cap : Nat → Nat) (d : Disk) (q : Command) (o : Outcome) : Disk → Prop
  | read {lba n} (op : isRead (byte q.cdb 0)) (h : q.asks (cap q.cmd.lun.toNat) lba n) (good : o.result = 0)
      (data : o.sg = d.read q.cmd.lun.toNat (4096 * lba) (4096 * n) ++ q.cmd.sg.drop (4096 * n))
      (resid : o.resid = some ((q.cmd.sg.length : Int) - 4096 * n)) : Handled nomem cap d q o d
  | write {lba n} (op : isWrite (byte q.cdb 0)) (h : q.asks (cap q.cmd.lun.toNat) lba n) (good : o.result = 0)
      (data : o.sg = q.cmd.sg) :
      Handled nomem cap d q o (d.write q.cmd.lun.toNat (4096 * lba) (q.cmd.sg.take (4096 * n)))
  | failed (h : ∀ lba n, ¬ q.asks (cap q.cmd.lun.toNat) lba n) (bad : o.result ≠ 0) : Handled nomem cap d q o d
  | noMemory (h : nomem) (bad : o.result = 23) (data : o.sg = q.cmd.sg) : Handled nomem cap d q o d

/-- The kernel has no memory for the buffer of the command. -/
def outOfMemory (K : Kernel) (tr : List Event) (q : Command) : Prop :=
  (K.kzalloc ⟨q.mem, tr⟩ (q.cmd.sg.length % 65536)).1 = 0

/-- Run the commands one after the other.  Result: what the SCSI layer sees, and the final state of the device. -/
def queueAll (K : Kernel) (junk : World → Nat → Byte) (D : Device σ) (s : σ) (tr : List Event) :
    List Command → Except UB (List Outcome × σ)
  | [] => .ok ([], s)
  | q :: qs =>
    match scsi_queuecommand K junk D s q.ws q.uninit q.cmd ⟨q.mem, tr⟩ with
    | .error e => .error e
    | .ok ((o, s'), w) =>
      match queueAll K junk D s' w.trace qs with
      | .error e => .error e
      | .ok (os, s'') => .ok (o :: os, s'')

/-- The history of outcomes is as expected; `nomem q` says that there was no memory for command `q`. -/
inductive HandledAll (cap : Nat → Nat) (nomem : Command → Prop) : Disk → List Command → List Outcome → Disk → Prop
  | nil {d} : HandledAll cap nomem d [] [] d
  | cons {d q o d' qs os d''} (h : Handled (nomem q) cap d q o d') (t : HandledAll cap nomem d' qs os d'') :
    HandledAll cap nomem d (q :: qs) (o :: os) d''

end Scsi2Nvme.Spec
