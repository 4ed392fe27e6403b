import Verif.Spec.Module
import Verif.Spec.Target
/-!
# Specification: a history of arbitrary commands through the kernel module
-/

namespace Scsi2Nvme.Spec
open Scsi2Nvme Engine Module

/-- The device never makes memory inaccessible. -/
def keepsMapped {σ : Type} (D : Device σ) : Prop := ∀ s m sub a, (m a).isSome → ((D s m sub).2.1 a).isSome

/-- The commands of a history: READ and WRITE as for the block store, with lists of less than 65536 bytes; any other command
block, with any list and any direction of transfer.  The reserved byte 2 of an UNMAP is zero, as the standard demands. -/
structure Command.Fair (q : Command) : Prop where
  stored : q.mem.read q.cmd.cmnd q.cdb.length = some q.cdb
  short : q.cdb.length < 65536
  len : q.cmd.cmd_len = BitVec.ofNat 16 q.cdb.length
  unmap : byte q.cdb 0 = 0x42 → byte q.cdb 2 = 0
  rw : isRead (byte q.cdb 0) ∨ isWrite (byte q.cdb 0) → q.Valid ∧ q.cmd.sg.length < 65536

/-- What is expected of one command: READ and WRITE as for the block store; any other command leaves the disks alone, and
the length of the list, and its result is GOOD, CHECK CONDITION, TASK ABORTED or, without memory, 23. -/
inductive Managed (nomem : Prop) (cap : Nat → Nat) (d : Disk) (q : Command) (o : Outcome) : Disk → Prop
  | rw {d'} (op : isRead (byte q.cdb 0) ∨ isWrite (byte q.cdb 0)) (h : Handled nomem cap d q o d') : Managed nomem cap d q o d'
  | other (op : ¬ isRead (byte q.cdb 0) ∧ ¬ isWrite (byte q.cdb 0)) (len : o.sg.length = q.cmd.sg.length)
      (status : o.result ∈ [0x00, 0x02, 0x40] ∨ (nomem ∧ o.result = 23)) : Managed nomem cap d q o d

/-- The same for a history; `nomem q` says that there was no memory for command `q`. -/
inductive ManagedAll (cap : Nat → Nat) (nomem : Command → Prop) : Disk → List Command → List Outcome → Disk → Prop
  | nil {d} : ManagedAll cap nomem d [] [] d
  | cons {d q o d' qs os d''} (h : Managed (nomem q) cap d q o d') (t : ManagedAll cap nomem d' qs os d'') :
    ManagedAll cap nomem d (q :: qs) (o :: os) d''

/-- The command does not write to any of the blocks `lba … lba+n-1` of LUN `lun`. -/
def Command.sparing (q : Command) (cap : Nat → Nat) (lun lba n : Nat) : Prop :=
  isWrite (byte q.cdb 0) → q.cmd.lun.toNat = lun → ∀ l k, q.asks (cap lun) l k → l + k ≤ lba ∨ lba + n ≤ l

end Scsi2Nvme.Spec
