import Verif.Spec.Engine
/-!
# Specification: block storage

The contents of a disk, an ideal NVMe device with blocks of 4096 bytes, and what the user of a SCSI disk
expects of a history of READ and WRITE commands.
-/

namespace Scsi2Nvme.Spec
open Scsi2Nvme Engine

/-- Contents of disks: byte `a` of disk `k` (a namespace or a LUN).  Block `b` consists of the bytes `4096 b …
4096 b + 4095`. -/
abbrev Disk := Nat → Nat → Byte

/-- `len` bytes of disk `k` from position `pos` on. -/
def Disk.read (d : Disk) (k pos len : Nat) : List Byte := (List.range len).map fun i => d k (pos + i)

/-- Replace bytes of disk `k` from position `pos` on. -/
def Disk.write (d : Disk) (k pos : Nat) (bs : List Byte) : Disk := fun k' a =>
  if k' = k ∧ pos ≤ a ∧ a < pos + bs.length then bs.getD (a - pos) 0 else d k' a

/-! ## An ideal NVMe device -/

/-- A completion with status code type 0. -/
def generic (sc : Byte) : Nvme.GenericQueueEntryCpl := { sc := sc }

/-- An ideal NVMe device with blocks of 4096 bytes.  Namespace `n` has `cap n` blocks.  I/O commands Read (02h) and
Write (01h) are decoded by byte position: namespace id in bytes 4-7, data pointer in bytes 24-31, first block in bytes
40-47, number of blocks minus one in bytes 48-49.  A range outside of the namespace is answered with LBA Out of Range
(80h), inaccessible memory with Data Transfer Error (04h).  Other commands are answered with success without
effect. -/
def idealDevice (cap : Nat → Nat) : Device Disk := fun d m sub =>
  let nsid := leAt sub.cmd 4 4
  let prp := leAt sub.cmd 24 8
  let lba := leAt sub.cmd 40 8
  let n := leAt sub.cmd 48 2 + 1
  if sub.is_admin ∨ (byte sub.cmd 0 ≠ 0x01 ∧ byte sub.cmd 0 ≠ 0x02) then (d, m, generic 0)
  else if cap nsid < lba + n then (d, m, generic 0x80)
  else if byte sub.cmd 0 = 0x02 then
    if m.mapped prp (4096 * n) then (d, m.put prp (d.read nsid (4096 * lba) (4096 * n)), generic 0)
    else (d, m, generic 0x04)
  else
    match m.read prp (4096 * n) with
    | some bs => (d.write nsid (4096 * lba) bs, m, generic 0)
    | none => (d, m, generic 0x04)

/-! ## Histories -/

/-- A call of the engine: its parameters, and the memory when it is made. -/
structure Request where
  /-- the memory: the host may have changed anything since the last call -/
  mem : Mem
  /-- what the memory of the local translation object holds -/
  ws : Arr3 NvmeCmdWrapper
  /-- where the command block is -/
  ptr : Nat
  /-- the command block -/
  cdb : List Byte
  lun : U64
  sense : Nat
  senseLen : U16
  data : Nat
  dataLen : U16
  isIn : Bool

/-- The requests of a history: a READ or WRITE command block in memory, an accessible sense buffer, an accessible data
buffer in the 64-bit address space which does not overlap the command block, a LUN for which there can be a namespace
(ids 1 to FFFFFFFFh); the data buffer of a WRITE holds the blocks to be written. -/
structure Request.Valid (q : Request) : Prop where
  stored : q.mem.read q.ptr q.cdb.length = some q.cdb
  short : q.cdb.length < 65536
  op : isRead (byte q.cdb 0) ∨ isWrite (byte q.cdb 0)
  sense : accessible q.mem ⟨q.sense, q.senseLen.toNat⟩
  data : accessible q.mem ⟨q.data, q.dataLen.toNat⟩
  space : q.data + q.dataLen.toNat ≤ 2 ^ 64
  apart : ∀ a, inRange q.ptr q.cdb.length a → ¬ inRange q.data q.dataLen.toNat a
  lun : q.lun.toNat + 1 < 2 ^ 32
  matching : isWrite (byte q.cdb 0) → ∀ rw, decodeRw q.cdb = some rw → 4096 * rw.blocks ≤ q.dataLen.toNat

/-- Serve the requests one after the other.  Result: for each the response and the memory afterwards; the final state
of the device. -/
def serve (E : Env) (D : Device σ) (s : σ) (tr : List Event) :
    List Request → Except UB (List (ScsiToNvmeResponse × Mem) × σ)
  | [] => .ok ([], s)
  | q :: qs =>
    match ScsiToNvme E D s q.ws q.ptr (BitVec.ofNat 16 q.cdb.length) q.lun q.sense q.senseLen q.data q.dataLen q.isIn
        ⟨q.mem, tr⟩ with
    | .error e => .error e
    | .ok ((r, s'), w) =>
      match serve E D s' w.trace qs with
      | .error e => .error e
      | .ok (rs, s'') => .ok ((r, w.mem) :: rs, s'')

/-- The command block is a complete READ or WRITE for the blocks `lba … lba+n-1`, with a protection code that is
not reserved, the data buffer can hold the blocks, and they are within the capacity `cap` of the disk. -/
def Request.asks (q : Request) (cap lba n : Nat) : Prop :=
  ∃ rw, decodeRw q.cdb = some rw ∧ (∀ c, rw.protect = some c → c ≤ 5) ∧ rw.lba = lba ∧ rw.blocks = n ∧ 1 ≤ n ∧
    4096 * n ≤ q.dataLen.toNat ∧ lba + n ≤ cap

/-- What the user of an array of disks (indexed by LUN) expects of one command: a correct READ is answered with GOOD,
and the data buffer holds the blocks; a correct WRITE is answered with GOOD, and the blocks are replaced by the data;
any other command is not answered with GOOD.  Nothing else changes on the disks. -/
inductive Expected (cap : Nat → Nat) (d : Disk) (q : Request) (r : ScsiToNvmeResponse) (m : Mem) : Disk → Prop
  | read {lba n} (op : isRead (byte q.cdb 0)) (h : q.asks (cap q.lun.toNat) lba n) (good : r.return_code = 0)
      (len : r.alloc_len = 4096 * n)
      (data : m.read q.data (4096 * n) = some (d.read q.lun.toNat (4096 * lba) (4096 * n))) : Expected cap d q r m d
  | write {lba n bs} (op : isWrite (byte q.cdb 0)) (h : q.asks (cap q.lun.toNat) lba n) (good : r.return_code = 0)
      (data : q.mem.read q.data (4096 * n) = some bs) : Expected cap d q r m (d.write q.lun.toNat (4096 * lba) bs)
  | failed (h : ∀ lba n, ¬ q.asks (cap q.lun.toNat) lba n) (bad : r.return_code ≠ 0) : Expected cap d q r m d

/-- The same for a history. -/
inductive Behaves (cap : Nat → Nat) : Disk → List Request → List (ScsiToNvmeResponse × Mem) → Disk → Prop
  | nil {d} : Behaves cap d [] [] d
  | cons {d q r m d' qs rs d''} (h : Expected cap d q r m d') (t : Behaves cap d' qs rs d'') :
    Behaves cap d (q :: qs) ((r, m) :: rs) d''

end Scsi2Nvme.Spec
