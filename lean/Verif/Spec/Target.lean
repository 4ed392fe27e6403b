import Verif.Spec.Disk
/-!
# Specification: a history of arbitrary commands over a device with storage
-/

namespace Scsi2Nvme.Spec
open Scsi2Nvme Engine

/-- The data buffer handed over with a Read or Write command is the one the command points to, and can hold the blocks. -/
def wellBuffered (sub : Submission) : Prop :=
  sub.buffer.toNat = leAt sub.cmd 24 8 ∧ 4096 * (leAt sub.cmd 48 2 + 1) ≤ sub.bufflen.toNat

/-- A device whose state are disks: it executes I/O Read and Write with a proper buffer like the ideal device, and only commands which modify
data (Write, Dataset Management) may change the disks.  What else it answers, and what it writes to memory for other
commands, is open. -/
structure Storage (D : Device Disk) (cap : Nat → Nat) : Prop where
  io : ∀ d m sub, sub.is_admin = false → (byte sub.cmd 0 = 0x01 ∨ byte sub.cmd 0 = 0x02) → wellBuffered sub →
    D d m sub = idealDevice cap d m sub
  quiet : ∀ d m sub, ¬ modifiesData sub.cmd → (D d m sub).1 = d

/-- The I/O commands of the device other than Read do not write to memory. -/
def tidy {σ : Type} (D : Device σ) : Prop :=
  ∀ s m sub, sub.is_admin = false → byte sub.cmd 0 ≠ 0x02 → (D s m sub).2.1 = m

/-- The requests of a history: READ and WRITE as for the block store; any other command block, stored anywhere.  The
reserved byte 2 of an UNMAP is zero, as the standard demands. -/
structure Request.Fair (q : Request) : Prop where
  stored : q.mem.read q.ptr q.cdb.length = some q.cdb
  short : q.cdb.length < 65536
  unmap : byte q.cdb 0 = 0x42 → byte q.cdb 2 = 0
  rw : isRead (byte q.cdb 0) ∨ isWrite (byte q.cdb 0) → q.Valid

/-- The buffers of the request exist. -/
structure Request.Sound (q : Request) : Prop where
  sense : accessible q.mem ⟨q.sense, q.senseLen.toNat⟩
  data : accessible q.mem ⟨q.data, q.dataLen.toNat⟩

/-- What is expected of one command: READ and WRITE as for the block store; any other command leaves the disks alone. -/
inductive Treated (cap : Nat → Nat) (d : Disk) (q : Request) (r : ScsiToNvmeResponse) (m : Mem) : Disk → Prop
  | rw {d'} (op : isRead (byte q.cdb 0) ∨ isWrite (byte q.cdb 0)) (h : Expected cap d q r m d') : Treated cap d q r m d'
  | other (op : ¬ isRead (byte q.cdb 0) ∧ ¬ isWrite (byte q.cdb 0)) : Treated cap d q r m d

/-- The same for a history. -/
inductive TreatedAll (cap : Nat → Nat) : Disk → List Request → List (ScsiToNvmeResponse × Mem) → Disk → Prop
  | nil {d} : TreatedAll cap d [] [] d
  | cons {d q r m d' qs rs d''} (h : Treated cap d q r m d') (t : TreatedAll cap d' qs rs d'') :
    TreatedAll cap d (q :: qs) ((r, m) :: rs) d''

end Scsi2Nvme.Spec
