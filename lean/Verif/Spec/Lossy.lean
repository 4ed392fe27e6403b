import Verif.Spec.Concurrent
import Verif.Spec.ModuleConcurrent
/-!
# Specification: a device which may fail in any way
-/

namespace Scsi2Nvme.Spec
open Scsi2Nvme Engine

/-- The bytes of memory which a device may write when it executes a command: the blocks at the data pointer for the I/O command
Read (02h), the page at the data pointer for the admin command Identify (06h). -/
def mayFill (sub : Submission) (a : Nat) : Prop :=
  (sub.is_admin = false ∧ byte sub.cmd 0 = 0x02 ∧ inRange (leAt sub.cmd 24 8) (4096 * (leAt sub.cmd 48 2 + 1)) a) ∨
  (sub.is_admin = true ∧ byte sub.cmd 0 = 0x06 ∧ inRange (leAt sub.cmd 24 8) 4096 a)

/-- The I/O command Write (01h) puts the byte `v` at position `a` of disk `k`. -/
def mayStore (m : Mem) (sub : Submission) (k a : Nat) (v : Byte) : Prop :=
  sub.is_admin = false ∧ byte sub.cmd 0 = 0x01 ∧ k = leAt sub.cmd 4 4 ∧
    inRange (4096 * leAt sub.cmd 40 8) (4096 * (leAt sub.cmd 48 2 + 1)) a ∧
    m (leAt sub.cmd 24 8 + (a - 4096 * leAt sub.cmd 40 8)) = some v

/-- A device which may fail: it may answer anything, not execute a command, transfer any part of the data of a Read or
Write - but it writes to memory only where the command lets it, and what it changes on the
disks are bytes which a Write command covers, to the bytes in the data buffer.  (After Dataset Management, 09h, the disks
may hold anything.)  The submissions considered are those for which the buffer handed over is the one the command points to. -/
structure Lossy {σ : Type} (D : Device σ) (disks : σ → Disk) : Prop where
  memory : ∀ s m sub, sub.buffer.toNat = leAt sub.cmd 24 8 → ∀ a, ¬ mayFill sub a → (D s m sub).2.1 a = m a
  maps : ∀ s m sub, sub.buffer.toNat = leAt sub.cmd 24 8 → ∀ a, (m a).isSome → ((D s m sub).2.1 a).isSome
  disk : ∀ s m sub, sub.buffer.toNat = leAt sub.cmd 24 8 → byte sub.cmd 0 ≠ 0x09 → ∀ k a,
    disks (D s m sub).1 k a = disks s k a ∨ mayStore m sub k a (disks (D s m sub).1 k a)

/-- The request is a complete and correct WRITE which puts the byte `v` at position `a` of the disk of LUN `l`; `m` is the memory
when the request is made. -/
def Request.carries (q : Request) (m : Mem) (l a : Nat) (v : Byte) : Prop :=
  ∃ lba n, isWrite (byte q.cdb 0) ∧ q.asks (lba + n) lba n ∧ l = q.lun.toNat ∧ inRange (4096 * lba) (4096 * n) a ∧
    m (q.data + (a - 4096 * lba)) = some v

/-- The command is a complete and correct WRITE which puts the byte `v`, of its scatter-gather list, at position `a` of the disk of
LUN `l`. -/
def Command.carries (q : Command) (l a : Nat) (v : Byte) : Prop :=
  ∃ lba n, isWrite (byte q.cdb 0) ∧ q.asks (lba + n) lba n ∧ l = q.cmd.lun.toNat ∧ inRange (4096 * lba) (4096 * n) a ∧
    q.cmd.sg[a - 4096 * lba]? = some v

end Scsi2Nvme.Spec
