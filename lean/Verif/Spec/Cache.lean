import Verif.Spec.Honest
/-!
# Specification: a device with a volatile write cache
-/

namespace Scsi2Nvme.Spec
open Scsi2Nvme Engine

/-- The I/O command Write (01h) covers the byte at position `a` of disk `k`. -/
def covers (cmd : List Byte) (k a : Nat) : Prop :=
  byte cmd 0 = 0x01 ∧ k = leAt cmd 4 4 ∧ inRange (4096 * leAt cmd 40 8) (4096 * (leAt cmd 48 2 + 1)) a

/-- A device (`Honest`: it may fail, but does not report success for a Read or Write it did not execute) with a volatile write cache:
`disks` is what commands see, `stable` is what is left of it when the power fails.  A byte which is stored (in both the same) stays so
until a Write covers it or Dataset Management (09h) is executed; a Flush (00h) of a namespace which is answered with success stores all of the
namespace; a Write with the Force Unit Access bit (bit 30 of command dword 12, which is bit 6 of byte 51) which is answered with success stores
what it covers. -/
structure Cached {σ : Type} (D : Device σ) (disks stable : σ → Disk) : Prop extends Honest D disks where
  kept : ∀ s m sub, sub.buffer.toNat = leAt sub.cmd 24 8 → byte sub.cmd 0 ≠ 0x09 → ∀ k a,
    ¬ (sub.is_admin = false ∧ covers sub.cmd k a) → stable s k a = disks s k a → stable (D s m sub).1 k a = disks (D s m sub).1 k a
  flush : ∀ s m sub, sub.is_admin = false → byte sub.cmd 0 = 0x00 → cplOk (D s m sub).2.2 → ∀ a,
    stable (D s m sub).1 (leAt sub.cmd 4 4) a = disks (D s m sub).1 (leAt sub.cmd 4 4) a
  fua : ∀ s m sub, sub.buffer.toNat = leAt sub.cmd 24 8 → sub.is_admin = false → bit sub.cmd 51 6 = true → cplOk (D s m sub).2.2 →
    ∀ k a, covers sub.cmd k a → stable (D s m sub).1 k a = disks (D s m sub).1 k a

/-- The command block is a complete READ or WRITE whose FUA bit is set. -/
def asksFua (cdb : List Byte) : Prop := ∃ rw, decodeRw cdb = some rw ∧ rw.fua = true

end Scsi2Nvme.Spec
