import Verif.Model.Translation
/-!
# Specification: command blocks with bytes after the command

Initiators and the SCSI layers of kernels often hand over a buffer of fixed length (16 bytes, say) with a shorter command at its
beginning.
-/

namespace Scsi2Nvme.Spec
open Scsi2Nvme

/-- The length of a command with the operation code `op`: it follows from the three high bits of the operation code (SPC-4, 4.3.4.1).
Reserved and vendor-specific groups have no length of their own: one byte has to be there. -/
def commandLength (op : Nat) : Nat :=
  match op / 32 with
  | 0 => 6
  | 1 => 10
  | 2 => 10
  | 4 => 16
  | 5 => 12
  | _ => 1

/-- The `n` bytes of memory from `p` on are a command block: they can be read, and they hold at least the whole command. -/
def HoldsCommand (m : Mem) (p n : Nat) : Prop :=
  (m.read p n).isSome ∧ ∃ op : Byte, m p = some op ∧ commandLength op.toNat ≤ n

/-- Two objects which are equal apart from the place where the command block is noted. -/
def EqualButBlock (t t' : Translation) : Prop := t' = { t with scsi_cmd := t'.scsi_cmd }

/-- Two calls end in the same way: both have undefined behaviour, or both return, with the same response and in the same world, and
leave objects which are equal apart from the note of the command block. -/
def SameEnd (x y : Except UB ((α × Translation) × World)) : Prop :=
  match x, y with
  | .ok ((r, t), w), .ok ((r', t'), w') => r = r' ∧ EqualButBlock t t' ∧ w = w'
  | .error e, .error e' => e = e'
  | _, _ => False

end Scsi2Nvme.Spec
