import Verif.Spec.Wire
/-!
# Specification: the UNMAP parameter list (SBC-3) and the dataset management range (NVMe)
-/

namespace Scsi2Nvme.Spec
open Scsi2Nvme

/-- UNMAP block descriptor `i` of a parameter list: starting LBA and number of blocks.  The 8-byte header
is followed by 16-byte descriptors: LBA in bytes 0-7, number of blocks in bytes 8-11. -/
def unmapRange (data : List Byte) (i : Nat) : Nat × Nat :=
  (beAt data (8 + 16 * i) 8, beAt data (16 + 16 * i) 4)

/-- The ranges requested by an UNMAP command with data-out buffer `data`, if the command is one the
translator documents as translatable: complete 10-byte CDB, a parameter list length that covers the
header, ANCHOR = 0, a complete parameter list with a whole number of descriptors, 1 to 256 of them. -/
def unmapRequest (cdb data : List Byte) : Option (List (Nat × Nat)) :=
  let n := beAt data 2 2
  if 10 ≤ cdb.length ∧ 8 ≤ beAt cdb 7 2 ∧ bit cdb 1 0 = false ∧ 8 ≤ data.length ∧ n ≤ data.length - 8
      ∧ n % 16 = 0 ∧ 1 ≤ n / 16 ∧ n / 16 ≤ 256 then
    some ((List.range (n / 16)).map (unmapRange data))
  else none

/-- Memory at `addr` holds the dataset management ranges `rs`: 16 bytes each, length in blocks in bytes
4-7 and starting LBA in bytes 8-15, little endian (bytes 0-3, the context attributes, are free). -/
def rangesAt (m : Mem) (addr : Nat) (rs : List (Nat × Nat)) : Prop :=
  ∀ i, (h : i < rs.length) →
    m.read (addr + 16 * i + 4) 4 = some (le 4 rs[i].2) ∧ m.read (addr + 16 * i + 8) 8 = some (le 8 rs[i].1)

end Scsi2Nvme.Spec
