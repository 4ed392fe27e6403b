import Verif.Spec.Responses
import Verif.Spec.Plan
/-!
# Specification: the answers of translator functions which `Translation` does not (rightly) use
-/

namespace Scsi2Nvme.Spec
open Scsi2Nvme

/-- The long LBA block descriptor: number of blocks (8 bytes), four reserved bytes, block length (4 bytes). -/
def longDescriptor (ns : List Byte) : List Byte := beBytes 8 (ncap ns) ++ zeros 4 ++ beBytes 4 (2 ^ lbads ns)

/-- The structures of the MODE SENSE(10) answer: the header (mode data length, medium type, DPOFUA, LONGLBA, a reserved
byte, block descriptor length), the block descriptor unless `ns` is `none` (DBD = 1) – the long one if `long` (LLBAA) –,
the mode pages.  The mode data length counts all bytes after the first two. -/
def mode10Structures (ns : Option (List Byte)) (long : Bool) (page : Nat) (wce : Bool) : List (List Byte) :=
  let descriptor := (ns.map fun p => if long then longDescriptor p else shortDescriptor p).toList
  let rest := descriptor ++ pagesFor page wce
  (beBytes 2 (6 + rest.flatten.length) ++ [0x00, 0x10] ++ le 1 long.toNat ++ [0x00] ++ beBytes 2 descriptor.flatten.length)
    :: rest

/-- The NVMe commands of MODE SENSE: Identify Namespace into the page at `a` if DBD = 0, Get Features if the caching
page is asked for; `len` is what the slot of the latter announced before. -/
def modeCommands (cdb : List Byte) (nsid a len : Nat) : List Handed :=
  (if bit cdb 1 3 = false then [identifyCommand nsid 0 a] else []) ++ pagePart cdb nsid len

end Scsi2Nvme.Spec
