import Verif.Spec.Translate
/-!
# Specification: the data buffer described by a command (NVMe 1.3, 4.3 "Physical Region Page Entry and List")

Memory page size 4096.  PRP1 is the address of the first byte; it describes the rest of its page.  What does not fit
is described by PRP2, which must then be set: a second page, or a list of further pages.
-/

namespace Scsi2Nvme.Spec
open Scsi2Nvme

/-- PRP1 of a submission queue entry: bytes 24 to 31. -/
def prp1 (image : List Byte) : Nat := leAt image 24 8

/-- PRP2 of a submission queue entry: bytes 32 to 39. -/
def prp2 (image : List Byte) : Nat := leAt image 32 8

/-- The number of bytes of one page a command describes by PRP1 alone. -/
def firstPage (image : List Byte) : Nat := 4096 - prp1 image % 4096

/-- The blocks an NVMe Read or Write transfers (number of blocks, 0's based, in the low half of command dword 12). -/
def transferred (image : List Byte) : Nat := leAt image 48 2 + 1

/-- Does the command tell the controller where all bytes of the transfer are? -/
def describesAll (image : List Byte) (bytes : Nat) : Prop := bytes ≤ firstPage image ∨ prp2 image ≠ 0

end Scsi2Nvme.Spec
