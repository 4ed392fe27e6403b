import Verif.Spec.Translate
import Verif.Spec.Unmap
/-!
# Specification: what `Begin` does, as a function

For every command block the NVMe commands handed out, the number of pages asked for and the announced allocation
length, as a function of the command block, the data buffer, the LUN, the answers of the allocator and what the
object's three command slots held before.  This is the library as it is, including where it departs from the SCSI
translation reference (UNMAP, MODE SENSE(10), MAINTENANCE IN).
-/

namespace Scsi2Nvme.Spec
open Scsi2Nvme

/-- What the user gets for one NVMe command: the 64 bytes to submit, the queue, and the length of the buffer. -/
structure Handed where
  image : List Byte
  admin : Bool
  len : Nat
deriving DecidableEq, Repr

/-- The user's view of a command wrapper. -/
def handed (wr : NvmeCmdWrapper) : Handed := ⟨wr.cmd.toBytes, wr.is_admin, wr.buffer_len.toNat⟩

/-- The result of `Begin`: how many pages were asked for (one at a time), the commands handed out (`none`: the SCSI
command is rejected), and the allocation length in the response. -/
structure Plan where
  asked : Nat
  result : Option (List Handed)
  announced : Nat
deriving DecidableEq, Repr

/-- An Identify command with its page at `a`. -/
def identifyCommand (nsid cns a : Nat) : Handed := ⟨identifySqe nsid cns a, true, 4096⟩

/-- READ: the buffer must hold the blocks, the protection field must be translatable. -/
def readPlan (cdb : List Byte) (buf : Span) (nsid : Nat) : Plan :=
  match decodeRw cdb with
  | none => ⟨0, none, 0⟩
  | some rw =>
    if rw.blocks = 0 ∨ 65535 < rw.blocks then ⟨0, none, 0⟩
    else
      match rdProtect rw.protect with
      | none => ⟨0, none, rw.blocks * 4096⟩
      | some (pract, prchk) =>
        if buf.len < rw.blocks * 4096 then ⟨0, none, rw.blocks * 4096⟩
        else ⟨0, some [⟨readSqe nsid rw.lba rw.blocks prchk pract rw.fua (prpOf buf), false, rw.blocks * 4096⟩],
          rw.blocks * 4096⟩

/-- WRITE: no check of the buffer; the number of blocks is cut to 16 bits. -/
def writePlan (cdb : List Byte) (buf : Span) (nsid : Nat) : Plan :=
  match decodeRw cdb with
  | none => ⟨0, none, 0⟩
  | some rw =>
    match wrProtect rw.protect with
    | none => ⟨0, none, 0⟩
    | some (pract, prchk) =>
      if rw.blocks = 0 then ⟨0, none, 0⟩
      else ⟨0, some [⟨if rw.blocks % 65536 = 0 then
          sqe 0x01 nsid (prpOf buf) (rw.lba % 2 ^ 32) (rw.lba / 2 ^ 32) 0xffffffff
        else writeSqe nsid rw.lba (rw.blocks % 65536) prchk pract rw.fua (prpOf buf), false, buf.len % 2 ^ 32⟩], 0⟩

/-- INQUIRY: Identify Namespace and Identify Controller, each into a page of its own. -/
def inquiryPlan (cdb : List Byte) (nsid : Nat) (a : Nat → Nat) : Plan :=
  if cdb.length < 6 then ⟨0, none, 0⟩
  else if a 0 = 0 then ⟨1, none, beAt cdb 3 2⟩
  else if a 1 = 0 then ⟨2, none, beAt cdb 3 2⟩
  else ⟨2, some [identifyCommand nsid 0 (a 0), identifyCommand 0 1 (a 1)], beAt cdb 3 2⟩

/-- The commands of the page part of MODE SENSE(6), the first of them in the slot which announced `len` bytes before. -/
def pagePart (cdb : List Byte) (nsid len : Nat) : List Handed :=
  if asksCaching (byte cdb 2 % 64) then [⟨getFeaturesSqe nsid 6 (selectFor (byte cdb 2 / 64)), true, len⟩] else []

/-- MODE SENSE(6), entered with the commands `before` (at most one) already in place, `k` pages asked for and the page
slot free or not. -/
def modePlan (cdb : List Byte) (nsid : Nat) (held : Nat → Handed) (a : Nat → Nat) (before : List Handed) (k : Nat)
    (slotFree : Bool) : Plan :=
  if cdb.length < 6 then ⟨k, none, 0⟩
  else if bit cdb 1 3 = true then
    ⟨k, if modeFieldsOk cdb then some (before ++ pagePart cdb nsid (held before.length).len) else none, byte cdb 4⟩
  else if slotFree = false then ⟨k, none, byte cdb 4⟩
  else if a k = 0 then ⟨k + 1, none, byte cdb 4⟩
  else ⟨k + 1, if modeFieldsOk cdb then some (before ++ [identifyCommand nsid 0 (a k)]
    ++ pagePart cdb nsid (held (before.length + 1)).len) else none, byte cdb 4⟩

/-- UNMAP: the Dataset Management command in the first slot, or what this slot held before; then control falls into
MODE SENSE(6). -/
def unmapPlan (cdb : List Byte) (nsid : Nat) (data : List Byte) (held : Nat → Handed) (a : Nat → Nat) : Plan :=
  match unmapRequest cdb data with
  | none => modePlan cdb nsid held a [held 0] 0 true
  | some rs =>
    if a 0 = 0 then modePlan cdb nsid held a [held 0] 1 true
    else modePlan cdb nsid held a [⟨deallocateSqe nsid rs.length (a 0), true, 4096⟩] 1 false

/-- REPORT LUNS, entered with `k` pages asked for, the page slot free or not, and the allocation length `n`. -/
def lunsPlan (cdb : List Byte) (a : Nat → Nat) (k : Nat) (slotFree : Bool) (n : Nat) : Plan :=
  if cdb.length < 12 ∨ 2 < byte cdb 2 then ⟨k, none, n⟩
  else if slotFree = false then ⟨k, none, beAt cdb 6 4⟩
  else if a k = 0 then ⟨k + 1, none, beAt cdb 6 4⟩
  else ⟨k + 1, some [identifyCommand 0 2 (a k)], beAt cdb 6 4⟩

/-- MAINTENANCE IN: the check for REPORT SUPPORTED OPERATION CODES of WRITE SAME(16) only leaves the allocation length
4 behind; then control falls into REPORT LUNS. -/
def maintenancePlan (cdb : List Byte) (a : Nat → Nat) (k : Nat) (slotFree : Bool) (n : Nat) : Plan :=
  lunsPlan cdb a k slotFree (if 12 ≤ cdb.length ∧ byte cdb 2 % 8 = 1 ∧ byte cdb 3 = 0x93 then 4 else n)

/-- MODE SENSE(10): asks for a page unless DBD is set; then control falls into MAINTENANCE IN. -/
def mode10Plan (cdb : List Byte) (a : Nat → Nat) : Plan :=
  if cdb.length < 10 then maintenancePlan cdb a 0 true 0
  else if bit cdb 1 3 = true then maintenancePlan cdb a 0 true (beAt cdb 7 2)
  else maintenancePlan cdb a 1 (a 0 == 0) (beAt cdb 7 2)

/-- READ CAPACITY(10). -/
def capacityPlan (cdb : List Byte) (nsid : Nat) (a : Nat → Nat) : Plan :=
  if cdb.length < 10 ∨ bit cdb 9 2 = true then ⟨0, none, 0⟩
  else if a 0 = 0 then ⟨1, none, 8⟩
  else ⟨1, some [identifyCommand nsid 0 (a 0)], 8⟩

/-- VERIFY(10): a Compare of namespace 0, with the buffer length of the command before. -/
def verifyPlan (cdb : List Byte) (held : Nat → Handed) : Plan :=
  if cdb.length < 10 ∨ beAt cdb 7 2 = 0 ∨ bit cdb 9 2 = true then ⟨0, none, 0⟩
  else ⟨0, some [⟨compareSqe 0 (beAt cdb 2 4) (beAt cdb 7 2) (verifyPrchk (byte cdb 1 / 2 % 4) (byte cdb 1 / 32)) true,
    false, (held 0).len⟩], 0⟩

/-- What `Begin` does with the command block `cdb`, the data buffer `buf` (holding `data`, of interest for UNMAP
only) and the LUN `lun`, if the command slots held `held` before and the allocator's answers to the requests for a page
are `a 0, a 1, …`. -/
def plan (cdb : List Byte) (buf : Span) (data : List Byte) (lun : U64) (held : Nat → Handed) (a : Nat → Nat) : Plan :=
  let nsid := nsidOfLun lun
  if cdb = [] then ⟨0, none, 0⟩
  else if isRead (byte cdb 0) then readPlan cdb buf nsid
  else if isWrite (byte cdb 0) then writePlan cdb buf nsid
  else match byte cdb 0 with
    | 0x00 => ⟨0, some [], 0⟩
    | 0x03 => if cdb.length < 6 ∨ bit cdb 5 2 = true then ⟨0, none, 0⟩ else ⟨0, some [], byte cdb 4⟩
    | 0x12 => inquiryPlan cdb nsid a
    | 0x1a => modePlan cdb nsid held a [] 0 true
    | 0x25 => capacityPlan cdb nsid a
    | 0x2f => verifyPlan cdb held
    | 0x35 => ⟨0, some [⟨flushSqe nsid, false, (held 0).len⟩], 0⟩
    | 0x42 => unmapPlan cdb nsid data held a
    | 0x5a => mode10Plan cdb a
    | 0xa0 => lunsPlan cdb a 0 true 0
    | 0xa3 => maintenancePlan cdb a 0 true 0
    | _ => ⟨0, none, 0⟩

/-- What the command slots of an object hold. -/
def slots (t : Translation) (i : Nat) : Handed := handed ((t.nvme_wrappers.get? i).getD t.nvme_wrappers.e0)

end Scsi2Nvme.Spec
