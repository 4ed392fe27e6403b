import Verif.Model.CompleteMessages
import Verif.Spec.Messages
import Verif.Spec.Reply
/-!
# Specification: what `Complete` says about a command

The texts the debug callback gets during a call of `Complete`, as a function of what `Begin` handed out, the completions, the command block,
the pages filled by the device and the lengths of the two buffers.  `none`: formatting the message has undefined behaviour.
-/

namespace Scsi2Nvme.Spec
open Scsi2Nvme Log

/-- The sense buffer has no room for sense data. -/
def noRoomRemarks (len : Nat) : List Remark := if len < 8 then [some (text! "Failed to write to sense buffer")] else []

/-- A status code (with its type) is not known. -/
def codeRemarks (sct sc : Nat) : List Remark :=
  if 3 ≤ sct then
    [some (text! "No SCSI translation for nvme status code type " ++ Log.hex sct ++ text! "and status code " ++ Log.hex sc)]
  else if statusTable.find? (fun row => row.1 = sct ∧ row.2.1 = sc) = none then
    [some (text! "No SCSI translation for NVMe status with code " ++ Log.hex sc)]
  else []

/-- The response could not be built. -/
def failedBack : Remark := some (text! "Failed to translate back to SCSI")

/-- A single thing went wrong and the response was not built. -/
def failing (bad : Prop) [Decidable bad] (what : List Char) : List Remark := if bad then [some what, failedBack] else []

/-- INQUIRY. -/
def inquiryEndRemarks (evpd : Bool) (code len : Nat) (ns ctrl : List Byte) : List Remark :=
  if evpd = false then failing (len < 36) (text! "Error writing 36 bytes of Inquiry Data to buffer")
  else if code = 0x00 then failing (len < 11) (text! "Error writing Supported VPD pages or Page List to buffer")
  else if code = 0x80 then failing (len < 44) (text! "Error writing Unit Serial Number or Product Serial Number to buffer")
  else if code = 0x83 then
    match identifier ns with
    | none => [some (text! "Both NGUID and EUI-64 fields are zero in IdentityNamespaceData"), failedBack]
    | some id => failing (len < 7 + id.length) (text! "Failed to write IdentificationDescriptor to the buffer\n")
  else if code = 0x86 then
    match spt (supportsType3 ns) (supportsType2 ns) (supportsType1 ns) with
    | none => [some (text! "DPC value not recoginized while translating ExtendedInquiry\n"), failedBack]
    | some _ => failing (len < 14) (text! "Couldn't write ExtendedInquiry to buffer\n")
  else if code = 0xb0 then
    (if 16 < mdts ctrl then [some (text! "max transfer length is > 2^16")] else []) ++
      failing (len < 64) (text! "Error writing Block Limits VPD to the buffer")
  else if code = 0xb1 then failing (len < 9) (text! "Couldn't write BlockDeviceCharacteristicsVpd to buffer\n")
  else if code = 0xb2 then failing (len < 64) (text! "Error writing Logical Block Provisioning VPD to buffer")
  else [some (text! "Inquiry Command parameters do not map to any action."), failedBack]

/-- The length of the mode pages returned for a page code. -/
def pagesLength (page : Nat) : Nat :=
  (if page = 0x08 ∨ page = 0x3f then 20 else 0) + (if page = 0x0a ∨ page = 0x3f then 12 else 0) + (if page = 0x1a ∨ page = 0x3f then 40 else 0)

/-- MODE SENSE(6): a short buffer is complained about, but is not a failure. -/
def modeEndRemarks (dbd : Bool) (page len : Nat) : List Remark :=
  let bd := if dbd then 0 else 8
  if len < 4 then [some (text! "Insufficient size for mode 6 parameter header")]
  else if len < 4 + bd then [some (text! "Truncating mode sense response at block descriptor")]
  else if len < 4 + bd + pagesLength page then [some (text! "Failed to write variable length mode-page data")]
  else []

/-- A command all of whose NVMe commands were successful. -/
def replyRemarks (cdb : List Byte) (len : Nat) (page0 page1 : List Byte) : List Remark :=
  match byte cdb 0 with
  | 0x03 =>
    if bit cdb 1 0 = true then failing (len < 8) (text! "Error writing Descriptor Format Sense Data to buffer")
    else failing (len < 18) (text! "Error writing Fixed Format Sense Data to buffer")
  | 0x12 => inquiryEndRemarks (bit cdb 1 0) (byte cdb 2) len page0 page1
  | 0x1a => modeEndRemarks (bit cdb 1 3) (byte cdb 2 % 64) len
  | 0x25 =>
    if lbads page0 < 9 then [some (text! "lbads value smaller than 9 is not supported"), failedBack]
    else if 31 < lbads page0 then
      [some (text! "lbads exceeds type limit of scsi::ReadCapacity10Data.block_length"), failedBack]
    else failing (len < 8) (text! "Error writing Read Capacity 10 Data to buffer")
  | 0x5a =>
    if len < 8 then [some (text! "Insufficient size for mode 10 parameter header")]
    else [some (text! "Truncating mode sense response at block descriptor")]
  | 0xa0 => failing (len < 8) (text! "Insufficient buffer size")
  | _ => []

/-- What `Complete` says about a command for which `Begin` handed out `result` (`none`: rejected). -/
def closingRemarks (result : Option (List Handed)) (cpl : List Nvme.GenericQueueEntryCpl) (cdb : List Byte) (len senseLen : Nat)
    (page0 page1 : List Byte) : List Remark :=
  if cpl.length ≠ (result.getD []).length then [none]
  else match result with
    | none => noRoomRemarks senseLen
    | some _ =>
      match cpl.find? (fun c => (cplStatus c).status ≠ 0) with
      | some c => codeRemarks c.sct.toNat c.sc.toNat ++ noRoomRemarks senseLen
      | none => replyRemarks cdb len page0 page1

end Scsi2Nvme.Spec
