import Verif.Model.Messages
import Verif.Spec.Plan
/-!
# Specification: what `Begin` says about a command

The texts the debug callback is called with during a call of `Begin`, as a function of the command block, the length of the data buffer and
its contents (for UNMAP), and the answers of the allocator.  `none` stands for a message whose formatting has undefined behaviour.
(`dec` and `hex` write numbers, see C100.)
-/

namespace Scsi2Nvme.Spec
open Scsi2Nvme Log

/-- The text the callback gets. -/
abbrev Remark := Option (List Char)

/-- The text the debug callback, if there is one, gets for an executed call of DebugLog. -/
def said (m : Msg) : Remark :=
  match DebugLog true m.fmt m.args with
  | some (some s) => some s
  | _ => none

/-- No memory for a page. -/
def outOfPages : Remark := some (text! "Error when requesting memory")

/-- The page slot of the object is in use. -/
def slotInUse : Remark := some (text! "Trying to override data that has not been flushed")

/-- READ: at most one remark. -/
def readRemarks (cdb : List Byte) (bufLen : Nat) : List Remark :=
  match decodeRw cdb with
  | none => [some (text! "Malformed Read" ++ (match byte cdb 0 with
      | 0x08 => text! "6"
      | 0x28 => text! "10"
      | 0xa8 => text! "12"
      | _ => text! "16") ++ text! " command")]
  | some rw =>
    if rw.blocks = 0 then [some (text! "NVMe read command does not support transfering zero blocks")]
    else if 65535 < rw.blocks then [some (text! "Transfer length exceeds limit of 16 bits")]
    else if bufLen < rw.blocks * 4096 then [some (text! "Not enough memory allocated for Read buffer")]
    else if 5 < rw.protect.getD 0 then
      [some (text! "RDPROTECT with value " ++ dec (rw.protect.getD 0) ++ text! " has no translation to PRINFO")]
    else []

/-- WRITE: at most one remark. -/
def writeRemarks (cdb : List Byte) : List Remark :=
  match decodeRw cdb with
  | none => [some (text! "Malformed Write" ++ (match byte cdb 0 with
      | 0x0a => text! "6"
      | 0x2a => text! "10"
      | 0xaa => text! "12"
      | _ => text! "16") ++ text! " Command")]
  | some rw =>
    if rw.blocks = 0 then [some (text! "NVMe write command does not support transfering zero blocks")]
    else if 5 < rw.protect.getD 0 then [some (text! "Invalid WriteProtect Code for PRInfo")]
    else []

/-- INQUIRY, with the answers `a 0`, `a 1` of the allocator. -/
def inquiryRemarks (cdb : List Byte) (a : Nat → Nat) : List Remark :=
  if cdb.length < 6 then [some (text! "Malformed Inquiry Command")]
  else if a 0 = 0 ∨ a 1 = 0 then [outOfPages]
  else []

/-- MODE SENSE: the page asked for. -/
def pageRemarks (cdb : List Byte) : List Remark :=
  if byte cdb 2 % 64 ∉ modePages then [some (text! "Unsuppported mode sense page code recieved")]
  else if asksCaching (byte cdb 2 % 64) ∧ byte cdb 2 / 64 = 3 then [some (text! "Unsupported page control recieved")]
  else []

/-- MODE SENSE(6) and MODE SENSE(10); `a` is the answer of the allocator, if it is asked. -/
def modeRemarks (ten : Bool) (cdb : List Byte) (slotFree : Bool) (a : Nat) : List Remark :=
  if cdb.length < (if ten then 10 else 6) then
    [some (text! "Mode Sense " ++ (if ten then text! "10" else text! "6") ++ text! " Command Malformed")]
  else if bit cdb 1 3 = true then pageRemarks cdb
  else if slotFree = false then [slotInUse, some (text! "Error generating Block Descriptor Identify Command")]
  else if a = 0 then [outOfPages, some (text! "Error generating Block Descriptor Identify Command")]
  else pageRemarks cdb

/-- The UNMAP part of an UNMAP command; `data` is what the data buffer holds. -/
def unmapRemarks (cdb data : List Byte) (a : Nat) : List Remark :=
  let n := beAt data 2 2
  if cdb.length < 10 then [some (text! "Malformed unmap command")]
  else if beAt cdb 7 2 < 8 then [some (text! "Insufficient unmap parameter list length")]
  else if bit cdb 1 0 = true then [some (text! "Unsupported unmap anchor request")]
  else if data.length < 8 then [some (text! "Malformed unmap parameter list")]
  else if data.length - 8 < n then [some (text! "Block descriptor list length reported longer than buffer")]
  else if n % 16 ≠ 0 then [some (text! "Non-divisible unmap block descriptor data length " ++ dec n)]
  else if n / 16 = 0 ∨ 256 < n / 16 then [some (text! "Unsupported unmap block descriptor count " ++ dec (n / 16))]
  else if a = 0 then [outOfPages]
  else []

/-- REPORT LUNS.  The remark about a bad SELECT REPORT value has undefined behaviour (a value of a scoped enumeration is passed for `%u`). -/
def lunsRemarks (cdb : List Byte) (slotFree : Bool) (a : Nat) : List Remark :=
  if cdb.length < 12 then [some (text! "Malformed ReportLuns command")]
  else if 2 < byte cdb 2 then [none]
  else if slotFree = false then [slotInUse]
  else if a = 0 then [outOfPages]
  else []

/-- MAINTENANCE IN: falls through to REPORT LUNS. -/
def maintenanceRemarks (cdb : List Byte) (slotFree : Bool) (a : Nat) : List Remark :=
  (if cdb.length < 12 then [some (text! "Malformed Report Supported OpCodes command")]
   else if byte cdb 2 % 8 = 1 ∧ byte cdb 3 = 0x93 then []
   else [some (text! "Only supporting ReportSupportedOpCodes for WriteSame16")])
  ++ lunsRemarks cdb slotFree a

/-- MODE SENSE(10): falls through to MAINTENANCE IN. -/
def mode10Remarks (cdb : List Byte) (a : Nat → Nat) : List Remark :=
  modeRemarks true cdb true (a 0) ++
  (if cdb.length < 10 ∨ bit cdb 1 3 = true then maintenanceRemarks cdb true (a 0)
   else maintenanceRemarks cdb (a 0 == 0) (a 1))

/-- UNMAP: falls through to MODE SENSE(6). -/
def unmapAllRemarks (cdb data : List Byte) (a : Nat → Nat) : List Remark :=
  unmapRemarks cdb data (a 0) ++
  (match unmapRequest cdb data with
   | none => modeRemarks false cdb true (a 0)
   | some _ => if a 0 = 0 then modeRemarks false cdb true (a 1) else modeRemarks false cdb false (a 1))

/-- READ CAPACITY(10). -/
def capacityRemarks (cdb : List Byte) (a : Nat) : List Remark :=
  if cdb.length < 10 then [some (text! "Malformed ReadCapacity10 Command - Error in reading to buffer")]
  else if bit cdb 9 2 = true then [some (text! "Malformed ReadCapacity10 Command - Invalid NACA bit")]
  else if a = 0 then [outOfPages]
  else []

/-- VERIFY(10). -/
def verifyRemarks (cdb : List Byte) : List Remark :=
  if cdb.length < 10 then [some (text! "Malformed Verify Command - ReadValue Failure")]
  else if beAt cdb 7 2 = 0 then [some (text! "Verify Command is a No-Op")]
  else if bit cdb 9 2 = true then [some (text! "Malformed Verify Command - Control Byte NACA is 0b1")]
  else []

/-- REQUEST SENSE. -/
def senseRemarks (cdb : List Byte) : List Remark :=
  if cdb.length < 6 ∨ bit cdb 5 2 = true then [some (text! "Malformed RequestSense Command")] else []

/-- What the operation codes of the standards are called in messages (7Fh is the one of three commands). -/
def opcodeNames : List (Nat × String) :=
  [(0x00, "kTestUnitReady"), (0x03, "kRequestSense"), (0x08, "kRead6"), (0x0a, "kWrite6"), (0x12, "kInquiry"), (0x16, "kReserve6"),
   (0x17, "kRelease6"), (0x1a, "kModeSense6"), (0x1b, "kStartStopUnit"), (0x1e, "kDoPreventAllowMediumRemoval"),
   (0x25, "kReadCapacity10"), (0x28, "kRead10"), (0x2a, "kWrite10"), (0x2f, "kVerify10"), (0x35, "kSync10"), (0x42, "kUnmap"),
   (0x43, "kReadToc"), (0x5a, "kModeSense10"), (0x5e, "kPersistentReserveIn"), (0x5f, "kPersistentReserveOut"),
   (0x7f, "kRead32 / kWrite32 /  kVerify32"), (0x88, "kRead16"), (0x8a, "kWrite16"), (0x8f, "kVerify16"), (0x91, "kSync16"),
   (0x9e, "kServiceActionIn"), (0xa0, "kReportLuns"), (0xa3, "kMaintenanceIn"), (0xa8, "kRead12"), (0xaa, "kWrite12"),
   (0xaf, "kVerify12")]

/-- What an operation code is called in messages. -/
def opcodeName (opc : Nat) : String := (opcodeNames.lookup opc).getD "INVALID_OPCODE"

/-- The first thing said about a command block which is not empty. -/
def opening (opc : Nat) : Remark :=
  some (text! "Translating command " ++ (opcodeName opc).toList ++ text! " with opcode " ++ hex opc)

/-- What is said after this: the complaints about the command. -/
def complaints (cdb : List Byte) (bufLen : Nat) (data : List Byte) (a : Nat → Nat) : List Remark :=
  if isRead (byte cdb 0) then readRemarks cdb bufLen
  else if isWrite (byte cdb 0) then writeRemarks cdb
  else match byte cdb 0 with
    | 0x00 => []
    | 0x03 => senseRemarks cdb
    | 0x12 => inquiryRemarks cdb a
    | 0x1a => modeRemarks false cdb true (a 0)
    | 0x25 => capacityRemarks cdb (a 0)
    | 0x2f => verifyRemarks cdb
    | 0x35 => []
    | 0x42 => unmapAllRemarks cdb data a
    | 0x5a => mode10Remarks cdb a
    | 0xa0 => lunsRemarks cdb true (a 0)
    | 0xa3 => maintenanceRemarks cdb true (a 0)
    | opc => [some (text! "Bad OpCode: " ++ hex opc)]

/-- All that is said during a call of `Begin` on an idle object. -/
def remarks (cdb : List Byte) (bufLen : Nat) (data : List Byte) (a : Nat → Nat) : List Remark :=
  if cdb = [] then [some (text! "Empty SCSI Command Buffer")]
  else opening (byte cdb 0) :: complaints cdb bufLen data a

end Scsi2Nvme.Spec
