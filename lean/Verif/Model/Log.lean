import Verif.Model.Basic
/-!
# Debug messages: DebugLog, SetDebugCallback, ScsiOpcodeToString, and Print of the kernel module

The text of a message has no effect on any other part of the library, so messages are not part of `World`: this file lists every call of
`DebugLog` with the types of its arguments, and models how a message is made and printed.
-/

namespace Scsi2Nvme.Log
open Scsi2Nvme

/-- `text! "abc"` is `['a', 'b', 'c']` (formats are lists of characters, which the kernel evaluates faster than strings). -/
macro "text!" s:str : term => do
  let cs := s.getString.toList.toArray.map fun c => Lean.Syntax.mkCharLit c
  `([$cs,*])

/-- lib/translator/common.cc:130-198 ScsiOpcodeToString (the enumerators' values: lib/scsi.h:152-187). -/
def ScsiOpcodeToString (opcode : Nat) : String :=
  match opcode with
  | 0x0 => "kTestUnitReady"
  | 0x3 => "kRequestSense"
  | 0x08 => "kRead6"
  | 0x0a => "kWrite6"
  | 0x12 => "kInquiry"
  | 0x16 => "kReserve6"
  | 0x17 => "kRelease6"
  | 0x1a => "kModeSense6"
  | 0x1b => "kStartStopUnit"
  | 0x1e => "kDoPreventAllowMediumRemoval"
  | 0x25 => "kReadCapacity10"
  | 0x28 => "kRead10"
  | 0x2a => "kWrite10"
  | 0x2f => "kVerify10"
  | 0x35 => "kSync10"
  | 0x42 => "kUnmap"
  | 0x43 => "kReadToc"
  | 0x5a => "kModeSense10"
  | 0x5e => "kPersistentReserveIn"
  | 0x5f => "kPersistentReserveOut"
  | 0x7f => "kRead32 / kWrite32 /  kVerify32"
  | 0x88 => "kRead16"
  | 0x8a => "kWrite16"
  | 0x8f => "kVerify16"
  | 0x91 => "kSync16"
  | 0x9e => "kServiceActionIn"
  | 0xa0 => "kReportLuns"
  | 0xa3 => "kMaintenanceIn"
  | 0xa8 => "kRead12"
  | 0xaa => "kWrite12"
  | 0xaf => "kVerify12"
  | _ => "INVALID_OPCODE"

/-- An argument of a `printf`-like function after the default argument promotions: an int (which is what uint8_t and uint16_t are promoted to),
an unsigned int, a size_t, a value of a scoped enumeration (not promoted), a pointer to a string.  The variadic arguments of lib/translator/common.cc:33-41. -/
inductive Arg
  | int (n : Nat)
  | uint (n : Nat)
  | size (n : Nat)
  | scoped (n : Nat)
  | str (s : String)
deriving DecidableEq

/-- The digits of a number, most significant first (all there are for `n < 16 ^ 32`); of `vsnprintf`, lib/translator/common.cc:38. -/
def digits (base : Nat) : Nat → Nat → List Char
  | 0, _ => []
  | fuel + 1, n => (if n < base then [] else digits base fuel (n / base)) ++ [Nat.digitChar (n % base)]

/-- Conversion `%#x`: no prefix if the number is zero; of `vsnprintf`, lib/translator/common.cc:38. -/
def hex (n : Nat) : List Char := if n = 0 then ['0'] else '0' :: 'x' :: digits 16 32 n

/-- Conversions `%u` and, of a number which is not negative, `%d`; of `vsnprintf`, lib/translator/common.cc:38. -/
def dec (n : Nat) : List Char := digits 10 32 n

/-- The C library's formatting, for the conversions which the library uses.  `none`: undefined behaviour (the argument is missing, or its type is
not the one the conversion is for; int and unsigned int may be interchanged if the value is representable in both, which it is: the ints are
promoted uint8_t and uint16_t).  `vsnprintf` in lib/translator/common.cc:38. -/
def format : List Char → List Arg → Option (List Char)
  | [], _ => some []
  | c :: cs, as =>
    if c ≠ '%' then (format cs as).map (c :: ·)
    else match cs, as with
      | '%' :: cs, as => (format cs as).map ('%' :: ·)
      | 's' :: cs, .str s :: as => (format cs as).map (s.toList ++ ·)
      | 'd' :: cs, .int n :: as => (format cs as).map (dec n ++ ·)
      | 'u' :: cs, .int n :: as => (format cs as).map (dec n ++ ·)
      | 'u' :: cs, .uint n :: as => (format cs as).map (dec n ++ ·)
      | '#' :: 'x' :: cs, .int n :: as => (format cs as).map (hex n ++ ·)
      | '#' :: 'x' :: cs, .uint n :: as => (format cs as).map (hex n ++ ·)
      | _, _ => none

/-- lib/translator/common.cc:33-41 DebugLog: what the callback is called with (`some none`: there is no callback, set by SetDebugCallback,
common.cc:43-45); `none`: undefined behaviour.  vsnprintf(buffer, 1024, …) keeps the first 1023 characters. -/
def DebugLog (callback : Bool) (fmt : List Char) (args : List Arg) : Option (Option (List Char)) :=
  if callback = false then some none
  else (format fmt args).map fun s => some (s.take 1023)

/-- third_party/e2e/util.c:16 Print: `printk(msg)`, so the message is taken for a format, and there are no arguments. -/
def Print (msg : List Char) : Option (List Char) := format msg []

/-- The type of an argument of a call of DebugLog in the source (lib/translator/*.cc, *.h; the calls are listed below). -/
inductive Ty
  /-- uint8_t -/
  | byte
  /-- uint16_t -/
  | u16
  /-- uint32_t -/
  | u32
  /-- size_t -/
  | size
  /-- an `enum class` over uint8_t -/
  | scoped
  /-- the result of ScsiOpcodeToString -/
  | name
deriving DecidableEq

/-- The values which an expression of the type can have (arguments of DebugLog, lib/translator/*.cc, *.h). -/
def Ty.admits : Ty → Arg → Prop
  | .byte, .int n => n < 2 ^ 8
  | .u16, .int n => n < 2 ^ 16
  | .u32, .uint n => n < 2 ^ 32
  | .size, .size n => n < 2 ^ 64
  | .scoped, .scoped n => n < 2 ^ 8
  | .name, .str s => ∃ n, n < 256 ∧ s = ScsiOpcodeToString n
  | _, _ => False

/-- A call of DebugLog: file and line, the format, the types of the further arguments (lib/translator/*.cc, *.h). -/
structure Site where
  file : String
  line : Nat
  fmt : List Char
  args : List Ty
deriving DecidableEq

/-- All calls of DebugLog in lib/translator (files and lines as given; the list was extracted from the source by a script). -/
def sites : List Site := [
  ⟨"common.cc", 112, text! "Trying to override data that has not been flushed", []⟩,
  ⟨"common.cc", 123, text! "Error when requesting memory", []⟩,
  ⟨"common.cc", 213, text! "Failed to write to sense buffer", []⟩,
  ⟨"common.h", 169, text! "Pointer cast called on span of invalid size", []⟩,
  ⟨"common.h", 174, text! "Pointer cast called on unaligned memory", []⟩,
  ⟨"common.h", 186, text! "Pointer cast called on span of invalid size", []⟩,
  ⟨"common.h", 191, text! "Pointer cast called on unaligned memory", []⟩,
  ⟨"inquiry.cc", 69, text! "DPC value not recoginized while translating ExtendedInquiry\n", []⟩,
  ⟨"inquiry.cc", 99, text! "Failed to write IdentificationDescriptor to the buffer\n", []⟩,
  ⟨"inquiry.cc", 108, text! "Failed to write IdentificationDescriptor to the buffer\n", []⟩,
  ⟨"inquiry.cc", 114, text! "Both NGUID and EUI-64 fields are zero in IdentityNamespaceData", []⟩,
  ⟨"inquiry.cc", 140, text! "Failed to write IdentificationDescriptor to the buffer\n", []⟩,
  ⟨"inquiry.cc", 182, text! "Error writing 36 bytes of Inquiry Data to buffer", []⟩,
  ⟨"inquiry.cc", 204, text! "Error writing Supported VPD pages or Page List to buffer", []⟩,
  ⟨"inquiry.cc", 284, text! "Error writing Unit Serial Number or Product Serial Number to buffer", []⟩,
  ⟨"inquiry.cc", 327, text! "Error! Cannot write DeviceIdentificationVPD to buffer\n", []⟩,
  ⟨"inquiry.cc", 397, text! "Couldn't write ExtendedInquiry to buffer\n", []⟩,
  ⟨"inquiry.cc", 418, text! "Couldn't write BlockDeviceCharacteristicsVpd to buffer\n", []⟩,
  ⟨"inquiry.cc", 433, text! "max transfer length is > 2^16", []⟩,
  ⟨"inquiry.cc", 483, text! "Error writing Block Limits VPD to the buffer", []⟩,
  ⟨"inquiry.cc", 559, text! "Error writing Logical Block Provisioning VPD to buffer", []⟩,
  ⟨"inquiry.cc", 574, text! "Malformed Inquiry Command", []⟩,
  ⟨"inquiry.cc", 620, text! "Malformed Inquiry Command", []⟩,
  ⟨"inquiry.cc", 633, text! "Identify namespace structure failed to cast", []⟩,
  ⟨"inquiry.cc", 640, text! "Identify controller structure failed to cast", []⟩,
  ⟨"inquiry.cc", 679, text! "Inquiry Command parameters do not map to any action.", []⟩,
  ⟨"maintenance_in.cc", 25, text! "Malformed Report Supported OpCodes command", []⟩,
  ⟨"maintenance_in.cc", 34, text! "Only supporting ReportSupportedOpCodes for WriteSame16", []⟩,
  ⟨"mode_sense.cc", 116, text! "Unsupported page control recieved", []⟩,
  ⟨"mode_sense.cc", 172, text! "Error generating Block Descriptor Identify Command", []⟩,
  ⟨"mode_sense.cc", 184, text! "Unsuppported mode sense page code recieved", []⟩,
  ⟨"mode_sense.cc", 206, text! "Insufficient size for mode 6 parameter header", []⟩,
  ⟨"mode_sense.cc", 228, text! "Insufficient size for mode 10 parameter header", []⟩,
  ⟨"mode_sense.cc", 314, text! "Truncating mode sense response at block descriptor", []⟩,
  ⟨"mode_sense.cc", 322, text! "Failed to write variable length mode-page data", []⟩,
  ⟨"mode_sense.cc", 339, text! "Mode Sense 6 Command Malformed", []⟩,
  ⟨"mode_sense.cc", 363, text! "Mode Sense 10 Command Malformed", []⟩,
  ⟨"mode_sense.cc", 385, text! "Mode Sense 6 Command Malformed", []⟩,
  ⟨"mode_sense.cc", 406, text! "Mode Sense 10 Command Malformed", []⟩,
  ⟨"read.cc", 45, text! "RDPROTECT with value %d has no translation to PRINFO", [.byte]⟩,
  ⟨"read.cc", 77, text! "Not enough memory allocated for Read buffer", []⟩,
  ⟨"read.cc", 95, text! "NVMe read command does not support transfering zero blocks", []⟩,
  ⟨"read.cc", 102, text! "Transfer length exceeds limit of 16 bits", []⟩,
  ⟨"read.cc", 133, text! "Malformed Read6 command", []⟩,
  ⟨"read.cc", 168, text! "Malformed Read10 command", []⟩,
  ⟨"read.cc", 191, text! "Malformed Read12 command", []⟩,
  ⟨"read.cc", 214, text! "Malformed Read16 command", []⟩,
  ⟨"read_capacity_10.cc", 31, text! "Malformed ReadCapacity10 Command - Error in reading to buffer", []⟩,
  ⟨"read_capacity_10.cc", 36, text! "Malformed ReadCapacity10 Command - Invalid NACA bit", []⟩,
  ⟨"read_capacity_10.cc", 72, text! "Identify namespace structure failed to cast", []⟩,
  ⟨"read_capacity_10.cc", 85, text! "lbads value smaller than 9 is not supported", []⟩,
  ⟨"read_capacity_10.cc", 88, text! "lbads exceeds type limit of scsi::ReadCapacity10Data.block_length", []⟩,
  ⟨"read_capacity_10.cc", 96, text! "Error writing Read Capacity 10 Data to buffer", []⟩,
  ⟨"report_luns.cc", 49, text! "Malformed ReportLuns command", []⟩,
  ⟨"report_luns.cc", 55, text! "Invalid report luns select report %u", [.scoped]⟩,
  ⟨"report_luns.cc", 83, text! "Insufficient buffer size", []⟩,
  ⟨"report_luns.cc", 93, text! "Namespace pointer was null", []⟩,
  ⟨"report_luns.cc", 112, text! "Buffer not large enough for report luns response header", []⟩,
  ⟨"report_luns.cc", 121, text! "Truncating report luns response at position %u", [.u32]⟩,
  ⟨"request_sense.cc", 32, text! "Error writing Descriptor Format Sense Data to buffer", []⟩,
  ⟨"request_sense.cc", 61, text! "Error writing Fixed Format Sense Data to buffer", []⟩,
  ⟨"request_sense.cc", 73, text! "Malformed RequestSense Command", []⟩,
  ⟨"request_sense.cc", 78, text! "Malformed RequestSense Command", []⟩,
  ⟨"request_sense.cc", 89, text! "Malformed RequestSense Command", []⟩,
  ⟨"status.cc", 105, text! "No SCSI translation for NVMe status with code %#x", [.byte]⟩,
  ⟨"status.cc", 134, text! "No SCSI translation for NVMe status with code %#x", [.byte]⟩,
  ⟨"status.cc", 197, text! "No SCSI translation for NVMe status with code %#x", [.byte]⟩,
  ⟨"status.cc", 218, text! "No SCSI translation for nvme status code type %#xand status code %#x", [.byte, .byte]⟩,
  ⟨"translation.cc", 41, text! "Invalid use of API: Begin called before complete or abort", []⟩,
  ⟨"translation.cc", 48, text! "Empty SCSI Command Buffer", []⟩,
  ⟨"translation.cc", 55, text! "Translating command %s with opcode %#x", [.name, .byte]⟩,
  ⟨"translation.cc", 160, text! "Bad OpCode: %#x", [.byte]⟩,
  ⟨"translation.cc", 177, text! "Invalid use of API: Complete called before Begin", []⟩,
  ⟨"translation.cc", 183, text! "Invalid use of API, completion count %u does not equal command count %u", [.size, .u32]⟩,
  ⟨"translation.cc", 277, text! "Invalid opcode case reached: %u. Please contact SCSI2NVMe devs.", [.byte]⟩,
  ⟨"translation.cc", 284, text! "Failed to translate back to SCSI", []⟩,
  ⟨"unmap.cc", 35, text! "Malformed unmap command", []⟩,
  ⟨"unmap.cc", 39, text! "Insufficient unmap parameter list length", []⟩,
  ⟨"unmap.cc", 43, text! "Unsupported unmap anchor request", []⟩,
  ⟨"unmap.cc", 50, text! "Malformed unmap parameter list", []⟩,
  ⟨"unmap.cc", 58, text! "Block descriptor list length reported longer than buffer", []⟩,
  ⟨"unmap.cc", 64, text! "Non-divisible unmap block descriptor data length %u", [.u16]⟩,
  ⟨"unmap.cc", 71, text! "Unsupported unmap block descriptor count %u", [.u32]⟩,
  ⟨"unmap.cc", 80, text! "Failed to read unmap block descriptor", []⟩,
  ⟨"unmap.cc", 97, text! "Failed to cast dataset managment pointer", []⟩,
  ⟨"verify.cc", 65, text! "Malformed Verify Command - ReadValue Failure", []⟩,
  ⟨"verify.cc", 71, text! "Verify Command is a No-Op", []⟩,
  ⟨"verify.cc", 76, text! "Malformed Verify Command - Control Byte NACA is 0b1", []⟩,
  ⟨"write.cc", 47, text! "Invalid WriteProtect Code for PRInfo", []⟩,
  ⟨"write.cc", 87, text! "NVMe write command does not support transfering zero blocks", []⟩,
  ⟨"write.cc", 119, text! "Malformed Write6 Command", []⟩,
  ⟨"write.cc", 153, text! "Malformed Write10 Command", []⟩,
  ⟨"write.cc", 174, text! "Malformed Write12 Command", []⟩,
  ⟨"write.cc", 196, text! "Malformed Write16 Command", []⟩
]

end Scsi2Nvme.Log
