import Verif.Model.Log
import Verif.Model.Translation
/-!
# The messages a call of `Begin` logs

Messages have no effect on anything else in the library and are not part of `World`.  This file models which calls of `DebugLog` are
executed by `Begin`, function by function next to the functions of the model proper, whose results decide which way the code goes.
-/

namespace Scsi2Nvme.Log
open Scsi2Nvme

/-- An executed call of DebugLog: where it is in the source, its format and its further arguments (lib/translator/common.cc:33-41). -/
structure Msg where
  file : String
  line : Nat
  fmt : List Char
  args : List Arg
deriving DecidableEq

/-- What is logged by the code following `m`: nothing if `m` does not return (Foundation: statements one after the other in
lib/translator/*.cc). -/
def after (m : M α) (w : World) (f : α → World → List Msg) : List Msg :=
  match m w with
  | .ok (a, w') => f a w'
  | .error _ => []

/-- lib/translator/common.cc:108-128 Allocation::SetPages, the calls of DebugLog in lines 112 and 123. -/
def SetPagesLog (E : Env) (a : Allocation) (page_size : U32) (data_page_count mdata_page_count : U16) (w : World) : List Msg :=
  if (data_page_count ≠ 0 ∧ a.data_addr ≠ 0) ∨ (mdata_page_count ≠ 0 ∧ a.mdata_addr ≠ 0) then
    [⟨"common.cc", 112, text! "Trying to override data that has not been flushed", []⟩]
  else
    after (AllocPages E page_size data_page_count) w fun da w =>
    after (AllocPages E page_size mdata_page_count) w fun ma _ =>
    if (data_page_count ≠ 0 ∧ da = 0) ∨ (mdata_page_count ≠ 0 ∧ ma = 0) then
      [⟨"common.cc", 123, text! "Error when requesting memory", []⟩]
    else []

/-! ## read.cc -/

/-- lib/translator/read.cc:16-53 BuildPrinfo, line 45. -/
def BuildPrinfoLog (rd_protect : Byte) : List Msg :=
  match Read.BuildPrinfo rd_protect with
  | none => [⟨"read.cc", 45, text! "RDPROTECT with value %d has no translation to PRINFO", [.int rd_protect.toNat]⟩]
  | some _ => []

/-- lib/translator/read.cc:65-87 LegacyRead, line 77. -/
def LegacyReadLog (transfer_length : U16) (lba_size : U32) (buffer_in : Span) : List Msg :=
  if buffer_in.len < (transfer_length.setWidth 32 * lba_size).toNat then
    [⟨"read.cc", 77, text! "Not enough memory allocated for Read buffer", []⟩]
  else []

/-- lib/translator/read.cc:90-123 Read, lines 95 and 102. -/
def ReadLog (rd_protect : Byte) (transfer_length : U32) (nvme_wrapper : NvmeCmdWrapper) (nsid lba_size : U32) (buffer_in : Span) :
    List Msg :=
  if transfer_length = 0 then
    [⟨"read.cc", 95, text! "NVMe read command does not support transfering zero blocks", []⟩]
  else if transfer_length > 0xffff#32 then
    [⟨"read.cc", 102, text! "Transfer length exceeds limit of 16 bits", []⟩]
  else
    let tl16 : U16 := (transfer_length &&& 0xffff#32).setWidth 16
    LegacyReadLog tl16 lba_size buffer_in ++
      (if (Read.LegacyRead nvme_wrapper nsid tl16 lba_size buffer_in).1 = .kSuccess then BuildPrinfoLog rd_protect else [])

/-- lib/translator/read.cc:127-160 Read6ToNvme, line 133. -/
def Read6Log (scsi_cmd : List Byte) (lba_size : U32) (buffer_in : Span) : List Msg :=
  match readValue Scsi.Read6Command.size Scsi.Read6Command.ofBytes scsi_cmd with
  | none => [⟨"read.cc", 133, text! "Malformed Read6 command", []⟩]
  | some c => LegacyReadLog (if c.transfer_length = 0 then 256#16 else c.transfer_length.setWidth 16) lba_size buffer_in

/-- lib/translator/read.cc:162-183 Read10ToNvme, line 168. -/
def Read10Log (scsi_cmd : List Byte) (nvme_wrapper : NvmeCmdWrapper) (nsid lba_size : U32) (buffer_in : Span) : List Msg :=
  match readValue Scsi.Read10Command.size Scsi.Read10Command.ofBytes scsi_cmd with
  | none => [⟨"read.cc", 168, text! "Malformed Read10 command", []⟩]
  | some c => ReadLog (c.rd_protect.setWidth 8) ((ntohs c.transfer_length).setWidth 32) nvme_wrapper nsid lba_size buffer_in

/-- lib/translator/read.cc:185-206 Read12ToNvme, line 191. -/
def Read12Log (scsi_cmd : List Byte) (nvme_wrapper : NvmeCmdWrapper) (nsid lba_size : U32) (buffer_in : Span) : List Msg :=
  match readValue Scsi.Read12Command.size Scsi.Read12Command.ofBytes scsi_cmd with
  | none => [⟨"read.cc", 191, text! "Malformed Read12 command", []⟩]
  | some c => ReadLog (c.rd_protect.setWidth 8) (ntohl c.transfer_length) nvme_wrapper nsid lba_size buffer_in

/-- lib/translator/read.cc:208-231 Read16ToNvme, line 214. -/
def Read16Log (scsi_cmd : List Byte) (nvme_wrapper : NvmeCmdWrapper) (nsid lba_size : U32) (buffer_in : Span) : List Msg :=
  match readValue Scsi.Read16Command.size Scsi.Read16Command.ofBytes scsi_cmd with
  | none => [⟨"read.cc", 214, text! "Malformed Read16 command", []⟩]
  | some c => ReadLog (c.rd_protect.setWidth 8) (ntohl c.transfer_length) nvme_wrapper nsid lba_size buffer_in

/-! ## write.cc -/

/-- lib/translator/write.cc:15-53 BuildPRInfo, line 47. -/
def BuildPRInfoLog (wrprotect : Byte) : List Msg :=
  match Write.BuildPRInfo wrprotect with
  | none => [⟨"write.cc", 47, text! "Invalid WriteProtect Code for PRInfo", []⟩]
  | some _ => []

/-- lib/translator/write.cc:82-109 Write, line 87.  LegacyWrite logs nothing and always succeeds. -/
def WriteLog (wrprotect : Byte) (transfer_length : U32) (nvme_wrapper : NvmeCmdWrapper) (nsid : U32) (buffer_out : Span) : List Msg :=
  if transfer_length = 0 then
    [⟨"write.cc", 87, text! "NVMe write command does not support transfering zero blocks", []⟩]
  else if (Write.LegacyWrite nvme_wrapper nsid buffer_out).1 = .kSuccess then BuildPRInfoLog wrprotect
  else []

/-- lib/translator/write.cc:113-145 Write6ToNvme, line 119. -/
def Write6Log (scsi_cmd : List Byte) : List Msg :=
  match readValue Scsi.Write6Command.size Scsi.Write6Command.ofBytes scsi_cmd with
  | none => [⟨"write.cc", 119, text! "Malformed Write6 Command", []⟩]
  | some _ => []

/-- lib/translator/write.cc:147-167 Write10ToNvme, line 153. -/
def Write10Log (scsi_cmd : List Byte) (nvme_wrapper : NvmeCmdWrapper) (nsid : U32) (buffer_out : Span) : List Msg :=
  match readValue Scsi.Write10Command.size Scsi.Write10Command.ofBytes scsi_cmd with
  | none => [⟨"write.cc", 153, text! "Malformed Write10 Command", []⟩]
  | some c => WriteLog (c.wr_protect.setWidth 8) ((ntohs c.transfer_length).setWidth 32) nvme_wrapper nsid buffer_out

/-- lib/translator/write.cc:168-188 Write12ToNvme, line 174. -/
def Write12Log (scsi_cmd : List Byte) (nvme_wrapper : NvmeCmdWrapper) (nsid : U32) (buffer_out : Span) : List Msg :=
  match readValue Scsi.Write12Command.size Scsi.Write12Command.ofBytes scsi_cmd with
  | none => [⟨"write.cc", 174, text! "Malformed Write12 Command", []⟩]
  | some c => WriteLog (c.wr_protect.setWidth 8) (ntohl c.transfer_length) nvme_wrapper nsid buffer_out

/-- lib/translator/write.cc:190-213 Write16ToNvme, line 196. -/
def Write16Log (scsi_cmd : List Byte) (nvme_wrapper : NvmeCmdWrapper) (nsid : U32) (buffer_out : Span) : List Msg :=
  match readValue Scsi.Write16Command.size Scsi.Write16Command.ofBytes scsi_cmd with
  | none => [⟨"write.cc", 196, text! "Malformed Write16 Command", []⟩]
  | some c => WriteLog (c.wr_protect.setWidth 8) (ntohl c.transfer_length) nvme_wrapper nsid buffer_out

/-! ## verify.cc, request_sense.cc, maintenance_in.cc -/

/-- lib/translator/verify.cc:61-124 VerifyToNvme, lines 65, 71 and 76. -/
def VerifyLog (scsi_cmd : List Byte) : List Msg :=
  match readValue Scsi.Verify10Command.size Scsi.Verify10Command.ofBytes scsi_cmd with
  | none => [⟨"verify.cc", 65, text! "Malformed Verify Command - ReadValue Failure", []⟩]
  | some c =>
    if c.verification_length = 0 then [⟨"verify.cc", 71, text! "Verify Command is a No-Op", []⟩]
    else if c.naca = 1 then [⟨"verify.cc", 76, text! "Malformed Verify Command - Control Byte NACA is 0b1", []⟩]
    else []

/-- lib/translator/request_sense.cc:69-83 RequestSenseToNvme, lines 73 and 78. -/
def RequestSenseLog (scsi_cmd : List Byte) : List Msg :=
  match readValue Scsi.RequestSenseCommand.size Scsi.RequestSenseCommand.ofBytes scsi_cmd with
  | none => [⟨"request_sense.cc", 73, text! "Malformed RequestSense Command", []⟩]
  | some c => if c.naca = 1 then [⟨"request_sense.cc", 78, text! "Malformed RequestSense Command", []⟩] else []

/-- lib/translator/maintenance_in.cc:21-41 ValidateReportSupportedOpCodes, lines 25 and 34. -/
def ValidateReportSupportedOpCodesLog (scsi_cmd : List Byte) : List Msg :=
  match readValue Scsi.ReportOpCodesCommand.size Scsi.ReportOpCodesCommand.ofBytes scsi_cmd with
  | none => [⟨"maintenance_in.cc", 25, text! "Malformed Report Supported OpCodes command", []⟩]
  | some c =>
    if c.requested_op_code ≠ Scsi.OpCode.kWriteSame16 ∨ c.reporting_options ≠ 0b001 then
      [⟨"maintenance_in.cc", 34, text! "Only supporting ReportSupportedOpCodes for WriteSame16", []⟩]
    else []

/-! ## unmap.cc -/

/-- lib/translator/unmap.cc:29-120 UnmapToNvme, lines 35 to 97. -/
def UnmapLog (E : Env) (scsi_cmd : List Byte) (buffer_out : Span) (page_size : U32) (allocation : Allocation) (w : World) : List Msg :=
  match readValue Scsi.UnmapCommand.size Scsi.UnmapCommand.ofBytes scsi_cmd with
  | none => [⟨"unmap.cc", 35, text! "Malformed unmap command", []⟩]
  | some c =>
    if (ntohs c.param_list_length).toNat < Scsi.UnmapParamList.size then
      [⟨"unmap.cc", 39, text! "Insufficient unmap parameter list length", []⟩]
    else if c.anchor = 1 then [⟨"unmap.cc", 43, text! "Unsupported unmap anchor request", []⟩]
    else
      after (ReadValue Scsi.UnmapParamList.size Scsi.UnmapParamList.ofBytes buffer_out) w fun r w =>
      match r with
      | none => [⟨"unmap.cc", 50, text! "Malformed unmap parameter list", []⟩]
      | some param_list =>
        let buffer_out := buffer_out.subspan Scsi.UnmapParamList.size
        let bd_data_length := (ntohs param_list.block_desc_data_length).toNat
        if buffer_out.len < bd_data_length then
          [⟨"unmap.cc", 58, text! "Block descriptor list length reported longer than buffer", []⟩]
        else if bd_data_length % Scsi.UnmapBlockDescriptor.size ≠ 0 then
          [⟨"unmap.cc", 64, text! "Non-divisible unmap block descriptor data length %u", [.int bd_data_length]⟩]
        else
          let count := bd_data_length / Scsi.UnmapBlockDescriptor.size
          if count = 0 ∨ count > 256 then
            [⟨"unmap.cc", 71, text! "Unsupported unmap block descriptor count %u", [.uint count]⟩]
          else
            after (Unmap.readDescriptors count buffer_out) w fun ds w =>
            match ds with
            | none => [⟨"unmap.cc", 80, text! "Failed to read unmap block descriptor", []⟩]
            | some ds =>
              SetPagesLog E allocation page_size 1 0 w ++
              after (allocation.SetPages E page_size 1 0) w fun r w =>
              if r.1 = .kFailure then []
              else
                after (Unmap.writeRanges ds ⟨r.2.data_addr.toNat, Nvme.DatasetManagmentRange.size * count⟩) w fun ok _ =>
                if ok then [] else [⟨"unmap.cc", 97, text! "Failed to cast dataset managment pointer", []⟩]

/-! ## report_luns.cc, read_capacity_10.cc, inquiry.cc -/

/-- lib/translator/report_luns.cc:43-77 ReportLunsToNvme, lines 49 and 55.  The second message has a value of a scoped enumeration as
argument. -/
def ReportLunsLog (E : Env) (scsi_cmd : List Byte) (page_size : U32) (allocation : Allocation) (w : World) : List Msg :=
  match readValue Scsi.ReportLunsCommand.size Scsi.ReportLunsCommand.ofBytes scsi_cmd with
  | none => [⟨"report_luns.cc", 49, text! "Malformed ReportLuns command", []⟩]
  | some c =>
    if c.select_report ≠ Scsi.SelectReport.kRestrictedMethods
        ∧ c.select_report ≠ Scsi.SelectReport.kWellKnown
        ∧ c.select_report ≠ Scsi.SelectReport.kAllLogical then
      [⟨"report_luns.cc", 55, text! "Invalid report luns select report %u", [.scoped c.select_report.toNat]⟩]
    else SetPagesLog E allocation page_size 1 0 w

/-- lib/translator/read_capacity_10.cc:25-62 ReadCapacity10ToNvme, lines 31 and 36. -/
def ReadCapacity10Log (E : Env) (raw_scsi : List Byte) (page_size : U32) (allocation : Allocation) (w : World) : List Msg :=
  match readValue Scsi.ReadCapacity10Command.size Scsi.ReadCapacity10Command.ofBytes raw_scsi with
  | none => [⟨"read_capacity_10.cc", 31, text! "Malformed ReadCapacity10 Command - Error in reading to buffer", []⟩]
  | some c =>
    if c.naca = 1 then [⟨"read_capacity_10.cc", 36, text! "Malformed ReadCapacity10 Command - Invalid NACA bit", []⟩]
    else SetPagesLog E allocation page_size 1 0 w

/-- lib/translator/inquiry.cc:567-611 InquiryToNvme, line 574. -/
def InquiryLog (E : Env) (raw_scsi : List Byte) (page_size : U32) (a0 a1 : Allocation) (w : World) : List Msg :=
  match readValue Scsi.InquiryCommand.size Scsi.InquiryCommand.ofBytes raw_scsi with
  | none => [⟨"inquiry.cc", 574, text! "Malformed Inquiry Command", []⟩]
  | some _ =>
    SetPagesLog E a0 page_size 1 0 w ++
    after (a0.SetPages E page_size 1 0) w fun r w =>
    if r.1 ≠ .kSuccess then [] else SetPagesLog E a1 page_size 1 0 w

/-! ## mode_sense.cc -/

/-- lib/translator/mode_sense.cc:100-126 GenerateCacheGetFeaturesCmd, line 116. -/
def GenerateCacheGetFeaturesCmdLog (pc : BitVec 2) : List Msg :=
  if pc = Scsi.PageControl.kCurrent ∨ pc = Scsi.PageControl.kChangeable ∨ pc = Scsi.PageControl.kDefault then []
  else [⟨"mode_sense.cc", 116, text! "Unsupported page control recieved", []⟩]

/-- lib/translator/mode_sense.cc:177-191, the second half of ModeSenseToNvme, line 184. -/
def modeSensePageLog (a : ModeSense.CommonCmdAttributes) : List Msg :=
  if a.page_code ≠ Scsi.ModePageCode.kCacheMode ∧ a.page_code ≠ Scsi.ModePageCode.kAllSupportedModes then
    if a.page_code = Scsi.ModePageCode.kControlMode ∨ a.page_code = Scsi.ModePageCode.kPowerConditionMode then []
    else [⟨"mode_sense.cc", 184, text! "Unsuppported mode sense page code recieved", []⟩]
  else GenerateCacheGetFeaturesCmdLog a.pc

/-- lib/translator/mode_sense.cc:163-191 ModeSenseToNvme, line 172; lines 81-97 GenerateBlockDescriptorIdentifyCmd logs nothing itself. -/
def ModeSenseLog (E : Env) (a : ModeSense.CommonCmdAttributes) (allocation : Allocation) (page_size : U32) (w : World) : List Msg :=
  if a.dbd then modeSensePageLog a
  else
    SetPagesLog E allocation page_size 1 0 w ++
    after (allocation.SetPages E page_size 1 0) w fun r _ =>
    if r.1 = .kFailure then
      [⟨"mode_sense.cc", 172, text! "Error generating Block Descriptor Identify Command", []⟩]
    else modeSensePageLog a

/-- lib/translator/mode_sense.cc:331-350 ModeSense6ToNvme, line 339. -/
def ModeSense6Log (E : Env) (scsi_cmd : List Byte) (allocation : Allocation) (page_size : U32) (w : World) : List Msg :=
  match readValue Scsi.ModeSense6Command.size Scsi.ModeSense6Command.ofBytes scsi_cmd with
  | none => [⟨"mode_sense.cc", 339, text! "Mode Sense 6 Command Malformed", []⟩]
  | some c => ModeSenseLog E (ModeSense.attrs6 c) allocation page_size w

/-- lib/translator/mode_sense.cc:352-375 ModeSense10ToNvme, line 363. -/
def ModeSense10Log (E : Env) (scsi_cmd : List Byte) (allocation : Allocation) (page_size : U32) (w : World) : List Msg :=
  match readValue Scsi.ModeSense10Command.size Scsi.ModeSense10Command.ofBytes scsi_cmd with
  | none => [⟨"mode_sense.cc", 363, text! "Mode Sense 10 Command Malformed", []⟩]
  | some c => ModeSenseLog E (ModeSense.attrs10 c) allocation page_size w

/-! ## translation.cc -/

/-- lib/translator/translation.cc:80-90, MAINTENANCE IN falling through to REPORT LUNS. -/
def maintenanceLog (E : Env) (cmd : List Byte) (allocation : Allocation) (w : World) : List Msg :=
  ValidateReportSupportedOpCodesLog cmd ++ ReportLunsLog E cmd kPageSize allocation w

/-- lib/translator/translation.cc:60-163, the switch of Begin, line 160. -/
def beginSwitchLog (E : Env) (opc : Byte) (cmd : List Byte) (buffer : Span) (nsid : U32) (p : Pipe) (w : World) : List Msg :=
  if opc = Scsi.OpCode.kInquiry then InquiryLog E cmd kPageSize p.as.e0 p.as.e1 w
  else if opc = Scsi.OpCode.kUnmap then
    UnmapLog E cmd buffer kPageSize p.as.e0 w ++
    after (Unmap.UnmapToNvme E cmd buffer p.ws.e0 kPageSize nsid p.as.e0) w fun r w =>
    ModeSense6Log E cmd r.2.2 kPageSize w
  else if opc = Scsi.OpCode.kModeSense6 then ModeSense6Log E cmd p.as.e0 kPageSize w
  else if opc = Scsi.OpCode.kModeSense10 then
    ModeSense10Log E cmd p.as.e0 kPageSize w ++
    after (ModeSense.ModeSense10ToNvme E cmd p.ws p.as.e0 kPageSize nsid p.count p.alloc_len) w fun r w =>
    maintenanceLog E cmd r.2.2.1 w
  else if opc = Scsi.OpCode.kMaintenanceIn then maintenanceLog E cmd p.as.e0 w
  else if opc = Scsi.OpCode.kReportLuns then ReportLunsLog E cmd kPageSize p.as.e0 w
  else if opc = Scsi.OpCode.kReadCapacity10 then ReadCapacity10Log E cmd kPageSize p.as.e0 w
  else if opc = Scsi.OpCode.kRequestSense then RequestSenseLog cmd
  else if opc = Scsi.OpCode.kRead6 then Read6Log cmd kLbaSize buffer
  else if opc = Scsi.OpCode.kRead10 then Read10Log cmd p.ws.e0 nsid kLbaSize buffer
  else if opc = Scsi.OpCode.kRead12 then Read12Log cmd p.ws.e0 nsid kLbaSize buffer
  else if opc = Scsi.OpCode.kRead16 then Read16Log cmd p.ws.e0 nsid kLbaSize buffer
  else if opc = Scsi.OpCode.kSync10 then []
  else if opc = Scsi.OpCode.kVerify10 then VerifyLog cmd
  else if opc = Scsi.OpCode.kTestUnitReady then []
  else if opc = Scsi.OpCode.kWrite6 then Write6Log cmd
  else if opc = Scsi.OpCode.kWrite10 then Write10Log cmd p.ws.e0 nsid buffer
  else if opc = Scsi.OpCode.kWrite12 then Write12Log cmd p.ws.e0 nsid buffer
  else if opc = Scsi.OpCode.kWrite16 then Write16Log cmd p.ws.e0 nsid buffer
  else [⟨"translation.cc", 160, text! "Bad OpCode: %#x", [.int opc.toNat]⟩]

/-- lib/translator/translation.cc:35-170 Begin, lines 41, 48 and 55.  FlushMemory (lines 300-312) logs nothing. -/
def BeginLog (E : Env) (t : Translation) (scsi_cmd buffer : Span) (lun : U64) (w : World) : List Msg :=
  if t.pipeline_status ≠ .kUninitialized then
    [⟨"translation.cc", 41, text! "Invalid use of API: Begin called before complete or abort", []⟩]
  else if scsi_cmd.len = 0 then [⟨"translation.cc", 48, text! "Empty SCSI Command Buffer", []⟩]
  else
    after (load scsi_cmd.ptr scsi_cmd.len) w fun cdb w =>
    ⟨"translation.cc", 55, text! "Translating command %s with opcode %#x",
      [.str (ScsiOpcodeToString (cdb.headD 0).toNat), .int (cdb.headD 0).toNat]⟩ ::
    beginSwitchLog E (cdb.headD 0) cdb.tail buffer (lun.setWidth 32 + 1)
      { status := .kSuccess, count := t.nvme_cmd_count, ws := t.nvme_wrappers, as := t.allocations, alloc_len := 0 } w

end Scsi2Nvme.Log
