import Verif.Model.Messages
/-!
# The messages a call of `Complete` logs

As in `Model/Messages.lean`: the calls of `DebugLog` executed by `Complete`, function by function next to the model proper.
-/

namespace Scsi2Nvme.Log
open Scsi2Nvme

/-- The call of DebugLog after a failed WriteValue (lib/translator/common.h:141-148 and its callers). -/
def whenNot (m : M Bool) (w : World) (msg : Msg) : List Msg :=
  after m w fun ok _ => if ok then [] else [msg]

/-- lib/translator/common.cc:202-217 FillSenseBuffer, line 213. -/
def FillSenseBufferLog (E : Env) (sense_buffer : Span) (s : ScsiStatus) (w : World) : List Msg :=
  whenNot (FillSenseBuffer E sense_buffer s) w ⟨"common.cc", 213, text! "Failed to write to sense buffer", []⟩

/-! ## status.cc -/

/-- The `case` labels of lib/translator/status.cc:30-109. -/
def genericCases : List Nat := [0x00, 0x01, 0x02, 0x04, 0x05, 0x06, 0x07, 0x08, 0x09, 0x0a, 0x0b, 0x80, 0x82]

/-- The `case` labels of lib/translator/status.cc:113-138. -/
def commandSpecificCases : List Nat := [0x00, 0x0a, 0x80]

/-- The `case` labels of lib/translator/status.cc:142-201. -/
def mediaErrorCases : List Nat := [0x80, 0x81, 0x82, 0x83, 0x84, 0x85, 0x86]

/-- lib/translator/status.cc:205-224 StatusToScsi, line 218, and the functions it calls, lines 105, 134 and 197. -/
def StatusToScsiLog (type : BitVec 3) (sc : Byte) : List Msg :=
  if type = Nvme.StatusCodeType.kGeneric then
    if sc.toNat ∈ genericCases then []
    else [⟨"status.cc", 105, text! "No SCSI translation for NVMe status with code %#x", [.int sc.toNat]⟩]
  else if type = Nvme.StatusCodeType.kCommandSpecific then
    if sc.toNat ∈ commandSpecificCases then []
    else [⟨"status.cc", 134, text! "No SCSI translation for NVMe status with code %#x", [.int sc.toNat]⟩]
  else if type = Nvme.StatusCodeType.kMediaError then
    if sc.toNat ∈ mediaErrorCases then []
    else [⟨"status.cc", 197, text! "No SCSI translation for NVMe status with code %#x", [.int sc.toNat]⟩]
  else [⟨"status.cc", 218, text! "No SCSI translation for nvme status code type %#xand status code %#x", [.int type.toNat, .int sc.toNat]⟩]

/-- The loop over the completions: lib/translator/translation.cc:206-217. -/
def firstErrorLog : List Nvme.GenericQueueEntryCpl → List Msg
  | [] => []
  | c :: cs =>
    StatusToScsiLog c.sct c.sc ++ if (Status.StatusToScsi c.sct c.sc).status ≠ Scsi.Status.kGood then [] else firstErrorLog cs

/-! ## inquiry.cc -/

/-- lib/translator/inquiry.cc:139-143, line 140. -/
def writeDescriptorLog (identifier_length : Byte) (buffer : Span) (w : World) : List Msg :=
  whenNot (WriteValue' (Inquiry.identificationDescriptor identifier_length).toBytes buffer) w
    ⟨"inquiry.cc", 140, text! "Failed to write IdentificationDescriptor to the buffer\n", []⟩

/-- lib/translator/inquiry.cc:80-144 BuildIdentificationDescriptor, lines 99, 108 and 114. -/
def BuildIdentificationDescriptorLog (ns : List Byte) (buffer : Span) (w : World) : List Msg :=
  if Inquiry.nguidNz ns then
    after (WriteValue' (Inquiry.nguidBytes ns) (buffer.subspan Scsi.IdentificationDescriptor.size)) w fun ok w =>
    if ok then writeDescriptorLog Inquiry.kIdentifierLengthNguid buffer w
    else [⟨"inquiry.cc", 99, text! "Failed to write IdentificationDescriptor to the buffer\n", []⟩]
  else if Inquiry.eui64Nz ns then
    after (WriteValue' (Inquiry.eui64Bytes ns) (buffer.subspan Scsi.IdentificationDescriptor.size)) w fun ok w =>
    if ok then writeDescriptorLog Inquiry.kIdentifierLengthEui64 buffer w
    else [⟨"inquiry.cc", 108, text! "Failed to write IdentificationDescriptor to the buffer\n", []⟩]
  else [⟨"inquiry.cc", 114, text! "Both NGUID and EUI-64 fields are zero in IdentityNamespaceData", []⟩]

/-- A function whose only call of DebugLog is the one before it returns a failure (lib/translator/inquiry.cc:181-184, 202-206, 282-287,
417-420, 558-561; lib/translator/request_sense.cc:31-34, 60-63). -/
def onFailure (m : M StatusCode) (w : World) (msg : Msg) : List Msg :=
  after m w fun st _ => if st ≠ .kSuccess then [msg] else []

/-- lib/translator/inquiry.cc:293-331 TranslateDeviceIdentificationVpd, line 327. -/
def TranslateDeviceIdentificationVpdLog (ns : List Byte) (buffer : Span) (w : World) : List Msg :=
  BuildIdentificationDescriptorLog ns (buffer.subspan Scsi.DeviceIdentificationVpd.size) w ++
  after (Inquiry.BuildIdentificationDescriptor ns (buffer.subspan Scsi.DeviceIdentificationVpd.size)) w fun r w =>
  if r.1 ≠ .kSuccess then []
  else
    let result : Scsi.DeviceIdentificationVpd :=
      { peripheral_device_type := Scsi.PeripheralDeviceType.kDirectAccessBlock
        peripheral_qualifier := Scsi.PeripheralQualifier.kPeripheralDeviceConnected
        page_code := Scsi.PageCode.kDeviceIdentification
        page_length := BitVec.ofNat 8 Scsi.DeviceIdentificationVpd.size + r.2 }
    whenNot (WriteValue' result.toBytes buffer) w
      ⟨"inquiry.cc", 327, text! "Error! Cannot write DeviceIdentificationVPD to buffer\n", []⟩

/-- lib/translator/inquiry.cc:335-401 TranslateExtendedInquiryDataVpd, line 397, and lines 34-73 GetSptValueFromDPC, line 69. -/
def TranslateExtendedInquiryDataVpdLog (ns ctrl : List Byte) (buffer : Span) (w : World) : List Msg :=
  match Inquiry.GetSptValueFromDPC ns with
  | none => [⟨"inquiry.cc", 69, text! "DPC value not recoginized while translating ExtendedInquiry\n", []⟩]
  | some spt => whenNot (WriteValue' (Inquiry.extendedInquiryData ctrl ns spt).toBytes buffer) w
      ⟨"inquiry.cc", 397, text! "Couldn't write ExtendedInquiry to buffer\n", []⟩

/-- lib/translator/inquiry.cc:424-487 TranslateBlockLimitsVpd, lines 433 and 483. -/
def TranslateBlockLimitsVpdLog (ctrl : List Byte) (buffer : Span) (w : World) : List Msg :=
  (if (getF ctrl Nvme.IdentifyControllerData.mdts).toNat > 16 then
    [⟨"inquiry.cc", 433, text! "max transfer length is > 2^16", []⟩] else []) ++
  whenNot (WriteValue' (Inquiry.blockLimits ctrl).toBytes buffer) w
    ⟨"inquiry.cc", 483, text! "Error writing Block Limits VPD to the buffer", []⟩

/-- lib/translator/inquiry.cc:647-686, line 679, and the single messages of the page builders. -/
def inquiryPageLog (E : Env) (c : Scsi.InquiryCommand) (nsid : U32) (ns ctrl : List Byte) (buffer : Span) (w : World) : List Msg :=
  if c.evpd ≠ 0 then
    if c.page_code = Scsi.PageCode.kSupportedVpd then
      onFailure (Inquiry.TranslateSupportedVpdPages buffer) w
        ⟨"inquiry.cc", 204, text! "Error writing Supported VPD pages or Page List to buffer", []⟩
    else if c.page_code = Scsi.PageCode.kUnitSerialNumber then
      onFailure (Inquiry.TranslateUnitSerialNumberVpd E ctrl ns nsid buffer) w
        ⟨"inquiry.cc", 284, text! "Error writing Unit Serial Number or Product Serial Number to buffer", []⟩
    else if c.page_code = Scsi.PageCode.kDeviceIdentification then TranslateDeviceIdentificationVpdLog ns buffer w
    else if c.page_code = Scsi.PageCode.kExtended then TranslateExtendedInquiryDataVpdLog ns ctrl buffer w
    else if c.page_code = Scsi.PageCode.kBlockLimitsVpd then TranslateBlockLimitsVpdLog ctrl buffer w
    else if c.page_code = Scsi.PageCode.kBlockDeviceCharacteristicsVpd then
      onFailure (Inquiry.TranslateBlockDeviceCharacteristicsVpd buffer) w
        ⟨"inquiry.cc", 418, text! "Couldn't write BlockDeviceCharacteristicsVpd to buffer\n", []⟩
    else if c.page_code = Scsi.PageCode.kLogicalBlockProvisioningVpd then
      onFailure (Inquiry.TranslateLogicalBlockProvisioningVpd ctrl ns buffer) w
        ⟨"inquiry.cc", 559, text! "Error writing Logical Block Provisioning VPD to buffer", []⟩
    else [⟨"inquiry.cc", 679, text! "Inquiry Command parameters do not map to any action.", []⟩]
  else
    onFailure (Inquiry.TranslateStandardInquiry ctrl ns buffer) w
      ⟨"inquiry.cc", 182, text! "Error writing 36 bytes of Inquiry Data to buffer", []⟩

/-- lib/translator/inquiry.cc:614-688 InquiryToScsi, lines 620, 633 and 640.  (SafePointerCastRead logs nothing: the span is as long as
the structure and the structure is packed, lib/translator/common.h:183-195.) -/
def InquiryToScsiLog (E : Env) (raw_scsi : List Byte) (buffer : Span) (identify_ns identify_ctrl : Nvme.GenericQueueEntryCmd)
    (w : World) : List Msg :=
  match readValue Scsi.InquiryCommand.size Scsi.InquiryCommand.ofBytes raw_scsi with
  | none => [⟨"inquiry.cc", 620, text! "Malformed Inquiry Command", []⟩]
  | some c =>
    let ns_ptr := SafePointerCast 4096 ⟨identify_ns.prp1.toNat, 4096⟩
    let ctrl_ptr := SafePointerCast 4096 ⟨identify_ctrl.prp1.toNat, 4096⟩
    if ns_ptr = 0 then [⟨"inquiry.cc", 633, text! "Identify namespace structure failed to cast", []⟩]
    else if ctrl_ptr = 0 then [⟨"inquiry.cc", 640, text! "Identify controller structure failed to cast", []⟩]
    else
      after (load ns_ptr 4096) w fun ns w =>
      after (load ctrl_ptr 4096) w fun ctrl w =>
      inquiryPageLog E c identify_ns.nsid ns ctrl buffer w

/-! ## mode_sense.cc -/

/-- lib/translator/mode_sense.cc:309-324, lines 314 and 322. -/
def modeSenseBodyLog (a : ModeSense.CommonCmdAttributes) (get_features_result : U32) (identify : Nvme.GenericQueueEntryCmd)
    (buffer : Span) (w : World) : List Msg :=
  if a.dbd then
    whenNot (ModeSense.WritePageData a.page_code get_features_result buffer) w
      ⟨"mode_sense.cc", 322, text! "Failed to write variable length mode-page data", []⟩
  else
    after (ModeSense.WriteBlockDescriptor identify buffer a.llbaa) w fun r w =>
    if r.1 then
      whenNot (ModeSense.WritePageData a.page_code get_features_result (buffer.subspan r.2)) w
        ⟨"mode_sense.cc", 322, text! "Failed to write variable length mode-page data", []⟩
    else [⟨"mode_sense.cc", 314, text! "Truncating mode sense response at block descriptor", []⟩]

/-- lib/translator/mode_sense.cc:296-325 ModeSenseToScsi, with lines 196-210 WriteMode6Header, line 206, and lines 213-232
WriteMode10Header, line 228. -/
def ModeSenseToScsiLog (a : ModeSense.CommonCmdAttributes) (is_mode_10 : Bool) (get_features_result : U32)
    (identify : Nvme.GenericQueueEntryCmd) (buffer : Span) (w : World) : List Msg :=
  if is_mode_10 then
    after (ModeSense.WriteMode10Header a buffer) w fun ok w =>
    if ok then modeSenseBodyLog a get_features_result identify (buffer.subspan Scsi.ModeParameter10Header.size) w
    else [⟨"mode_sense.cc", 228, text! "Insufficient size for mode 10 parameter header", []⟩]
  else
    after (ModeSense.WriteMode6Header a buffer) w fun ok w =>
    if ok then modeSenseBodyLog a get_features_result identify (buffer.subspan Scsi.ModeParameter6Header.size) w
    else [⟨"mode_sense.cc", 206, text! "Insufficient size for mode 6 parameter header", []⟩]

/-- lib/translator/mode_sense.cc:377-395 ModeSense6ToScsi, line 385. -/
def ModeSense6ToScsiLog (scsi_cmd : List Byte) (identify : Nvme.GenericQueueEntryCmd) (get_features_result : U32) (buffer : Span)
    (w : World) : List Msg :=
  match readValue Scsi.ModeSense6Command.size Scsi.ModeSense6Command.ofBytes scsi_cmd with
  | none => [⟨"mode_sense.cc", 385, text! "Mode Sense 6 Command Malformed", []⟩]
  | some c => ModeSenseToScsiLog (ModeSense.attrs6 c) false get_features_result identify buffer w

/-- lib/translator/mode_sense.cc:399-416 ModeSense10ToScsi, line 406. -/
def ModeSense10ToScsiLog (scsi_cmd : List Byte) (identify : Nvme.GenericQueueEntryCmd) (get_features_result : U32) (buffer : Span)
    (w : World) : List Msg :=
  match readValue Scsi.ModeSense10Command.size Scsi.ModeSense10Command.ofBytes scsi_cmd with
  | none => [⟨"mode_sense.cc", 406, text! "Mode Sense 10 Command Malformed", []⟩]
  | some c => ModeSenseToScsiLog (ModeSense.attrs10 c) true get_features_result identify buffer w

/-! ## read_capacity_10.cc, report_luns.cc, request_sense.cc -/

/-- lib/translator/read_capacity_10.cc:64-100 ReadCapacity10ToScsi, lines 72, 85, 88 and 96 (after the earlier tests the function fails
only if WriteValue does). -/
def ReadCapacity10ToScsiLog (buffer : Span) (gen_identify_ns : Nvme.GenericQueueEntryCmd) (w : World) : List Msg :=
  let identify_ns := SafePointerCast 4096 ⟨gen_identify_ns.prp1.toNat, 4096⟩
  if identify_ns = 0 then [⟨"read_capacity_10.cc", 72, text! "Identify namespace structure failed to cast", []⟩]
  else
    after (load identify_ns 4096) w fun page _ =>
    let lbads := getF page (Nvme.IdentifyNamespace.lbads (getF page Nvme.IdentifyNamespace.flbas_format).toNat)
    if lbads.toNat < 9 then [⟨"read_capacity_10.cc", 85, text! "lbads value smaller than 9 is not supported", []⟩]
    else if lbads.toNat > 31 then
      [⟨"read_capacity_10.cc", 88, text! "lbads exceeds type limit of scsi::ReadCapacity10Data.block_length", []⟩]
    else
      onFailure (ReadCapacity.ReadCapacity10ToScsi buffer gen_identify_ns) w
        ⟨"read_capacity_10.cc", 96, text! "Error writing Read Capacity 10 Data to buffer", []⟩

/-- The loop of lib/translator/report_luns.cc:116-124, line 121. -/
def writeLunsLog (ns_list : Nat) (buffer : Span) : Nat → Nat → World → List Msg
  | _, 0, _ => []
  | i, n + 1, w =>
    after (load (ns_list + 4 * i) 4) w fun idb w =>
    after (WriteValue' (leBytes 8 (htonll ((htoll (BitVec.ofNat 32 (leNat idb)) - 1).setWidth 64)).toNat) (buffer.subspan (8 + i * 8))) w
      fun ok w =>
    if ok then writeLunsLog ns_list buffer (i + 1) n w
    else [⟨"report_luns.cc", 121, text! "Truncating report luns response at position %u", [.uint i]⟩]

/-- lib/translator/report_luns.cc:80-127 ReportLunsToScsi, lines 83, 93 and 112. -/
def ReportLunsToScsiLog (identify_cmd : Nvme.GenericQueueEntryCmd) (buffer : Span) (w : World) : List Msg :=
  if buffer.len < Scsi.ReportLunsParamData.size then [⟨"report_luns.cc", 83, text! "Insufficient buffer size", []⟩]
  else
    let ns_list := SafePointerCast 4096 ⟨identify_cmd.prp1.toNat, 4096⟩
    if ns_list = 0 then [⟨"report_luns.cc", 93, text! "Namespace pointer was null", []⟩]
    else
      after (load ns_list 4096) w fun page w =>
      let lun_count := ReportLuns.GetNsListLength Nvme.kIdentifyNsListMaxLength page
      let allocated_list_bytes : U32 := BitVec.ofNat 32 (sizeSub buffer.len Scsi.ReportLunsParamData.size)
      let lbl0 : U32 := htonl (BitVec.ofNat 32 (lun_count * 8))
      let trunc : Bool := (ntohl lbl0).toNat > allocated_list_bytes.toNat
      let lbl : U32 := allocated_list_bytes - BitVec.ofNat 32 (allocated_list_bytes.toNat % 8)
      let list_byte_length := if trunc then htonl lbl else lbl0
      let lun_count := if trunc then lbl.toNat / 8 else lun_count
      let rlpd : Scsi.ReportLunsParamData := { list_byte_length := list_byte_length }
      after (WriteValue' rlpd.toBytes buffer) w fun ok w =>
      if ok then writeLunsLog ns_list buffer 0 lun_count w
      else [⟨"report_luns.cc", 112, text! "Buffer not large enough for report luns response header", []⟩]

/-- lib/translator/request_sense.cc:85-98 RequestSenseToScsi, line 89, and lines 32 and 61. -/
def RequestSenseToScsiLog (scsi_cmd : List Byte) (buffer : Span) (w : World) : List Msg :=
  match readValue Scsi.RequestSenseCommand.size Scsi.RequestSenseCommand.ofBytes scsi_cmd with
  | none => [⟨"request_sense.cc", 89, text! "Malformed RequestSense Command", []⟩]
  | some c =>
    if c.desc = 1 then
      onFailure (RequestSense.TranslateDescriptorSenseData buffer) w
        ⟨"request_sense.cc", 32, text! "Error writing Descriptor Format Sense Data to buffer", []⟩
    else
      onFailure (RequestSense.TranslateFixedSenseData buffer) w
        ⟨"request_sense.cc", 61, text! "Error writing Fixed Format Sense Data to buffer", []⟩

/-! ## translation.cc -/

/-- The operation codes of the `case` labels without a response builder: lib/translator/translation.cc:224, 241, 247, 256-259, 263, 267-271. -/
def silentCases : List Byte :=
  [Scsi.OpCode.kVerify10, Scsi.OpCode.kMaintenanceIn, Scsi.OpCode.kUnmap, Scsi.OpCode.kRead6, Scsi.OpCode.kRead10, Scsi.OpCode.kRead12,
   Scsi.OpCode.kRead16, Scsi.OpCode.kSync10, Scsi.OpCode.kTestUnitReady, Scsi.OpCode.kWrite6, Scsi.OpCode.kWrite10, Scsi.OpCode.kWrite12,
   Scsi.OpCode.kWrite16]

/-- The `switch` of Complete: lib/translator/translation.cc:223-281, line 277. -/
def completeSwitchLog (E : Env) (t : Translation) (opc : Byte) (cmd : List Byte) (cpl : List Nvme.GenericQueueEntryCpl)
    (buffer_in : Span) (w : World) : List Msg :=
  if opc = Scsi.OpCode.kInquiry then InquiryToScsiLog E cmd buffer_in t.nvme_wrappers.e0.cmd t.nvme_wrappers.e1.cmd w
  else if opc = Scsi.OpCode.kModeSense6 then
    after (cplHead cpl) w fun c w => ModeSense6ToScsiLog cmd t.nvme_wrappers.e0.cmd c.cdw0 buffer_in w
  else if opc = Scsi.OpCode.kModeSense10 then
    after (cplHead cpl) w fun c w => ModeSense10ToScsiLog cmd t.nvme_wrappers.e0.cmd c.cdw0 buffer_in w
  else if opc = Scsi.OpCode.kReportLuns then ReportLunsToScsiLog t.nvme_wrappers.e0.cmd buffer_in w
  else if opc = Scsi.OpCode.kReadCapacity10 then ReadCapacity10ToScsiLog buffer_in t.nvme_wrappers.e0.cmd w
  else if opc = Scsi.OpCode.kRequestSense then RequestSenseToScsiLog cmd buffer_in w
  else if opc ∈ silentCases then []
  else [⟨"translation.cc", 277, text! "Invalid opcode case reached: %u. Please contact SCSI2NVMe devs.", [.int opc.toNat]⟩]

/-- lib/translator/translation.cc:172-288 Complete, lines 177, 183 and 284.  AbortPipeline (lines 294-298) logs nothing. -/
def CompleteLog (E : Env) (t : Translation) (cpl : List Nvme.GenericQueueEntryCpl) (buffer_in sense_buffer : Span) (w : World) : List Msg :=
  if t.pipeline_status = .kUninitialized then
    [⟨"translation.cc", 177, text! "Invalid use of API: Complete called before Begin", []⟩]
  else if cpl.length ≠ t.nvme_cmd_count then
    [⟨"translation.cc", 183, text! "Invalid use of API, completion count %u does not equal command count %u",
      [.size cpl.length, .uint t.nvme_cmd_count]⟩]
  else if t.pipeline_status ≠ .kSuccess then FillSenseBufferLog E sense_buffer rejectedStatus w
  else
    firstErrorLog cpl ++
    match firstError cpl with
    | some s => FillSenseBufferLog E sense_buffer s w
    | none =>
      after (load t.scsi_cmd.ptr t.scsi_cmd.len) w fun cdb w =>
      completeSwitchLog E t (cdb.headD 0) cdb.tail cpl buffer_in w ++
      after (completeSwitch E t (cdb.headD 0) cdb.tail cpl buffer_in) w fun st _ =>
      if st ≠ .kSuccess then [⟨"translation.cc", 284, text! "Failed to translate back to SCSI", []⟩] else []

end Scsi2Nvme.Log
