import Verif.Model.Common
/-!
# Model of verify.cc, synchronize_cache.cc, request_sense.cc, maintenance_in.cc (lib/translator)
-/

namespace Scsi2Nvme
open Scsi2Nvme

namespace Verify

/-- `BuildPrInfo`: lib/translator/verify.cc:23-57. -/
def BuildPrInfo (bytchk vr_protect : Byte) : Byte :=
  let prchk : Byte :=
    if bytchk = 0 then
      match vr_protect.toNat with
      | 0b000 => 0b111
      | 0b001 => 0b111
      | 0b101 => 0b111
      | 0b010 => 0b011
      | 0b011 => 0b000
      | 0b100 => 0b100
      | _ => 0
    else if bytchk = 1 then
      match vr_protect.toNat with
      | 0b000 => 0b111
      | _ => 0
    else 0
  0b1000 ||| prchk

/-- `VerifyToNvme`: lib/translator/verify.cc:61-124.  Neither the namespace id nor `buffer_len` is
assigned by the code. -/
def VerifyToNvme (scsi_cmd : List Byte) (nvme_wrapper : NvmeCmdWrapper) : StatusCode × NvmeCmdWrapper :=
  match readValue Scsi.Verify10Command.size Scsi.Verify10Command.ofBytes scsi_cmd with
  | none => (.kInvalidInput, nvme_wrapper)
  | some c =>
    if c.verification_length = 0 then (.kNoTranslation, nvme_wrapper)
    else if c.naca = 1 then (.kInvalidInput, nvme_wrapper)
    else
      let pr_info := BuildPrInfo (c.bytchk.setWidth 8) (c.vr_protect.setWidth 8)
      (.kSuccess,
        { nvme_wrapper with
          cmd :=
            { opc := Nvme.NvmOpcode.kCompare
              cdw_0 := bswap_32 c.logical_block_address
              cdw_1 := 0
              cdw_2 := htoll (((ntohs c.verification_length).setWidth 32 - 1)
                ||| (pr_info.setWidth 32 <<< 26)) }
          is_admin := false })

end Verify

namespace SynchronizeCache

/-- `SynchronizeCache10ToNvme`: lib/translator/synchronize_cache.cc:23-27.  `buffer_len` is not
assigned. -/
def SynchronizeCache10ToNvme (nvme_wrapper : NvmeCmdWrapper) (nsid : U32) : NvmeCmdWrapper :=
  { nvme_wrapper with cmd := { opc := Nvme.NvmOpcode.kFlush, nsid := nsid }, is_admin := false }

end SynchronizeCache

namespace RequestSense

/-- `TranslateDescriptorSenseData`: lib/translator/request_sense.cc:20-36. -/
def TranslateDescriptorSenseData (buffer : Span) : M StatusCode := do
  let result : Scsi.DescriptorFormatSenseData :=
    { response_code := Scsi.SenseResponse.kCurrentDescriptorError.setWidth 7
      additional_sense_code := Scsi.Asc.kNoAdditionalSenseInfo }
  let ok ← WriteValue' result.toBytes buffer
  pure (if ok then .kSuccess else .kFailure)

/-- `TranslateFixedSenseData`: lib/translator/request_sense.cc:38-65. -/
def TranslateFixedSenseData (buffer : Span) : M StatusCode := do
  let result : Scsi.FixedFormatSenseData :=
    { response_code := Scsi.SenseResponse.kCurrentFixedError.setWidth 7
      additional_sense_length := 0
      command_specific_info := 0
      additional_sense_code := Scsi.Asc.kNoAdditionalSenseInfo }
  let ok ← WriteValue' result.toBytes buffer
  pure (if ok then .kSuccess else .kFailure)

/-- `RequestSenseToNvme`: lib/translator/request_sense.cc:69-83. -/
def RequestSenseToNvme (scsi_cmd : List Byte) (allocation_length : U32) : StatusCode × U32 :=
  match readValue Scsi.RequestSenseCommand.size Scsi.RequestSenseCommand.ofBytes scsi_cmd with
  | none => (.kInvalidInput, allocation_length)
  | some c =>
    if c.naca = 1 then (.kInvalidInput, allocation_length)
    else (.kSuccess, c.allocation_length.setWidth 32)

/-- `RequestSenseToScsi`: lib/translator/request_sense.cc:85-98. -/
def RequestSenseToScsi (scsi_cmd : List Byte) (buffer : Span) : M StatusCode :=
  match readValue Scsi.RequestSenseCommand.size Scsi.RequestSenseCommand.ofBytes scsi_cmd with
  | none => pure .kInvalidInput
  | some c =>
    if c.desc = 1 then TranslateDescriptorSenseData buffer
    else TranslateFixedSenseData buffer

end RequestSense

namespace MaintenanceIn

/-- `ValidateReportSupportedOpCodes`: lib/translator/maintenance_in.cc:21-41. -/
def ValidateReportSupportedOpCodes (scsi_cmd : List Byte) (alloc_len : U32) : StatusCode × U32 :=
  match readValue Scsi.ReportOpCodesCommand.size Scsi.ReportOpCodesCommand.ofBytes scsi_cmd with
  | none => (.kInvalidInput, alloc_len)
  | some c =>
    if c.requested_op_code ≠ Scsi.OpCode.kWriteSame16 ∨ c.reporting_options ≠ 0b001 then
      (.kInvalidInput, alloc_len)
    else (.kSuccess, BitVec.ofNat 32 Scsi.OneCommandParamData.size)

/-- `WriteReportSupportedOpCodesResult`: lib/translator/maintenance_in.cc:43-50. -/
def WriteReportSupportedOpCodesResult (buffer : Span) : M Unit := do
  let data : Scsi.OneCommandParamData := { support := 0b001 }
  let _ ← WriteValue' data.toBytes buffer
  pure ()

end MaintenanceIn

end Scsi2Nvme
