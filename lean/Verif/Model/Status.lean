import Verif.Model.Common
/-!
# Model of lib/translator/status.cc
-/

namespace Scsi2Nvme.Status
open Scsi2Nvme Scsi

/-- `kDefaultScsiStatus`: lib/translator/status.cc:21-26. -/
def kDefaultScsiStatus : ScsiStatus :=
  ⟨Status.kCheckCondition, SenseKey.kNoSense, Asc.kNoAdditionalSenseInfo, Ascq.kNoAdditionalSenseInfo⟩

/-- `StatusToScsi(GenericCommandStatusCode)`: lib/translator/status.cc:30-109; the enumeration values
are those of third_party/spdk/nvme.h:26-67. -/
def generic (sc : Byte) : ScsiStatus :=
  let d := kDefaultScsiStatus
  match sc.toNat with
  | 0x00 => { d with status := Status.kGood, sense_key := SenseKey.kNoSense }
  | 0x01 => { d with status := Status.kCheckCondition, sense_key := SenseKey.kIllegalRequest,
                     asc := Asc.kInvalidCommandOpCode, ascq := Ascq.kInvalidCommandOpCode }
  | 0x02 => { d with status := Status.kCheckCondition, sense_key := SenseKey.kIllegalRequest,
                     asc := Asc.kInvalidFieldInCdb, ascq := Ascq.kInvalidFieldInCdb }
  | 0x04 => { d with status := Status.kCheckCondition, sense_key := SenseKey.kMediumError }
  | 0x05 => { d with status := Status.kTaskAborted, sense_key := SenseKey.kAbortedCommand,
                     asc := Asc.kWarningPowerLossExpected, ascq := Ascq.kWarningPowerLossExpected }
  | 0x06 => { d with status := Status.kCheckCondition, sense_key := SenseKey.kHardwareError,
                     asc := Asc.kInternalTargetFailure, ascq := Ascq.kInternalTargetFailure }
  | 0x07 => { d with status := Status.kTaskAborted, sense_key := SenseKey.kAbortedCommand }
  | 0x08 => { d with status := Status.kTaskAborted, sense_key := SenseKey.kAbortedCommand }
  | 0x09 => { d with status := Status.kTaskAborted, sense_key := SenseKey.kAbortedCommand }
  | 0x0a => { d with status := Status.kTaskAborted, sense_key := SenseKey.kAbortedCommand }
  | 0x0b => { d with status := Status.kCheckCondition, sense_key := SenseKey.kIllegalRequest,
                     asc := Asc.kAccessDeniedInvalidLuIdentifier,
                     ascq := Ascq.kAccessDeniedInvalidLuIdentifier }
  | 0x80 => { d with status := Status.kCheckCondition, sense_key := SenseKey.kIllegalRequest,
                     asc := Asc.kLbaOutOfRange, ascq := Ascq.kLbaOutOfRange }
  | 0x82 => { d with status := Status.kCheckCondition, sense_key := SenseKey.kNotReady,
                     asc := Asc.kLogicalUnitNotReadyCauseNotReportable,
                     ascq := Ascq.kLogicalUnitNotReadyCauseNotReportable }
  | _ => d

/-- `StatusToScsi(CommandSpecificStatusCode)`: lib/translator/status.cc:113-138; enumeration values of
third_party/spdk/nvme.h:70-113. -/
def commandSpecific (sc : Byte) : ScsiStatus :=
  let d := kDefaultScsiStatus
  match sc.toNat with
  | 0x00 => { d with status := Status.kCheckCondition, sense_key := SenseKey.kIllegalRequest }
  | 0x0a => { d with status := Status.kCheckCondition, sense_key := SenseKey.kIllegalRequest,
                     asc := Asc.kFormatCommandFailed, ascq := Ascq.kFormatCommandFailed }
  | 0x80 => { d with status := Status.kCheckCondition, sense_key := SenseKey.kIllegalRequest,
                     asc := Asc.kInvalidFieldInCdb, ascq := Ascq.kInvalidFieldInCdb }
  | _ => d

/-- `StatusToScsi(MediaErrorStatusCode)`: lib/translator/status.cc:142-201; enumeration values of
third_party/spdk/nvme.h:117-131. -/
def mediaError (sc : Byte) : ScsiStatus :=
  let d := kDefaultScsiStatus
  match sc.toNat with
  | 0x80 => { d with status := Status.kCheckCondition, sense_key := SenseKey.kMediumError,
                     asc := Asc.kPeripheralDeviceWriteFault, ascq := Ascq.kPeripheralDeviceWriteFault }
  | 0x81 => { d with status := Status.kCheckCondition, sense_key := SenseKey.kMediumError,
                     asc := Asc.kUnrecoveredReadError, ascq := Ascq.kUnrecoveredReadError }
  | 0x82 => { d with status := Status.kCheckCondition, sense_key := SenseKey.kMediumError,
                     asc := Asc.kLogicalBlockGuardCheckFailed,
                     ascq := Ascq.kLogicalBlockGuardCheckFailed }
  | 0x83 => { d with status := Status.kCheckCondition, sense_key := SenseKey.kMediumError,
                     asc := Asc.kLogicalBlockApplicationTagCheckFailed,
                     ascq := Ascq.kLogicalBlockApplicationTagCheckFailed }
  | 0x84 => { d with status := Status.kCheckCondition, sense_key := SenseKey.kMediumError,
                     asc := Asc.kLogicalBlockReferenceTagCheckFailed,
                     ascq := Ascq.kLogicalBlockReferenceTagCheckFailed }
  | 0x85 => { d with status := Status.kCheckCondition, sense_key := SenseKey.kMiscompare,
                     asc := Asc.kMiscompareDuringVerifyOp, ascq := Ascq.kMiscompareDuringVerifyOp }
  | 0x86 => { d with status := Status.kCheckCondition, sense_key := SenseKey.kIllegalRequest,
                     asc := Asc.kAccessDeniedInvalidLuIdentifier,
                     ascq := Ascq.kAccessDeniedInvalidLuIdentifier }
  | _ => d

/-- `StatusToScsi(StatusCodeType, uint8_t)`: lib/translator/status.cc:205-224. -/
def StatusToScsi (type : BitVec 3) (status_code : Byte) : ScsiStatus :=
  if type = Nvme.StatusCodeType.kGeneric then generic status_code
  else if type = Nvme.StatusCodeType.kCommandSpecific then commandSpecific status_code
  else if type = Nvme.StatusCodeType.kMediaError then mediaError status_code
  else kDefaultScsiStatus

end Scsi2Nvme.Status
