import Verif.Model.Layout
/-!
# Model of lib/scsi.h

The wire structures the translator uses, transcribed field by field (`name : width in bits`); nested
structures (`ControlByte`, lib/scsi.h:427-432, and `MaintenanceInHeader`, lib/scsi.h:892-896) are flattened.
Enumerations are represented by their underlying values.
-/

namespace Scsi2Nvme.Scsi
open Scsi2Nvme

/-! ## Enumerations -/

/-- lib/scsi.h:30 -/
def Status.kGood : Byte := 0x00
/-- lib/scsi.h:31 -/
def Status.kCheckCondition : Byte := 0x02
/-- lib/scsi.h:40 -/
def Status.kTaskAborted : Byte := 0x40

/-- lib/scsi.h:46 -/
def SenseResponse.kCurrentFixedError : Byte := 0x70
/-- lib/scsi.h:48 -/
def SenseResponse.kCurrentDescriptorError : Byte := 0x72

/-- lib/scsi.h:55 -/
def SenseKey.kNoSense : Byte := 0x0
/-- lib/scsi.h:57 -/
def SenseKey.kNotReady : Byte := 0x2
/-- lib/scsi.h:58 -/
def SenseKey.kMediumError : Byte := 0x3
/-- lib/scsi.h:59 -/
def SenseKey.kHardwareError : Byte := 0x4
/-- lib/scsi.h:60 -/
def SenseKey.kIllegalRequest : Byte := 0x5
/-- lib/scsi.h:66 -/
def SenseKey.kAbortedCommand : Byte := 0xb
/-- lib/scsi.h:69 -/
def SenseKey.kMiscompare : Byte := 0xe

/-- lib/scsi.h:76 -/
def Asc.kNoAdditionalSenseInfo : Byte := 0x0
/-- lib/scsi.h:77 -/
def Asc.kPeripheralDeviceWriteFault : Byte := 0x03
/-- lib/scsi.h:78 -/
def Asc.kLogicalUnitNotReadyCauseNotReportable : Byte := 0x04
/-- lib/scsi.h:79 -/
def Asc.kWarningPowerLossExpected : Byte := 0x0b
/-- lib/scsi.h:80 -/
def Asc.kLogicalBlockGuardCheckFailed : Byte := 0x10
/-- lib/scsi.h:81 -/
def Asc.kLogicalBlockApplicationTagCheckFailed : Byte := 0x10
/-- lib/scsi.h:82 -/
def Asc.kLogicalBlockReferenceTagCheckFailed : Byte := 0x10
/-- lib/scsi.h:83 -/
def Asc.kUnrecoveredReadError : Byte := 0x11
/-- lib/scsi.h:84 -/
def Asc.kMiscompareDuringVerifyOp : Byte := 0x1d
/-- lib/scsi.h:85 -/
def Asc.kAccessDeniedInvalidLuIdentifier : Byte := 0x20
/-- lib/scsi.h:86 -/
def Asc.kInvalidCommandOpCode : Byte := 0x20
/-- lib/scsi.h:87 -/
def Asc.kLbaOutOfRange : Byte := 0x21
/-- lib/scsi.h:88 -/
def Asc.kInvalidFieldInCdb : Byte := 0x24
/-- lib/scsi.h:89 -/
def Asc.kFormatCommandFailed : Byte := 0x31
/-- lib/scsi.h:90 -/
def Asc.kInternalTargetFailure : Byte := 0x44

/-- lib/scsi.h:97 -/
def Ascq.kNoAdditionalSenseInfo : Byte := 0x0
/-- lib/scsi.h:98 -/
def Ascq.kPeripheralDeviceWriteFault : Byte := 0x0
/-- lib/scsi.h:99 -/
def Ascq.kLogicalUnitNotReadyCauseNotReportable : Byte := 0x0
/-- lib/scsi.h:100 -/
def Ascq.kWarningPowerLossExpected : Byte := 0x08
/-- lib/scsi.h:101 -/
def Ascq.kLogicalBlockGuardCheckFailed : Byte := 0x01
/-- lib/scsi.h:102 -/
def Ascq.kLogicalBlockApplicationTagCheckFailed : Byte := 0x02
/-- lib/scsi.h:103 -/
def Ascq.kLogicalBlockReferenceTagCheckFailed : Byte := 0x03
/-- lib/scsi.h:104 -/
def Ascq.kUnrecoveredReadError : Byte := 0x0
/-- lib/scsi.h:105 -/
def Ascq.kMiscompareDuringVerifyOp : Byte := 0x0
/-- lib/scsi.h:106 -/
def Ascq.kAccessDeniedInvalidLuIdentifier : Byte := 0x09
/-- lib/scsi.h:107 -/
def Ascq.kInvalidCommandOpCode : Byte := 0x0
/-- lib/scsi.h:108 -/
def Ascq.kLbaOutOfRange : Byte := 0x0
/-- lib/scsi.h:109 -/
def Ascq.kInvalidFieldInCdb : Byte := 0x0
/-- lib/scsi.h:110 -/
def Ascq.kFormatCommandFailed : Byte := 0x01
/-- lib/scsi.h:111 -/
def Ascq.kInternalTargetFailure : Byte := 0x0

/-- lib/scsi.h:144 -/
def Version.kSpc4 : Byte := 0x6

/-- lib/scsi.h:153 -/
def OpCode.kTestUnitReady : Byte := 0x00
/-- lib/scsi.h:154 -/
def OpCode.kRequestSense : Byte := 0x03
/-- lib/scsi.h:155 -/
def OpCode.kRead6 : Byte := 0x08
/-- lib/scsi.h:156 -/
def OpCode.kWrite6 : Byte := 0x0a
/-- lib/scsi.h:157 -/
def OpCode.kInquiry : Byte := 0x12
/-- lib/scsi.h:160 -/
def OpCode.kModeSense6 : Byte := 0x1a
/-- lib/scsi.h:163 -/
def OpCode.kReadCapacity10 : Byte := 0x25
/-- lib/scsi.h:164 -/
def OpCode.kRead10 : Byte := 0x28
/-- lib/scsi.h:165 -/
def OpCode.kWrite10 : Byte := 0x2a
/-- lib/scsi.h:166 -/
def OpCode.kVerify10 : Byte := 0x2f
/-- lib/scsi.h:167 -/
def OpCode.kSync10 : Byte := 0x35
/-- lib/scsi.h:168 -/
def OpCode.kUnmap : Byte := 0x42
/-- lib/scsi.h:170 -/
def OpCode.kModeSense10 : Byte := 0x5a
/-- lib/scsi.h:176 -/
def OpCode.kRead16 : Byte := 0x88
/-- lib/scsi.h:177 -/
def OpCode.kWrite16 : Byte := 0x8a
/-- lib/scsi.h:180 -/
def OpCode.kWriteSame16 : Byte := 0x93
/-- lib/scsi.h:182 -/
def OpCode.kReportLuns : Byte := 0xa0
/-- lib/scsi.h:183 -/
def OpCode.kMaintenanceIn : Byte := 0xa3
/-- lib/scsi.h:184 -/
def OpCode.kRead12 : Byte := 0xa8
/-- lib/scsi.h:185 -/
def OpCode.kWrite12 : Byte := 0xaa

/-- lib/scsi.h:193 -/
def ModePageCode.kCacheMode : BitVec 6 := 0x08
/-- lib/scsi.h:194 -/
def ModePageCode.kControlMode : BitVec 6 := 0x0a
/-- lib/scsi.h:195 -/
def ModePageCode.kPowerConditionMode : BitVec 6 := 0x1a
/-- lib/scsi.h:196 -/
def ModePageCode.kAllSupportedModes : BitVec 6 := 0x3f

/-- lib/scsi.h:200 -/
def PageCode.kSupportedVpd : Byte := 0x00
/-- lib/scsi.h:201 -/
def PageCode.kUnitSerialNumber : Byte := 0x80
/-- lib/scsi.h:202 -/
def PageCode.kDeviceIdentification : Byte := 0x83
/-- lib/scsi.h:203 -/
def PageCode.kExtended : Byte := 0x86
/-- lib/scsi.h:204 -/
def PageCode.kBlockLimitsVpd : Byte := 0xb0
/-- lib/scsi.h:205 -/
def PageCode.kBlockDeviceCharacteristicsVpd : Byte := 0xb1
/-- lib/scsi.h:206 -/
def PageCode.kLogicalBlockProvisioningVpd : Byte := 0xb2

/-- lib/scsi.h:234 -/
def ActivateMicrocode.kActivateAfterHardReset : BitVec 2 := 0b10
/-- lib/scsi.h:245 -/
def Association.kPhysicalDevice : BitVec 2 := 0
/-- lib/scsi.h:264 -/
def CodeSet.kBinary : BitVec 4 := 1
/-- lib/scsi.h:292 -/
def IdentifierType.kEUI64 : BitVec 4 := 2
/-- lib/scsi.h:324 -/
def ProtocolIdentifier.kFibreChannel : BitVec 4 := 0
/-- lib/scsi.h:337 -/
def MediumRotationRate.kNonRotatingMedium : U16 := 1
/-- lib/scsi.h:399 -/
def NominalFormFactor.kNotReported : BitVec 4 := 0
/-- lib/scsi.h:423 -/
def PageLength.kExtendedInquiryCommand : U16 := 0x3c
/-- lib/scsi.h:424 -/
def PageLength.kBlockDeviceCharacteristicsVpd : U16 := 0x3c
/-- lib/scsi.h:117 -/
def PeripheralDeviceType.kDirectAccessBlock : BitVec 5 := 0
/-- lib/scsi.h:478 -/
def PeripheralQualifier.kPeripheralDeviceConnected : BitVec 3 := 0
/-- lib/scsi.h:488 -/
def TPGS.kNotSupported : BitVec 2 := 0
/-- lib/scsi.h:497 -/
def ResponseDataFormat.kCompliant : BitVec 4 := 2
/-- lib/scsi.h:503 -/
def PageControl.kCurrent : BitVec 2 := 0b00
/-- lib/scsi.h:504 -/
def PageControl.kChangeable : BitVec 2 := 0b01
/-- lib/scsi.h:505 -/
def PageControl.kDefault : BitVec 2 := 0b10
/-- lib/scsi.h:864 -/
def SelectReport.kRestrictedMethods : Byte := 0
/-- lib/scsi.h:865 -/
def SelectReport.kWellKnown : Byte := 1
/-- lib/scsi.h:866 -/
def SelectReport.kAllLogical : Byte := 2

/-! ## Command descriptor blocks (without the opcode byte) -/

/-- lib/scsi.h:444-451 -/
packed_struct ReadCapacity10Command where
  reserved_1 : 8, logical_block_address : 32, reserved_2 : 16, reserved_3 : 8,
  cb_obsolete : 2, naca : 1, cb_reserved : 3, cb_vendor : 2

/-- lib/scsi.h:464-472 -/
packed_struct InquiryCommand where
  evpd : 1, obsolete : 1, reserved : 6, page_code : 8, allocation_length : 16,
  cb_obsolete : 2, naca : 1, cb_reserved : 3, cb_vendor : 2

/-- lib/scsi.h:628-635 -/
packed_struct Read6Command where
  logical_block_address_1 : 5, reserved : 3, logical_block_address_2 : 16, transfer_length : 8,
  cb_obsolete : 2, naca : 1, cb_reserved : 3, cb_vendor : 2

/-- lib/scsi.h:639-651 -/
packed_struct Read10Command where
  obsolete : 2, rarc : 1, fua : 1, dpo : 1, rd_protect : 3, logical_block_address : 32,
  group_number : 5, reserved : 3, transfer_length : 16,
  cb_obsolete : 2, naca : 1, cb_reserved : 3, cb_vendor : 2

/-- lib/scsi.h:655-668 -/
packed_struct Read12Command where
  obsolete : 2, rarc : 1, fua : 1, dpo : 1, rd_protect : 3, logical_block_address : 32,
  transfer_length : 32, group_number : 5, reserved : 2, restricted_mmc_6 : 1,
  cb_obsolete : 2, naca : 1, cb_reserved : 3, cb_vendor : 2

/-- lib/scsi.h:672-686 -/
packed_struct Read16Command where
  dld_2 : 1, obsolete : 1, rarc : 1, fua : 1, dpo : 1, rd_protect : 3, logical_block_address : 64,
  transfer_length : 32, group_number : 6, dld_0 : 1, dld_1 : 1,
  cb_obsolete : 2, naca : 1, cb_reserved : 3, cb_vendor : 2

/-- lib/scsi.h:690-697 -/
packed_struct Write6Command where
  logical_block_address_1 : 5, reserved : 3, logical_block_address_2 : 16, transfer_length : 8,
  cb_obsolete : 2, naca : 1, cb_reserved : 3, cb_vendor : 2

/-- lib/scsi.h:701-713 -/
packed_struct Write10Command where
  obsolete : 2, reserved_1 : 1, fua : 1, dpo : 1, wr_protect : 3, logical_block_address : 32,
  group_number : 5, reserved_2 : 3, transfer_length : 16,
  cb_obsolete : 2, naca : 1, cb_reserved : 3, cb_vendor : 2

/-- lib/scsi.h:717-730 -/
packed_struct Write12Command where
  obsolete : 2, reserved_1 : 1, fua : 1, dpo : 1, wr_protect : 3, logical_block_address : 32,
  transfer_length : 32, group_number : 5, reserved_2 : 2, restricted_mmc_5 : 1,
  cb_obsolete : 2, naca : 1, cb_reserved : 3, cb_vendor : 2

/-- lib/scsi.h:734-748 -/
packed_struct Write16Command where
  dld_2 : 1, obsolete : 1, reserved : 1, fua : 1, dpo : 1, wr_protect : 3, logical_block_address : 64,
  transfer_length : 32, group_number : 6, dld_0 : 1, dld_1 : 1,
  cb_obsolete : 2, naca : 1, cb_reserved : 3, cb_vendor : 2

/-- lib/scsi.h:752-765 -/
packed_struct Verify10Command where
  obsolete : 1, bytchk : 2, reserved_1 : 1, dpo : 1, vr_protect : 3, logical_block_address : 32,
  group_number : 5, reserved_2 : 2, restricted_mmc_5 : 1, verification_length : 16,
  cb_obsolete : 2, naca : 1, cb_reserved : 3, cb_vendor : 2

/-- lib/scsi.h:833-843 -/
packed_struct ModeSense6Command where
  reserved_1 : 3, dbd : 1, reserved_2 : 4, page_code : 6, pc : 2, sub_page_code : 8, alloc_length : 8,
  cb_obsolete : 2, naca : 1, cb_reserved : 3, cb_vendor : 2

/-- lib/scsi.h:847-859 -/
packed_struct ModeSense10Command where
  reserved_1 : 3, dbd : 1, llbaa : 1, reserved_2 : 3, page_code : 6, pc : 2, sub_page_code : 8,
  reserved_3 : 24, alloc_length : 16,
  cb_obsolete : 2, naca : 1, cb_reserved : 3, cb_vendor : 2

/-- lib/scsi.h:871-879 -/
packed_struct ReportLunsCommand where
  reserved_1 : 8, select_report : 8, reserved_2 : 24, alloc_length : 32, reserved_3 : 8,
  cb_obsolete : 2, naca : 1, cb_reserved : 3, cb_vendor : 2

/-- lib/scsi.h:900-911 (header: 892-896) -/
packed_struct ReportOpCodesCommand where
  service_action : 5, mi_reserved_1 : 3, reporting_options : 3, reserved_1 : 4, rctd : 1,
  requested_op_code : 8, requested_service_action : 16, alloc_length : 32, reserved_2 : 8,
  cb_obsolete : 2, naca : 1, cb_reserved : 3, cb_vendor : 2

/-- lib/scsi.h:1028-1037 -/
packed_struct UnmapCommand where
  anchor : 1, reserved_1 : 7, reserved_2 : 32, group_number : 5, reserved_3 : 3,
  param_list_length : 16,
  cb_obsolete : 2, naca : 1, cb_reserved : 3, cb_vendor : 2

/-- lib/scsi.h:1198-1205 -/
packed_struct RequestSenseCommand where
  desc : 1, reserved_1 : 7, reserved_2 : 16, allocation_length : 8,
  cb_obsolete : 2, naca : 1, cb_reserved : 3, cb_vendor : 2

/-! ## Parameter data -/

/-- lib/scsi.h:455-459 -/
packed_struct ReadCapacity10Data where
  returned_logical_block_address : 32, block_length : 32

/-- lib/scsi.h:513-558.  Byte arrays are fields of 8 times their length bits (first byte = least
significant). -/
packed_struct InquiryData where
  peripheral_device_type : 5, peripheral_qualifier : 3,
  reserved_1 : 6, lu_cong : 1, rmb : 1,
  version : 8,
  response_data_format : 4, hisup : 1, normaca : 1, reserved_2 : 2,
  additional_length : 8,
  protect : 1, reserved_3 : 2, third_party_copy : 1, tpgs : 2, acc : 1, sccs : 1,
  addr_16 : 1, reserved_4 : 2, obsolete_1 : 1, multip : 1, vs_1 : 1, encserv : 1, obsolete_2 : 1,
  vs_2 : 1, cmdque : 1, reserved_5 : 1, obsolete_3 : 1, sync : 1, wbus_16 : 1, reserved_6 : 1, obsolete_4 : 1,
  vendor_identification : 64,
  product_identification : 128,
  product_revision_level : 32,
  vendor_specific_1 : 160,
  ius : 1, qas : 1, clocking : 2, reserved_7 : 4,
  reserved_8 : 8,
  vendor_descriptors : 128,
  reserved_9 : 176

/-- lib/scsi.h:884-888 -/
packed_struct ReportLunsParamData where
  list_byte_length : 32, reserved_1 : 32

/-- lib/scsi.h:960-967 -/
packed_struct OneCommandParamData where
  reserved_1 : 8, support : 3, reserved_2 : 4, ctdp : 1, cdb_size : 16

/-- lib/scsi.h:1042-1047 -/
packed_struct UnmapParamList where
  data_length : 16, block_desc_data_length : 16, reserved_1 : 32

/-- lib/scsi.h:1051-1056 -/
packed_struct UnmapBlockDescriptor where
  logical_block_addr : 64, logical_block_count : 32, reserved_1 : 32

/-- lib/scsi.h:1060-1090 -/
packed_struct CachingModePage where
  page_code : 6, spf : 1, ps : 1,
  page_length : 8,
  rcd : 1, mf : 1, wce : 1, size_enable : 1, disc : 1, cap : 1, abpf : 1, ic : 1,
  wrp : 4, drrp : 4,
  dptl : 16, min_prefetch : 16, max_prefetch : 16, max_prefetch_ceil : 16,
  nv_dis : 1, sync_prog : 2, vs : 2, dra : 1, lbcss : 1, fsw : 1,
  nocs : 8, cache_segment_time : 16, reserved : 8, obsolete : 24

/-- lib/scsi.h:1094-1124 -/
packed_struct ControlModePage where
  page_code : 6, spf : 1, ps : 1,
  page_length : 8,
  rlec : 1, gltsd : 1, d_sense : 1, dpicz : 1, tmf_only : 1, tst : 3,
  dque : 1, qerr : 2, nuar : 1, qam : 4,
  obsolete_1 : 3, swp : 1, ua_intlck_ctrl : 2, rac : 1, vs : 1,
  autoload_mode : 3, reserved : 1, rwwp : 1, atmpe : 1, tas : 1, ato : 1,
  obsolete_2 : 16, busy_timeout_period : 16, estct : 16

/-- lib/scsi.h:1128-1152 -/
packed_struct PowerConditionModePage where
  page_code : 6, spf : 1, ps : 1,
  page_length : 8,
  standby_y : 1, reserved_1 : 5, pm_bg_precedence : 2,
  standby_z : 1, idle_a : 1, idle_b : 1, idle_c : 1, reserved_2 : 4,
  idle_a_ct : 32, standby_z_ct : 32, idle_b_ct : 32, idle_c_ct : 32, standby_y_ct : 32,
  reserved_3 : 120,
  reserved_4 : 2, ccf_stopped : 2, ccf_standby : 2, ccf_idle : 2

/-- lib/scsi.h:1156-1165 -/
packed_struct ModeParameter6Header where
  mode_data_length : 8, medium_type : 8, reserved_2 : 4, dpofua : 1, reserved_1 : 2, wp : 1, bdl : 8

/-- lib/scsi.h:1169-1180 -/
packed_struct ModeParameter10Header where
  mode_data_length : 16, medium_type : 8, reserved_1 : 4, dpofua : 1, reserved_2 : 2, wp : 1,
  longlba : 1, reserved_3 : 15, bdl : 16

/-- lib/scsi.h:1182-1187 -/
packed_struct ShortLbaBlockDescriptor where
  number_of_blocks : 32, reserved : 8, logical_block_length : 24

/-- lib/scsi.h:1189-1194 -/
packed_struct LongLbaBlockDescriptor where
  number_of_blocks : 64, reserved : 32, logical_block_length : 32

/-- lib/scsi.h:1209-1228 -/
packed_struct FixedFormatSenseData where
  response_code : 7, valid : 1, obsolete : 8,
  sense_key : 4, reserved_1 : 1, ili : 1, eom : 1, filemark : 1,
  info : 32, additional_sense_length : 8, command_specific_info : 32,
  additional_sense_code : 8, additional_sense_code_qualifier : 8, field_replaceable_unit_code : 8,
  sense_key_specific_1 : 7, sksv : 1, sense_key_specific_2 : 16

/-- lib/scsi.h:1232-1242 -/
packed_struct DescriptorFormatSenseData where
  response_code : 7, reserved_1 : 1, sense_key : 4, reserved_2 : 4,
  additional_sense_code : 8, additional_sense_code_qualifier : 8, reserved_3 : 24,
  additional_sense_length : 8

/-- lib/scsi.h:1246-1254 -/
packed_struct SupportedVitalProductData where
  peripheral_device_type : 5, peripheral_qualifier : 3, page_code : 8, reserved : 8, page_length : 8

/-- lib/scsi.h:1258-1266 -/
packed_struct UnitSerialNumber where
  peripheral_device_type : 5, peripheral_qualifier : 3, page_code : 8, reserved : 8, page_length : 8

/-- lib/scsi.h:1270-1280 -/
packed_struct IdentificationDescriptor where
  code_set : 4, protocol_identifier : 4, identifier_type : 4, association : 2, reserved1 : 1,
  protocol_identifier_valid : 1, reserved2 : 8, identifier_length : 8

/-- lib/scsi.h:1284-1290 -/
packed_struct DeviceIdentificationVpd where
  peripheral_device_type : 5, peripheral_qualifier : 3, page_code : 8, page_length : 8

/-- lib/scsi.h:1294-1337 -/
packed_struct ExtendedInquiryDataVpd where
  peripheral_device_type : 5, peripheral_qualifer : 3, page_code : 8, page_length : 16,
  ref_chk : 1, app_chk : 1, grd_chk : 1, spt : 3, activate_microcode : 2,
  simpsup : 1, ordsup : 1, headsup : 1, prior_sup : 1, group_sup : 1, uask_sup : 1, reserved1 : 2,
  v_sup : 1, nv_sup : 1, crd_sup : 1, wu_sup : 1, reserved2 : 4,
  luiclr : 1, reserved3 : 3, p_i_i_sup : 1, no_pi_chk : 1, reserved4 : 2,
  obsolete : 1, hssrelef : 1, rtd_sup : 1, reserved5 : 1, r_sup : 1, reserved6 : 3,
  multi_t_nexus_microcode_download : 4, reserved7 : 4,
  extended_self_test_completion_minutes : 16,
  reserved8 : 5, vsa_sup : 1, hra_sup : 1, poa_sup : 1,
  maximum_supported_sense_data_length : 8

/-- lib/scsi.h:1341-1358 -/
packed_struct BlockDeviceCharacteristicsVpd where
  peripheral_device_type : 5, peripheral_qualifier : 3, page_code : 8, page_length : 16,
  medium_rotation_rate : 16, product_type : 8,
  nominal_form_factor : 4, wacereq : 2, wabereq : 2,
  vbuls : 1, fuab : 1, bocs : 1, reserved1 : 1, zoned : 2, reserved2 : 2

/-- lib/scsi.h:1363-1380 -/
packed_struct LogicalBlockProvisioningVpd where
  peripheral_device_type : 5, peripheral_qualifier : 3, page_code : 8, page_length : 16,
  threshold_exponent : 8,
  dp : 1, anc_sup : 1, lbprz : 3, lbpws10 : 1, lbpws : 1, lbpu : 1,
  provisioning_type : 3, min_percentage : 5,
  threshold_percentage : 8, provisioning_group_descriptor : 448

/-- lib/scsi.h:1384-1409 -/
packed_struct BlockLimitsVpd where
  peripheral_device_type : 5, peripheral_qualifier : 3, page_code : 8, page_length : 16,
  wsnz : 1, reserved : 7, max_compare_write_length : 8,
  optimal_translater_length_granularity : 16,
  max_transfer_length : 32, optimal_transfer_length : 32, max_prefetch_length : 32,
  max_unmap_lba_count : 32, max_unmap_block_descriptor_count : 32, optimal_unmap_granularity : 32,
  unmap_granularity_alignment_1 : 7, ugavalid : 1, unmap_graularity_alignment_2 : 24,
  max_write_same_length : 64,
  max_atomic_transfer_length : 32, atomic_alignment : 32, atomic_transfer_length_granularity : 32,
  max_atomic_transfer_length_with_atomic_boundary : 32, max_atomic_boundary_size : 32

end Scsi2Nvme.Scsi
