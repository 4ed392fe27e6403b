import Verif.Proofs.Structs
/-!
# Struct layouts (C63)

One theorem per packed structure the translator encodes or decodes; the sizes are those of the `static_assert`s.
-/

namespace Scsi2Nvme

/-- A wire format: every value is encoded in exactly `size` bytes, and decoding and encoding are inverse to each
other. -/
structure WireFormat (size : Nat) (encode : α → List Byte) (decode : List Byte → α) : Prop where
  length : ∀ x, (encode x).length = size
  decode_encode : ∀ x, decode (encode x) = x
  encode_decode : ∀ bs : List Byte, bs.length = size → encode (decode bs) = bs

/-- **C63.** third_party/spdk/nvme.h:230 -/
theorem C63_GenericQueueEntryCpl : WireFormat 16 Nvme.GenericQueueEntryCpl.toBytes Nvme.GenericQueueEntryCpl.ofBytes :=
  ⟨Nvme.GenericQueueEntryCpl.toBytes_length, Nvme.GenericQueueEntryCpl.ofBytes_toBytes, Nvme.GenericQueueEntryCpl.toBytes_ofBytes⟩

/-- **C63.** third_party/spdk/nvme.h:339 -/
theorem C63_GenericQueueEntryCmd : WireFormat 64 Nvme.GenericQueueEntryCmd.toBytes Nvme.GenericQueueEntryCmd.ofBytes :=
  ⟨Nvme.GenericQueueEntryCmd.toBytes_length, Nvme.GenericQueueEntryCmd.ofBytes_toBytes, Nvme.GenericQueueEntryCmd.toBytes_ofBytes⟩

/-- **C63.** third_party/spdk/nvme.h:371 -/
theorem C63_GetFeaturesCmd : WireFormat 64 Nvme.GetFeaturesCmd.toBytes Nvme.GetFeaturesCmd.ofBytes :=
  ⟨Nvme.GetFeaturesCmd.toBytes_length, Nvme.GetFeaturesCmd.ofBytes_toBytes, Nvme.GetFeaturesCmd.toBytes_ofBytes⟩

/-- **C63.** third_party/spdk/nvme.h:406 -/
theorem C63_DatasetManagementCmd : WireFormat 64 Nvme.DatasetManagementCmd.toBytes Nvme.DatasetManagementCmd.ofBytes :=
  ⟨Nvme.DatasetManagementCmd.toBytes_length, Nvme.DatasetManagementCmd.ofBytes_toBytes, Nvme.DatasetManagementCmd.toBytes_ofBytes⟩

/-- **C63.** third_party/spdk/nvme.h:415 -/
theorem C63_DatasetManagmentRange : WireFormat 16 Nvme.DatasetManagmentRange.toBytes Nvme.DatasetManagmentRange.ofBytes :=
  ⟨Nvme.DatasetManagmentRange.toBytes_length, Nvme.DatasetManagmentRange.ofBytes_toBytes, Nvme.DatasetManagmentRange.toBytes_ofBytes⟩

/-- **C63.** lib/scsi.h:451 -/
theorem C63_ReadCapacity10Command : WireFormat 9 Scsi.ReadCapacity10Command.toBytes Scsi.ReadCapacity10Command.ofBytes :=
  ⟨Scsi.ReadCapacity10Command.toBytes_length, Scsi.ReadCapacity10Command.ofBytes_toBytes, Scsi.ReadCapacity10Command.toBytes_ofBytes⟩

/-- **C63.** lib/scsi.h:472 -/
theorem C63_InquiryCommand : WireFormat 5 Scsi.InquiryCommand.toBytes Scsi.InquiryCommand.ofBytes :=
  ⟨Scsi.InquiryCommand.toBytes_length, Scsi.InquiryCommand.ofBytes_toBytes, Scsi.InquiryCommand.toBytes_ofBytes⟩

/-- **C63.** lib/scsi.h:635 -/
theorem C63_Read6Command : WireFormat 5 Scsi.Read6Command.toBytes Scsi.Read6Command.ofBytes :=
  ⟨Scsi.Read6Command.toBytes_length, Scsi.Read6Command.ofBytes_toBytes, Scsi.Read6Command.toBytes_ofBytes⟩

/-- **C63.** lib/scsi.h:651 -/
theorem C63_Read10Command : WireFormat 9 Scsi.Read10Command.toBytes Scsi.Read10Command.ofBytes :=
  ⟨Scsi.Read10Command.toBytes_length, Scsi.Read10Command.ofBytes_toBytes, Scsi.Read10Command.toBytes_ofBytes⟩

/-- **C63.** lib/scsi.h:668 -/
theorem C63_Read12Command : WireFormat 11 Scsi.Read12Command.toBytes Scsi.Read12Command.ofBytes :=
  ⟨Scsi.Read12Command.toBytes_length, Scsi.Read12Command.ofBytes_toBytes, Scsi.Read12Command.toBytes_ofBytes⟩

/-- **C63.** lib/scsi.h:686 -/
theorem C63_Read16Command : WireFormat 15 Scsi.Read16Command.toBytes Scsi.Read16Command.ofBytes :=
  ⟨Scsi.Read16Command.toBytes_length, Scsi.Read16Command.ofBytes_toBytes, Scsi.Read16Command.toBytes_ofBytes⟩

/-- **C63.** lib/scsi.h:697 -/
theorem C63_Write6Command : WireFormat 5 Scsi.Write6Command.toBytes Scsi.Write6Command.ofBytes :=
  ⟨Scsi.Write6Command.toBytes_length, Scsi.Write6Command.ofBytes_toBytes, Scsi.Write6Command.toBytes_ofBytes⟩

/-- **C63.** lib/scsi.h:713 -/
theorem C63_Write10Command : WireFormat 9 Scsi.Write10Command.toBytes Scsi.Write10Command.ofBytes :=
  ⟨Scsi.Write10Command.toBytes_length, Scsi.Write10Command.ofBytes_toBytes, Scsi.Write10Command.toBytes_ofBytes⟩

/-- **C63.** lib/scsi.h:730 -/
theorem C63_Write12Command : WireFormat 11 Scsi.Write12Command.toBytes Scsi.Write12Command.ofBytes :=
  ⟨Scsi.Write12Command.toBytes_length, Scsi.Write12Command.ofBytes_toBytes, Scsi.Write12Command.toBytes_ofBytes⟩

/-- **C63.** lib/scsi.h:748 -/
theorem C63_Write16Command : WireFormat 15 Scsi.Write16Command.toBytes Scsi.Write16Command.ofBytes :=
  ⟨Scsi.Write16Command.toBytes_length, Scsi.Write16Command.ofBytes_toBytes, Scsi.Write16Command.toBytes_ofBytes⟩

/-- **C63.** lib/scsi.h:765 -/
theorem C63_Verify10Command : WireFormat 9 Scsi.Verify10Command.toBytes Scsi.Verify10Command.ofBytes :=
  ⟨Scsi.Verify10Command.toBytes_length, Scsi.Verify10Command.ofBytes_toBytes, Scsi.Verify10Command.toBytes_ofBytes⟩

/-- **C63.** lib/scsi.h:843 -/
theorem C63_ModeSense6Command : WireFormat 5 Scsi.ModeSense6Command.toBytes Scsi.ModeSense6Command.ofBytes :=
  ⟨Scsi.ModeSense6Command.toBytes_length, Scsi.ModeSense6Command.ofBytes_toBytes, Scsi.ModeSense6Command.toBytes_ofBytes⟩

/-- **C63.** lib/scsi.h:859 -/
theorem C63_ModeSense10Command : WireFormat 9 Scsi.ModeSense10Command.toBytes Scsi.ModeSense10Command.ofBytes :=
  ⟨Scsi.ModeSense10Command.toBytes_length, Scsi.ModeSense10Command.ofBytes_toBytes, Scsi.ModeSense10Command.toBytes_ofBytes⟩

/-- **C63.** lib/scsi.h:879 -/
theorem C63_ReportLunsCommand : WireFormat 11 Scsi.ReportLunsCommand.toBytes Scsi.ReportLunsCommand.ofBytes :=
  ⟨Scsi.ReportLunsCommand.toBytes_length, Scsi.ReportLunsCommand.ofBytes_toBytes, Scsi.ReportLunsCommand.toBytes_ofBytes⟩

/-- **C63.** lib/scsi.h:911 -/
theorem C63_ReportOpCodesCommand : WireFormat 11 Scsi.ReportOpCodesCommand.toBytes Scsi.ReportOpCodesCommand.ofBytes :=
  ⟨Scsi.ReportOpCodesCommand.toBytes_length, Scsi.ReportOpCodesCommand.ofBytes_toBytes, Scsi.ReportOpCodesCommand.toBytes_ofBytes⟩

/-- **C63.** lib/scsi.h:1037 -/
theorem C63_UnmapCommand : WireFormat 9 Scsi.UnmapCommand.toBytes Scsi.UnmapCommand.ofBytes :=
  ⟨Scsi.UnmapCommand.toBytes_length, Scsi.UnmapCommand.ofBytes_toBytes, Scsi.UnmapCommand.toBytes_ofBytes⟩

/-- **C63.** lib/scsi.h:1205 -/
theorem C63_RequestSenseCommand : WireFormat 5 Scsi.RequestSenseCommand.toBytes Scsi.RequestSenseCommand.ofBytes :=
  ⟨Scsi.RequestSenseCommand.toBytes_length, Scsi.RequestSenseCommand.ofBytes_toBytes, Scsi.RequestSenseCommand.toBytes_ofBytes⟩

/-- **C63.** lib/scsi.h:459 -/
theorem C63_ReadCapacity10Data : WireFormat 8 Scsi.ReadCapacity10Data.toBytes Scsi.ReadCapacity10Data.ofBytes :=
  ⟨Scsi.ReadCapacity10Data.toBytes_length, Scsi.ReadCapacity10Data.ofBytes_toBytes, Scsi.ReadCapacity10Data.toBytes_ofBytes⟩

/-- **C63.** lib/scsi.h:558 -/
theorem C63_InquiryData : WireFormat 96 Scsi.InquiryData.toBytes Scsi.InquiryData.ofBytes :=
  ⟨Scsi.InquiryData.toBytes_length, Scsi.InquiryData.ofBytes_toBytes, Scsi.InquiryData.toBytes_ofBytes⟩

/-- **C63.** lib/scsi.h:888 -/
theorem C63_ReportLunsParamData : WireFormat 8 Scsi.ReportLunsParamData.toBytes Scsi.ReportLunsParamData.ofBytes :=
  ⟨Scsi.ReportLunsParamData.toBytes_length, Scsi.ReportLunsParamData.ofBytes_toBytes, Scsi.ReportLunsParamData.toBytes_ofBytes⟩

/-- **C63.** lib/scsi.h:967 -/
theorem C63_OneCommandParamData : WireFormat 4 Scsi.OneCommandParamData.toBytes Scsi.OneCommandParamData.ofBytes :=
  ⟨Scsi.OneCommandParamData.toBytes_length, Scsi.OneCommandParamData.ofBytes_toBytes, Scsi.OneCommandParamData.toBytes_ofBytes⟩

/-- **C63.** lib/scsi.h:1047 -/
theorem C63_UnmapParamList : WireFormat 8 Scsi.UnmapParamList.toBytes Scsi.UnmapParamList.ofBytes :=
  ⟨Scsi.UnmapParamList.toBytes_length, Scsi.UnmapParamList.ofBytes_toBytes, Scsi.UnmapParamList.toBytes_ofBytes⟩

/-- **C63.** lib/scsi.h:1056 -/
theorem C63_UnmapBlockDescriptor : WireFormat 16 Scsi.UnmapBlockDescriptor.toBytes Scsi.UnmapBlockDescriptor.ofBytes :=
  ⟨Scsi.UnmapBlockDescriptor.toBytes_length, Scsi.UnmapBlockDescriptor.ofBytes_toBytes, Scsi.UnmapBlockDescriptor.toBytes_ofBytes⟩

/-- **C63.** lib/scsi.h:1090 -/
theorem C63_CachingModePage : WireFormat 20 Scsi.CachingModePage.toBytes Scsi.CachingModePage.ofBytes :=
  ⟨Scsi.CachingModePage.toBytes_length, Scsi.CachingModePage.ofBytes_toBytes, Scsi.CachingModePage.toBytes_ofBytes⟩

/-- **C63.** lib/scsi.h:1124 -/
theorem C63_ControlModePage : WireFormat 12 Scsi.ControlModePage.toBytes Scsi.ControlModePage.ofBytes :=
  ⟨Scsi.ControlModePage.toBytes_length, Scsi.ControlModePage.ofBytes_toBytes, Scsi.ControlModePage.toBytes_ofBytes⟩

/-- **C63.** lib/scsi.h:1152 -/
theorem C63_PowerConditionModePage : WireFormat 40 Scsi.PowerConditionModePage.toBytes Scsi.PowerConditionModePage.ofBytes :=
  ⟨Scsi.PowerConditionModePage.toBytes_length, Scsi.PowerConditionModePage.ofBytes_toBytes, Scsi.PowerConditionModePage.toBytes_ofBytes⟩

/-- **C63.** lib/scsi.h:1165 -/
theorem C63_ModeParameter6Header : WireFormat 4 Scsi.ModeParameter6Header.toBytes Scsi.ModeParameter6Header.ofBytes :=
  ⟨Scsi.ModeParameter6Header.toBytes_length, Scsi.ModeParameter6Header.ofBytes_toBytes, Scsi.ModeParameter6Header.toBytes_ofBytes⟩

/-- **C63.** lib/scsi.h:1180 -/
theorem C63_ModeParameter10Header : WireFormat 8 Scsi.ModeParameter10Header.toBytes Scsi.ModeParameter10Header.ofBytes :=
  ⟨Scsi.ModeParameter10Header.toBytes_length, Scsi.ModeParameter10Header.ofBytes_toBytes, Scsi.ModeParameter10Header.toBytes_ofBytes⟩

/-- **C63.** lib/scsi.h:1187 -/
theorem C63_ShortLbaBlockDescriptor : WireFormat 8 Scsi.ShortLbaBlockDescriptor.toBytes Scsi.ShortLbaBlockDescriptor.ofBytes :=
  ⟨Scsi.ShortLbaBlockDescriptor.toBytes_length, Scsi.ShortLbaBlockDescriptor.ofBytes_toBytes, Scsi.ShortLbaBlockDescriptor.toBytes_ofBytes⟩

/-- **C63.** lib/scsi.h:1194 -/
theorem C63_LongLbaBlockDescriptor : WireFormat 16 Scsi.LongLbaBlockDescriptor.toBytes Scsi.LongLbaBlockDescriptor.ofBytes :=
  ⟨Scsi.LongLbaBlockDescriptor.toBytes_length, Scsi.LongLbaBlockDescriptor.ofBytes_toBytes, Scsi.LongLbaBlockDescriptor.toBytes_ofBytes⟩

/-- **C63.** lib/scsi.h:1228 -/
theorem C63_FixedFormatSenseData : WireFormat 18 Scsi.FixedFormatSenseData.toBytes Scsi.FixedFormatSenseData.ofBytes :=
  ⟨Scsi.FixedFormatSenseData.toBytes_length, Scsi.FixedFormatSenseData.ofBytes_toBytes, Scsi.FixedFormatSenseData.toBytes_ofBytes⟩

/-- **C63.** lib/scsi.h:1242 -/
theorem C63_DescriptorFormatSenseData : WireFormat 8 Scsi.DescriptorFormatSenseData.toBytes Scsi.DescriptorFormatSenseData.ofBytes :=
  ⟨Scsi.DescriptorFormatSenseData.toBytes_length, Scsi.DescriptorFormatSenseData.ofBytes_toBytes, Scsi.DescriptorFormatSenseData.toBytes_ofBytes⟩

/-- **C63.** lib/scsi.h:1254 -/
theorem C63_SupportedVitalProductData : WireFormat 4 Scsi.SupportedVitalProductData.toBytes Scsi.SupportedVitalProductData.ofBytes :=
  ⟨Scsi.SupportedVitalProductData.toBytes_length, Scsi.SupportedVitalProductData.ofBytes_toBytes, Scsi.SupportedVitalProductData.toBytes_ofBytes⟩

/-- **C63.** lib/scsi.h:1266 -/
theorem C63_UnitSerialNumber : WireFormat 4 Scsi.UnitSerialNumber.toBytes Scsi.UnitSerialNumber.ofBytes :=
  ⟨Scsi.UnitSerialNumber.toBytes_length, Scsi.UnitSerialNumber.ofBytes_toBytes, Scsi.UnitSerialNumber.toBytes_ofBytes⟩

/-- **C63.** lib/scsi.h:1280 -/
theorem C63_IdentificationDescriptor : WireFormat 4 Scsi.IdentificationDescriptor.toBytes Scsi.IdentificationDescriptor.ofBytes :=
  ⟨Scsi.IdentificationDescriptor.toBytes_length, Scsi.IdentificationDescriptor.ofBytes_toBytes, Scsi.IdentificationDescriptor.toBytes_ofBytes⟩

/-- **C63.** lib/scsi.h:1290 -/
theorem C63_DeviceIdentificationVpd : WireFormat 3 Scsi.DeviceIdentificationVpd.toBytes Scsi.DeviceIdentificationVpd.ofBytes :=
  ⟨Scsi.DeviceIdentificationVpd.toBytes_length, Scsi.DeviceIdentificationVpd.ofBytes_toBytes, Scsi.DeviceIdentificationVpd.toBytes_ofBytes⟩

/-- **C63.** lib/scsi.h:1337 -/
theorem C63_ExtendedInquiryDataVpd : WireFormat 14 Scsi.ExtendedInquiryDataVpd.toBytes Scsi.ExtendedInquiryDataVpd.ofBytes :=
  ⟨Scsi.ExtendedInquiryDataVpd.toBytes_length, Scsi.ExtendedInquiryDataVpd.ofBytes_toBytes, Scsi.ExtendedInquiryDataVpd.toBytes_ofBytes⟩

/-- **C63.** lib/scsi.h:1358 -/
theorem C63_BlockDeviceCharacteristicsVpd : WireFormat 9 Scsi.BlockDeviceCharacteristicsVpd.toBytes Scsi.BlockDeviceCharacteristicsVpd.ofBytes :=
  ⟨Scsi.BlockDeviceCharacteristicsVpd.toBytes_length, Scsi.BlockDeviceCharacteristicsVpd.ofBytes_toBytes, Scsi.BlockDeviceCharacteristicsVpd.toBytes_ofBytes⟩

/-- **C63.** lib/scsi.h:1380 -/
theorem C63_LogicalBlockProvisioningVpd : WireFormat 64 Scsi.LogicalBlockProvisioningVpd.toBytes Scsi.LogicalBlockProvisioningVpd.ofBytes :=
  ⟨Scsi.LogicalBlockProvisioningVpd.toBytes_length, Scsi.LogicalBlockProvisioningVpd.ofBytes_toBytes, Scsi.LogicalBlockProvisioningVpd.toBytes_ofBytes⟩

/-- **C63.** lib/scsi.h:1409 -/
theorem C63_BlockLimitsVpd : WireFormat 64 Scsi.BlockLimitsVpd.toBytes Scsi.BlockLimitsVpd.ofBytes :=
  ⟨Scsi.BlockLimitsVpd.toBytes_length, Scsi.BlockLimitsVpd.ofBytes_toBytes, Scsi.BlockLimitsVpd.toBytes_ofBytes⟩

/-- The identify structures, which are read in place, have 4096 bytes: third_party/spdk/nvme.h:697, 821. -/
theorem C63_identify_sizes : Nvme.IdentifyControllerData.size = 4096 ∧ Nvme.IdentifyNamespace.size = 4096 := ⟨rfl, rfl⟩

end Scsi2Nvme
