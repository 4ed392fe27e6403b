import Verif.Model.Layout
/-!
# Structures of lib/scsi.h which the translator does not use

The remaining packed structures of lib/scsi.h: command blocks (without the operation code) and data of commands which are not translated, or
are translated without being decoded (TEST UNIT READY, SYNCHRONIZE CACHE).  Nested structures are flattened, as in `Model/Scsi.lean`.
-/

namespace Scsi2Nvme.Scsi

/-- lib/scsi.h:436-439 -/
packed_struct TestUnitReadyCommand where
  reserved : 32, cb_obsolete : 2, naca : 1, cb_reserved : 3, cb_vendor : 2

/-- lib/scsi.h:562-568 -/
packed_struct PersistentReserveInCommand where
  service_action : 5, reserved_1 : 3, reserved_2 : 40, allocation_length : 16, cb_obsolete : 2, naca : 1,
  cb_reserved : 3, cb_vendor : 2

/-- lib/scsi.h:574-577 -/
packed_struct PriReadReservationDataNoReservation where
  prgeneration : 32, additional_length : 32

/-- lib/scsi.h:583-591 -/
packed_struct PriReadReservationDataWithReservation where
  prgeneration : 32, additional_length : 32, reservation_key : 64, obsolete_1 : 32, reserved : 8, type : 4, scope : 4,
  obsolete_2 : 16

/-- lib/scsi.h:596-604 -/
packed_struct PersistentReserveOutCommand where
  service_action : 5, reserved_1 : 3, type : 4, scope : 4, reserved_2 : 16, parameter_list_length : 32, cb_obsolete : 2,
  naca : 1, cb_reserved : 3, cb_vendor : 2

/-- lib/scsi.h:611-623 -/
packed_struct ProParamList where
  reservation_key : 64, service_action_reservation_key : 64, obsolete_1 : 32, aptpl : 1, reserved : 1, all_tg_pt : 1,
  spc_i_pt : 1, reserved_1 : 4, reserved_2 : 8, obsolete_2 : 16

/-- lib/scsi.h:769-781 -/
packed_struct Verify12Command where
  obsolete : 1, bytchk : 2, reserved_1 : 1, dpo : 1, vr_protect : 3, logical_block_address : 32,
  verification_length : 32, group_number : 5, reserved_2 : 2, restricted_mmc_5 : 1, cb_obsolete : 2, naca : 1,
  cb_reserved : 3, cb_vendor : 2

/-- lib/scsi.h:786-798 -/
packed_struct Verify16Command where
  reserved_1 : 1, bytchk : 2, reserved_2 : 1, dpo : 1, vr_protect : 3, logical_block_address : 64,
  verification_length : 32, group_number : 5, reserved_3 : 2, restricted_mmc_5 : 1, cb_obsolete : 2, naca : 1,
  cb_reserved : 3, cb_vendor : 2

/-- lib/scsi.h:803-813 -/
packed_struct SynchronizeCache10Command where
  obsolete_1 : 1, immed : 1, obsolete_2 : 1, reserved_1 : 5, logical_block_address : 32, group_number : 5,
  reserved_2 : 3, number_of_blocks : 16, cb_obsolete : 2, naca : 1, cb_reserved : 3, cb_vendor : 2

/-- lib/scsi.h:818-828 -/
packed_struct SynchronizeCache16Command where
  reserved_1 : 1, immed : 1, obsolete : 1, reserved_2 : 5, logical_block_address : 64, number_of_blocks : 32,
  group_number : 5, reserved_3 : 3, cb_obsolete : 2, naca : 1, cb_reserved : 3, cb_vendor : 2

/-- lib/scsi.h:915-921 -/
packed_struct CommandTimeoutsDescriptor where
  descriptor_length : 16, reserved_1 : 8, cmd_specific : 8, nominal_cmd_timeout : 32, reccomended_cmd_timeout : 32

/-- lib/scsi.h:926-934 -/
packed_struct CommandDescriptor where
  reserved_1 : 8, service_action : 16, reserved_2 : 8, servactv : 1, ctdp : 1, reserved_3 : 6, cdb_length : 16

/-- lib/scsi.h:937-947 -/
packed_struct CommandDescriptorTimeoutIncluded where
  reserved_1 : 8, service_action : 16, reserved_2 : 8, servactv : 1, ctdp : 1, reserved_3 : 6, cdb_length : 16,
  timeouts_descriptor_length : 16, timeouts_reserved_1 : 8, timeouts_cmd_specific : 8, timeouts_nominal_cmd_timeout : 32,
  timeouts_reccomended_cmd_timeout : 32

/-- lib/scsi.h:953-955 -/
packed_struct AllCommandsParamData where
  listByteSize : 32

/-- lib/scsi.h:972-980 -/
packed_struct ReportTmfCommand where
  service_action : 5, header_reserved : 3, reserved_1 : 7, repd : 1, reserved_2 : 24, alloc_length : 32, reserved_3 : 8,
  cb_obsolete : 2, naca : 1, cb_reserved : 3, cb_vendor : 2

/-- lib/scsi.h:986-1000 -/
packed_struct ReportTmfParamData where
  obsolete_1 : 2, qts : 1, lurs : 1, ctss : 1, cacas : 1, atss : 1, ats : 1, itnrs : 1, qtss : 1, qaes : 1,
  reserved_1 : 5, reserved_2 : 8, additional_data_length : 8

/-- lib/scsi.h:1005-1010 -/
packed_struct ReportTimestampCommand where
  reserved_1 : 32, alloc_length : 32, reserved_2 : 8, cb_obsolete : 2, naca : 1, cb_reserved : 3, cb_vendor : 2

/-- lib/scsi.h:1015-1023 -/
packed_struct ReportTimestampParamData where
  data_length : 16, ts_origin : 3, reserved_1 : 5, reserved : 8, timestamp : 48, reserved_2 : 8, reserved_3 : 8

end Scsi2Nvme.Scsi
