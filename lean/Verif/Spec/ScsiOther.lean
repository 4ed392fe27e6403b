import Verif.Model.ScsiOther
import Verif.Spec.Complete
/-!
# Where the standards put the fields of commands which the library does not translate

SPC-4 and SBC-3: bytes are numbered from 0 (the operation code, in a command block), bit 0 is the least significant one, and numbers of several
bytes begin with the most significant byte: the structures keep the bytes in their order, `ntohs` etc. are up to the user.
-/

namespace Scsi2Nvme.Spec
open Scsi2Nvme

/-- The field `f` of the structure which `dec` makes of a command block without the operation code: bit `k` is bit `(bit + k) % 8` of byte
`byte + (bit + k) / 8` of the command block. -/
def InCommand {α : Type} (dec : List Byte → α) {w : Nat} (byte bit : Nat) (f : α → BitVec w) : Prop :=
  ∀ cdb k, k < w → (f (dec cdb.tail)).getLsbD k = Spec.bit cdb (byte + (bit + k) / 8) ((bit + k) % 8)

/-- The field `f` of the structure which `dec` makes of data. -/
def InData {α : Type} (dec : List Byte → α) {w : Nat} (byte bit : Nat) (f : α → BitVec w) : Prop :=
  ∀ data k, k < w → (f (dec data)).getLsbD k = Spec.bit data (byte + (bit + k) / 8) ((bit + k) % 8)

/-- TEST UNIT READY (SPC-4) -/
def stdTestUnitReadyCommand : Prop :=
  InCommand Scsi.TestUnitReadyCommand.ofBytes 5 2 Scsi.TestUnitReadyCommand.naca ∧
  Scsi.TestUnitReadyCommand.size + 1 = 6

/-- PERSISTENT RESERVE IN (SPC-4) -/
def stdPersistentReserveInCommand : Prop :=
  InCommand Scsi.PersistentReserveInCommand.ofBytes 1 0 Scsi.PersistentReserveInCommand.service_action ∧
  InCommand Scsi.PersistentReserveInCommand.ofBytes 7 0 Scsi.PersistentReserveInCommand.allocation_length ∧
  InCommand Scsi.PersistentReserveInCommand.ofBytes 9 2 Scsi.PersistentReserveInCommand.naca ∧
  Scsi.PersistentReserveInCommand.size + 1 = 10

/-- PERSISTENT RESERVE OUT (SPC-4) -/
def stdPersistentReserveOutCommand : Prop :=
  InCommand Scsi.PersistentReserveOutCommand.ofBytes 1 0 Scsi.PersistentReserveOutCommand.service_action ∧
  InCommand Scsi.PersistentReserveOutCommand.ofBytes 2 0 Scsi.PersistentReserveOutCommand.type ∧
  InCommand Scsi.PersistentReserveOutCommand.ofBytes 2 4 Scsi.PersistentReserveOutCommand.scope ∧
  InCommand Scsi.PersistentReserveOutCommand.ofBytes 5 0 Scsi.PersistentReserveOutCommand.parameter_list_length ∧
  InCommand Scsi.PersistentReserveOutCommand.ofBytes 9 2 Scsi.PersistentReserveOutCommand.naca ∧
  Scsi.PersistentReserveOutCommand.size + 1 = 10

/-- VERIFY(12) (SBC-3) -/
def stdVerify12Command : Prop :=
  InCommand Scsi.Verify12Command.ofBytes 1 1 Scsi.Verify12Command.bytchk ∧
  InCommand Scsi.Verify12Command.ofBytes 1 4 Scsi.Verify12Command.dpo ∧
  InCommand Scsi.Verify12Command.ofBytes 1 5 Scsi.Verify12Command.vr_protect ∧
  InCommand Scsi.Verify12Command.ofBytes 2 0 Scsi.Verify12Command.logical_block_address ∧
  InCommand Scsi.Verify12Command.ofBytes 6 0 Scsi.Verify12Command.verification_length ∧
  InCommand Scsi.Verify12Command.ofBytes 10 0 Scsi.Verify12Command.group_number ∧
  InCommand Scsi.Verify12Command.ofBytes 11 2 Scsi.Verify12Command.naca ∧
  Scsi.Verify12Command.size + 1 = 12

/-- VERIFY(16) (SBC-3) -/
def stdVerify16Command : Prop :=
  InCommand Scsi.Verify16Command.ofBytes 1 1 Scsi.Verify16Command.bytchk ∧
  InCommand Scsi.Verify16Command.ofBytes 1 4 Scsi.Verify16Command.dpo ∧
  InCommand Scsi.Verify16Command.ofBytes 1 5 Scsi.Verify16Command.vr_protect ∧
  InCommand Scsi.Verify16Command.ofBytes 2 0 Scsi.Verify16Command.logical_block_address ∧
  InCommand Scsi.Verify16Command.ofBytes 10 0 Scsi.Verify16Command.verification_length ∧
  InCommand Scsi.Verify16Command.ofBytes 14 0 Scsi.Verify16Command.group_number ∧
  InCommand Scsi.Verify16Command.ofBytes 15 2 Scsi.Verify16Command.naca ∧
  Scsi.Verify16Command.size + 1 = 16

/-- SYNCHRONIZE CACHE(10) (SBC-3) -/
def stdSynchronizeCache10Command : Prop :=
  InCommand Scsi.SynchronizeCache10Command.ofBytes 1 1 Scsi.SynchronizeCache10Command.immed ∧
  InCommand Scsi.SynchronizeCache10Command.ofBytes 2 0 Scsi.SynchronizeCache10Command.logical_block_address ∧
  InCommand Scsi.SynchronizeCache10Command.ofBytes 6 0 Scsi.SynchronizeCache10Command.group_number ∧
  InCommand Scsi.SynchronizeCache10Command.ofBytes 7 0 Scsi.SynchronizeCache10Command.number_of_blocks ∧
  InCommand Scsi.SynchronizeCache10Command.ofBytes 9 2 Scsi.SynchronizeCache10Command.naca ∧
  Scsi.SynchronizeCache10Command.size + 1 = 10

/-- SYNCHRONIZE CACHE(16) (SBC-3) -/
def stdSynchronizeCache16Command : Prop :=
  InCommand Scsi.SynchronizeCache16Command.ofBytes 1 1 Scsi.SynchronizeCache16Command.immed ∧
  InCommand Scsi.SynchronizeCache16Command.ofBytes 2 0 Scsi.SynchronizeCache16Command.logical_block_address ∧
  InCommand Scsi.SynchronizeCache16Command.ofBytes 10 0 Scsi.SynchronizeCache16Command.number_of_blocks ∧
  InCommand Scsi.SynchronizeCache16Command.ofBytes 14 0 Scsi.SynchronizeCache16Command.group_number ∧
  InCommand Scsi.SynchronizeCache16Command.ofBytes 15 2 Scsi.SynchronizeCache16Command.naca ∧
  Scsi.SynchronizeCache16Command.size + 1 = 16

/-- REPORT SUPPORTED TASK MANAGEMENT FUNCTIONS (SPC-4) -/
def stdReportTmfCommand : Prop :=
  InCommand Scsi.ReportTmfCommand.ofBytes 1 0 Scsi.ReportTmfCommand.service_action ∧
  InCommand Scsi.ReportTmfCommand.ofBytes 2 7 Scsi.ReportTmfCommand.repd ∧
  InCommand Scsi.ReportTmfCommand.ofBytes 6 0 Scsi.ReportTmfCommand.alloc_length ∧
  InCommand Scsi.ReportTmfCommand.ofBytes 11 2 Scsi.ReportTmfCommand.naca ∧
  Scsi.ReportTmfCommand.size + 1 = 12

/-- REPORT TIMESTAMP (SPC-4) -/
def stdReportTimestampCommand : Prop :=
  InCommand Scsi.ReportTimestampCommand.ofBytes 6 0 Scsi.ReportTimestampCommand.alloc_length ∧
  InCommand Scsi.ReportTimestampCommand.ofBytes 11 2 Scsi.ReportTimestampCommand.naca ∧
  Scsi.ReportTimestampCommand.size + 1 = 12

/-- READ RESERVATION without reservation (SPC-4) -/
def stdPriReadReservationDataNoReservation : Prop :=
  InData Scsi.PriReadReservationDataNoReservation.ofBytes 0 0 Scsi.PriReadReservationDataNoReservation.prgeneration ∧
  InData Scsi.PriReadReservationDataNoReservation.ofBytes 4 0 Scsi.PriReadReservationDataNoReservation.additional_length ∧
  Scsi.PriReadReservationDataNoReservation.size = 8

/-- READ RESERVATION with reservation (SPC-4) -/
def stdPriReadReservationDataWithReservation : Prop :=
  InData Scsi.PriReadReservationDataWithReservation.ofBytes 0 0 Scsi.PriReadReservationDataWithReservation.prgeneration ∧
  InData Scsi.PriReadReservationDataWithReservation.ofBytes 4 0 Scsi.PriReadReservationDataWithReservation.additional_length ∧
  InData Scsi.PriReadReservationDataWithReservation.ofBytes 8 0 Scsi.PriReadReservationDataWithReservation.reservation_key ∧
  InData Scsi.PriReadReservationDataWithReservation.ofBytes 21 0 Scsi.PriReadReservationDataWithReservation.type ∧
  InData Scsi.PriReadReservationDataWithReservation.ofBytes 21 4 Scsi.PriReadReservationDataWithReservation.scope ∧
  Scsi.PriReadReservationDataWithReservation.size = 24

/-- parameter list of PERSISTENT RESERVE OUT (SPC-4) -/
def stdProParamList : Prop :=
  InData Scsi.ProParamList.ofBytes 0 0 Scsi.ProParamList.reservation_key ∧
  InData Scsi.ProParamList.ofBytes 8 0 Scsi.ProParamList.service_action_reservation_key ∧
  InData Scsi.ProParamList.ofBytes 20 0 Scsi.ProParamList.aptpl ∧
  InData Scsi.ProParamList.ofBytes 20 2 Scsi.ProParamList.all_tg_pt ∧
  InData Scsi.ProParamList.ofBytes 20 3 Scsi.ProParamList.spc_i_pt ∧
  Scsi.ProParamList.size = 24

/-- command timeouts descriptor (SPC-4) -/
def stdCommandTimeoutsDescriptor : Prop :=
  InData Scsi.CommandTimeoutsDescriptor.ofBytes 0 0 Scsi.CommandTimeoutsDescriptor.descriptor_length ∧
  InData Scsi.CommandTimeoutsDescriptor.ofBytes 3 0 Scsi.CommandTimeoutsDescriptor.cmd_specific ∧
  InData Scsi.CommandTimeoutsDescriptor.ofBytes 4 0 Scsi.CommandTimeoutsDescriptor.nominal_cmd_timeout ∧
  InData Scsi.CommandTimeoutsDescriptor.ofBytes 8 0 Scsi.CommandTimeoutsDescriptor.reccomended_cmd_timeout ∧
  Scsi.CommandTimeoutsDescriptor.size = 12

/-- command descriptor (SPC-4) -/
def stdCommandDescriptor : Prop :=
  InData Scsi.CommandDescriptor.ofBytes 2 0 Scsi.CommandDescriptor.service_action ∧
  InData Scsi.CommandDescriptor.ofBytes 5 0 Scsi.CommandDescriptor.servactv ∧
  InData Scsi.CommandDescriptor.ofBytes 5 1 Scsi.CommandDescriptor.ctdp ∧
  InData Scsi.CommandDescriptor.ofBytes 6 0 Scsi.CommandDescriptor.cdb_length ∧
  Scsi.CommandDescriptor.size = 8

/-- command descriptor with timeouts (SPC-4) -/
def stdCommandDescriptorTimeoutIncluded : Prop :=
  InData Scsi.CommandDescriptorTimeoutIncluded.ofBytes 2 0 Scsi.CommandDescriptorTimeoutIncluded.service_action ∧
  InData Scsi.CommandDescriptorTimeoutIncluded.ofBytes 5 0 Scsi.CommandDescriptorTimeoutIncluded.servactv ∧
  InData Scsi.CommandDescriptorTimeoutIncluded.ofBytes 5 1 Scsi.CommandDescriptorTimeoutIncluded.ctdp ∧
  InData Scsi.CommandDescriptorTimeoutIncluded.ofBytes 6 0 Scsi.CommandDescriptorTimeoutIncluded.cdb_length ∧
  InData Scsi.CommandDescriptorTimeoutIncluded.ofBytes 8 0 Scsi.CommandDescriptorTimeoutIncluded.timeouts_descriptor_length ∧
  InData Scsi.CommandDescriptorTimeoutIncluded.ofBytes 11 0 Scsi.CommandDescriptorTimeoutIncluded.timeouts_cmd_specific ∧
  InData Scsi.CommandDescriptorTimeoutIncluded.ofBytes 12 0 Scsi.CommandDescriptorTimeoutIncluded.timeouts_nominal_cmd_timeout ∧
  InData Scsi.CommandDescriptorTimeoutIncluded.ofBytes 16 0 Scsi.CommandDescriptorTimeoutIncluded.timeouts_reccomended_cmd_timeout ∧
  Scsi.CommandDescriptorTimeoutIncluded.size = 20

/-- all_commands parameter data (SPC-4) -/
def stdAllCommandsParamData : Prop :=
  InData Scsi.AllCommandsParamData.ofBytes 0 0 Scsi.AllCommandsParamData.listByteSize ∧
  Scsi.AllCommandsParamData.size = 4

/-- data of REPORT SUPPORTED TASK MANAGEMENT FUNCTIONS (SPC-4) -/
def stdReportTmfParamData : Prop :=
  InData Scsi.ReportTmfParamData.ofBytes 0 7 Scsi.ReportTmfParamData.ats ∧
  InData Scsi.ReportTmfParamData.ofBytes 0 6 Scsi.ReportTmfParamData.atss ∧
  InData Scsi.ReportTmfParamData.ofBytes 0 5 Scsi.ReportTmfParamData.cacas ∧
  InData Scsi.ReportTmfParamData.ofBytes 0 4 Scsi.ReportTmfParamData.ctss ∧
  InData Scsi.ReportTmfParamData.ofBytes 0 3 Scsi.ReportTmfParamData.lurs ∧
  InData Scsi.ReportTmfParamData.ofBytes 0 2 Scsi.ReportTmfParamData.qts ∧
  InData Scsi.ReportTmfParamData.ofBytes 1 2 Scsi.ReportTmfParamData.qaes ∧
  InData Scsi.ReportTmfParamData.ofBytes 1 1 Scsi.ReportTmfParamData.qtss ∧
  InData Scsi.ReportTmfParamData.ofBytes 1 0 Scsi.ReportTmfParamData.itnrs ∧
  InData Scsi.ReportTmfParamData.ofBytes 3 0 Scsi.ReportTmfParamData.additional_data_length ∧
  Scsi.ReportTmfParamData.size = 4

/-- data of REPORT TIMESTAMP (SPC-4) -/
def stdReportTimestampParamData : Prop :=
  InData Scsi.ReportTimestampParamData.ofBytes 0 0 Scsi.ReportTimestampParamData.data_length ∧
  InData Scsi.ReportTimestampParamData.ofBytes 2 0 Scsi.ReportTimestampParamData.ts_origin ∧
  InData Scsi.ReportTimestampParamData.ofBytes 4 0 Scsi.ReportTimestampParamData.timestamp ∧
  Scsi.ReportTimestampParamData.size = 12

end Scsi2Nvme.Spec
