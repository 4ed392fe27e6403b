import Verif.Spec.ScsiOther
import Verif.Properties.Fields
/-!
# C118: the structures for commands which are not translated
-/

namespace Scsi2Nvme
open Spec

theorem inCommand_of {α : Type} (dec : List Byte → α) {w : Nat} (byte bit : Nat) (f : α → BitVec w) (off : Nat)
    (h : ∀ bs, f (dec bs) = getF bs ⟨off⟩) (ho : off + 8 = 8 * byte + bit) : InCommand dec byte bit f := by
  intro cdb k hk
  have := located_getF dec off f h cdb.tail k hk
  rw [this]
  have e1 : byte + (bit + k) / 8 = (off + k) / 8 + 1 := by omega
  have e2 : (bit + k) % 8 = (off + k) % 8 := by omega
  rw [e1, e2]
  unfold Spec.bit Spec.byte
  cases cdb with
  | nil => simp
  | cons a l => rw [List.getD_cons_succ]; rfl

theorem inData_of {α : Type} (dec : List Byte → α) {w : Nat} (byte bit : Nat) (f : α → BitVec w)
    (h : ∀ bs, f (dec bs) = getF bs ⟨8 * byte + bit⟩) : InData dec byte bit f := by
  intro data k hk
  have := located_getF dec (8 * byte + bit) f h data k hk
  rw [this]
  have e1 : byte + (bit + k) / 8 = (8 * byte + bit + k) / 8 := by omega
  have e2 : (bit + k) % 8 = (8 * byte + bit + k) % 8 := by omega
  rw [e1, e2]

theorem std_TestUnitReadyCommand : stdTestUnitReadyCommand :=
  ⟨inCommand_of _ _ _ _ 34 (fun _ => rfl) (by omega), rfl⟩

theorem std_PersistentReserveInCommand : stdPersistentReserveInCommand :=
  ⟨inCommand_of _ _ _ _ 0 (fun _ => rfl) (by omega), inCommand_of _ _ _ _ 48 (fun _ => rfl) (by omega), inCommand_of _ _ _ _ 66 (fun _ => rfl) (by omega), rfl⟩

theorem std_PersistentReserveOutCommand : stdPersistentReserveOutCommand :=
  ⟨inCommand_of _ _ _ _ 0 (fun _ => rfl) (by omega), inCommand_of _ _ _ _ 8 (fun _ => rfl) (by omega), inCommand_of _ _ _ _ 12 (fun _ => rfl) (by omega), inCommand_of _ _ _ _ 32 (fun _ => rfl) (by omega), inCommand_of _ _ _ _ 66 (fun _ => rfl) (by omega), rfl⟩

theorem std_Verify12Command : stdVerify12Command :=
  ⟨inCommand_of _ _ _ _ 1 (fun _ => rfl) (by omega), inCommand_of _ _ _ _ 4 (fun _ => rfl) (by omega), inCommand_of _ _ _ _ 5 (fun _ => rfl) (by omega), inCommand_of _ _ _ _ 8 (fun _ => rfl) (by omega), inCommand_of _ _ _ _ 40 (fun _ => rfl) (by omega), inCommand_of _ _ _ _ 72 (fun _ => rfl) (by omega), inCommand_of _ _ _ _ 82 (fun _ => rfl) (by omega), rfl⟩

theorem std_Verify16Command : stdVerify16Command :=
  ⟨inCommand_of _ _ _ _ 1 (fun _ => rfl) (by omega), inCommand_of _ _ _ _ 4 (fun _ => rfl) (by omega), inCommand_of _ _ _ _ 5 (fun _ => rfl) (by omega), inCommand_of _ _ _ _ 8 (fun _ => rfl) (by omega), inCommand_of _ _ _ _ 72 (fun _ => rfl) (by omega), inCommand_of _ _ _ _ 104 (fun _ => rfl) (by omega), inCommand_of _ _ _ _ 114 (fun _ => rfl) (by omega), rfl⟩

theorem std_SynchronizeCache10Command : stdSynchronizeCache10Command :=
  ⟨inCommand_of _ _ _ _ 1 (fun _ => rfl) (by omega), inCommand_of _ _ _ _ 8 (fun _ => rfl) (by omega), inCommand_of _ _ _ _ 40 (fun _ => rfl) (by omega), inCommand_of _ _ _ _ 48 (fun _ => rfl) (by omega), inCommand_of _ _ _ _ 66 (fun _ => rfl) (by omega), rfl⟩

theorem std_SynchronizeCache16Command : stdSynchronizeCache16Command :=
  ⟨inCommand_of _ _ _ _ 1 (fun _ => rfl) (by omega), inCommand_of _ _ _ _ 8 (fun _ => rfl) (by omega), inCommand_of _ _ _ _ 72 (fun _ => rfl) (by omega), inCommand_of _ _ _ _ 104 (fun _ => rfl) (by omega), inCommand_of _ _ _ _ 114 (fun _ => rfl) (by omega), rfl⟩

theorem std_ReportTmfCommand : stdReportTmfCommand :=
  ⟨inCommand_of _ _ _ _ 0 (fun _ => rfl) (by omega), inCommand_of _ _ _ _ 15 (fun _ => rfl) (by omega), inCommand_of _ _ _ _ 40 (fun _ => rfl) (by omega), inCommand_of _ _ _ _ 82 (fun _ => rfl) (by omega), rfl⟩

theorem std_PriReadReservationDataNoReservation : stdPriReadReservationDataNoReservation :=
  ⟨inData_of _ _ _ _ fun _ => rfl, inData_of _ _ _ _ fun _ => rfl, rfl⟩

theorem std_PriReadReservationDataWithReservation : stdPriReadReservationDataWithReservation :=
  ⟨inData_of _ _ _ _ fun _ => rfl, inData_of _ _ _ _ fun _ => rfl, inData_of _ _ _ _ fun _ => rfl, inData_of _ _ _ _ fun _ => rfl, inData_of _ _ _ _ fun _ => rfl, rfl⟩

theorem std_ProParamList : stdProParamList :=
  ⟨inData_of _ _ _ _ fun _ => rfl, inData_of _ _ _ _ fun _ => rfl, inData_of _ _ _ _ fun _ => rfl, inData_of _ _ _ _ fun _ => rfl, inData_of _ _ _ _ fun _ => rfl, rfl⟩

theorem std_CommandTimeoutsDescriptor : stdCommandTimeoutsDescriptor :=
  ⟨inData_of _ _ _ _ fun _ => rfl, inData_of _ _ _ _ fun _ => rfl, inData_of _ _ _ _ fun _ => rfl, inData_of _ _ _ _ fun _ => rfl, rfl⟩

theorem std_AllCommandsParamData : stdAllCommandsParamData :=
  ⟨inData_of _ _ _ _ fun _ => rfl, rfl⟩

theorem std_ReportTmfParamData : stdReportTmfParamData :=
  ⟨inData_of _ _ _ _ fun _ => rfl, inData_of _ _ _ _ fun _ => rfl, inData_of _ _ _ _ fun _ => rfl, inData_of _ _ _ _ fun _ => rfl, inData_of _ _ _ _ fun _ => rfl, inData_of _ _ _ _ fun _ => rfl, inData_of _ _ _ _ fun _ => rfl, inData_of _ _ _ _ fun _ => rfl, inData_of _ _ _ _ fun _ => rfl, inData_of _ _ _ _ fun _ => rfl, rfl⟩

theorem std_ReportTimestampParamData : stdReportTimestampParamData :=
  ⟨inData_of _ _ _ _ fun _ => rfl, inData_of _ _ _ _ fun _ => rfl, inData_of _ _ _ _ fun _ => rfl, rfl⟩

/-- **C118**, full statement (false, see `C118_refuted`): all these structures are laid out as the standards say. -/
def C118_statement : Prop :=
  stdTestUnitReadyCommand ∧ stdPersistentReserveInCommand ∧ stdPersistentReserveOutCommand ∧ stdVerify12Command ∧ stdVerify16Command ∧ stdSynchronizeCache10Command ∧ stdSynchronizeCache16Command ∧ stdReportTmfCommand ∧ stdReportTimestampCommand ∧ stdPriReadReservationDataNoReservation ∧ stdPriReadReservationDataWithReservation ∧ stdProParamList ∧ stdCommandTimeoutsDescriptor ∧ stdCommandDescriptor ∧ stdCommandDescriptorTimeoutIncluded ∧ stdAllCommandsParamData ∧ stdReportTmfParamData ∧ stdReportTimestampParamData

/-- **C118**, the part that holds: all but those of REPORT TIMESTAMP and of the command descriptors are. -/
theorem C118_layouts_partial :
    stdTestUnitReadyCommand ∧ stdPersistentReserveInCommand ∧ stdPersistentReserveOutCommand ∧ stdVerify12Command ∧ stdVerify16Command ∧ stdSynchronizeCache10Command ∧ stdSynchronizeCache16Command ∧ stdReportTmfCommand ∧ stdPriReadReservationDataNoReservation ∧ stdPriReadReservationDataWithReservation ∧ stdProParamList ∧ stdCommandTimeoutsDescriptor ∧ stdAllCommandsParamData ∧ stdReportTmfParamData ∧ stdReportTimestampParamData :=
  ⟨std_TestUnitReadyCommand, std_PersistentReserveInCommand, std_PersistentReserveOutCommand, std_Verify12Command, std_Verify16Command, std_SynchronizeCache10Command, std_SynchronizeCache16Command, std_ReportTmfCommand, std_PriReadReservationDataNoReservation, std_PriReadReservationDataWithReservation, std_ProParamList, std_CommandTimeoutsDescriptor, std_AllCommandsParamData, std_ReportTmfParamData, std_ReportTimestampParamData⟩

/-- **C118** is false: the structure for REPORT TIMESTAMP has no byte for the service action, and those for command descriptors none for the
operation code. -/
theorem C118_refuted : ¬ C118_statement := by
  intro h
  have := h.2.2.2.2.2.2.2.2.1.2.2
  exact absurd this (by unfold Scsi.ReportTimestampCommand.size; decide)

/-- **C118**, what they are: decoding the command block of REPORT TIMESTAMP behind the operation code takes bytes 5-8 for the allocation length
(which is in bytes 6-9); the structures of command descriptors are right for the bytes behind the operation code. -/
theorem C118_others_partial :
    InCommand Scsi.ReportTimestampCommand.ofBytes 5 0 Scsi.ReportTimestampCommand.alloc_length ∧
    InCommand Scsi.CommandDescriptor.ofBytes 2 0 Scsi.CommandDescriptor.service_action ∧
    InCommand Scsi.CommandDescriptor.ofBytes 5 0 Scsi.CommandDescriptor.servactv ∧
    InCommand Scsi.CommandDescriptor.ofBytes 5 1 Scsi.CommandDescriptor.ctdp ∧
    InCommand Scsi.CommandDescriptor.ofBytes 6 0 Scsi.CommandDescriptor.cdb_length ∧
    InCommand Scsi.CommandDescriptorTimeoutIncluded.ofBytes 2 0 Scsi.CommandDescriptorTimeoutIncluded.service_action ∧
    InCommand Scsi.CommandDescriptorTimeoutIncluded.ofBytes 5 0 Scsi.CommandDescriptorTimeoutIncluded.servactv ∧
    InCommand Scsi.CommandDescriptorTimeoutIncluded.ofBytes 5 1 Scsi.CommandDescriptorTimeoutIncluded.ctdp ∧
    InCommand Scsi.CommandDescriptorTimeoutIncluded.ofBytes 6 0 Scsi.CommandDescriptorTimeoutIncluded.cdb_length ∧
    InCommand Scsi.CommandDescriptorTimeoutIncluded.ofBytes 8 0 Scsi.CommandDescriptorTimeoutIncluded.timeouts_descriptor_length ∧
    InCommand Scsi.CommandDescriptorTimeoutIncluded.ofBytes 11 0 Scsi.CommandDescriptorTimeoutIncluded.timeouts_cmd_specific ∧
    InCommand Scsi.CommandDescriptorTimeoutIncluded.ofBytes 12 0 Scsi.CommandDescriptorTimeoutIncluded.timeouts_nominal_cmd_timeout ∧
    InCommand Scsi.CommandDescriptorTimeoutIncluded.ofBytes 16 0 Scsi.CommandDescriptorTimeoutIncluded.timeouts_reccomended_cmd_timeout :=
  ⟨inCommand_of _ _ _ _ 32 (fun _ => rfl) (by omega), inCommand_of _ _ _ _ 8 (fun _ => rfl) (by omega), inCommand_of _ _ _ _ 32 (fun _ => rfl) (by omega), inCommand_of _ _ _ _ 33 (fun _ => rfl) (by omega), inCommand_of _ _ _ _ 40 (fun _ => rfl) (by omega), inCommand_of _ _ _ _ 8 (fun _ => rfl) (by omega), inCommand_of _ _ _ _ 32 (fun _ => rfl) (by omega), inCommand_of _ _ _ _ 33 (fun _ => rfl) (by omega), inCommand_of _ _ _ _ 40 (fun _ => rfl) (by omega), inCommand_of _ _ _ _ 56 (fun _ => rfl) (by omega), inCommand_of _ _ _ _ 80 (fun _ => rfl) (by omega), inCommand_of _ _ _ _ 88 (fun _ => rfl) (by omega), inCommand_of _ _ _ _ 120 (fun _ => rfl) (by omega)⟩

/-- A command block of REPORT TIMESTAMP asking for 12 bytes, decoded: 0 in place of 12. -/
example : (Scsi.ReportTimestampCommand.ofBytes ([0xa3, 0x0f, 0, 0, 0, 0, 0, 0, 0, 12, 0, 0].tail : List Byte)).alloc_length = 0 := by decide +kernel

/-- VERIFY(16) with LBA 01020304_05060708h: the bytes keep their order. -/
example : (Scsi.Verify16Command.ofBytes ([0x8f, 0xb2, 1, 2, 3, 4, 5, 6, 7, 8, 0, 0, 0, 9, 0x15, 4].tail : List Byte)).logical_block_address
    = 0x0807060504030201 := by decide +kernel

end Scsi2Nvme
