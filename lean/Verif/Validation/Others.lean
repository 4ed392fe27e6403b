import Verif.Model.Translation
import Verif.Model.Log
import Verif.Validation.Pages
/-!
# The repository's own unit tests, replayed on the model (the other test files)

Tests of the *model*, see `Verif.Validation.ReadWrite`.  Not replayed: the two tests of common_test.cc about
pointer casts at unaligned addresses (lines 213 and 224; every structure that the library casts to is
packed, so its alignment is 1 and the model has no alignment), and the two tests of mode_sense_test.cc for
the translation of the data, which the kernel cannot evaluate in reasonable time.
-/

namespace Scsi2Nvme.Validation
open Scsi2Nvme Nvme

/-- A memory which holds zeros after the given bytes at each of the addresses: (address, length, first
bytes). -/
def blocks (l : List (Nat × Nat × List Byte)) : Mem := fun a =>
  l.findSome? fun b => if b.1 ≤ a ∧ a < b.1 + b.2.1 then some (b.2.2.getD (a - b.1) 0) else none

/-- The value and the bytes of a range of memory after a run. -/
def after (x : M α) (w : World) (ptr len : Nat) : Option (α × List Byte) :=
  match x w with
  | .ok (a, w') => (w'.mem.read ptr len).map (fun bs => (a, bs))
  | .error _ => none

/-! ## common_test.cc -/

-- common_test.cc:24 ShouldCorrectlyCallback
example : Log.DebugLog true (text! "Testing%d") [.int 123] = some (some (text! "Testing123")) := by
  decide +kernel

-- common_test.cc:41 ShouldNotReadValueFromSpan
example : readValue Scsi.Read6Command.size Scsi.Read6Command.ofBytes
    (List.replicate (Scsi.Read6Command.size - 1) 0x5a) = none := by decide +kernel

-- common_test.cc:49 ShouldCorrectlyReadValueFromSpan (the control byte is the last byte of READ(6))
example : Holds (readValue Scsi.Read6Command.size Scsi.Read6Command.ofBytes [0, 0, 0, 0, 0b11000100])
    (fun c => c.cb_obsolete = 0 ∧ c.naca = 1 ∧ c.cb_reserved = 0 ∧ c.cb_vendor = 0b11) := by decide +kernel

-- common_test.cc:61 ShouldNotWriteValueToSpan, :69 …ForTooLargeNumbytes, :78 ShouldWriteNBytesToSpan
example :
    let c : Scsi.Read6Command := {}
    let w : World := ⟨blocks [(100, 6, [])], []⟩
    let n := Scsi.Read6Command.size
    result (WriteValue' c.toBytes ⟨100, n - 1⟩) w = some false ∧
    result (WriteValue c.toBytes ⟨100, n + 1⟩ (n + 1)) w = some false ∧
    result (WriteValue c.toBytes ⟨100, n - 1⟩ (n - 1)) w = some true := by decide +kernel

-- common_test.cc:87 ShouldCorrectlyWriteValueToSpan
example :
    let c : Scsi.Read6Command := { cb_obsolete := 0, naca := 1, cb_reserved := 0, cb_vendor := 0b11 }
    (after (WriteValue' c.toBytes ⟨100, 5⟩) ⟨blocks [(100, 5, [])], []⟩ 104 1) = some (true, [0b11000100]) := by
  decide +kernel

/-- An allocation callback which only looks at the number of pages. -/
def byCount (f : U16 → U64) : Env :=
  { allocCb := some (fun w _ n => (f n, w.mem)), deallocCb := none, junk := fun _ _ => 0xaa }

-- common_test.cc:101 ShouldBuildAllocationWithSuccessStatus
example :
    result (({} : Allocation).SetPages (byCount fun n => if n = 1 then 1337 else if n = 3 then 7331 else 0)
      4096 1 3) ⟨fun _ => none, []⟩ = some (.kSuccess,
      { data_page_count := 1, data_addr := 1337, mdata_page_count := 3, mdata_addr := 7331 }) := by
  decide +kernel

-- common_test.cc:124 ShouldBuildAllocationZeroPageCountaWithSuccessStatus
example :
    let E := byCount fun n => if n = 2 then 1337 else 0
    let w : World := ⟨fun _ => none, []⟩
    let a : Allocation := { data_page_count := 2, data_addr := 1337, mdata_page_count := 0, mdata_addr := 0 }
    result (({} : Allocation).SetPages E 4096 2 0) w = some (.kSuccess, a) ∧
    result (a.SetPages E 4096 0 2) w = some (.kSuccess,
      { data_page_count := 0, data_addr := 0, mdata_page_count := 2, mdata_addr := 1337 }) := by decide +kernel

-- common_test.cc:152 ShouldFailBuildAllocationWhenOverrdingMemory, :159 …WhenAllocPageFails
example :
    let w : World := ⟨fun _ => none, []⟩
    (result (({ data_addr := 1337 } : Allocation).SetPages (byCount fun _ => 1) 4096 1 1) w).map (·.1)
      = some .kFailure ∧
    (result (({} : Allocation).SetPages (byCount fun _ => 0) 4096 1 1) w).map (·.1) = some .kFailure := by
  decide +kernel

-- common_test.cc:173 SafePointerCastWrite, :187 SafePointerCastRead, :198 PointerCastReadInvalidSize,
-- :208 PointerCastWriteInvalidSize
example : SafePointerCast 4 ⟨0x7000, 4⟩ ≠ 0 ∧ SafePointerCast 4 ⟨0x7000, 1⟩ = 0 ∧
    SafePointerCast 4 ⟨0x7000, 3⟩ = 0 := by decide +kernel

/-! ## status_test.cc -/

-- status_test.cc:22, 36, 50, 65, 79, 93, 107
example :
    let d : ScsiStatus := ⟨Scsi.Status.kCheckCondition, Scsi.SenseKey.kNoSense,
      Scsi.Asc.kNoAdditionalSenseInfo, Scsi.Ascq.kNoAdditionalSenseInfo⟩
    Status.StatusToScsi StatusCodeType.kGeneric 0 = { d with status := Scsi.Status.kGood } ∧
    Status.StatusToScsi StatusCodeType.kGeneric 0x03 = d ∧
    Status.StatusToScsi StatusCodeType.kCommandSpecific 0x0a = ⟨Scsi.Status.kCheckCondition,
      Scsi.SenseKey.kIllegalRequest, Scsi.Asc.kFormatCommandFailed, Scsi.Ascq.kFormatCommandFailed⟩ ∧
    Status.StatusToScsi StatusCodeType.kGeneric 0x0d = d ∧
    Status.StatusToScsi StatusCodeType.kMediaError 0x81 = ⟨Scsi.Status.kCheckCondition,
      Scsi.SenseKey.kMediumError, Scsi.Asc.kUnrecoveredReadError, Scsi.Ascq.kUnrecoveredReadError⟩ ∧
    Status.StatusToScsi StatusCodeType.kMediaError 0x87 = d ∧
    Status.StatusToScsi 6 0 = d := by decide +kernel

/-! ## translation_test.cc -/

/-- A fresh object. -/
def object : Translation :=
  let w : NvmeCmdWrapper := ⟨idCmd 0xffff, 7, false⟩
  Translation.init ⟨w, w, w⟩

/-- No allocation callbacks were set. -/
def noCallbacks : Env := { allocCb := none, deallocCb := none, junk := fun _ _ => 0xaa }

/-- `Begin` with the one byte of the command, then `Complete` without completions and data, with a sense
buffer at 0x4000. -/
def beginComplete : M (BeginResponse × CompleteResponse) := do
  let (b, t) ← object.Begin noCallbacks ⟨0x3000, 1⟩ Span.null 0
  let (c, _) ← t.Complete noCallbacks [] Span.null ⟨0x4000, Scsi.DescriptorFormatSenseData.size⟩
  pure (b, c)

-- translation_test.cc:28 ShouldHandleUnknownOpcode, :37 ShouldReturnInquirySuccess
example : ∀ opc ∈ [233#8, Scsi.OpCode.kInquiry],
    (result (object.Begin noCallbacks ⟨0x3000, 1⟩ Span.null 0)
      ⟨blocks [(0x3000, 1, [opc])], []⟩).map (·.1.status) = some .kSuccess := by decide +kernel

-- translation_test.cc:46 ShouldFailInvalidPipeline
example : (result (object.Complete noCallbacks [] Span.null Span.null) ⟨fun _ => none, []⟩).map (·.1.status)
    = some .kFailure := by decide +kernel

-- translation_test.cc:56 ShouldReturnSenseData
example :
    Holds (after (beginComplete) ⟨blocks [(0x3000, 1, [255]), (0x4000, 8, [])], []⟩ 0x4000 8) (fun r =>
      let d := Scsi.DescriptorFormatSenseData.ofBytes r.2
      r.1.1.status = .kSuccess ∧ r.1.2 = ⟨.kSuccess, Scsi.Status.kCheckCondition⟩ ∧
      d.response_code = Scsi.SenseResponse.kCurrentDescriptorError.setWidth 7 ∧
      d.sense_key = Scsi.SenseKey.kIllegalRequest.setWidth 4 ∧
      d.additional_sense_code = Scsi.Asc.kInvalidFieldInCdb ∧
      d.additional_sense_code_qualifier = Scsi.Ascq.kNoAdditionalSenseInfo ∧
      d.additional_sense_length = 0) := by decide +kernel

-- translation_test.cc:92 ShouldReturnEmptyCmdSpan
example : object.GetNvmeWrappers.length = 0 := by decide +kernel

/-! ## request_sense_test.cc -/

-- request_sense_test.cc: ToNvmeSuccess, ToNvmeBadBuffer, ToNvmeBadControlByteNaca
example :
    let c : Scsi.RequestSenseCommand := { allocation_length := 100 }
    let c' : Scsi.RequestSenseCommand := { allocation_length := 100, naca := 1 }
    RequestSense.RequestSenseToNvme c.toBytes 0 = (.kSuccess, 100) ∧
    RequestSense.RequestSenseToNvme (c.toBytes.take 4) 0 = (.kInvalidInput, 0) ∧
    RequestSense.RequestSenseToNvme c'.toBytes 0 = (.kInvalidInput, 0) := by decide +kernel

-- request_sense_test.cc: ToScsiBadBuffer
example :
    let c : Scsi.RequestSenseCommand := {}
    result (RequestSense.RequestSenseToScsi (c.toBytes.take 4) ⟨100, 100⟩) ⟨blocks [(100, 100, [])], []⟩
      = some .kInvalidInput := by decide +kernel

-- request_sense_test.cc: ToScsiDescriptor
example :
    let c : Scsi.RequestSenseCommand := { desc := 1, allocation_length := 100 }
    Holds (after (RequestSense.RequestSenseToScsi c.toBytes ⟨100, 100⟩) ⟨blocks [(100, 100, [])], []⟩
      100 Scsi.DescriptorFormatSenseData.size) (fun r =>
      let d := Scsi.DescriptorFormatSenseData.ofBytes r.2
      r.1 = .kSuccess ∧ d.response_code = Scsi.SenseResponse.kCurrentDescriptorError.setWidth 7 ∧
      d.additional_sense_code = Scsi.Asc.kNoAdditionalSenseInfo) := by decide +kernel

-- request_sense_test.cc: ToScsiFixed
example :
    let c : Scsi.RequestSenseCommand := { desc := 0, allocation_length := 100 }
    Holds (after (RequestSense.RequestSenseToScsi c.toBytes ⟨100, 100⟩) ⟨blocks [(100, 100, [])], []⟩
      100 Scsi.FixedFormatSenseData.size) (fun r =>
      let d := Scsi.FixedFormatSenseData.ofBytes r.2
      r.1 = .kSuccess ∧ d.response_code = Scsi.SenseResponse.kCurrentFixedError.setWidth 7 ∧
      d.additional_sense_length = 0 ∧ d.command_specific_info = 0 ∧
      d.additional_sense_code = Scsi.Asc.kNoAdditionalSenseInfo) := by decide +kernel

/-! ## maintenance_in_test.cc -/

-- InvalidOpCodeValidationFailure, InvalidReportingOptionsValidationFailure, ValidationSuccess
example :
    let c (opc : Byte) (o : BitVec 3) : Scsi.ReportOpCodesCommand :=
      { requested_op_code := opc, reporting_options := o }
    (MaintenanceIn.ValidateReportSupportedOpCodes (c Scsi.OpCode.kRead10 0).toBytes 0).1 = .kInvalidInput ∧
    (MaintenanceIn.ValidateReportSupportedOpCodes (c Scsi.OpCode.kWriteSame16 0).toBytes 0).1
      = .kInvalidInput ∧
    MaintenanceIn.ValidateReportSupportedOpCodes (c Scsi.OpCode.kWriteSame16 1).toBytes 0
      = (.kSuccess, BitVec.ofNat 32 Scsi.OneCommandParamData.size) := by decide +kernel

-- WriteResultSuccess
example : (after (MaintenanceIn.WriteReportSupportedOpCodesResult ⟨100, 256⟩) ⟨blocks [(100, 256, [])], []⟩
    101 1).map (·.2) = some [1] := by decide +kernel

/-! ## report_luns_test.cc -/

-- report_luns_test.cc: reportLunsToNvme, shouldReturnCorrectCommand
example :
    let c : Scsi.ReportLunsCommand := { alloc_length := htonl 344 }
    Holds (result (ReportLuns.ReportLunsToNvme (byCount fun _ => 2323) c.toBytes ⟨idCmd 0xffff, 7, false⟩ 4096 {}
      0) ⟨fun _ => none, []⟩) (fun r =>
      r.1 = .kSuccess ∧ r.2.1.cmd.opc = AdminOpcode.kIdentify ∧ r.2.1.cmd.prp1 = 2323 ∧
      r.2.1.cmd.cdw_0 = 2 ∧ r.2.2.1.data_addr = 2323 ∧ r.2.2.1.data_page_count = 1 ∧ r.2.2.2 = 344 ∧
      r.2.1.is_admin = true ∧ r.2.1.buffer_len = 4096) := by decide +kernel

/-- The identifiers 1, …, n. -/
def nsIds (n : Nat) : List Byte := (List.range n).flatMap fun i => leBytes 4 (i + 1)

-- report_luns_test.cc: reportLunsToScsi, shouldFillBufferCorrectly (the rest of the test's list is not
-- initialised, here it is zero; 25 instead of 125 identifiers, which takes less time)
example :
    Holds (after (ReportLuns.ReportLunsToScsi (idCmd 0x1000) ⟨0x3000, 8 + 25 * 8⟩)
      ⟨blocks [(0x1000, 4096, nsIds 25), (0x3000, 8 + 25 * 8, [])], []⟩ 0x3000 (8 + 25 * 8)) (fun r =>
      r.1 = .kSuccess ∧
      (ntohl (Scsi.ReportLunsParamData.ofBytes (r.2.take 8)).list_byte_length).toNat = 25 * 8 ∧
      ∀ i < 25, (ntohll (BitVec.ofNat 64 (leNat ((r.2.drop (8 + 8 * i)).take 8)))).toNat = i) := by
  decide +kernel

-- report_luns_test.cc: shouldFailNotEnoughMemory, shouldFailNullptr
example :
    result (ReportLuns.ReportLunsToScsi (idCmd 0x1000) ⟨0, 0⟩) ⟨fun _ => none, []⟩ = some .kFailure ∧
    result (ReportLuns.ReportLunsToScsi (idCmd 0) ⟨100, 100⟩) ⟨blocks [(100, 100, [])], []⟩
      = some .kFailure := by decide +kernel

/-! ## mode_sense_test.cc -/

/-- Wrappers that were never initialised. -/
def someWrappers : Arr3 NvmeCmdWrapper := object.nvme_wrappers

-- mode_sense_test.cc:28 ShouldReturnNoCommands
example :
    let c : Scsi.ModeSense6Command :=
      { dbd := 1, page_code := Scsi.ModePageCode.kPowerConditionMode, alloc_length := 50 }
    Holds (result (ModeSense.ModeSense6ToNvme noCallbacks c.toBytes someWrappers {} 4096 1 0 0)
      ⟨fun _ => none, []⟩) (fun r => r.1 = .kSuccess ∧ r.2.2.2 = (0, 50)) := by decide +kernel

-- mode_sense_test.cc:52 ShouldReturnGetFeatures
example :
    let c : Scsi.ModeSense6Command :=
      { dbd := 1, page_code := Scsi.ModePageCode.kCacheMode, pc := Scsi.PageControl.kDefault, alloc_length := 25 }
    Holds (result (ModeSense.ModeSense6ToNvme noCallbacks c.toBytes someWrappers {} 4096 32 0 0)
      ⟨fun _ => none, []⟩) (fun r =>
      let g := GetFeaturesCmd.ofBytes r.2.1.e0.cmd.toBytes
      r.1 = .kSuccess ∧ r.2.2.2 = (1, 25) ∧ r.2.1.e0.is_admin = true ∧ g.opc = AdminOpcode.kGetFeatures ∧
      g.nsid = 32 ∧ g.sel = FeatureSelect.kDefault.setWidth _ ∧ g.fid = FeatureType.kVolatileWriteCache) := by decide +kernel

-- mode_sense_test.cc:88 ShouldReturnDbdCommands
example :
    let c : Scsi.ModeSense6Command :=
      { dbd := 0, page_code := Scsi.ModePageCode.kCacheMode, alloc_length := 25 }
    Holds (result (ModeSense.ModeSense6ToNvme (byCount fun _ => 2323) c.toBytes someWrappers {} 4096 32 0 0)
      ⟨fun _ => none, []⟩) (fun r =>
      r.1 = .kSuccess ∧ r.2.2.2 = (2, 25) ∧ r.2.2.1.data_addr = 2323 ∧ r.2.2.1.data_page_count = 1 ∧
      r.2.1.e0.cmd.opc = AdminOpcode.kIdentify ∧ r.2.1.e0.cmd.nsid = 32 ∧ r.2.1.e0.cmd.prp1 = 2323 ∧
      r.2.1.e0.cmd.cdw_0 = 0 ∧ r.2.1.e0.is_admin = true ∧ r.2.1.e0.buffer_len = 4096 ∧
      r.2.1.e1.cmd.opc = AdminOpcode.kGetFeatures ∧ r.2.1.e1.is_admin = true) := by decide +kernel

/-! ## unmap_test.cc -/

-- unmap_test.cc: ShouldFillBufferCorrectly
example :
    let n : Nat := 8 + 3 * 16
    let c : Scsi.UnmapCommand := { param_list_length := htons (BitVec.ofNat 16 n) }
    let p : Scsi.UnmapParamList :=
      { data_length := htons (BitVec.ofNat 16 (n - 2)), block_desc_data_length := htons (BitVec.ofNat 16 (n - 8)) }
    let d (i : Nat) : Scsi.UnmapBlockDescriptor :=
      { logical_block_addr := htonll (BitVec.ofNat 64 (i + 500)), logical_block_count := htonl (BitVec.ofNat 32 (i + 7)) }
    Holds (after (Unmap.UnmapToNvme (byCount fun _ => 0x5000) c.toBytes ⟨0x3000, n⟩ ⟨{}, 0, false⟩ 4096 323 {})
      ⟨blocks [(0x3000, n, p.toBytes ++ (d 0).toBytes ++ (d 1).toBytes ++ (d 2).toBytes), (0x5000, 4096, [])], []⟩
      0x5000 48) (fun r =>
      r.1.1 = .kSuccess ∧ r.1.2.1.is_admin = true ∧ r.1.2.1.cmd.nsid = 323 ∧ r.1.2.1.cmd.cdw_0 = 2 ∧
      r.1.2.1.cmd.cdw_1 = 0b100 ∧ r.1.2.2.data_addr ≠ 0 ∧ r.1.2.2.data_page_count = 1 ∧
      r.1.2.1.cmd.prp1 = 0x5000 ∧ ∀ i < 3,
        let m := DatasetManagmentRange.ofBytes ((r.2.drop (16 * i)).take 16)
        (htoll (m.lba.setWidth 32)).toNat = i + 500 ∧ (htoll m.lb_count).toNat = i + 7) := by decide +kernel

end Scsi2Nvme.Validation
