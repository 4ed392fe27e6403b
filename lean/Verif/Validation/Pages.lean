import Verif.Model.Translation
import Verif.Proofs.Mem
import Verif.Proofs.Structs
/-!
# The repository's own unit tests, replayed on the model (INQUIRY, READ CAPACITY)

Tests of the *model*, see `Verif.Validation.ReadWrite`.  The identify pages of the tests are zero except for
the fields that a test sets, so a page is given by its first bytes; two lemmas show that the padding with
zeros to 4096 bytes, which is what lies in the memory of the replayed test, makes no difference.
-/

namespace Scsi2Nvme.Validation
open Scsi2Nvme Nvme

/-! ## Set-up -/

/-- The first 536 bytes of a page that is zero except for the given bit-fields: (bit offset, value). -/
def fields (l : List (Nat × Nat)) : List Byte := leBytes 536 ((l.map (fun p => p.2 * 2 ^ p.1)).sum)

/-- A page: its first bytes, then zeros. -/
def padded (bs : List Byte) : List Byte := bs ++ List.replicate (4096 - bs.length) 0

/-- The memory of a test: the namespace page at 0x1000, the controller page at 0x2000, the buffer of 200
zero bytes at 0x3000. -/
def testMem (ns ctrl : List Byte) : Mem := fun a =>
  if 0x1000 ≤ a ∧ a < 0x2000 then (padded ns)[a - 0x1000]?
  else if 0x2000 ≤ a ∧ a < 0x3000 then (padded ctrl)[a - 0x2000]?
  else if 0x3000 ≤ a ∧ a < 0x3000 + 200 then some 0
  else none

/-- `buffer_[200]`: test/translator/inquiry_test.cc:37, read_capacity_10_test.cc:33 -/
def testBuffer : Span := ⟨0x3000, 200⟩

/-- Allocation callback of the tests, which always return 1337; no deallocation callback.
test/translator/inquiry_test.cc:42-47, read_capacity_10_test.cc:38-44 -/
def testEnv (addr : U64) : Env :=
  { allocCb := some (fun w _ _ => (addr, w.mem)), deallocCb := none, junk := fun _ _ => 0xaa }

/-- The status and the contents of the buffer after a translation to SCSI. -/
def outcomeOf (x : M StatusCode) (w : World) : Option (StatusCode × List Byte) :=
  match x w with
  | .ok (st, w') => (w'.mem.read 0x3000 200).map (fun bs => (st, bs))
  | .error _ => none

theorem fields_length (l : List (Nat × Nat)) : (fields l).length ≤ 4096 := by
  unfold fields; rw [leBytes_length]; omega

theorem padded_length {bs : List Byte} (h : bs.length ≤ 4096) : (padded bs).length = 4096 := by
  simp [padded]; omega

theorem leNat_padded (bs : List Byte) : leNat (padded bs) = leNat bs := by
  have hz : ∀ n, leNat (List.replicate n (0#8)) = 0 := by
    intro n
    induction n with
    | zero => rfl
    | succ n ih => simp [List.replicate_succ, leNat, ih]
  unfold padded
  rw [leNat_append, show (0 : Byte) = 0#8 from rfl, hz]
  simp

theorem read_ns (ns ctrl : List Byte) (h : ns.length ≤ 4096) :
    (testMem ns ctrl).read 0x1000 4096 = some (padded ns) := by
  refine read_eq_some.mpr ⟨padded_length h, fun i hi => ?_⟩
  unfold testMem
  rw [if_pos (by omega), Nat.add_sub_cancel_left]

theorem read_ctrl (ns ctrl : List Byte) (h : ctrl.length ≤ 4096) :
    (testMem ns ctrl).read 0x2000 4096 = some (padded ctrl) := by
  refine read_eq_some.mpr ⟨padded_length h, fun i hi => ?_⟩
  unfold testMem
  rw [if_neg (by omega), if_pos (by omega), Nat.add_sub_cancel_left]

/-- Memory of the same test without the pages. -/
def bufferMem : Mem := fun a => if 0x3000 ≤ a ∧ a < 0x3000 + 200 then some 0 else none

/-- The result of a run without undefined behaviour. -/
def result (x : M α) (w : World) : Option α :=
  match x w with
  | .ok (a, _) => some a
  | .error _ => none

/-- There is a value and it has the property. -/
def Holds (o : Option α) (p : α → Prop) : Prop := ∃ a, o = some a ∧ p a

instance {α : Type} {o : Option α} {p : α → Prop} [DecidablePred p] : Decidable (Holds o p) :=
  match o with
  | some a => if h : p a then isTrue ⟨a, rfl, h⟩ else isFalse (fun ⟨_, e, h'⟩ => h (Option.some.inj e ▸ h'))
  | none => isFalse (fun ⟨_, e, _⟩ => by cases e)

/-! ## INQUIRY -/

/-- The command data of the two wrappers: only the data pointers matter.  inquiry_test.cc:70-77 -/
def idCmd (prp1 : U64) (nsid : U32 := 0) : GenericQueueEntryCmd :=
  { opc := AdminOpcode.kIdentify, nsid := nsid, prp1 := prp1 }

/-- What `InquiryToScsi` returns and leaves in the buffer, for pages that start with `ns` and `ctrl`. -/
def inquiry (c : Scsi.InquiryCommand) (ns ctrl : List Byte) (nsid : U32 := 0) :
    Option (StatusCode × List Byte) :=
  outcomeOf (Inquiry.InquiryToScsi (testEnv 1337) c.toBytes testBuffer (idCmd 0x1000 nsid) (idCmd 0x2000))
    { mem := testMem ns ctrl, trace := [] }

theorem inquiryPage_padded (E : Env) (c : Scsi.InquiryCommand) (nsid : U32) (ns ctrl : List Byte)
    (b : Span) :
    Inquiry.inquiryPage E c nsid (padded ns) (padded ctrl) b = Inquiry.inquiryPage E c nsid ns ctrl b := by
  delta Inquiry.inquiryPage Inquiry.TranslateUnitSerialNumberVpd Inquiry.productSerial
    Inquiry.nguidNz Inquiry.eui64Nz Inquiry.TranslateDeviceIdentificationVpd
    Inquiry.BuildIdentificationDescriptor Inquiry.nguidBytes Inquiry.eui64Bytes
    Inquiry.TranslateExtendedInquiryDataVpd Inquiry.GetSptValueFromDPC Inquiry.extendedInquiryData
    Inquiry.TranslateBlockLimitsVpd Inquiry.blockLimits Inquiry.TranslateLogicalBlockProvisioningVpd
    Inquiry.logicalBlockProvisioning Inquiry.TranslateStandardInquiry Inquiry.standardInquiryData
    Inquiry.nguidNz Inquiry.eui64Nz Inquiry.nguidBytes Inquiry.eui64Bytes getF
  simp only [leNat_padded]

/-- The same with the first bytes of the pages in place of the pages, which is quick to evaluate. -/
theorem inquiry_eq (c : Scsi.InquiryCommand) (ns ctrl : List Byte) (nsid : U32)
    (h : ns.length ≤ 4096) (h' : ctrl.length ≤ 4096) :
    inquiry c ns ctrl nsid = outcomeOf (Inquiry.inquiryPage (testEnv 1337)
      (Scsi.InquiryCommand.ofBytes c.toBytes) nsid ns ctrl testBuffer)
      { mem := testMem ns ctrl, trace := [] } := by
  have key : Inquiry.InquiryToScsi (testEnv 1337) c.toBytes testBuffer (idCmd 0x1000 nsid) (idCmd 0x2000)
      { mem := testMem ns ctrl, trace := [] } = Inquiry.inquiryPage (testEnv 1337)
      (Scsi.InquiryCommand.ofBytes c.toBytes) nsid ns ctrl testBuffer
      { mem := testMem ns ctrl, trace := [] } := by
    have hc : c.toBytes.length = Scsi.InquiryCommand.size := Scsi.InquiryCommand.toBytes_length c
    unfold Inquiry.InquiryToScsi readValue
    rw [if_neg (by omega), List.take_of_length_le (by omega)]
    have e1 : SafePointerCast 4096 ⟨(idCmd 0x1000 nsid).prp1.toNat, 4096⟩ = 0x1000 := rfl
    have e2 : SafePointerCast 4096 ⟨(idCmd 0x2000).prp1.toNat, 4096⟩ = 0x2000 := rfl
    have e3 : (idCmd 0x1000 nsid).nsid = nsid := rfl
    simp only [e1, e2, e3]
    rw [if_neg (by decide), if_neg (by decide), ← inquiryPage_padded]
    rw [M.bind_eq _ _ _ _ _ (load_ok (w := ⟨testMem ns ctrl, []⟩) (read_ns ns ctrl h)),
      M.bind_eq _ _ _ _ _ (load_ok (w := ⟨testMem ns ctrl, []⟩) (read_ctrl ns ctrl h'))]
  unfold inquiry outcomeOf
  rw [key]

theorem inquiry_fields (c : Scsi.InquiryCommand) (l l' : List (Nat × Nat)) (nsid : U32) :
    inquiry c (fields l) (fields l') nsid = outcomeOf (Inquiry.inquiryPage (testEnv 1337)
      (Scsi.InquiryCommand.ofBytes c.toBytes) nsid (fields l) (fields l') testBuffer)
      { mem := testMem (fields l) (fields l'), trace := [] } :=
  inquiry_eq c _ _ nsid (fields_length l) (fields_length l')

/-- Decoding the buffer after a successful translation. -/
def decoded (r : Option (StatusCode × List Byte)) (size : Nat) (dec : List Byte → α) (pos : Nat := 0) :
    Option α :=
  match r with
  | some (.kSuccess, bs) => some (dec ((bs.drop pos).take size))
  | _ => none

/-- The bytes from `pos` on after a successful translation. -/
def bytesAt (r : Option (StatusCode × List Byte)) (pos n : Nat) : List Byte :=
  match r with
  | some (.kSuccess, bs) => (bs.drop pos).take n
  | _ => []

/-- An INQUIRY command with the EVPD bit set. -/
def vpd (page : Byte) : Scsi.InquiryCommand := { evpd := 1, page_code := page }


-- inquiry_test.cc:76 InquiryToNvme (`kPageSize` is an `uint8_t` there, so 4096 becomes 0)
example :
    let c : Scsi.InquiryCommand := { allocation_length := htons 4096 }
    let wr : NvmeCmdWrapper := ⟨idCmd 0xffff, 7, false⟩
    Holds (result (Inquiry.InquiryToNvme (testEnv 1337) c.toBytes wr wr 0 0x123 {} {} 0) ⟨fun _ => none, []⟩) (fun r =>
      r.status = .kSuccess ∧ r.alloc_len = 4096 ∧
      r.wr_ns.cmd.opc = AdminOpcode.kIdentify ∧ r.wr_ns.cmd.nsid = 0x123 ∧ r.wr_ns.cmd.prp1 ≠ 0 ∧
      r.wr_ns.cmd.cdw_0 = 0 ∧ r.wr_ns.is_admin = true ∧ r.wr_ns.buffer_len = 0 ∧
      r.wr_ctrl.cmd.opc = AdminOpcode.kIdentify ∧ r.wr_ctrl.cmd.nsid = 0 ∧ r.wr_ctrl.cmd.prp1 ≠ 0 ∧
      r.wr_ctrl.cmd.cdw_0 = 1 ∧ r.wr_ctrl.is_admin = true ∧ r.wr_ctrl.buffer_len = 0) := by decide +kernel

-- inquiry_test.cc:111 InquiryToNvmeFailRead
example :
    let wr : NvmeCmdWrapper := ⟨idCmd 0xffff, 7, false⟩
    Holds (result (Inquiry.InquiryToNvme (testEnv 1337) [0] wr wr 0 0x123 {} {} 0) ⟨fun _ => none, []⟩) (fun r => r.status = .kInvalidInput) := by decide +kernel

-- inquiry_test.cc:125 StandardInquiry
example :
    let mn0 := IdentifyControllerData.mn.off
    let fr := IdentifyControllerData.fr.off
    let ctrl := fields [(mn0, 0x42), (mn0 + 8 * 15, 0x28), (fr, 0x61), (fr + 8, 0x20), (fr + 16, 0x62),
      (fr + 24, 0x63), (fr + 32, 0x20), (fr + 40, 0x20), (fr + 48, 0x20), (fr + 56, 0x64)]
    Holds (decoded (inquiry {} (fields []) ctrl) Scsi.InquiryData.size Scsi.InquiryData.ofBytes) (fun r =>
      r.peripheral_qualifier = 0 ∧ r.peripheral_device_type = 0 ∧ r.rmb = 0 ∧ r.version = 6 ∧
      r.normaca = 0 ∧ r.hisup = 0 ∧ r.response_data_format = 0b10 ∧ r.additional_length = 0x1f ∧
      r.sccs = 0 ∧ r.acc = 0 ∧ r.tpgs = 0 ∧ r.third_party_copy = 0 ∧ r.protect = 0 ∧ r.encserv = 0 ∧
      r.multip = 0 ∧ r.addr_16 = 0 ∧ r.wbus_16 = 0 ∧ r.sync = 0 ∧ r.cmdque = 1 ∧
      leBytes 8 r.vendor_identification.toNat = [0x4e, 0x56, 0x4d, 0x65, 0x20, 0x20, 0x20, 0x20] ∧
      leBytes 16 r.product_identification.toNat = [0x42, 0, 0, 0, 0, 0, 0, 0, 0, 0, 0, 0, 0, 0, 0, 0x28] ∧
      leBytes 4 r.product_revision_level.toNat = [0x61, 0x62, 0x63, 0x64]) := by
  simp only [inquiry_fields]
  decide +kernel

-- inquiry_test.cc:194 SupportedVpdPages
example :
    let r := inquiry (vpd Scsi.PageCode.kSupportedVpd) (fields []) (fields [])
    (Holds (decoded r 4 Scsi.SupportedVitalProductData.ofBytes) (fun d => d.peripheral_qualifier = Scsi.PeripheralQualifier.kPeripheralDeviceConnected ∧
        d.peripheral_device_type = Scsi.PeripheralDeviceType.kDirectAccessBlock ∧
        d.page_code = Scsi.PageCode.kSupportedVpd ∧ d.page_length = 7)) ∧
    bytesAt r 4 7 = [Scsi.PageCode.kSupportedVpd, Scsi.PageCode.kUnitSerialNumber,
      Scsi.PageCode.kDeviceIdentification, Scsi.PageCode.kExtended, Scsi.PageCode.kBlockLimitsVpd,
      Scsi.PageCode.kBlockDeviceCharacteristicsVpd, Scsi.PageCode.kLogicalBlockProvisioningVpd] := by
  simp only [inquiry_fields]
  decide +kernel

/-- What the four tests of the unit serial number expect. -/
def SerialIs (ns ctrl : List (Nat × Nat)) (nsid : U32) (text : String) : Prop :=
  let r := inquiry (vpd Scsi.PageCode.kUnitSerialNumber) (fields ns) (fields ctrl) nsid
  (Holds (decoded r 4 Scsi.UnitSerialNumber.ofBytes) (fun d => d.peripheral_qualifier = Scsi.PeripheralQualifier.kPeripheralDeviceConnected ∧
      d.peripheral_device_type = Scsi.PeripheralDeviceType.kDirectAccessBlock ∧
      d.page_code = Scsi.PageCode.kUnitSerialNumber ∧ d.page_length = BitVec.ofNat 8 text.length)) ∧
  bytesAt r 4 text.length = text.toList.map (fun c => BitVec.ofNat 8 c.toNat)

-- inquiry_test.cc:234 TranslateUnitSerialNumberVpdEui64
example : SerialIs [(IdentifyNamespace.eui64.off, 0x123456789abcdefa)] [] 0
    "1234_5678_9abc_defa." := by
  simp only [SerialIs, inquiry_fields]; decide +kernel

-- inquiry_test.cc:268 TranslateUnitSerialNumberVpdNguid
example : SerialIs [(IdentifyNamespace.nguid_0.off, 0x123456789abcdefa),
      (IdentifyNamespace.nguid_1.off, 0x123456789abcdefa)] [] 0
    "1234_5678_9abc_defa_1234_5678_9abc_defa." := by
  simp only [SerialIs, inquiry_fields]; decide +kernel

-- inquiry_test.cc:301 TranslateUnitSerialNumberVpdBoth
example : SerialIs [(IdentifyNamespace.nguid_0.off, 0x123456789abcdefa),
      (IdentifyNamespace.nguid_1.off, 0x123456789abcdefa),
      (IdentifyNamespace.eui64.off, 0x123456789abcdefa)] [] 0
    "1234_5678_9abc_defa_1234_5678_9abc_defa." := by
  simp only [SerialIs, inquiry_fields]; decide +kernel

-- inquiry_test.cc:334 TranslateUnitSerialNumberVpdNone
example : SerialIs [] [(IdentifyControllerData.sn.off,
      leNat ("12345abcde12345abcde".toList.map (fun c => BitVec.ofNat 8 c.toNat)))] 0xaaaaaaaa
    "12345abcde12345abcde_aaaaaaaa." := by
  simp only [SerialIs, inquiry_fields]; decide +kernel

/-- What the ten tests of the Block Limits page expect for given MDTS, FUSES and ONCS fields. -/
def LimitsAre (mdts fuses dsm : Nat) (cawl : Byte) (mtl lba desc : U32) : Prop :=
  let ctrl := fields [(IdentifyControllerData.mdts.off, mdts),
    (IdentifyControllerData.fuses_compare_and_write.off, fuses), (IdentifyControllerData.oncs_dsm.off, dsm)]
  Holds (decoded (inquiry (vpd Scsi.PageCode.kBlockLimitsVpd) (fields []) ctrl) Scsi.BlockLimitsVpd.size
      Scsi.BlockLimitsVpd.ofBytes) (fun d => d.page_code = Scsi.PageCode.kBlockLimitsVpd ∧ d.page_length = 0x003c ∧
    d.max_compare_write_length = cawl ∧ d.max_transfer_length = mtl ∧ d.max_unmap_lba_count = lba ∧
    d.max_unmap_block_descriptor_count = desc)

-- inquiry_test.cc:368 BlockLimitsVpd
example : LimitsAre 0 0 0 0 0 0 0 := by simp only [LimitsAre, inquiry_fields]; decide +kernel
-- inquiry_test.cc:395 BlockLimitsVpdMdts
example : LimitsAre 5 0 0 0 (htonl (1 <<< 5)) 0 0 := by
  simp only [LimitsAre, inquiry_fields]; decide +kernel
-- inquiry_test.cc:421 BlockLimitsVpdFuse
example : LimitsAre 0 1 0 0 0 0 0 := by simp only [LimitsAre, inquiry_fields]; decide +kernel
-- inquiry_test.cc:449 BlockLimitsVpdDsm
example : LimitsAre 0 0 1 0 0 (htonl 1) (htonl 0x0100) := by
  simp only [LimitsAre, inquiry_fields]; decide +kernel
-- inquiry_test.cc:476 BlockLimitsVpdMdtsFuse
example : LimitsAre 5 1 0 32 (htonl (1 <<< 5)) 0 0 := by
  simp only [LimitsAre, inquiry_fields]; decide +kernel
-- inquiry_test.cc:502 BlockLimitsVpdMdtsFuseLarge
example : LimitsAre 10 1 0 255 (htonl (1 <<< 10)) 0 0 := by
  simp only [LimitsAre, inquiry_fields]; decide +kernel
-- inquiry_test.cc:531 BlockLimitsVpdMdtsFuseVeryLarge
example : LimitsAre 65 1 0 255 (htonl (1 <<< 16)) 0 0 := by
  simp only [LimitsAre, inquiry_fields]; decide +kernel
-- inquiry_test.cc:559 BlockLimitsVpdMdtsOncs
example : LimitsAre 5 0 1 0 (htonl (1 <<< 5)) (htonl 1) (htonl 0x0100) := by
  simp only [LimitsAre, inquiry_fields]; decide +kernel
-- inquiry_test.cc:586 BlockLimitsVpdFuseOncs
example : LimitsAre 0 1 1 0 0 (htonl 1) (htonl 0x0100) := by
  simp only [LimitsAre, inquiry_fields]; decide +kernel
-- inquiry_test.cc:612 BlockLimitsVpdMdtsFuseOncs
example : LimitsAre 5 1 1 32 (htonl (1 <<< 5)) (htonl 1) (htonl 0x0100) := by
  simp only [LimitsAre, inquiry_fields]; decide +kernel

/-- What the four tests of the Logical Block Provisioning page expect. -/
def ProvisioningIs (dsm thin : Nat) (lbprz type : BitVec 3) (lbpu : BitVec 1) : Prop :=
  Holds (decoded (inquiry (vpd Scsi.PageCode.kLogicalBlockProvisioningVpd)
      (fields [(IdentifyNamespace.nsfeat_thin_prov.off, thin)])
      (fields [(IdentifyControllerData.oncs_dsm.off, dsm)]))
      Scsi.LogicalBlockProvisioningVpd.size Scsi.LogicalBlockProvisioningVpd.ofBytes) (fun d => d.page_code = Scsi.PageCode.kLogicalBlockProvisioningVpd ∧ d.lbprz = lbprz ∧ d.anc_sup = 0 ∧
    d.provisioning_type = type ∧ d.lbpu = lbpu)

-- inquiry_test.cc:638 LogicalBlockProvisioningVpd
example : ProvisioningIs 0 0 0 0 0 := by simp only [ProvisioningIs, inquiry_fields]; decide +kernel
-- inquiry_test.cc:658 LogicalBlockProvisioningVpdDsm
example : ProvisioningIs 1 0 1 1 1 := by simp only [ProvisioningIs, inquiry_fields]; decide +kernel
-- inquiry_test.cc:679 LogicalBlockProvisioningVpdThinprov
example : ProvisioningIs 0 1 0 0 0 := by simp only [ProvisioningIs, inquiry_fields]; decide +kernel
-- inquiry_test.cc:701 LogicalBlockProvisioningVpdAdThinprov
example : ProvisioningIs 1 1 1 2 1 := by simp only [ProvisioningIs, inquiry_fields]; decide +kernel

/-- The namespace page of the tests of the Device Identification page. -/
def named (eui64 nguid : Nat) : List (Nat × Nat) :=
  [(IdentifyNamespace.eui64.off, eui64), (IdentifyNamespace.nguid_0.off, nguid),
    (IdentifyNamespace.nguid_1.off, nguid)]

-- inquiry_test.cc:724 TranslateDeviceIdentificationVPDBuildCorrectStructs, :753
-- DeviceIdentificationBuildsCorrectIdentificationDescriptor, :784 DeviceIdentificationVpdUsesNGUID
example :
    let r := inquiry (vpd Scsi.PageCode.kDeviceIdentification) (fields (named 0 0x12345678)) (fields [])
    (Holds (decoded r Scsi.DeviceIdentificationVpd.size Scsi.DeviceIdentificationVpd.ofBytes) (fun d => d.peripheral_qualifier = Scsi.PeripheralQualifier.kPeripheralDeviceConnected ∧
        d.peripheral_device_type = Scsi.PeripheralDeviceType.kDirectAccessBlock ∧
        d.page_code = Scsi.PageCode.kDeviceIdentification)) ∧
    (Holds (decoded r Scsi.IdentificationDescriptor.size Scsi.IdentificationDescriptor.ofBytes
        Scsi.DeviceIdentificationVpd.size) (fun d => d.protocol_identifier = Scsi.ProtocolIdentifier.kFibreChannel ∧
        d.code_set = Scsi.CodeSet.kBinary ∧ d.protocol_identifier_valid = 0 ∧
        d.association = Scsi.Association.kPhysicalDevice ∧
        d.identifier_type = Scsi.IdentifierType.kEUI64 ∧ d.identifier_length = 0x10)) ∧
    leNat (bytesAt r (Scsi.DeviceIdentificationVpd.size + Scsi.IdentificationDescriptor.size) 8) = 0x12345678 ∧
    leNat (bytesAt r (Scsi.DeviceIdentificationVpd.size + Scsi.IdentificationDescriptor.size + 8) 8)
      = 0x12345678 := by
  simp only [inquiry_fields]
  decide +kernel

-- inquiry_test.cc:819 IdentificationDescriptorUsesEUI64
example :
    let r := inquiry (vpd Scsi.PageCode.kDeviceIdentification) (fields (named 0x12345678 0)) (fields [])
    (Holds (decoded r Scsi.IdentificationDescriptor.size Scsi.IdentificationDescriptor.ofBytes
        Scsi.DeviceIdentificationVpd.size) (fun d => d.identifier_length = 0x8)) ∧
    leNat (bytesAt r (Scsi.DeviceIdentificationVpd.size + Scsi.IdentificationDescriptor.size) 8)
      = 0x12345678 := by
  simp only [inquiry_fields]
  decide +kernel

-- inquiry_test.cc:847 FailsOnControllerNullPointer, :855 FailsOnNamespaceNullPointer
example :
    (outcomeOf (Inquiry.InquiryToScsi (testEnv 1337) (vpd 0).toBytes testBuffer (idCmd 0) (idCmd 0x2000))
      ⟨testMem [] [], []⟩).map Prod.fst = some .kFailure ∧
    (outcomeOf (Inquiry.InquiryToScsi (testEnv 1337) (vpd 0).toBytes testBuffer (idCmd 0x1000) (idCmd 0))
      ⟨testMem [] [], []⟩).map Prod.fst = some .kFailure := by decide +kernel

/-- The Extended INQUIRY page for given namespace and controller pages. -/
def extended (ns ctrl : List (Nat × Nat)) : Option Scsi.ExtendedInquiryDataVpd :=
  decoded (inquiry (vpd Scsi.PageCode.kExtended) (fields ns) (fields ctrl))
    Scsi.ExtendedInquiryDataVpd.size Scsi.ExtendedInquiryDataVpd.ofBytes

/-- The three bits of the DPC field. -/
def dpc (pit1 pit2 pit3 : Nat) : List (Nat × Nat) :=
  [(IdentifyNamespace.dpc_pit1.off, pit1), (IdentifyNamespace.dpc_pit2.off, pit2),
    (IdentifyNamespace.dpc_pit3.off, pit3)]

-- inquiry_test.cc:863 ExtndedInquiryDataVpdShouldReturnCorrectSPTValue
example :
    (extended (dpc 0 0 1) []).map (·.spt) = some 0b000 ∧ (extended (dpc 0 1 0) []).map (·.spt) = some 0b010 ∧
    (extended (dpc 0 1 1) []).map (·.spt) = some 0b001 ∧ (extended (dpc 1 0 0) []).map (·.spt) = some 0b100 ∧
    (extended (dpc 1 0 1) []).map (·.spt) = some 0b011 ∧ (extended (dpc 1 1 0) []).map (·.spt) = some 0b101 ∧
    (extended (dpc 1 1 1) []).map (·.spt) = some 0b111 := by
  simp only [extended, inquiry_fields]
  decide +kernel

-- inquiry_test.cc:931 ExtndedInquiryDataVpdShouldUseTheCorrectDPSValue
example :
    (extended (dpc 1 0 0) []).map (fun d => (d.grd_chk, d.app_chk, d.ref_chk)) = some (0, 0, 0) ∧
    (extended (dpc 1 0 0 ++ [(IdentifyNamespace.dps_md_start.off, 1), (IdentifyNamespace.dps_pit.off, 1),
      (IdentifyNamespace.dps_reserved.off, 1)]) []).map (fun d => (d.grd_chk, d.app_chk, d.ref_chk))
      = some (1, 1, 1) := by
  simp only [extended, inquiry_fields]
  decide +kernel

-- inquiry_test.cc:970 ExtendedInquiryDataVpdShouldUseTheIdentifyControllerDataVWCBit
example :
    (extended (dpc 1 0 0) []).map (·.v_sup) = some 0 ∧
    (extended (dpc 1 0 0) [(IdentifyControllerData.vwc_present.off, 1)]).map (·.v_sup) = some 1 := by
  simp only [extended, inquiry_fields]
  decide +kernel

-- inquiry_test.cc:1002 ExtendedInquiryDataVpdShouldReturnCorrectDataPage: every other field is zero
example :
    extended (dpc 0 0 1) [] = some
      { peripheral_qualifer := Scsi.PeripheralQualifier.kPeripheralDeviceConnected
        peripheral_device_type := Scsi.PeripheralDeviceType.kDirectAccessBlock
        page_code := Scsi.PageCode.kExtended
        page_length := Scsi.PageLength.kExtendedInquiryCommand
        activate_microcode := Scsi.ActivateMicrocode.kActivateAfterHardReset
        uask_sup := 1, luiclr := 1 } := by
  simp only [extended, inquiry_fields]
  decide +kernel

-- inquiry_test.cc:1055 BlockDeviceCharacteristicsVpdBuildsCorrectStruct
example :
    Holds (decoded (inquiry (vpd Scsi.PageCode.kBlockDeviceCharacteristicsVpd) (fields []) (fields []))
      Scsi.BlockDeviceCharacteristicsVpd.size Scsi.BlockDeviceCharacteristicsVpd.ofBytes) (fun d => d.peripheral_qualifier = Scsi.PeripheralQualifier.kPeripheralDeviceConnected ∧
      d.peripheral_device_type = Scsi.PeripheralDeviceType.kDirectAccessBlock ∧
      d.page_code = Scsi.PageCode.kDeviceIdentification ∧
      d.page_length = Scsi.PageLength.kBlockDeviceCharacteristicsVpd ∧
      d.medium_rotation_rate = Scsi.MediumRotationRate.kNonRotatingMedium ∧
      d.nominal_form_factor = Scsi.NominalFormFactor.kNotReported) := by
  simp only [inquiry_fields]
  decide +kernel

/-! ## READ CAPACITY (10) -/

/-- The outcome of `ReadCapacity10ToScsi` for a namespace page that starts with `ns`. -/
def capacity (ns : List Byte) : Option (StatusCode × List Byte) :=
  outcomeOf (ReadCapacity.ReadCapacity10ToScsi testBuffer (idCmd 0x1000)) ⟨testMem ns [], []⟩

/-- The part of `ReadCapacity10ToScsi` after the page was found, as a function of the page. -/
def capacityPage (ns : List Byte) : M StatusCode :=
  let nsze : U64 := htolll (getF ns IdentifyNamespace.nsze)
  let rlba : U32 := htonl (if nsze > 0xffffffff#64 then 0xffffffff#32 else nsze.setWidth 32)
  let lbads := getF ns (IdentifyNamespace.lbads (getF ns IdentifyNamespace.flbas_format).toNat)
  if lbads.toNat < 9 then pure .kFailure
  else if lbads.toNat > 31 then pure .kFailure
  else do
    let result : Scsi.ReadCapacity10Data :=
      { returned_logical_block_address := rlba, block_length := htonl (1#32 <<< lbads.toNat) }
    let ok ← WriteValue' result.toBytes testBuffer
    pure (if ok then .kSuccess else .kFailure)

theorem capacityPage_padded (ns : List Byte) : capacityPage (padded ns) = capacityPage ns := by
  delta capacityPage getF
  simp only [leNat_padded]

theorem capacity_run (ns : List Byte) (h : ns.length ≤ 4096) :
    ReadCapacity.ReadCapacity10ToScsi testBuffer (idCmd 0x1000) ⟨testMem ns [], []⟩
      = capacityPage ns ⟨testMem ns [], []⟩ := by
  have hs : ∀ c : GenericQueueEntryCmd, ReadCapacity.ReadCapacity10ToScsi testBuffer c =
      if SafePointerCast 4096 ⟨c.prp1.toNat, 4096⟩ = 0 then pure .kFailure
      else load (SafePointerCast 4096 ⟨c.prp1.toNat, 4096⟩) 4096 >>= capacityPage := fun _ => rfl
  have e1 : SafePointerCast 4096 ⟨(idCmd 0x1000).prp1.toNat, 4096⟩ = 0x1000 := rfl
  rw [hs, e1, if_neg (by decide)]
  rw [M.bind_eq _ _ _ _ _ (load_ok (w := ⟨testMem ns [], []⟩) (read_ns ns [] h)), capacityPage_padded]

theorem capacity_page (ns : List Byte) (h : ns.length ≤ 4096) :
    capacity ns = outcomeOf (capacityPage ns) ⟨testMem ns [], []⟩ := by
  unfold capacity outcomeOf
  rw [capacity_run ns h]

/-- The zeros that follow in the page make no difference. -/
theorem capacity_eq (l : List (Nat × Nat)) :
    capacity (fields l) = outcomeOf (capacityPage (fields l)) ⟨testMem (fields l) [], []⟩ :=
  capacity_page _ (fields_length l)

/-- What the tests of the parameter data expect. -/
def CapacityIs (nsze lbads : Nat) (rlba len : U32) : Prop :=
  decoded (capacity (fields [(IdentifyNamespace.nsze.off, nsze), ((IdentifyNamespace.lbads 0).off, lbads)]))
    Scsi.ReadCapacity10Data.size Scsi.ReadCapacity10Data.ofBytes
    = some { returned_logical_block_address := rlba, block_length := len }

-- read_capacity_10_test.cc:69 ToNvmeSuccess
example :
    let c : Scsi.ReadCapacity10Command := {}
    Holds (result (ReadCapacity.ReadCapacity10ToNvme (testEnv 1337) c.toBytes ⟨idCmd 0xffff, 7, false⟩ 4096 1 {} 0) ⟨fun _ => none, []⟩) (fun (st, wr, _, alloc_len) =>
      st = .kSuccess ∧ wr.is_admin = true ∧ wr.buffer_len = 4096 ∧ alloc_len = 8) := by decide +kernel

-- read_capacity_10_test.cc:80 ToNvmeBadBuffer, :89 ToNvmeBadControlByteNaca
example :
    let c : Scsi.ReadCapacity10Command := { naca := 1 }
    (Holds (result (ReadCapacity.ReadCapacity10ToNvme (testEnv 1337) [0] ⟨idCmd 0xffff, 7, false⟩ 4096 1 {} 0) ⟨fun _ => none, []⟩) (fun (st, _) => st = .kInvalidInput)) ∧
    (Holds (result (ReadCapacity.ReadCapacity10ToNvme (testEnv 1337) c.toBytes ⟨idCmd 0xffff, 7, false⟩ 1 4096 {} 0) ⟨fun _ => none, []⟩) (fun (st, _) => st = .kInvalidInput)) := by decide +kernel

-- read_capacity_10_test.cc:98 Success, :152 BlocklengthNonzeo
example : CapacityIs 0 10 0 (htonl (1 <<< 10)) := by simp only [CapacityIs, capacity_eq]; decide +kernel
-- read_capacity_10_test.cc:111 NszeNonzero
example : CapacityIs 1 10 (htonl 1) (htonl (1 <<< 10)) := by
  simp only [CapacityIs, capacity_eq]; decide +kernel
-- read_capacity_10_test.cc:126 NszeLarge
example : CapacityIs 0xffffffffffff 10 0xffffffff (htonl (1 <<< 10)) := by
  simp only [CapacityIs, capacity_eq]; decide +kernel
-- read_capacity_10_test.cc:139 NszeLimit
example : CapacityIs 0xffffffff 10 0xffffffff (htonl (1 <<< 10)) := by
  simp only [CapacityIs, capacity_eq]; decide +kernel
-- read_capacity_10_test.cc:165 BlocklengthTooSmall, :173 BlocklengthTooBig
example : (capacity (fields [((IdentifyNamespace.lbads 0).off, 8)])).map Prod.fst = some .kFailure ∧
    (capacity (fields [((IdentifyNamespace.lbads 0).off, 32)])).map Prod.fst = some .kFailure := by
  simp only [capacity_eq]
  decide +kernel
-- read_capacity_10_test.cc:181 BlocklengthLimit
example : CapacityIs 0 31 0 (htonl (1 <<< 31)) := by simp only [CapacityIs, capacity_eq]; decide +kernel
-- read_capacity_10_test.cc:194 FailsOnNullptr
example : (outcomeOf (ReadCapacity.ReadCapacity10ToScsi testBuffer (idCmd 0)) ⟨testMem [] [], []⟩).map
    Prod.fst = some .kFailure := by decide +kernel

end Scsi2Nvme.Validation
