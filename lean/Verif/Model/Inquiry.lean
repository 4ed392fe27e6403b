import Verif.Model.Common
/-!
# Model of lib/translator/inquiry.cc

The identify pages are passed as 4096-byte images.  All reads of a page happen before the first write to
the data buffer, so a snapshot is exact.
-/

namespace Scsi2Nvme.Inquiry
open Scsi2Nvme Nvme

/-- lib/translator/inquiry.cc:29 -/
def kIdentifierLengthNguid : Byte := 0x10
/-- lib/translator/inquiry.cc:30 -/
def kIdentifierLengthEui64 : Byte := 0x8

/-- `GetSptValueFromDPC`: lib/translator/inquiry.cc:34-73.  `none` stands for `kFailure`. -/
def GetSptValueFromDPC (ns : List Byte) : Option Byte :=
  let dpc : Byte :=
    ((getF ns IdentifyNamespace.dpc_pit1).setWidth 8 <<< 2)
      ||| ((getF ns IdentifyNamespace.dpc_pit2).setWidth 8 <<< 1)
      ||| (getF ns IdentifyNamespace.dpc_pit3).setWidth 8
  match dpc.toNat with
  | 0b001 => some 0b000
  | 0b010 => some 0b010
  | 0b011 => some 0b001
  | 0b100 => some 0b100
  | 0b101 => some 0b011
  | 0b110 => some 0b101
  | 0b111 => some 0b111
  | _ => none

/-- `nguid[0] || nguid[1]`: lib/translator/inquiry.cc:84-85, 226. -/
def nguidNz (ns : List Byte) : Bool :=
  getF ns IdentifyNamespace.nguid_0 != 0 || getF ns IdentifyNamespace.nguid_1 != 0

/-- `eui64` is non zero: lib/translator/inquiry.cc:86, 227. -/
def eui64Nz (ns : List Byte) : Bool := getF ns IdentifyNamespace.eui64 != 0

/-- The byte image of `nguid` (two `uint64_t`): lib/translator/inquiry.cc:97. -/
def nguidBytes (ns : List Byte) : List Byte :=
  leBytes 8 (getF ns IdentifyNamespace.nguid_0).toNat
    ++ leBytes 8 (getF ns IdentifyNamespace.nguid_1).toNat

/-- The byte image of `eui64`: lib/translator/inquiry.cc:106. -/
def eui64Bytes (ns : List Byte) : List Byte := leBytes 8 (getF ns IdentifyNamespace.eui64).toNat

/-- The constant part of the descriptor: lib/translator/inquiry.cc:118-138. -/
def identificationDescriptor (identifier_length : Byte) : Scsi.IdentificationDescriptor :=
  { code_set := Scsi.CodeSet.kBinary
    protocol_identifier := Scsi.ProtocolIdentifier.kFibreChannel
    identifier_type := Scsi.IdentifierType.kEUI64
    association := Scsi.Association.kPhysicalDevice
    protocol_identifier_valid := 0
    identifier_length := identifier_length }

/-- lib/translator/inquiry.cc:139-143 -/
def writeDescriptor (identifier_length : Byte) (buffer : Span) : M (StatusCode × Byte) := do
  let ok ← WriteValue' (identificationDescriptor identifier_length).toBytes buffer
  pure (if ok then .kSuccess else .kFailure, identifier_length)

/-- `BuildIdentificationDescriptor`: lib/translator/inquiry.cc:80-144.  The second component is
`identifier_length` (initially 0, lib/translator/inquiry.cc:295). -/
def BuildIdentificationDescriptor (ns : List Byte) (buffer : Span) : M (StatusCode × Byte) :=
  if nguidNz ns then do
    let ok ← WriteValue' (nguidBytes ns) (buffer.subspan Scsi.IdentificationDescriptor.size)
    if ok then writeDescriptor kIdentifierLengthNguid buffer
    else pure (.kFailure, kIdentifierLengthNguid)
  else if eui64Nz ns then do
    let ok ← WriteValue' (eui64Bytes ns) (buffer.subspan Scsi.IdentificationDescriptor.size)
    if ok then writeDescriptor kIdentifierLengthEui64 buffer
    else pure (.kFailure, kIdentifierLengthEui64)
  else pure (.kFailure, 0)

/-- The loop filling `product_revision_level`: lib/translator/inquiry.cc:172-179.  `fr` is given last byte
first, `idx + 1` is `room`; the result lists the copied characters in their final order (they end at
index 3). -/
def revisionChars : Nat → List Byte → List Byte → List Byte
  | 0, _, acc => acc
  | _ + 1, [], acc => acc
  | room + 1, c :: cs, acc =>
    if c ≠ 0x20 ∧ 0x21 ≤ c.toNat ∧ c.toNat ≤ 0x7e then revisionChars room cs (c :: acc)
    else revisionChars (room + 1) cs acc

/-- `product_revision_level` (initially four zero bytes): lib/translator/inquiry.cc:149-179. -/
def productRevision (fr : List Byte) : List Byte :=
  let cs := revisionChars 4 fr.reverse []
  List.replicate (4 - cs.length) 0 ++ cs

/-- The object `result` of `TranslateStandardInquiry`: lib/translator/inquiry.cc:149-179. -/
def standardInquiryData (ctrl ns : List Byte) : Scsi.InquiryData :=
  { version := Scsi.Version.kSpc4
    response_data_format := Scsi.ResponseDataFormat.kCompliant
    additional_length := 0x1f
    protect := if getF ns IdentifyNamespace.dps_pit = 0 ∧ getF ns IdentifyNamespace.dps_md_start = 0
      then 0 else 1
    tpgs := Scsi.TPGS.kNotSupported
    cmdque := 1
    vendor_identification := BitVec.ofNat 64 (leNat kNvmeVendorIdentification)
    product_identification := (getF ctrl IdentifyControllerData.mn).setWidth 128
    product_revision_level := BitVec.ofNat 32
      (leNat (productRevision (leBytes 8 (getF ctrl IdentifyControllerData.fr).toNat))) }

/-- `TranslateStandardInquiry`: lib/translator/inquiry.cc:146-186. -/
def TranslateStandardInquiry (ctrl ns : List Byte) (buffer : Span) : M StatusCode := do
  let ok ← WriteValue (standardInquiryData ctrl ns).toBytes buffer 36
  pure (if ok then .kSuccess else .kFailure)

/-- `supported_page_list`: lib/translator/inquiry.cc:189-196. -/
def supportedPageList : List Byte :=
  [Scsi.PageCode.kSupportedVpd, Scsi.PageCode.kUnitSerialNumber, Scsi.PageCode.kDeviceIdentification,
   Scsi.PageCode.kExtended, Scsi.PageCode.kBlockLimitsVpd,
   Scsi.PageCode.kBlockDeviceCharacteristicsVpd, Scsi.PageCode.kLogicalBlockProvisioningVpd]

/-- `WriteValue(header, buffer) && WriteValue(body, buffer.subspan(sizeof(header)))` with a 4-byte
header: lib/translator/inquiry.cc:202-207, 282-288. -/
def writeHeaderAndBody (header body : List Byte) (buffer : Span) : M StatusCode := do
  let ok ← WriteValue' header buffer
  if ok then do
    let ok ← WriteValue' body (buffer.subspan 4)
    pure (if ok then .kSuccess else .kFailure)
  else pure .kFailure

/-- `TranslateSupportedVpdPages`: lib/translator/inquiry.cc:188-208. -/
def TranslateSupportedVpdPages (buffer : Span) : M StatusCode :=
  let result : Scsi.SupportedVitalProductData :=
    { page_length := BitVec.ofNat 8 supportedPageList.length }
  writeHeaderAndBody result.toBytes supportedPageList buffer

/-! ### `sprintf` of hexadecimal numbers -/

/-- A lower case hexadecimal digit (of `sprintf`, lib/translator/inquiry.cc:235-276). -/
def hexDigit (d : Nat) : Byte := if d < 10 then BitVec.ofNat 8 (0x30 + d) else BitVec.ofNat 8 (0x57 + d)

/-- The `k` low hexadecimal digits of `n`, most significant first (of `sprintf`, lib/translator/inquiry.cc:235-276). -/
def hexN : Nat → Nat → List Byte
  | 0, _ => []
  | k + 1, n => hexN k (n / 16) ++ [hexDigit (n % 16)]

/-- Number of hexadecimal digits of a number (1 for 0), at most 16 (of `sprintf`, lib/translator/inquiry.cc:235-276). -/
def hexLen (n : Nat) : Nat := hexLenAux 15 n
where
  /-- at most `k + 1` digits -/
  hexLenAux : Nat → Nat → Nat
    | 0, _ => 1
    | k + 1, n => if n < 16 then 1 else hexLenAux k (n / 16) + 1

/-- `sprintf(p, "%08lx", n)` / `"%08x"`: at least eight digits, then the terminating zero:
lib/translator/inquiry.cc:235, 236, 243, 276. -/
def sprintf08x (n : Nat) : List Byte := hexN (max 8 (hexLen n)) n ++ [0]

/-- Overwrite the bytes of a `char` array starting at `pos`: what `sprintf` and `memcpy` do in lib/translator/inquiry.cc:235-276. -/
def overwrite (a : List Byte) (pos : Nat) (bs : List Byte) : List Byte :=
  a.take pos ++ bs ++ a.drop (pos + bs.length)

/-- The two loops placing `_` and `.`: lib/translator/inquiry.cc:246-250, on 40 zero bytes. -/
def underscores (page_length : Nat) : List Byte :=
  (((List.range (page_length - 1)).filter (fun i => i % 5 = 4)).foldl
    (fun a i => a.set i 0x5f) (List.replicate 40 0)).set (page_length - 1) 0x2e

/-- The loop inserting the digits: lib/translator/inquiry.cc:252-258; `n` counts the remaining
positions. -/
def insertNumbers : Nat → List Byte → List Byte → List Byte
  | 0, ps, _ => ps
  | _ + 1, [], _ => []
  | n + 1, p :: ps, hex =>
    if p ≠ 0x5f then hex.headD 0 :: insertNumbers n ps hex.tail
    else p :: insertNumbers n ps hex

/-- `product_serial_number` and `page_length`: lib/translator/inquiry.cc:217-280.  `j` are the
indeterminate contents of `hex_string`. -/
def productSerial (j : Nat → Byte) (ctrl ns : List Byte) (nsid : U32) : Nat × List Byte :=
  let hex_string0 := (List.range 33).map j
  if nguidNz ns then
    let hex_string1 := overwrite hex_string0 0 (sprintf08x (getF ns IdentifyNamespace.nguid_0).toNat)
    let hex_string2 := overwrite hex_string1 16 (sprintf08x (getF ns IdentifyNamespace.nguid_1).toNat)
    (40, insertNumbers 39 (underscores 40) hex_string2)
  else if eui64Nz ns then
    let hex_string1 :=
      overwrite hex_string0 0 (sprintf08x (htolll (getF ns IdentifyNamespace.eui64)).toNat)
    (20, insertNumbers 19 (underscores 20) hex_string1)
  else
    let p0 := overwrite (List.replicate 40 0) 0 (leBytes 20 (getF ctrl IdentifyControllerData.sn).toNat)
    let p1 := p0.set 20 0x5f
    let p2 := overwrite p1 21 (sprintf08x nsid.toNat)
    (30, p2.set 29 0x2e)

/-- `TranslateUnitSerialNumberVpd`: lib/translator/inquiry.cc:210-289. -/
def TranslateUnitSerialNumberVpd (E : Env) (ctrl ns : List Byte) (nsid : U32) (buffer : Span) :
    M StatusCode := do
  let w ← M.get
  let r := productSerial (E.junk w) ctrl ns nsid
  let result : Scsi.UnitSerialNumber :=
    { page_code := Scsi.PageCode.kUnitSerialNumber, page_length := BitVec.ofNat 8 r.1 }
  writeHeaderAndBody result.toBytes r.2 buffer

/-- `TranslateDeviceIdentificationVpd`: lib/translator/inquiry.cc:293-331. -/
def TranslateDeviceIdentificationVpd (ns : List Byte) (buffer : Span) : M StatusCode := do
  let (st, idlen) ←
    BuildIdentificationDescriptor ns (buffer.subspan Scsi.DeviceIdentificationVpd.size)
  if st ≠ .kSuccess then pure st
  else do
    let result : Scsi.DeviceIdentificationVpd :=
      { peripheral_device_type := Scsi.PeripheralDeviceType.kDirectAccessBlock
        peripheral_qualifier := Scsi.PeripheralQualifier.kPeripheralDeviceConnected
        page_code := Scsi.PageCode.kDeviceIdentification
        page_length := BitVec.ofNat 8 Scsi.DeviceIdentificationVpd.size + idlen }
    let ok ← WriteValue' result.toBytes buffer
    pure (if ok then .kSuccess else .kFailure)

/-- The object written by `TranslateExtendedInquiryDataVpd`: lib/translator/inquiry.cc:339-395. -/
def extendedInquiryData (ctrl ns : List Byte) (spt : Byte) : Scsi.ExtendedInquiryDataVpd :=
  let dps_result : BitVec 1 :=
    if getF ns IdentifyNamespace.dps_md_start ≠ 0 ∨ getF ns IdentifyNamespace.dps_pit ≠ 0 then 1 else 0
  { peripheral_device_type := Scsi.PeripheralDeviceType.kDirectAccessBlock
    peripheral_qualifer := Scsi.PeripheralQualifier.kPeripheralDeviceConnected
    page_code := Scsi.PageCode.kExtended
    page_length := Scsi.PageLength.kExtendedInquiryCommand
    ref_chk := dps_result
    app_chk := dps_result
    grd_chk := dps_result
    spt := spt.setWidth 3
    activate_microcode := Scsi.ActivateMicrocode.kActivateAfterHardReset
    uask_sup := 1
    v_sup := getF ctrl IdentifyControllerData.vwc_present
    luiclr := 1 }

/-- `TranslateExtendedInquiryDataVpd`: lib/translator/inquiry.cc:335-401. -/
def TranslateExtendedInquiryDataVpd (ns ctrl : List Byte) (buffer : Span) : M StatusCode :=
  match GetSptValueFromDPC ns with
  | none => pure .kFailure
  | some spt => do
    let ok ← WriteValue' (extendedInquiryData ctrl ns spt).toBytes buffer
    pure (if ok then .kSuccess else .kFailure)

/-- The object written by `TranslateBlockDeviceCharacteristicsVpd`: lib/translator/inquiry.cc:404-415.
The multi-byte fields are assigned without byte swapping. -/
def blockDeviceCharacteristics : Scsi.BlockDeviceCharacteristicsVpd :=
  { page_code := Scsi.PageCode.kDeviceIdentification
    page_length := Scsi.PageLength.kBlockDeviceCharacteristicsVpd
    medium_rotation_rate := Scsi.MediumRotationRate.kNonRotatingMedium
    nominal_form_factor := Scsi.NominalFormFactor.kNotReported }

/-- `TranslateBlockDeviceCharacteristicsVpd`: lib/translator/inquiry.cc:403-422. -/
def TranslateBlockDeviceCharacteristicsVpd (buffer : Span) : M StatusCode := do
  let ok ← WriteValue' blockDeviceCharacteristics.toBytes buffer
  pure (if ok then .kSuccess else .kFailure)

/-- `max_transfer_length`: lib/translator/inquiry.cc:429-437. -/
def maxTransferLength (mdts : Byte) : U32 :=
  if mdts.toNat > 16 then 1#32 <<< 16
  else if mdts ≠ 0 then 1#32 <<< mdts.toNat else 0

/-- The object written by `TranslateBlockLimitsVpd`: lib/translator/inquiry.cc:424-480. -/
def blockLimits (ctrl : List Byte) : Scsi.BlockLimitsVpd :=
  let max_transfer_length := maxTransferLength (getF ctrl IdentifyControllerData.mdts)
  let compare_and_write_len : Byte :=
    if max_transfer_length.toNat > 255 then 255 else max_transfer_length.setWidth 8
  let dsm := getF ctrl IdentifyControllerData.oncs_dsm
  { page_code := Scsi.PageCode.kBlockLimitsVpd
    page_length := 0x003c
    max_compare_write_length :=
      if getF ctrl IdentifyControllerData.fuses_compare_and_write ≠ 0 then compare_and_write_len else 0
    max_transfer_length := htonl max_transfer_length
    max_unmap_lba_count := htonl (dsm.setWidth 32)
    max_unmap_block_descriptor_count := htonl (if dsm ≠ 0 then 0x0100 else 0) }

/-- `TranslateBlockLimitsVpd`: lib/translator/inquiry.cc:424-487. -/
def TranslateBlockLimitsVpd (ctrl : List Byte) (buffer : Span) : M StatusCode := do
  let ok ← WriteValue' (blockLimits ctrl).toBytes buffer
  pure (if ok then .kSuccess else .kFailure)

/-- The object written by `TranslateLogicalBlockProvisioningVpd`: lib/translator/inquiry.cc:492-556. -/
def logicalBlockProvisioning (ctrl ns : List Byte) : Scsi.LogicalBlockProvisioningVpd :=
  let ad : Bool := getF ctrl IdentifyControllerData.oncs_dsm != 0
  let thin : Bool := getF ns IdentifyNamespace.nsfeat_thin_prov != 0
  let provisioning_type : BitVec 3 :=
    if !ad && !thin then 0
    else if ad && !thin then 1
    else if ad && thin then 2
    else 0
  { page_code := Scsi.PageCode.kLogicalBlockProvisioningVpd
    page_length := htons 0x04
    lbprz := if ad then 1 else 0
    provisioning_type := provisioning_type
    lbpu := if ad ∨ provisioning_type = 1 ∨ provisioning_type = 2 then 1 else 0 }

/-- `TranslateLogicalBlockProvisioningVpd`: lib/translator/inquiry.cc:489-563. -/
def TranslateLogicalBlockProvisioningVpd (ctrl ns : List Byte) (buffer : Span) : M StatusCode := do
  let ok ← WriteValue' (logicalBlockProvisioning ctrl ns).toBytes buffer
  pure (if ok then .kSuccess else .kFailure)

/-- The result of `InquiryToNvme`: status, the two wrappers, the two allocations, `alloc_len`:
lib/translator/inquiry.h:32-36. -/
structure ToNvmeResult where
  status : StatusCode
  wr_ns : NvmeCmdWrapper
  wr_ctrl : NvmeCmdWrapper
  a0 : Allocation
  a1 : Allocation
  alloc_len : U32

/-- `InquiryToNvme`: lib/translator/inquiry.cc:567-611.  `wr_ns`, `wr_ctrl` are the wrappers passed by
reference, `a0`, `a1` the first two allocations. -/
def InquiryToNvme (E : Env) (raw_scsi : List Byte) (wr_ns wr_ctrl : NvmeCmdWrapper)
    (page_size nsid : U32) (a0 a1 : Allocation) (alloc_len : U32) : M ToNvmeResult :=
  match readValue Scsi.InquiryCommand.size Scsi.InquiryCommand.ofBytes raw_scsi with
  | none => pure ⟨.kInvalidInput, wr_ns, wr_ctrl, a0, a1, alloc_len⟩
  | some c => do
    let alloc_len : U32 := (ntohs c.allocation_length).setWidth 32
    let (st, a0) ← a0.SetPages E page_size 1 0
    if st ≠ .kSuccess then pure ⟨st, wr_ns, wr_ctrl, a0, a1, alloc_len⟩
    else do
      let wr_ns := { wr_ns with
        cmd := { opc := AdminOpcode.kIdentify, nsid := nsid, prp1 := a0.data_addr, cdw_0 := 0x0 }
        buffer_len := page_size * 1 }
      let (st, a1) ← a1.SetPages E page_size 1 0
      if st ≠ .kSuccess then pure ⟨st, wr_ns, wr_ctrl, a0, a1, alloc_len⟩
      else
        let wr_ctrl := { wr_ctrl with
          cmd := { opc := AdminOpcode.kIdentify, prp1 := a1.data_addr, cdw_0 := htoll 0x1 }
          buffer_len := page_size * 1 }
        pure ⟨.kSuccess, { wr_ns with is_admin := true }, { wr_ctrl with is_admin := true },
          a0, a1, alloc_len⟩

/-- The dispatch on EVPD and page code: lib/translator/inquiry.cc:647-686. -/
def inquiryPage (E : Env) (c : Scsi.InquiryCommand) (nsid : U32) (ns ctrl : List Byte)
    (buffer : Span) : M StatusCode :=
  if c.evpd ≠ 0 then
    if c.page_code = Scsi.PageCode.kSupportedVpd then TranslateSupportedVpdPages buffer
    else if c.page_code = Scsi.PageCode.kUnitSerialNumber then
      TranslateUnitSerialNumberVpd E ctrl ns nsid buffer
    else if c.page_code = Scsi.PageCode.kDeviceIdentification then
      TranslateDeviceIdentificationVpd ns buffer
    else if c.page_code = Scsi.PageCode.kExtended then TranslateExtendedInquiryDataVpd ns ctrl buffer
    else if c.page_code = Scsi.PageCode.kBlockLimitsVpd then TranslateBlockLimitsVpd ctrl buffer
    else if c.page_code = Scsi.PageCode.kBlockDeviceCharacteristicsVpd then
      TranslateBlockDeviceCharacteristicsVpd buffer
    else if c.page_code = Scsi.PageCode.kLogicalBlockProvisioningVpd then
      TranslateLogicalBlockProvisioningVpd ctrl ns buffer
    else pure .kInvalidInput
  else TranslateStandardInquiry ctrl ns buffer

/-- `InquiryToScsi`: lib/translator/inquiry.cc:614-688. -/
def InquiryToScsi (E : Env) (raw_scsi : List Byte) (buffer : Span)
    (identify_ns identify_ctrl : GenericQueueEntryCmd) : M StatusCode :=
  match readValue Scsi.InquiryCommand.size Scsi.InquiryCommand.ofBytes raw_scsi with
  | none => pure .kInvalidInput
  | some c =>
    let ns_ptr := SafePointerCast 4096 ⟨identify_ns.prp1.toNat, 4096⟩
    let ctrl_ptr := SafePointerCast 4096 ⟨identify_ctrl.prp1.toNat, 4096⟩
    if ns_ptr = 0 then pure .kFailure
    else if ctrl_ptr = 0 then pure .kFailure
    else do
      let ns ← load ns_ptr 4096
      let ctrl ← load ctrl_ptr 4096
      inquiryPage E c identify_ns.nsid ns ctrl buffer

end Scsi2Nvme.Inquiry
