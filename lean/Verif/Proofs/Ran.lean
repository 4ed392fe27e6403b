import Verif.Proofs.Complete
import Verif.Proofs.Responses
/-!
# The `switch` of `Complete`, command by command
-/

namespace Scsi2Nvme
open Spec

/-! ## The pages -/

theorem prp1_bytes (c : Nvme.GenericQueueEntryCmd) : leAt c.toBytes 24 8 = c.prp1.toNat := by
  have h : (getF c.toBytes ⟨8 * 24⟩ : BitVec (8 * 8)).toNat = leAt c.toBytes 24 8 := getF_leAt c.toBytes 24 8
  rw [← h]
  have e : (Nvme.GenericQueueEntryCmd.ofBytes c.toBytes).prp1 = c.prp1 := by
    rw [Nvme.GenericQueueEntryCmd.ofBytes_toBytes]
  rw [← e]
  rfl

namespace Spec.Ran

theorem page0 (x : Ran) {bs : List Byte} (h : x.page 0 bs) :
    x.w2.mem.read x.t1.nvme_wrappers.e0.cmd.prp1.toNat 4096 = some bs := by
  obtain ⟨wr, h1, h2⟩ := h
  unfold cmds Translation.GetNvmeWrappers Arr3.toList at h1
  rw [prp1_bytes] at h2
  rw [List.getElem?_take] at h1
  split at h1
  · cases h1; exact h2
  · cases h1

theorem page1 (x : Ran) {bs : List Byte} (h : x.page 1 bs) :
    x.w2.mem.read x.t1.nvme_wrappers.e1.cmd.prp1.toNat 4096 = some bs := by
  obtain ⟨wr, h1, h2⟩ := h
  unfold cmds Translation.GetNvmeWrappers Arr3.toList at h1
  rw [prp1_bytes] at h2
  rw [List.getElem?_take] at h1
  split at h1
  · cases h1; exact h2
  · cases h1

theorem page_length (x : Ran) {i : Nat} {bs : List Byte} (h : x.page i bs) : bs.length = 4096 := by
  obtain ⟨wr, -, h2⟩ := h
  exact read_length h2

end Spec.Ran

theorem SafePointerCast_4096 (p : Nat) : SafePointerCast 4096 ⟨p, 4096⟩ = p := by
  unfold SafePointerCast
  rw [if_neg (Nat.lt_irrefl _)]

/-! ## INQUIRY -/

/-- The dispatch of INQUIRY in terms of the command block. -/
def inquiryRun (E : Env) (evpd : Bool) (page : Nat) (nsid : U32) (ns ctrl : List Byte) (buffer : Span) : M StatusCode :=
  if evpd then
    if page = 0x00 then Inquiry.TranslateSupportedVpdPages buffer
    else if page = 0x80 then Inquiry.TranslateUnitSerialNumberVpd E ctrl ns nsid buffer
    else if page = 0x83 then Inquiry.TranslateDeviceIdentificationVpd ns buffer
    else if page = 0x86 then Inquiry.TranslateExtendedInquiryDataVpd ns ctrl buffer
    else if page = 0xb0 then Inquiry.TranslateBlockLimitsVpd ctrl buffer
    else if page = 0xb1 then Inquiry.TranslateBlockDeviceCharacteristicsVpd buffer
    else if page = 0xb2 then Inquiry.TranslateLogicalBlockProvisioningVpd ctrl ns buffer
    else pure .kInvalidInput
  else Inquiry.TranslateStandardInquiry ctrl ns buffer

theorem inquiryPage_eq (E : Env) (c : Scsi.InquiryCommand) (evpd : Bool) (page : Nat) (nsid : U32) (ns ctrl : List Byte)
    (buffer : Span) (h1 : (c.evpd == 1) = evpd) (h2 : c.page_code.toNat = page) :
    Inquiry.inquiryPage E c nsid ns ctrl buffer = inquiryRun E evpd page nsid ns ctrl buffer := by
  unfold Inquiry.inquiryPage inquiryRun
  have hk : ∀ (k : Byte), (c.page_code = k) = (page = k.toNat) := by
    intro k
    apply propext
    constructor
    · rintro rfl; exact h2.symm
    · intro h; apply BitVec.eq_of_toNat_eq; rw [h2, h]
  have he : (c.evpd ≠ 0) = (evpd = true) := by
    apply propext
    rw [← h1]
    have : ∀ b : BitVec 1, b ≠ 0 ↔ (b == 1) = true := by decide
    exact this _
  simp only [hk, he]
  rfl

theorem Spec.Ran.inquiry (x : Ran) (h : x.succeeded) (hop : byte x.cdb 0 = 0x12) {ns ctrl : List Byte}
    (h0 : x.page 0 ns) (h1 : x.page 1 ctrl) : ∃ st wm, x.w3 = abortW x.E x.t1 wm ∧ x.good ∧
      inquiryRun x.E (Spec.bit x.cdb 1 0) (byte x.cdb 2) (nsidOf x.lun) ns ctrl x.din x.w2 = .ok (st, wm) := by
  obtain ⟨st, wm, hw, hg, hs⟩ := x.switch h
  refine ⟨st, wm, hw, hg, ?_⟩
  obtain ⟨p, w1, e, hc, hcase⟩ := inquiry_cases x.began hop
  have hst := e.acc.mp h.1
  rcases hcase with ⟨-, hn, -⟩ | ⟨-, -, hn, -⟩ | ⟨-, -, -, hn, -⟩ | ⟨hl, n0, n1, -, -, e0, e1, -, -⟩
  · exact absurd hst hn
  · exact absurd hst hn
  · exact absurd hst hn
  have r0 := x.page0 h0
  have r1 := x.page1 h1
  rw [opc_of_byte hop (by decide)] at hs
  unfold completeSwitch at hs
  rw [if_neg (by decide), if_pos (by decide)] at hs
  rw [e.wss] at hs r0 r1
  unfold Inquiry.InquiryToScsi at hs
  rw [readValue_some (by rw [List.length_tail]; simp only [Scsi.InquiryCommand.size]; omega)] at hs
  simp only [SafePointerCast_4096] at hs
  have z0 : p.ws.e0.cmd.prp1.toNat ≠ 0 := by
    rw [e0]; intro hh; exact n0 (BitVec.eq_of_toNat_eq hh)
  have z1 : p.ws.e1.cmd.prp1.toNat ≠ 0 := by
    rw [e1]; intro hh; exact n1 (BitVec.eq_of_toNat_eq hh)
  rw [if_neg z0, if_neg z1] at hs
  simp only [M.bind_run, load_ok r0, load_ok r1] at hs
  have f1 : ((Scsi.InquiryCommand.ofBytes (x.cdb.tail.take Scsi.InquiryCommand.size)).evpd == 1) = Spec.bit x.cdb 1 0 :=
    fieldBit x.cdb 5 0 0 0 rfl (by omega) (by omega)
  have f2 : (Scsi.InquiryCommand.ofBytes (x.cdb.tail.take Scsi.InquiryCommand.size)).page_code.toNat = byte x.cdb 2 :=
    field8 x.cdb 5 8 1 rfl (by omega)
  rw [inquiryPage_eq x.E _ _ _ _ _ _ _ f1 f2] at hs
  rw [e0] at hs
  exact hs

end Scsi2Nvme
