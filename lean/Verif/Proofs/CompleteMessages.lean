import Verif.Spec.CompleteMessages
import Verif.Properties.Reply
import Verif.Properties.Messages
/-!
# The messages of `Complete`, function by function
-/

namespace Scsi2Nvme
open Spec Log

/-- The message after a failed response builder. -/
def backOf (st : StatusCode) : List Remark := if st ≠ .kSuccess then [failedBack] else []

theorem after_ok {α : Type} {m : M α} {w w' : World} {a : α} {f : α → World → List Msg} (h : m w = .ok (a, w')) :
    after m w f = f a w' := by
  unfold after
  rw [h]

theorem whenNot_ok {m : M Bool} {w w' : World} {ok : Bool} {msg : Msg} (h : m w = .ok (ok, w')) :
    whenNot m w msg = if ok then [] else [msg] := after_ok h

theorem onFailure_ok {m : M StatusCode} {w w' : World} {st : StatusCode} {msg : Msg} (h : m w = .ok (st, w')) :
    onFailure m w msg = if st ≠ .kSuccess then [msg] else [] := after_ok h


theorem one_failed {bad : Prop} [Decidable bad] (hb : bad) {msg : Msg} {t : List Char} (hm : said msg = some t) :
    [msg].map said ++ backOf .kFailure = failing bad t := by
  rw [failing, if_pos hb, List.map_cons, hm]; rfl

theorem none_failed {bad : Prop} [Decidable bad] (hb : ¬ bad) {t : List Char} : ([] : List Msg).map said ++ backOf .kSuccess = failing bad t := by
  rw [failing, if_neg hb]; rfl

/-- One structure is written or the failure is reported. -/
theorem onFailure_write {bytes : List Byte} {out : Span} {w w' : World} {st : StatusCode} {msg : Msg} {t : List Char} {n : Nat}
    (hm : said msg = some t) (hn : bytes.length = n) {m : M StatusCode}
    (h' : m w = (do let ok ← WriteValue' bytes out; pure (if ok then StatusCode.kSuccess else StatusCode.kFailure) : M StatusCode) w)
    (h : m w = .ok (st, w')) :
    (onFailure m w msg).map said ++ backOf st = failing (out.len < n) t := by
  rw [onFailure_ok h]
  rw [h'] at h
  rcases write'_status h with ⟨a, rfl, -⟩ | ⟨a, rfl, -⟩
  · exact none_failed (by omega)
  · exact one_failed (by omega) hm

theorem whenNot_write {bytes : List Byte} {out : Span} {w w' : World} {st : StatusCode} {msg : Msg} {t : List Char} {n : Nat}
    (hm : said msg = some t) (hn : bytes.length = n)
    (h : (do let ok ← WriteValue' bytes out; pure (if ok then StatusCode.kSuccess else StatusCode.kFailure) : M StatusCode) w
      = .ok (st, w')) :
    (whenNot (WriteValue' bytes out) w msg).map said ++ backOf st = failing (out.len < n) t := by
  obtain ⟨ok, h1, h2⟩ := write_status h
  have h1' : WriteValue' bytes out w = .ok (ok, w') := h1
  rw [whenNot_ok h1', h2]
  rcases WriteValue'_inv h1' with ⟨a, rfl, -⟩ | ⟨a, rfl, -⟩
  · exact none_failed (by omega)
  · exact one_failed (by omega) hm

/-- Header and body. -/
theorem onFailure_two {header body : List Byte} {out : Span} {w w' : World} {st : StatusCode} {msg : Msg} {t : List Char} {n : Nat}
    (hm : said msg = some t) (hh : header.length = 4) (hb : body.length = n) (hn : 0 < n) {m : M StatusCode}
    (h' : m w = Inquiry.writeHeaderAndBody header body out w) (h : m w = .ok (st, w')) :
    (onFailure m w msg).map said ++ backOf st = failing (out.len < 4 + n) t := by
  rw [onFailure_ok h]
  rw [h'] at h
  have hne : body ≠ [] := by
    intro h0
    rw [h0] at hb
    rw [← hb] at hn
    exact absurd hn (by decide)
  rcases writeHeaderAndBody_inv hh hne h with ⟨a, rfl, -⟩ | ⟨-, a, rfl, -⟩ | ⟨a, rfl, -⟩
  · exact one_failed (by omega) hm
  · exact one_failed (by omega) hm
  · exact none_failed (by omega)

/-! ## INQUIRY -/

theorem devId_core {id : List Byte} {n : Byte} {out : Span} {w w' : World} {st : StatusCode} {m1 m2 m3 : Msg} {t : List Char}
    (hm1 : said m1 = some t) (hid : 0 < id.length)
    (hlen : (out.len < 7 + id.length ∧ st = .kFailure) ∨ (7 + id.length ≤ out.len ∧ st = .kSuccess))
    {L : World → List Msg} (hL : ∀ w, L w = after (WriteValue' id ((out.subspan 3).subspan 4)) w fun ok w =>
      if ok then whenNot (WriteValue' (Inquiry.identificationDescriptor n).toBytes (out.subspan 3)) w m2 else [m1])
    {B : M (StatusCode × Byte)} (hB : ∀ w, B w = (do
        let ok ← WriteValue' id ((out.subspan 3).subspan 4)
        if ok then Inquiry.writeDescriptor n (out.subspan 3) else pure (StatusCode.kFailure, n) : M (StatusCode × Byte)) w)
    (H : Byte → List Byte) (hH : ∀ b, (H b).length = 3)
    (h : (do
      let (st, idlen) ← B
      if st ≠ .kSuccess then pure st
      else do
        let ok ← WriteValue' (H idlen) out
        pure (if ok then .kSuccess else .kFailure) : M StatusCode) w = .ok (st, w')) :
    (L w ++ after B w fun r w => if r.1 ≠ .kSuccess then [] else whenNot (WriteValue' (H r.2) out) w m3).map said ++ backOf st
      = failing (out.len < 7 + id.length) t := by
  rw [hL]
  have l4 := descriptor_length n
  simp only [M.bind_run] at h
  cases hb : B w with
  | error e => rw [hb] at h; cases h
  | ok r =>
    obtain ⟨⟨s, il⟩, w1⟩ := r
    rw [after_ok hb]
    rw [hb] at h
    have hb' := hb
    rw [hB] at hb'
    simp only [M.bind_run] at hb'
    cases hw : WriteValue' id ((out.subspan 3).subspan 4) w with
    | error e => rw [hw] at hb'; cases hb'
    | ok x =>
      obtain ⟨ok, w2⟩ := x
      rw [hw] at hb'
      rw [after_ok hw]
      cases ok with
      | false =>
        simp only [Bool.false_eq_true, if_false, M.pure_run, Except.ok.injEq, Prod.mk.injEq] at hb'
        obtain ⟨⟨rfl, -⟩, -⟩ := hb'
        rcases WriteValue'_inv hw with ⟨-, hc, -⟩ | ⟨a, -⟩
        · cases hc
        rw [subspan_len, subspan_len] at a
        rcases hlen with ⟨c, rfl⟩ | ⟨c, -⟩
        · exact one_failed c hm1
        · omega
      | true =>
        rcases WriteValue'_inv hw with ⟨a, -⟩ | ⟨-, hc, -⟩
        rotate_left
        · cases hc
        rw [subspan_len, subspan_len] at a
        simp only [if_true, Inquiry.writeDescriptor, M.bind_run] at hb' ⊢
        rcases hlen with ⟨c, rfl⟩ | ⟨c, rfl⟩
        · omega
        · cases hw2 : WriteValue' (Inquiry.identificationDescriptor n).toBytes (out.subspan 3) w2 with
          | error e => rw [hw2] at hb'; cases hb'
          | ok x =>
            obtain ⟨ok, w3⟩ := x
            rw [hw2] at hb'
            simp only [M.pure_run, Except.ok.injEq, Prod.mk.injEq] at hb'
            obtain ⟨⟨rfl, rfl⟩, rfl⟩ := hb'
            rcases WriteValue'_inv hw2 with ⟨-, rfl, -⟩ | ⟨b, -⟩
            rotate_left
            · rw [l4, subspan_len] at b; omega
            rw [whenNot_ok hw2]
            simp only [if_true, ne_eq, not_true, if_false] at h ⊢
            have := whenNot_write (msg := m3) (t := []) (n := 3) (st := .kSuccess)
              (bytes := H n) (out := out) (w := w3) (w' := w')
            obtain ⟨ok, h1, -⟩ := write_status h
            have h1' : WriteValue' (H n) out w3 = .ok (ok, w') := h1
            rcases WriteValue'_inv h1' with ⟨-, rfl, -⟩ | ⟨b, -⟩
            rotate_left
            · rw [hH] at b; omega
            rw [whenNot_ok h1']
            exact none_failed (by omega)

/-- The head of the page. -/
def idHead (b : Byte) : List Byte :=
  ({ peripheral_device_type := Scsi.PeripheralDeviceType.kDirectAccessBlock
     peripheral_qualifier := Scsi.PeripheralQualifier.kPeripheralDeviceConnected
     page_code := Scsi.PageCode.kDeviceIdentification
     page_length := BitVec.ofNat 8 Scsi.DeviceIdentificationVpd.size + b } : Scsi.DeviceIdentificationVpd).toBytes

theorem devIdLog {ns : List Byte} (hl : ns.length = 4096) {buffer : Span} {w w' : World} {st : StatusCode}
    (h : Inquiry.TranslateDeviceIdentificationVpd ns buffer w = .ok (st, w')) :
    (TranslateDeviceIdentificationVpdLog ns buffer w).map said ++ backOf st =
    match identifier ns with
    | none => [some (text! "Both NGUID and EUI-64 fields are zero in IdentityNamespaceData"), failedBack]
    | some id => failing (buffer.len < 7 + id.length) (text! "Failed to write IdentificationDescriptor to the buffer\n") := by
  have hr := deviceId_inv hl h
  have ln : (nguid ns).length = 16 := by unfold nguid slice; rw [List.length_take, List.length_drop]; omega
  have le8 : (eui64 ns).length = 8 := by unfold eui64 slice; rw [List.length_take, List.length_drop]; omega
  have hn := nguid_nz ns hl
  have he := eui64_nz ns hl
  unfold identifier at hr ⊢
  unfold Inquiry.TranslateDeviceIdentificationVpd at h
  unfold TranslateDeviceIdentificationVpdLog
  have hdr : ∀ b : Byte, (idHead b).length = 3 := fun b => Scsi.DeviceIdentificationVpd.toBytes_length _
  change (do
      let (st, idlen) ← Inquiry.BuildIdentificationDescriptor ns (buffer.subspan Scsi.DeviceIdentificationVpd.size)
      if st ≠ .kSuccess then pure st
      else do
        let ok ← WriteValue' (idHead idlen) buffer
        pure (if ok then .kSuccess else .kFailure) : M StatusCode) w = .ok (st, w') at h
  change (BuildIdentificationDescriptorLog ns (buffer.subspan Scsi.DeviceIdentificationVpd.size) w ++
    after (Inquiry.BuildIdentificationDescriptor ns (buffer.subspan Scsi.DeviceIdentificationVpd.size)) w fun r w =>
      if r.1 ≠ .kSuccess then [] else whenNot (WriteValue' (idHead r.2) buffer) w
        ⟨"inquiry.cc", 327, text! "Error! Cannot write DeviceIdentificationVPD to buffer\n", []⟩).map said ++ backOf st = _
  generalize (⟨"inquiry.cc", 327, text! "Error! Cannot write DeviceIdentificationVPD to buffer\n", []⟩ : Msg) = m3
  by_cases c1 : nguid ns ≠ zeros 16
  · rw [if_pos c1] at hr ⊢
    simp only at hr ⊢
    refine devId_core (m1 := ⟨"inquiry.cc", 99, text! "Failed to write IdentificationDescriptor to the buffer\n", []⟩)
      (m2 := ⟨"inquiry.cc", 140, text! "Failed to write IdentificationDescriptor to the buffer\n", []⟩)
      (id := nguid ns) (n := Inquiry.kIdentifierLengthNguid) rfl (by omega) ?_
      (L := BuildIdentificationDescriptorLog ns (buffer.subspan Scsi.DeviceIdentificationVpd.size)) ?_ ?_ idHead hdr h
    · rcases hr with ⟨a, b, -⟩ | ⟨a, b, -⟩
      · exact .inl ⟨a, b⟩
      · exact .inr ⟨a, b⟩
    · intro w
      unfold BuildIdentificationDescriptorLog
      simp only [if_pos (hn.mpr c1), nguidBytes_eq ns hl, Scsi.DeviceIdentificationVpd.size, Scsi.IdentificationDescriptor.size,
        writeDescriptorLog]
    · intro w
      unfold Inquiry.BuildIdentificationDescriptor
      simp only [if_pos (hn.mpr c1), nguidBytes_eq ns hl, Scsi.DeviceIdentificationVpd.size, Scsi.IdentificationDescriptor.size,
        writeDescriptorLog]
  · rw [if_neg c1] at hr ⊢
    by_cases c2 : eui64 ns ≠ zeros 8
    · rw [if_pos c2] at hr ⊢
      simp only at hr ⊢
      refine devId_core (m1 := ⟨"inquiry.cc", 108, text! "Failed to write IdentificationDescriptor to the buffer\n", []⟩)
        (m2 := ⟨"inquiry.cc", 140, text! "Failed to write IdentificationDescriptor to the buffer\n", []⟩)
        (id := eui64 ns) (n := Inquiry.kIdentifierLengthEui64) rfl (by omega) ?_
        (L := BuildIdentificationDescriptorLog ns (buffer.subspan Scsi.DeviceIdentificationVpd.size)) ?_ ?_ idHead hdr h
      · rcases hr with ⟨a, b, -⟩ | ⟨a, b, -⟩
        · exact .inl ⟨a, b⟩
        · exact .inr ⟨a, b⟩
      · intro w
        unfold BuildIdentificationDescriptorLog
        simp only [if_neg (fun h => c1 (hn.mp h)), if_pos (he.mpr c2), eui64Bytes_eq ns hl, Scsi.DeviceIdentificationVpd.size,
          Scsi.IdentificationDescriptor.size, writeDescriptorLog]
      · intro w
        unfold Inquiry.BuildIdentificationDescriptor
        simp only [if_neg (fun h => c1 (hn.mp h)), if_pos (he.mpr c2), eui64Bytes_eq ns hl, Scsi.DeviceIdentificationVpd.size,
          Scsi.IdentificationDescriptor.size, writeDescriptorLog]
    · rw [if_neg c2] at hr ⊢
      obtain ⟨rfl, -⟩ := hr
      unfold BuildIdentificationDescriptorLog Inquiry.BuildIdentificationDescriptor
      rw [if_neg (fun h => c1 (hn.mp h)), if_neg (fun h => c2 (he.mp h)), if_neg (fun h => c1 (hn.mp h)), if_neg (fun h => c2 (he.mp h))]
      rfl

theorem inquiryLog (E : Env) (c : Scsi.InquiryCommand) (evpd : Bool) (page : Nat) (nsid : U32) {ns ctrl : List Byte}
    {buffer : Span} (h1 : (c.evpd == 1) = evpd) (h2 : c.page_code.toNat = page) (hl : ns.length = 4096)
    (hc : ctrl.length = 4096) {w w' : World} {st : StatusCode} (h : inquiryRun E evpd page nsid ns ctrl buffer w = .ok (st, w')) :
    (inquiryPageLog E c nsid ns ctrl buffer w).map said ++ backOf st = inquiryEndRemarks evpd page buffer.len ns ctrl := by
  have hk : ∀ (k : Byte), (c.page_code = k) = (page = k.toNat) := by
    intro k
    apply propext
    constructor
    · rintro rfl; exact h2.symm
    · intro h; apply BitVec.eq_of_toNat_eq; rw [h2, h]
  have he : (c.evpd ≠ 0) = (evpd = true) := by
    apply propext
    rw [← h1]
    have : ∀ b : BitVec 1, b ≠ 0 ↔ (b == 1) = true := by decide
    exact this _
  unfold inquiryPageLog
  unfold inquiryEndRemarks
  unfold inquiryRun at h
  simp only [hk, he]
  simp only [show BitVec.toNat Scsi.PageCode.kSupportedVpd = 0x00 from rfl, show BitVec.toNat Scsi.PageCode.kUnitSerialNumber = 0x80 from rfl,
    show BitVec.toNat Scsi.PageCode.kDeviceIdentification = 0x83 from rfl, show BitVec.toNat Scsi.PageCode.kExtended = 0x86 from rfl,
    show BitVec.toNat Scsi.PageCode.kBlockLimitsVpd = 0xb0 from rfl,
    show BitVec.toNat Scsi.PageCode.kBlockDeviceCharacteristicsVpd = 0xb1 from rfl,
    show BitVec.toNat Scsi.PageCode.kLogicalBlockProvisioningVpd = 0xb2 from rfl]
  cases evpd with
  | false =>
    rw [if_neg (by decide)] at h ⊢
    rw [if_pos rfl, onFailure_ok h]
    unfold Inquiry.TranslateStandardInquiry at h
    obtain ⟨ok, g1, rfl⟩ := write_status h
    rcases WriteValue_inv g1 with ⟨a, -, rfl, -⟩ | ⟨a, rfl, -⟩
    · exact none_failed (by omega)
    · refine one_failed ?_ rfl
      rcases a with a | a
      · exact a
      · rw [Scsi.InquiryData.toBytes_length] at a
        exact absurd a (by decide)
  | true =>
    rw [if_pos rfl] at h ⊢
    rw [if_neg (show ¬ (true = false) by decide)]
    by_cases c0 : page = 0x00
    · rw [if_pos c0] at h ⊢
      rw [if_pos c0]
      exact onFailure_two rfl (Scsi.SupportedVitalProductData.toBytes_length _) rfl (by decide) rfl h
    rw [if_neg c0] at h ⊢
    rw [if_neg c0]
    by_cases c0 : page = 0x80
    · rw [if_pos c0] at h ⊢
      rw [if_pos c0]
      have hs := (productSerial_shape (E.junk w) ctrl ns nsid hl hc).2
      exact onFailure_two (m := Inquiry.TranslateUnitSerialNumberVpd E ctrl ns nsid buffer) rfl (Scsi.UnitSerialNumber.toBytes_length _) hs (by decide) rfl h
    rw [if_neg c0] at h ⊢
    rw [if_neg c0]
    by_cases c0 : page = 0x83
    · rw [if_pos c0] at h ⊢
      rw [if_pos c0]
      exact devIdLog hl h
    rw [if_neg c0] at h ⊢
    rw [if_neg c0]
    by_cases c0 : page = 0x86
    · rw [if_pos c0] at h ⊢
      rw [if_pos c0]
      unfold TranslateExtendedInquiryDataVpdLog
      unfold Inquiry.TranslateExtendedInquiryDataVpd at h
      rw [GetSpt_eq] at h ⊢
      cases hs : spt (supportsType3 ns) (supportsType2 ns) (supportsType1 ns) with
      | none => rw [hs] at h; cases h; rfl
      | some v =>
        rw [hs] at h
        exact whenNot_write rfl (Scsi.ExtendedInquiryDataVpd.toBytes_length _) h
    rw [if_neg c0] at h ⊢
    rw [if_neg c0]
    by_cases c0 : page = 0xb0
    · rw [if_pos c0] at h ⊢
      rw [if_pos c0]
      unfold TranslateBlockLimitsVpdLog
      have := whenNot_write (msg := ⟨"inquiry.cc", 483, text! "Error writing Block Limits VPD to the buffer", []⟩) rfl
        (Scsi.BlockLimitsVpd.toBytes_length _) h
      rw [List.map_append, List.append_assoc, this, mdts_eq]
      refine congrArg (· ++ _) ?_
      by_cases c : 16 < mdts ctrl
      · rw [if_pos c, if_pos c]; rfl
      · rw [if_neg c, if_neg c]; rfl
    rw [if_neg c0] at h ⊢
    rw [if_neg c0]
    by_cases c0 : page = 0xb1
    · rw [if_pos c0] at h ⊢
      rw [if_pos c0]
      exact onFailure_write rfl (Scsi.BlockDeviceCharacteristicsVpd.toBytes_length _) rfl h
    rw [if_neg c0] at h ⊢
    rw [if_neg c0]
    by_cases c0 : page = 0xb2
    · rw [if_pos c0] at h ⊢
      rw [if_pos c0]
      exact onFailure_write rfl (Scsi.LogicalBlockProvisioningVpd.toBytes_length _) rfl h
    rw [if_neg c0] at h ⊢
    rw [if_neg c0]
    cases h
    rfl

/-! ## MODE SENSE -/

theorem writePage_ok {pg : BitVec 6} {g : U32} {buf : Span} {w w' : World} {ok : Bool} (hp : pg.toNat ∈ modePages)
    (h : ModeSense.WritePageData pg g buf w = .ok (ok, w')) : ok = decide (pagesLength pg.toNat ≤ buf.len) := by
  simp only [modePages, List.mem_cons, List.not_mem_nil, or_false] at hp
  have one : ∀ {bytes : List Byte} {n : Nat} {out : Span} {u u' : World} {b : Bool}, bytes.length = n → WriteValue' bytes out u = .ok (b, u') →
      b = decide (n ≤ out.len) := by
    intro bytes n out u u' b hn hw
    rcases WriteValue'_inv hw with ⟨a, rfl, -⟩ | ⟨a, rfl, -⟩
    · exact (decide_eq_true (by omega)).symm
    · exact (decide_eq_false (by omega)).symm
  unfold ModeSense.WritePageData at h
  simp only at h
  rcases hp with hp | hp | hp | hp
  · rw [page_eq hp (by decide), if_pos (by decide)] at h
    rw [hp]
    exact one (Scsi.CachingModePage.toBytes_length _) h
  · rw [page_eq hp (by decide), if_neg (by decide), if_pos (by decide)] at h
    rw [hp]
    exact one (Scsi.ControlModePage.toBytes_length _) h
  · rw [page_eq hp (by decide), if_neg (by decide), if_neg (by decide), if_pos (by decide)] at h
    rw [hp]
    exact one (Scsi.PowerConditionModePage.toBytes_length _) h
  · rw [page_eq hp (by decide), if_neg (by decide), if_neg (by decide), if_neg (by decide), if_pos (by decide)] at h
    rw [hp, show pagesLength 0x3f = 72 from rfl]
    simp only [M.bind_run] at h
    split at h
    · cases h
    rename_i b1 w1 h1
    have e1 := one (Scsi.CachingModePage.toBytes_length _) h1
    cases b1 with
    | false =>
      simp only [Bool.false_eq_true, if_false, M.pure_run, Except.ok.injEq, Prod.mk.injEq] at h
      have := of_decide_eq_false e1.symm
      simp only [Scsi.CachingModePage.size] at this
      rw [← h.1]
      exact (decide_eq_false (by omega)).symm
    | true =>
      simp only [if_true, M.bind_run] at h
      split at h
      · cases h
      rename_i b2 w2 h2
      have e2 := one (Scsi.ControlModePage.toBytes_length _) h2
      rw [subspan_len] at e2
      cases b2 with
      | false =>
        simp only [Bool.false_eq_true, if_false, M.pure_run, Except.ok.injEq, Prod.mk.injEq] at h
        have := of_decide_eq_false e2.symm
        simp only [Scsi.CachingModePage.size, Scsi.ControlModePage.size] at this
        rw [← h.1]
        exact (decide_eq_false (by omega)).symm
      | true =>
        simp only [if_true] at h
        have e3 := one (Scsi.PowerConditionModePage.toBytes_length _) h
        rw [subspan_len, subspan_len] at e3
        rw [e3]
        simp only [Scsi.CachingModePage.size, Scsi.ControlModePage.size, Scsi.PowerConditionModePage.size]
        exact decide_eq_decide.mpr (by omega)

theorem descriptor_ok {i : Nvme.GenericQueueEntryCmd} {b : Span} {ll ok : Bool} {n : Nat} {w w' : World}
    (h : ModeSense.WriteBlockDescriptor i b ll w = .ok ((ok, n), w')) :
    n = (if ll then 16 else 8) ∧ ok = decide (n ≤ b.len) := by
  unfold ModeSense.WriteBlockDescriptor at h
  simp only [M.bind_run] at h
  split at h
  · cases h
  rename_i page w1 hl
  cases ll with
  | true =>
    simp only [if_true, M.bind_run] at h
    split at h
    · cases h
    split at h
    · cases h
    rename_i b' u hr
    simp only [M.pure_run, Except.ok.injEq, Prod.mk.injEq] at h
    obtain ⟨⟨rfl, rfl⟩, -⟩ := h
    refine ⟨rfl, ?_⟩
    rcases WriteValue'_inv hr with ⟨a, hb, -⟩ | ⟨a, hb, -⟩
    · rw [Scsi.LongLbaBlockDescriptor.toBytes_length] at a
      rw [hb]; exact (decide_eq_true a).symm
    · rw [Scsi.LongLbaBlockDescriptor.toBytes_length] at a
      rw [hb]; exact (decide_eq_false (Nat.not_le.mpr a)).symm
  | false =>
    simp only [Bool.false_eq_true, if_false, M.bind_run] at h
    split at h
    · cases h
    split at h
    · cases h
    rename_i b' u hr
    simp only [M.pure_run, Except.ok.injEq, Prod.mk.injEq] at h
    obtain ⟨⟨rfl, rfl⟩, -⟩ := h
    refine ⟨rfl, ?_⟩
    rcases WriteValue'_inv hr with ⟨a, hb, -⟩ | ⟨a, hb, -⟩
    · rw [Scsi.ShortLbaBlockDescriptor.toBytes_length] at a
      rw [hb]; exact (decide_eq_true a).symm
    · rw [Scsi.ShortLbaBlockDescriptor.toBytes_length] at a
      rw [hb]; exact (decide_eq_false (Nat.not_le.mpr a)).symm

/-- MODE SENSE(6). -/
theorem mode6Log {a : ModeSense.CommonCmdAttributes} (hl : a.llbaa = false) (hp : a.page_code.toNat ∈ modePages) {g : U32}
    {i : Nvme.GenericQueueEntryCmd} {buf : Span} {w w' : World} {st : StatusCode}
    (h : ModeSense.ModeSenseToScsi a false g i buf w = .ok (st, w')) :
    (ModeSenseToScsiLog a false g i buf w).map said = modeEndRemarks a.dbd a.page_code.toNat buf.len := by
  unfold ModeSense.ModeSenseToScsi at h
  unfold ModeSenseToScsiLog modeEndRemarks
  simp only [Bool.false_eq_true, if_false, M.bind_run] at h ⊢
  split at h
  · cases h
  rename_i ok w1 hh
  rw [after_ok hh]
  unfold ModeSense.WriteMode6Header at hh
  rcases WriteValue'_inv hh with ⟨l, rfl, -⟩ | ⟨l, rfl, -⟩
  all_goals rw [Scsi.ModeParameter6Header.toBytes_length] at l
  all_goals simp only [Scsi.ModeParameter6Header.size] at l h ⊢
  rotate_left
  · rw [if_pos l]; rfl
  rw [if_neg (show ¬ buf.len < 4 by omega)]
  simp only [if_true] at h ⊢
  unfold ModeSense.modeSenseBody at h
  unfold modeSenseBodyLog
  cases hd : a.dbd with
  | true =>
    rw [hd] at h
    simp only [if_true, M.bind_run, Nat.add_zero] at h ⊢
    split at h
    · cases h
    rename_i ok w2 hw
    rw [whenNot_ok hw, writePage_ok hp hw, subspan_len, if_neg (show ¬ buf.len < 4 by omega)]
    by_cases c : buf.len < 4 + pagesLength a.page_code.toNat
    · rw [if_pos c, decide_eq_false (by omega)]; rfl
    · rw [if_neg c, decide_eq_true (by omega)]; rfl
  | false =>
    rw [hd, hl] at h
    rw [hl]
    simp only [Bool.false_eq_true, if_false, M.bind_run] at h ⊢
    split at h
    · cases h
    rename_i r w2 hr
    obtain ⟨ok, n⟩ := r
    obtain ⟨rfl, rfl⟩ := descriptor_ok hr
    rw [after_ok hr]
    simp only [Bool.false_eq_true, if_false, subspan_len, decide_eq_true_eq] at h ⊢
    by_cases c : buf.len < 4 + 8
    · rw [if_pos c, if_neg (show ¬ 8 ≤ buf.len - 4 by omega)]; rfl
    · rw [if_neg c, if_pos (show 8 ≤ buf.len - 4 by omega)]
      rw [if_pos (show 8 ≤ buf.len - 4 by omega)] at h
      simp only [M.bind_run] at h
      split at h
      · cases h
      rename_i ok w3 hw
      rw [whenNot_ok hw, writePage_ok hp hw, subspan_len, subspan_len]
      by_cases c' : buf.len < 4 + 8 + pagesLength a.page_code.toNat
      · rw [if_pos c', decide_eq_false (by omega)]; rfl
      · rw [if_neg c', decide_eq_true (by omega)]; rfl

/-- MODE SENSE(10) for a page which is not supported. -/
theorem mode10Log {a : ModeSense.CommonCmdAttributes} (hp : a.page_code.toNat ∉ modePages) {g : U32}
    {i : Nvme.GenericQueueEntryCmd} {buf : Span} {w w' : World} {st : StatusCode}
    (h : ModeSense.ModeSenseToScsi a true g i buf w = .ok (st, w')) :
    (ModeSenseToScsiLog a true g i buf w).map said = if buf.len < 8 then [some (text! "Insufficient size for mode 10 parameter header")]
      else [some (text! "Truncating mode sense response at block descriptor")] := by
  unfold ModeSense.ModeSenseToScsi at h
  unfold ModeSenseToScsiLog
  simp only [if_true, M.bind_run] at h ⊢
  split at h
  · cases h
  rename_i ok w1 hh
  rw [after_ok hh]
  unfold ModeSense.WriteMode10Header at hh
  rcases WriteValue'_inv hh with ⟨l, rfl, -⟩ | ⟨l, rfl, -⟩
  all_goals rw [Scsi.ModeParameter10Header.toBytes_length] at l
  all_goals simp only [Scsi.ModeParameter10Header.size] at l h ⊢
  rotate_left
  · rw [if_pos l]; rfl
  rw [if_neg (show ¬ buf.len < 8 by omega)]
  simp only [if_true] at h ⊢
  unfold ModeSense.modeSenseBody at h
  unfold modeSenseBodyLog
  cases hd : a.dbd with
  | true =>
    rw [hd] at h
    simp only [if_true, M.bind_run, page_unsupported _ hp] at h
    cases h
  | false =>
    rw [hd] at h
    simp only [Bool.false_eq_true, if_false, M.bind_run] at h ⊢
    split at h
    · cases h
    rename_i r w2 hr
    obtain ⟨ok, n⟩ := r
    rw [after_ok hr]
    cases ok with
    | false => rfl
    | true =>
      simp only [if_true, M.bind_run, page_unsupported _ hp] at h
      cases h

/-! ## REPORT LUNS -/

/-- The loop never complains: the number of LUNs is what fits. -/
theorem writeLunsLog_nil (ns_list : Nat) (buf : Span) (n i : Nat) (w : World) (hb : 8 + 8 * (i + n) ≤ buf.len) :
    writeLunsLog ns_list buf i n w = [] := by
  induction n generalizing i w with
  | zero => rfl
  | succ n ih =>
    unfold writeLunsLog after
    split
    · simp only
      split
      · rename_i ok w' hw
        rcases WriteValue'_inv hw with ⟨-, rfl, -⟩ | ⟨a, -⟩
        · exact ih _ _ (by omega)
        · rw [leBytes_length, subspan_len] at a
          omega
      · rfl
    · rfl

theorem reportLunsLog {cmd : Nvme.GenericQueueEntryCmd} {buf : Span} {w w' : World} {st : StatusCode} (h0 : cmd.prp1.toNat ≠ 0)
    (h : ReportLuns.ReportLunsToScsi cmd buf w = .ok (st, w')) :
    (ReportLunsToScsiLog cmd buf w).map said ++ backOf st = failing (buf.len < 8) (text! "Insufficient buffer size") := by
  unfold ReportLuns.ReportLunsToScsi at h
  unfold ReportLunsToScsiLog
  simp only [SafePointerCast_4096] at h ⊢
  by_cases c : buf.len < 8
  · rw [if_pos (show buf.len < Scsi.ReportLunsParamData.size from c)] at h ⊢
    cases h
    exact one_failed c rfl
  rw [if_neg (show ¬ buf.len < Scsi.ReportLunsParamData.size from c), if_neg h0] at h ⊢
  simp only [Scsi.ReportLunsParamData.size] at h ⊢
  simp only [M.bind_run] at h
  split at h
  · cases h
  rename_i page w1 hl
  rw [after_ok hl]
  have hnn : ∀ v : U32, ntohl (htonl v) = v := fun v => bswap_bswap 4 v
  simp only [hnn, show Nvme.kIdentifyNsListMaxLength = 1024 from rfl] at h ⊢
  have hle : ReportLuns.GetNsListLength 1024 page ≤ 1024 := GetNsListLength_le 1024 page
  generalize ReportLuns.GetNsListLength 1024 page = cnt at h hle ⊢
  have hal : (BitVec.ofNat 32 (sizeSub buf.len 8)).toNat ≤ buf.len - 8 := by
    rw [sizeSub_le (by omega), BitVec.toNat_ofNat]; exact Nat.mod_le _ _
  generalize BitVec.ofNat 32 (sizeSub buf.len 8) = al at h hal ⊢
  have hcnt : (BitVec.ofNat 32 (cnt * 8)).toNat = cnt * 8 := by rw [BitVec.toNat_ofNat]; omega
  rw [hcnt] at h ⊢
  have hlbl : (al - BitVec.ofNat 32 (al.toNat % 8)).toNat = al.toNat / 8 * 8 := by
    have h1 : (BitVec.ofNat 32 (al.toNat % 8)).toNat = al.toNat % 8 := by rw [BitVec.toNat_ofNat]; omega
    have := al.isLt
    rw [BitVec.toNat_sub, h1]
    omega
  split at h
  · cases h
  rename_i ok w2 hw
  rw [after_ok hw]
  rcases WriteValue'_inv hw with ⟨-, rfl, -⟩ | ⟨a, -⟩
  rotate_left
  · rw [Scsi.ReportLunsParamData.toBytes_length] at a
    exact absurd a c
  simp only [if_true, M.bind_run] at h ⊢
  rw [writeLunsLog_nil]
  · split at h
    · cases h
    · cases h
      exact none_failed c
  · by_cases hc : cnt * 8 > al.toNat
    · simp only [decide_eq_true hc, if_true, hlbl]
      omega
    · simp only [decide_eq_false hc, Bool.false_eq_true, if_false]
      omega

/-! ## READ CAPACITY(10) -/

theorem capacityLog {cmd : Nvme.GenericQueueEntryCmd} {buf : Span} {w w' : World} {st : StatusCode} {ns : List Byte}
    (h0 : cmd.prp1.toNat ≠ 0) (hr : w.mem.read cmd.prp1.toNat 4096 = some ns)
    (h : ReadCapacity.ReadCapacity10ToScsi buf cmd w = .ok (st, w')) :
    (ReadCapacity10ToScsiLog buf cmd w).map said ++ backOf st =
      if lbads ns < 9 then [some (text! "lbads value smaller than 9 is not supported"), failedBack]
      else if 31 < lbads ns then
        [some (text! "lbads exceeds type limit of scsi::ReadCapacity10Data.block_length"), failedBack]
      else failing (buf.len < 8) (text! "Error writing Read Capacity 10 Data to buffer") := by
  unfold ReadCapacity10ToScsiLog
  simp only [SafePointerCast_4096]
  rw [if_neg h0, after_ok (load_ok hr)]
  simp only [lbads_eq]
  have h' := h
  unfold ReadCapacity.ReadCapacity10ToScsi at h
  simp only [SafePointerCast_4096] at h
  rw [if_neg h0] at h
  simp only [M.bind_run, load_ok hr, lbads_eq] at h
  by_cases c1 : lbads ns < 9
  · rw [if_pos c1] at h
    rw [if_pos c1, if_pos c1]
    cases h; rfl
  rw [if_neg c1] at h
  rw [if_neg c1, if_neg c1]
  by_cases c2 : lbads ns > 31
  · rw [if_pos c2] at h
    rw [if_pos c2, if_pos c2]
    cases h; rfl
  rw [if_neg c2] at h
  rw [if_neg c2, if_neg c2]
  rw [onFailure_ok h']
  rcases write'_status h with ⟨a, rfl, -⟩ | ⟨a, rfl, -⟩
  · rw [Scsi.ReadCapacity10Data.toBytes_length] at a
    exact none_failed (Nat.not_lt.mpr a)
  · rw [Scsi.ReadCapacity10Data.toBytes_length] at a
    exact one_failed a rfl

/-! ## The status codes -/

theorem code_mem : ∀ sc : Byte,
    (sc.toNat ∈ genericCases ↔ statusTable.find? (fun row => row.1 = 0 ∧ row.2.1 = sc.toNat) ≠ none) ∧
    (sc.toNat ∈ commandSpecificCases ↔ statusTable.find? (fun row => row.1 = 1 ∧ row.2.1 = sc.toNat) ≠ none) ∧
    (sc.toNat ∈ mediaErrorCases ↔ statusTable.find? (fun row => row.1 = 2 ∧ row.2.1 = sc.toNat) ≠ none) := by
  decide +kernel

theorem codeLog (sct : BitVec 3) (sc : Byte) : (StatusToScsiLog sct sc).map said = codeRemarks sct.toNat sc.toNat := by
  obtain ⟨m0, m1, m2⟩ := code_mem sc
  have tell : ∀ (l : Nat) (cases : List Nat) (r : Option (Nat × Nat × SenseInfo)) (h : sc.toNat ∈ cases ↔ r ≠ none),
      (if sc.toNat ∈ cases then []
        else [(⟨"status.cc", l, text! "No SCSI translation for NVMe status with code %#x", [.int sc.toNat]⟩ : Msg)]).map said
      = if r = none then [some (text! "No SCSI translation for NVMe status with code " ++ Log.hex sc.toNat)] else [] := by
    intro l cases r h
    by_cases c : sc.toNat ∈ cases
    · rw [if_pos c, if_neg (h.mp c)]; rfl
    · rw [if_neg c, if_pos (Classical.not_not.mp fun e => c (h.mpr e))]
      have := said_hex "status.cc" l (text! "No SCSI translation for NVMe status with code ") sc.toNat (by decide)
      exact congrArg (fun r => [r]) this
  unfold StatusToScsiLog codeRemarks
  have hs := sct.isLt
  by_cases c0 : sct = Nvme.StatusCodeType.kGeneric
  · rw [if_pos c0, c0]
    exact tell _ _ _ m0
  rw [if_neg c0]
  by_cases c1 : sct = Nvme.StatusCodeType.kCommandSpecific
  · rw [if_pos c1, c1]
    exact tell _ _ _ m1
  rw [if_neg c1]
  by_cases c2 : sct = Nvme.StatusCodeType.kMediaError
  · rw [if_pos c2, c2]
    exact tell _ _ _ m2
  rw [if_neg c2]
  have h3 : 3 ≤ sct.toNat := by
    have : ∀ s : BitVec 3, s ≠ Nvme.StatusCodeType.kGeneric → s ≠ Nvme.StatusCodeType.kCommandSpecific →
        s ≠ Nvme.StatusCodeType.kMediaError → 3 ≤ s.toNat := by decide
    exact this _ c0 c1 c2
  rw [if_pos h3]
  generalize sct.toNat = a
  generalize sc.toNat = b
  refine congrArg (fun r => [r]) (said_format _ _ _ _ _ ?_ ?_)
  · have := format_text (text! "No SCSI translation for nvme status code type ") (text! "%#xand status code %#x") [.int a, .int b] (by decide)
    refine this.trans ?_
    simp [format]
  · have h1 := (hex_clean a).2
    have h2 := (hex_clean b).2
    simp only [List.length_append, List.length_cons, List.length_nil]
    omega

theorem firstErrorLog_eq (l : List Nvme.GenericQueueEntryCpl) :
    (firstErrorLog l).map said = match l.find? (fun c => (cplStatus c).status ≠ 0) with
      | some c => codeRemarks c.sct.toNat c.sc.toNat
      | none => [] := by
  induction l with
  | nil => rfl
  | cons c cs ih =>
    unfold firstErrorLog
    rw [List.map_append, codeLog]
    obtain ⟨e1, e2⟩ := statusOf_eq c.sct c.sc
    have e1' : infoOf (Status.StatusToScsi c.sct c.sc) = cplStatus c := e1
    by_cases hz : (Status.StatusToScsi c.sct c.sc).status ≠ Scsi.Status.kGood
    · rw [if_pos hz, List.find?_cons_of_pos, List.map_nil, List.append_nil]
      rw [← e1']
      simp only [decide_eq_true_eq]
      intro h
      exact hz (BitVec.eq_of_toNat_eq h)
    · rw [if_neg hz, ih]
      have hs : ¬ (cplStatus c).status ≠ 0 := by
        rw [← e1']
        intro h
        apply hz
        intro h'
        exact h (by rw [show (infoOf (Status.StatusToScsi c.sct c.sc)).status = (Status.StatusToScsi c.sct c.sc).status.toNat from rfl, h']; rfl)
      rw [List.find?_cons_of_neg (by simpa using hs)]
      have h0 : c.sct = 0 ∧ c.sc = 0 := by
        have := (good_iff c.sct c.sc).mp (Classical.not_not.mp hz)
        exact ⟨BitVec.eq_of_toNat_eq this.1, BitVec.eq_of_toNat_eq this.2⟩
      rw [h0.1, h0.2]
      rfl

end Scsi2Nvme
