import Verif.Properties.UnmapBegin
import Verif.Properties.BeginExact
import Verif.Spec.Plan
/-!
# C78: `Begin` as a function
-/

namespace Scsi2Nvme
open Spec

/-! ## The allocation length of a READ -/

theorem LegacyRead_al (wr : NvmeCmdWrapper) (nsid : U32) (tl : U16) (buf : Span) :
    (Read.LegacyRead wr nsid tl kLbaSize buf).2.2.toNat = tl.toNat * 4096 := by
  unfold Read.LegacyRead
  simp only
  split <;> exact mul4096 _

theorem Read_al (rp : Byte) (fua : Bool) (tl : U32) (wr : NvmeCmdWrapper) (nsid : U32) (buf : Span) (al : U32) :
    (Read.Read rp fua tl wr nsid kLbaSize buf al).2.2.toNat
      = if tl.toNat = 0 ∨ 65535 < tl.toNat then al.toNat else tl.toNat * 4096 := by
  unfold Read.Read
  by_cases h0 : tl = 0
  · subst h0; rfl
  have h0' : tl.toNat ≠ 0 := fun hh => h0 (BitVec.eq_of_toNat_eq hh)
  rw [if_neg h0]
  by_cases h1 : tl > 0xffff#32
  · rw [if_pos h1]
    have : 65535 < tl.toNat := by simpa [BitVec.lt_def] using h1
    rw [if_pos (Or.inr this)]
  · rw [if_neg h1]
    have h2 : ¬ 65535 < tl.toNat := by simpa [BitVec.lt_def] using h1
    rw [if_neg (by omega)]
    simp only
    have h3 : ((tl &&& 0xffff#32).setWidth 16).toNat = tl.toNat := by
      have h4 : (tl &&& 0xffff#32) = tl := by
        apply BitVec.eq_of_toNat_eq
        rw [BitVec.toNat_and]
        show tl.toNat &&& (2 ^ 16 - 1) = _
        rw [Nat.and_two_pow_sub_one_eq_mod]
        omega
      rw [h4, BitVec.toNat_setWidth]; omega
    have hal := LegacyRead_al wr nsid ((tl &&& 0xffff#32).setWidth 16) buf
    rw [h3] at hal
    split
    · rename_i wr' al' he
      rw [he] at hal
      split <;> exact hal
    · rename_i he
      rw [he] at hal
      exact hal

/-- What the READ translators leave in the allocation length. -/
def readAl (cdb : List Byte) (al : Nat) : Nat :=
  match decodeRw cdb with
  | none => al
  | some rw => if rw.blocks = 0 ∨ 65535 < rw.blocks then al else rw.blocks * 4096

theorem Read10_al (cdb : List Byte) (hop : byte cdb 0 = 0x28) (wr : NvmeCmdWrapper) (nsid : U32) (buf : Span) (al : U32) :
    (Read.Read10ToNvme cdb.tail wr nsid kLbaSize buf al).2.2.toNat = readAl cdb al.toNat := by
  have hd := decodeRw_10 (cdb := cdb) (by omega)
  unfold Read.Read10ToNvme readAl
  by_cases hl : cdb.length < 10
  · rw [if_pos hl] at hd
    rw [readValue_none (by simp [Scsi.Read10Command.size]; omega), hd]
  · rw [if_neg hl] at hd
    rw [readValue_some (by simp [Scsi.Read10Command.size]; omega), hd]
    have f3 : (ntohs (Scsi.Read10Command.ofBytes (cdb.tail.take Scsi.Read10Command.size)).transfer_length).toNat = beAt cdb 7 2 :=
      field16 cdb 9 48 6 (by omega) (by omega) (by omega)
    generalize Scsi.Read10Command.ofBytes (cdb.tail.take Scsi.Read10Command.size) = c at f3 ⊢
    have f4 : ((ntohs c.transfer_length).setWidth 32).toNat = beAt cdb 7 2 := by
      rw [BitVec.toNat_setWidth, f3]; have := beAt_lt cdb 7 2; omega
    have := Read_al (c.rd_protect.setWidth 8) (c.fua == 1) ((ntohs c.transfer_length).setWidth 32) wr nsid buf al
    rw [f4] at this
    simp only
    rw [← this]
    split <;> rename_i he <;> rw [he]

theorem Read12_al (cdb : List Byte) (hop : byte cdb 0 = 0xa8) (wr : NvmeCmdWrapper) (nsid : U32) (buf : Span) (al : U32) :
    (Read.Read12ToNvme cdb.tail wr nsid kLbaSize buf al).2.2.toNat = readAl cdb al.toNat := by
  have hd := decodeRw_12 (cdb := cdb) (by omega)
  unfold Read.Read12ToNvme readAl
  by_cases hl : cdb.length < 12
  · rw [if_pos hl] at hd
    rw [readValue_none (by simp [Scsi.Read12Command.size]; omega), hd]
  · rw [if_neg hl] at hd
    rw [readValue_some (by simp [Scsi.Read12Command.size]; omega), hd]
    have f4 : (ntohl (Scsi.Read12Command.ofBytes (cdb.tail.take Scsi.Read12Command.size)).transfer_length).toNat = beAt cdb 6 4 :=
      field32 cdb 11 40 5 (by omega) (by omega) (by omega)
    generalize Scsi.Read12Command.ofBytes (cdb.tail.take Scsi.Read12Command.size) = c at f4 ⊢
    have := Read_al (c.rd_protect.setWidth 8) (c.fua == 1) (ntohl c.transfer_length) wr nsid buf al
    rw [f4] at this
    simp only
    rw [← this]
    split <;> rename_i he <;> rw [he]

theorem Read16_al (cdb : List Byte) (hop : byte cdb 0 = 0x88) (wr : NvmeCmdWrapper) (nsid : U32) (buf : Span) (al : U32) :
    (Read.Read16ToNvme cdb.tail wr nsid kLbaSize buf al).2.2.toNat = readAl cdb al.toNat := by
  have hd := decodeRw_16 (cdb := cdb) (by omega)
  unfold Read.Read16ToNvme readAl
  by_cases hl : cdb.length < 16
  · rw [if_pos hl] at hd
    rw [readValue_none (by simp [Scsi.Read16Command.size]; omega), hd]
  · rw [if_neg hl] at hd
    rw [readValue_some (by simp [Scsi.Read16Command.size]; omega), hd]
    have f4 : (ntohl (Scsi.Read16Command.ofBytes (cdb.tail.take Scsi.Read16Command.size)).transfer_length).toNat = beAt cdb 10 4 :=
      field32 cdb 15 72 9 (by omega) (by omega) (by omega)
    generalize Scsi.Read16Command.ofBytes (cdb.tail.take Scsi.Read16Command.size) = c at f4 ⊢
    have := Read_al (c.rd_protect.setWidth 8) (c.fua == 1) (ntohl c.transfer_length) wr nsid buf al
    rw [f4] at this
    simp only
    rw [← this]
    split <;> rename_i he <;> rw [he]

theorem Read6_al (cdb : List Byte) (hop : byte cdb 0 = 0x08) (wr : NvmeCmdWrapper) (nsid : U32) (buf : Span) (al : U32) :
    (Read.Read6ToNvme cdb.tail wr nsid kLbaSize buf al).2.2.toNat = readAl cdb al.toNat := by
  have hd := decodeRw_6 (cdb := cdb) (by omega)
  unfold Read.Read6ToNvme readAl
  by_cases hl : cdb.length < 6
  · rw [if_pos hl] at hd
    rw [readValue_none (by simp [Scsi.Read6Command.size]; omega), hd]
  · rw [if_neg hl] at hd
    rw [readValue_some (by simp [Scsi.Read6Command.size]; omega), hd]
    have f3 : (Scsi.Read6Command.ofBytes (cdb.tail.take Scsi.Read6Command.size)).transfer_length.toNat
        = byte cdb 4 := field8 cdb 5 24 3 (by omega) (by omega)
    generalize Scsi.Read6Command.ofBytes (cdb.tail.take Scsi.Read6Command.size) = c at f3 ⊢
    have ht := tl6_toNat cdb _ f3
    have b3 := byte_lt cdb 4
    simp only
    generalize (if c.transfer_length = 0 then 256#16 else c.transfer_length.setWidth 16) = tl at ht
    have := LegacyRead_al wr nsid tl buf
    rw [← ht, if_neg (by rw [ht]; split <;> omega), ← this]
    split <;> rename_i he <;> rw [he]

/-! ## Page requests -/

/-- From `w` to `w1` the allocator was asked for one page `as.length` times and answered `as` (only zeros, and
without any trace, if there is no callback). -/
def PagesAsked (E : Env) (w w1 : World) (as : List Nat) : Prop :=
  ∃ evs, w1.trace = evs ++ w.trace ∧
    ((E.allocCb = none ∧ pageAnswers evs = [] ∧ ∀ x ∈ as, x = 0) ∨ (E.allocCb ≠ none ∧ pageAnswers evs = as))

theorem PagesAsked.nil (E : Env) (w : World) : PagesAsked E w w [] := by
  refine ⟨[], rfl, ?_⟩
  by_cases h : E.allocCb = none
  · exact Or.inl ⟨h, rfl, by simp⟩
  · exact Or.inr ⟨h, rfl⟩

theorem PagesAsked.set (E : Env) (w : World) : PagesAsked E w (setW E w) [(setA E w).toNat] := by
  obtain ⟨evs, h1, ⟨h2, h3, h4⟩ | h⟩ := set_answers E w
  · exact ⟨evs, h1, Or.inl ⟨h2, h4, by simp [h3]⟩⟩
  · exact ⟨evs, h1, Or.inr h⟩

theorem PagesAsked.trans {E : Env} {w w1 w2 : World} {as bs : List Nat} (h : PagesAsked E w w1 as) (g : PagesAsked E w1 w2 bs) :
    PagesAsked E w w2 (as ++ bs) := by
  obtain ⟨e1, h1, h2⟩ := h
  obtain ⟨e2, g1, g2⟩ := g
  refine ⟨e2 ++ e1, by rw [g1, h1]; simp, ?_⟩
  rw [pageAnswers_append]
  rcases h2 with ⟨a, b, c⟩ | ⟨a, b⟩
  · rcases g2 with ⟨_, b', c'⟩ | ⟨a', _⟩
    · refine Or.inl ⟨a, by rw [b, b']; rfl, ?_⟩
      intro x hx
      rcases List.mem_append.mp hx with hx | hx
      · exact c x hx
      · exact c' x hx
    · exact absurd a a'
  · rcases g2 with ⟨a', _, _⟩ | ⟨_, b'⟩
    · exact absurd a' a
    · exact Or.inr ⟨a, by rw [b, b']⟩

/-- Only the trace matters. -/
theorem PagesAsked.congr {E : Env} {w w1 w2 : World} {as : List Nat} (h : PagesAsked E w w1 as) (ht : w2.trace = w1.trace) :
    PagesAsked E w w2 as := by
  obtain ⟨e, h1, h2⟩ := h
  exact ⟨e, by rw [ht, h1], h2⟩

/-- The `switch` ends with `p` as planned. -/
def Meets (p : Pipe) (pl : Plan) : Prop :=
  p.alloc_len.toNat = pl.announced ∧
  match pl.result with
  | none => p.status ≠ .kSuccess
  | some cs => p.status = .kSuccess ∧ (p.ws.toList.take p.count).map handed = cs

theorem getD_append_length (as : List Nat) (x : Nat) (l : List Nat) : (as ++ x :: l).getD as.length 0 = x := by
  simp [List.getD]

theorem setA_toNat_ne {E : Env} {w : World} (h : setA E w ≠ 0) : (setA E w).toNat ≠ 0 :=
  fun hh => h (BitVec.eq_of_toNat_eq hh)

theorem ofNat32_byte (cdb : List Byte) (i : Nat) : (BitVec.ofNat 32 (byte cdb i) : U32).toNat = byte cdb i := by
  rw [BitVec.toNat_ofNat]
  have := byte_lt cdb i
  omega

theorem ofNat32_beAt4 (cdb : List Byte) (i : Nat) : (BitVec.ofNat 32 (beAt cdb i 4) : U32).toNat = beAt cdb i 4 := by
  rw [BitVec.toNat_ofNat, Nat.mod_eq_of_lt (beAt_lt cdb i 4)]

theorem ofNat32_beAt2 (cdb : List Byte) (i : Nat) : (BitVec.ofNat 32 (beAt cdb i 2) : U32).toNat = beAt cdb i 2 := by
  rw [BitVec.toNat_ofNat]
  have := beAt_lt cdb i 2
  omega

theorem handed_identify (nsid cns : U32) (a : U64) :
    handed (identifyWr nsid cns a) = identifyCommand nsid.toNat cns.toNat a.toNat := by
  unfold handed identifyWr identifyCommand
  rw [identifyCmd_toBytes]
  rfl

/-! ## Command by command -/

theorem plan_inquiry (E : Env) (cdb : List Byte) (nsid : U32) (p : Pipe) (w : World) (hc : Clean p.as)
    (hal : p.alloc_len = 0) :
    ∃ p' w' as, beginInquiry E cdb.tail nsid p w = .ok (p', w') ∧ PagesAsked E w w' as ∧
      (inquiryPlan cdb nsid.toNat (as.getD · 0)).asked = as.length ∧ Meets p' (inquiryPlan cdb nsid.toNat (as.getD · 0)) := by
  unfold inquiryPlan
  rcases Nat.lt_or_ge cdb.length 6 with hl | hl
  · refine ⟨_, _, [], inquiry_short E cdb nsid p w hl, .nil E w, ?_, ?_⟩ <;> rw [if_pos hl]
    · rfl
    · exact ⟨by show p.alloc_len.toNat = 0; rw [hal]; rfl, by simp⟩
  by_cases h0 : setA E w = 0
  · refine ⟨_, _, [(setA E w).toNat], inquiry_fail0 E cdb nsid p w hl hc h0, .set E w, ?_, ?_⟩ <;>
      rw [if_neg (show ¬ cdb.length < 6 by omega), if_pos (by simp [h0])]
    · rfl
    · exact ⟨ofNat32_beAt2 cdb 3, by simp⟩
  by_cases h1 : setA E (setW E w) = 0
  · refine ⟨_, _, _, inquiry_fail1 E cdb nsid p w hl hc h0 h1, (PagesAsked.set E w).trans (.set E _), ?_, ?_⟩ <;>
      rw [if_neg (show ¬ cdb.length < 6 by omega), if_neg (by simpa using setA_toNat_ne h0), if_pos (by simp [h1])]
    · rfl
    · exact ⟨ofNat32_beAt2 cdb 3, by simp⟩
  · refine ⟨_, _, _, inquiry_ok E cdb nsid p w hl hc h0 h1, (PagesAsked.set E w).trans (.set E _), ?_, ?_⟩ <;>
      rw [if_neg (show ¬ cdb.length < 6 by omega), if_neg (by simpa using setA_toNat_ne h0), if_neg (by simpa using setA_toNat_ne h1)]
    · rfl
    · refine ⟨ofNat32_beAt2 cdb 3, rfl, ?_⟩
      show [handed _, handed _] = _
      rw [handed_identify, handed_identify]
      rfl

theorem plan_capacity (E : Env) (cdb : List Byte) (nsid : U32) (p : Pipe) (w : World) (hc : p.as.e0.data_addr = 0)
    (hal : p.alloc_len = 0) :
    ∃ p' w' as, beginReadCapacity10 E cdb.tail nsid p w = .ok (p', w') ∧ PagesAsked E w w' as ∧
      (capacityPlan cdb nsid.toNat (as.getD · 0)).asked = as.length ∧ Meets p' (capacityPlan cdb nsid.toNat (as.getD · 0)) := by
  unfold capacityPlan
  rcases Nat.lt_or_ge cdb.length 10 with hl | hl
  · refine ⟨_, _, [], rc_short E cdb nsid p w hl, .nil E w, ?_, ?_⟩ <;> rw [if_pos (Or.inl hl)]
    · rfl
    · exact ⟨by show p.alloc_len.toNat = 0; rw [hal]; rfl, by simp⟩
  by_cases hn : Spec.bit cdb 9 2 = true
  · refine ⟨_, _, [], rc_bad E cdb nsid p w hl hn, .nil E w, ?_, ?_⟩ <;> rw [if_pos (Or.inr hn)]
    · rfl
    · exact ⟨by show p.alloc_len.toNat = 0; rw [hal]; rfl, by simp⟩
  have hneg : ¬ (cdb.length < 10 ∨ Spec.bit cdb 9 2 = true) := by
    rintro (h | h)
    · omega
    · exact hn h
  have hn' : Spec.bit cdb 9 2 = false := by simpa using hn
  by_cases h0 : setA E w = 0
  · refine ⟨_, _, [(setA E w).toNat], rc_fail E cdb nsid p w hl hn' hc h0, .set E w, ?_, ?_⟩ <;>
      rw [if_neg hneg, if_pos (by simp [h0])]
    · rfl
    · exact ⟨rfl, by simp⟩
  · refine ⟨_, _, _, rc_ok E cdb nsid p w hl hn' hc h0, .set E w, ?_, ?_⟩ <;>
      rw [if_neg hneg, if_neg (by simpa using setA_toNat_ne h0)]
    · rfl
    · refine ⟨rfl, rfl, ?_⟩
      show [handed _] = _
      rw [handed_identify]
      rfl

/-- REPORT LUNS, after `bs` answers. -/
theorem plan_luns (E : Env) (cdb : List Byte) (p : Pipe) (w0 w : World) (bs : List Nat) (hb : PagesAsked E w0 w bs) :
    ∃ p' w' as, beginReportLuns E cdb.tail p w = .ok (p', w') ∧ PagesAsked E w0 w' (bs ++ as) ∧
      (lunsPlan cdb ((bs ++ as).getD · 0) bs.length (p.as.e0.data_addr == 0) p.alloc_len.toNat).asked = (bs ++ as).length ∧
      Meets p' (lunsPlan cdb ((bs ++ as).getD · 0) bs.length (p.as.e0.data_addr == 0) p.alloc_len.toNat) := by
  unfold lunsPlan
  rcases Nat.lt_or_ge cdb.length 12 with hl | hl
  · refine ⟨_, _, [], rl_short E cdb p w hl, by simpa using hb, ?_, ?_⟩ <;> rw [if_pos (Or.inl hl)]
    · simp
    · exact ⟨rfl, by simp⟩
  rcases Nat.lt_or_ge 2 (byte cdb 2) with hs | hs
  · refine ⟨_, _, [], rl_bad E cdb p w hl hs, by simpa using hb, ?_, ?_⟩ <;> rw [if_pos (Or.inr hs)]
    · simp
    · exact ⟨rfl, by simp⟩
  have hneg : ¬ (cdb.length < 12 ∨ 2 < byte cdb 2) := by omega
  by_cases ha : p.as.e0.data_addr = 0
  · have hb' : ¬ (p.as.e0.data_addr == 0) = false := by simp [ha]
    have hb2 := hb.trans (.set E w)
    by_cases h0 : setA E w = 0
    · refine ⟨_, _, _, rl_fail E cdb p w hl hs ha h0, hb2, ?_, ?_⟩ <;>
        rw [if_neg hneg, if_neg hb', if_pos (by show (bs ++ [(setA E w).toNat]).getD bs.length 0 = 0; rw [getD_append_length, h0]; rfl)]
      · simp
      · exact ⟨ofNat32_beAt4 cdb 6, by simp⟩
    · refine ⟨_, _, _, rl_ok E cdb p w hl hs ha h0, hb2, ?_, ?_⟩ <;>
        rw [if_neg hneg, if_neg hb', if_neg (by show ¬ (bs ++ [(setA E w).toNat]).getD bs.length 0 = 0; rw [getD_append_length]; exact setA_toNat_ne h0)]
      · simp
      · refine ⟨ofNat32_beAt4 cdb 6, rfl, ?_⟩
        show [handed _] = _
        rw [handed_identify]
        show _ = [identifyCommand 0 2 ((bs ++ [(setA E w).toNat]).getD bs.length 0)]
        rw [getD_append_length]
        rfl
  · have hb' : (p.as.e0.data_addr == 0) = false := by simpa using ha
    refine ⟨_, _, [], rl_used E cdb p w hl hs ha, by simpa using hb, ?_, ?_⟩ <;> rw [if_neg hneg, if_pos hb']
    · simp
    · exact ⟨ofNat32_beAt4 cdb 6, by simp⟩

theorem validate_al (cdb : List Byte) (al : U32) :
    (MaintenanceIn.ValidateReportSupportedOpCodes cdb.tail al).2.toNat
      = if 12 ≤ cdb.length ∧ byte cdb 2 % 8 = 1 ∧ byte cdb 3 = 0x93 then 4 else al.toNat := by
  unfold MaintenanceIn.ValidateReportSupportedOpCodes
  rcases Nat.lt_or_ge cdb.length 12 with hl | hl
  · rw [readValue_none (by simp [Scsi.ReportOpCodesCommand.size]; omega), if_neg (by omega)]
  rw [readValue_some (by simp [Scsi.ReportOpCodesCommand.size]; omega)]
  have f1 : (Scsi.ReportOpCodesCommand.ofBytes (cdb.tail.take Scsi.ReportOpCodesCommand.size)).requested_op_code.toNat
      = byte cdb 3 := field8 cdb 11 16 2 (by omega) (by omega)
  have f2 : (Scsi.ReportOpCodesCommand.ofBytes (cdb.tail.take Scsi.ReportOpCodesCommand.size)).reporting_options.toNat
      = byte cdb 2 / 2 ^ 0 % 2 ^ 3 := fieldBits cdb 11 8 3 1 0 (by omega) (by omega) (by omega)
  generalize Scsi.ReportOpCodesCommand.ofBytes (cdb.tail.take Scsi.ReportOpCodesCommand.size) = c at f1 f2 ⊢
  simp only [Nat.pow_zero, Nat.div_one, Nat.reducePow] at f2
  have e1 : c.requested_op_code = Scsi.OpCode.kWriteSame16 ↔ byte cdb 3 = 0x93 := by
    rw [← f1]; exact bv_eq_iff _ 0x93 (by decide)
  have e2 : c.reporting_options = 0b001 ↔ byte cdb 2 % 8 = 1 := by
    rw [← f2]; exact bv_eq_iff _ 1 (by decide)
  by_cases h1 : byte cdb 3 = 0x93
  · by_cases h2 : byte cdb 2 % 8 = 1
    · simp only
      rw [if_neg (fun h => h.elim (fun h => h (e1.mpr h1)) (fun h => h (e2.mpr h2))), if_pos ⟨hl, h2, h1⟩]
      rfl
    · simp only
      rw [if_pos (Or.inr fun h => h2 (e2.mp h)), if_neg (by omega)]
  · simp only
    rw [if_pos (Or.inl fun h => h1 (e1.mp h)), if_neg (by omega)]

theorem plan_maintenance (E : Env) (cdb : List Byte) (p : Pipe) (w0 w : World) (bs : List Nat) (hb : PagesAsked E w0 w bs) :
    ∃ p' w' as, beginMaintenanceIn E cdb.tail p w = .ok (p', w') ∧ PagesAsked E w0 w' (bs ++ as) ∧
      (maintenancePlan cdb ((bs ++ as).getD · 0) bs.length (p.as.e0.data_addr == 0) p.alloc_len.toNat).asked = (bs ++ as).length ∧
      Meets p' (maintenancePlan cdb ((bs ++ as).getD · 0) bs.length (p.as.e0.data_addr == 0) p.alloc_len.toNat) := by
  unfold maintenancePlan beginMaintenanceIn
  rw [← validate_al]
  exact plan_luns E cdb _ w0 w bs hb

theorem plan_mode10 (E : Env) (cdb : List Byte) (nsid : U32) (p : Pipe) (w : World) (hn : p.count = 0)
    (ha : p.as.e0.data_addr = 0) (hal : p.alloc_len = 0) :
    ∃ p' w' as, beginModeSense10 E cdb.tail nsid p w = .ok (p', w') ∧ PagesAsked E w w' as ∧
      (mode10Plan cdb (as.getD · 0)).asked = as.length ∧ Meets p' (mode10Plan cdb (as.getD · 0)) := by
  unfold beginModeSense10 ModeSense.ModeSense10ToNvme mode10Plan
  have hz : (p.as.e0.data_addr == 0) = true := by simp [ha]
  rcases Nat.lt_or_ge cdb.length 10 with hl | hl
  · rw [readValue_none (by simp [Scsi.ModeSense10Command.size]; omega)]
    simp only [M.bind_run, M.pure_run, if_pos hl]
    obtain ⟨p', w', as, h1, h2, h3, h4⟩ := plan_maintenance E cdb { p with status := .kFailure } w w [] (.nil E w)
    refine ⟨p', w', as, h1, h2, ?_, ?_⟩
    · have := h3; rw [hal, hz] at this; exact this
    · have := h4; rw [hal, hz] at this; exact this
  rw [readValue_some (by simp [Scsi.ModeSense10Command.size]; omega)]
  have f : ((ntohs (Scsi.ModeSense10Command.ofBytes (cdb.tail.take Scsi.ModeSense10Command.size)).alloc_length).setWidth 32
      : U32).toNat = beAt cdb 7 2 := by
    rw [BitVec.toNat_setWidth]
    have h1 : (ntohs (Scsi.ModeSense10Command.ofBytes (cdb.tail.take Scsi.ModeSense10Command.size)).alloc_length).toNat
      = beAt cdb 7 2 := field16 cdb 9 48 6 (by omega) (by omega) (by omega)
    rw [h1]
    have := beAt_lt cdb 7 2
    omega
  simp only [M.bind_run, kPageSize, if_neg (show ¬ cdb.length < 10 by omega)]
  by_cases hd : Spec.bit cdb 1 3 = true
  · simp only [if_pos hd]
    have := ModeSense_dbd E (attrsOf10 cdb) p.ws p.as.e0 nsid p.count (by omega) w (by rw [attrsOf10_dbd]; exact hd)
    unfold attrsOf10 at this
    rw [this]
    simp only [M.pure_run]
    generalize msPage _ nsid p.ws p.count = r
    obtain ⟨p', w', as, h1, h2, h3, h4⟩ := plan_maintenance E cdb
      { p with status := r.1, count := r.2.2, ws := r.2.1, alloc_len := (ntohs (Scsi.ModeSense10Command.ofBytes (cdb.tail.take Scsi.ModeSense10Command.size)).alloc_length).setWidth 32 }
      w w [] (.nil E w)
    refine ⟨p', w', as, h1, h2, ?_, ?_⟩
    · have := h3; rw [f, hz] at this; exact this
    · have := h4; rw [f, hz] at this; exact this
  · have hd' : Spec.bit cdb 1 3 = false := by simpa using hd
    simp only [if_neg hd]
    have fin : ∀ q : Pipe, q.as = { p.as with e0 := setAl E w } → q.alloc_len.toNat = beAt cdb 7 2 →
        ∃ p' w' as, beginMaintenanceIn E cdb.tail q (setW E w) = .ok (p', w') ∧ PagesAsked E w w' as ∧
      (maintenancePlan cdb (as.getD · 0) 1 (as.getD 0 0 == 0) (beAt cdb 7 2)).asked = as.length ∧
      Meets p' (maintenancePlan cdb (as.getD · 0) 1 (as.getD 0 0 == 0) (beAt cdb 7 2)) := by
      intro q hq hqa
      obtain ⟨p', w', as, h1, h2, h3, h4⟩ := plan_maintenance E cdb q w _ _ (.set E w)
      have hzz : (q.as.e0.data_addr == 0) = (([(setA E w).toNat] ++ as).getD 0 0 == 0) := by
        rw [hq]
        show (setA E w == 0) = ((setA E w).toNat == 0)
        rw [Bool.eq_iff_iff, beq_iff_eq, beq_iff_eq]
        exact ⟨fun h => by rw [h]; rfl, fun h => BitVec.eq_of_toNat_eq h⟩
      rw [hzz, hqa] at h3 h4
      exact ⟨p', w', _, h1, h2, h3, h4⟩
    by_cases h0 : setA E w = 0
    · have := ModeSense_fail E (attrsOf10 cdb) p.ws p.as.e0 nsid p.count (by omega) w (by rw [attrsOf10_dbd]; exact hd') ha h0
      unfold attrsOf10 at this
      rw [this]
      simp only [M.pure_run]
      exact fin _ rfl f
    · have := ModeSense_ok E (attrsOf10 cdb) p.ws p.as.e0 nsid p.count (by omega) w (by rw [attrsOf10_dbd]; exact hd') ha h0
      unfold attrsOf10 at this
      rw [this]
      simp only [M.pure_run]
      exact fin _ rfl f

/-- The page part of MODE SENSE, with the commands handed out. -/
theorem msPage_handed (cdb : List Byte) (nsid : U32) (ws : Arr3 NvmeCmdWrapper) (n : Nat) (hn : n < 3) (len : Nat)
    (hlen : ((ws.get? n).getD ws.e0).buffer_len.toNat = len)
    (hok : (msPage (attrsOf6 cdb) nsid ws n).1 = .kSuccess) :
    ((msPage (attrsOf6 cdb) nsid ws n).2.1.toList.take (msPage (attrsOf6 cdb) nsid ws n).2.2).map handed
      = (ws.toList.take n).map handed ++ pagePart cdb nsid.toNat len := by
  have h := (msPage_ok cdb nsid ws n).mp hok
  unfold msPage pagePart
  rw [attrsOf6_page, attrsOf6_pc]
  by_cases hp : asksCaching (byte cdb 2 % 64)
  · have hp' : byte cdb 2 % 64 = 8 ∨ byte cdb 2 % 64 = 63 := hp
    rw [if_pos hp', if_neg (h.2 hp), if_pos hp]
    have key : ∀ wr : NvmeCmdWrapper, (ws.put n wr).toList.take (n + 1) = ws.toList.take n ++ [wr] := by
      intro wr
      obtain ⟨a, b, c⟩ := ws
      match n, hn with
      | 0, _ => rfl
      | 1, _ => rfl
      | 2, _ => rfl
    simp only
    rw [key, List.map_append]
    congr 1
    simp only [List.map_cons, List.map_nil, handed, getFeaturesCmd_toBytes, selOf_toNat, hlen]
  · have hp' : ¬ (byte cdb 2 % 64 = 8 ∨ byte cdb 2 % 64 = 63) := hp
    simp only [if_neg hp, if_neg hp']
    split <;> simp

/-- MODE SENSE(6), entered with `p.count` commands in place and after `bs` answers. -/
theorem plan_mode6 (E : Env) (cdb : List Byte) (nsid : U32) (p : Pipe) (w0 w : World) (bs : List Nat)
    (hb : PagesAsked E w0 w bs) (hn : p.count < 2) (hal : p.alloc_len = 0) (held : Nat → Handed)
    (hh : ∀ i, i < 3 → p.count ≤ i → (held i).len = ((p.ws.get? i).getD p.ws.e0).buffer_len.toNat)
    (before : List Handed) (hbe : (p.ws.toList.take p.count).map handed = before) :
    ∃ p' w' as, beginModeSense6 E cdb.tail nsid p w = .ok (p', w') ∧ PagesAsked E w0 w' (bs ++ as) ∧
      (modePlan cdb nsid.toNat held ((bs ++ as).getD · 0) before bs.length (p.as.e0.data_addr == 0)).asked = (bs ++ as).length ∧
      Meets p' (modePlan cdb nsid.toNat held ((bs ++ as).getD · 0) before bs.length (p.as.e0.data_addr == 0)) := by
  have hlb : before.length = p.count := by
    rw [← hbe, List.length_map, List.length_take]
    show min p.count 3 = p.count
    omega
  -- the page part
  have page : ∀ (ws : Arr3 NvmeCmdWrapper) (n : Nat) (as' : Arr3 Allocation) (pre : List Handed), n < 3 →
      (ws.toList.take n).map handed = pre →
      ((ws.get? n).getD ws.e0).buffer_len.toNat = (held n).len → 6 ≤ cdb.length → ∀ k,
      Meets { status := (msPage (attrsOf6 cdb) nsid ws n).1, count := (msPage (attrsOf6 cdb) nsid ws n).2.2,
              ws := (msPage (attrsOf6 cdb) nsid ws n).2.1, as := as', alloc_len := BitVec.ofNat 32 (byte cdb 4) }
        ⟨k, if modeFieldsOk cdb then some (pre ++ pagePart cdb nsid.toNat (held n).len) else none, byte cdb 4⟩ := by
    intro ws n as' pre hn' hpre hlen hl k
    refine ⟨ofNat32_byte cdb 4, ?_⟩
    by_cases hf : modeFieldsOk cdb
    · have hok := (msPage_ok cdb nsid ws n).mpr hf.2
      simp only [if_pos hf]
      exact ⟨hok, by rw [msPage_handed cdb nsid ws n hn' _ hlen hok, hpre]⟩
    · simp only [if_neg hf]
      exact fun hok => hf ⟨hl, (msPage_ok cdb nsid ws n).mp hok⟩
  unfold modePlan
  rcases Nat.lt_or_ge cdb.length 6 with hl | hl
  · refine ⟨_, _, [], ms6_short E cdb nsid p w hl, by simpa using hb, ?_, ?_⟩ <;> rw [if_pos hl]
    · simp
    · exact ⟨by show p.alloc_len.toNat = 0; rw [hal]; rfl, by simp⟩
  have hl' : ¬ cdb.length < 6 := by omega
  by_cases hd : Spec.bit cdb 1 3 = true
  · refine ⟨_, _, [], ms6_dbd E cdb nsid p w hl (by omega) hd, by simpa using hb, ?_, ?_⟩ <;>
      rw [if_neg hl', if_pos hd]
    · simp
    · rw [hlb]
      exact page p.ws p.count _ before (by omega) hbe (hh _ (by omega) (Nat.le_refl _)).symm hl _
  have hd' : Spec.bit cdb 1 3 = false := by simpa using hd
  by_cases ha : p.as.e0.data_addr = 0
  · have hb' : ¬ (p.as.e0.data_addr == 0) = false := by simp [ha]
    have hb2 := hb.trans (.set E w)
    by_cases h0 : setA E w = 0
    · refine ⟨_, _, _, ms6_fail E cdb nsid p w hl (by omega) hd' ha h0, hb2, ?_, ?_⟩ <;>
        rw [if_neg hl', if_neg hd, if_neg hb',
          if_pos (by show (bs ++ [(setA E w).toNat]).getD bs.length 0 = 0; rw [getD_append_length, h0]; rfl)]
      · simp
      · exact ⟨ofNat32_byte cdb 4, by simp⟩
    · refine ⟨_, _, _, ms6_ok E cdb nsid p w hl (by omega) hd' ha h0, hb2, ?_, ?_⟩ <;>
        rw [if_neg hl', if_neg hd, if_neg hb',
          if_neg (by show ¬ (bs ++ [(setA E w).toNat]).getD bs.length 0 = 0; rw [getD_append_length]; exact setA_toNat_ne h0)]
      · simp
      · rw [hlb]
        refine page _ (p.count + 1) _ _ (by omega) ?_ ?_ hl _
        · show _ = before ++ [identifyCommand nsid.toNat 0 ((bs ++ [(setA E w).toNat]).getD bs.length 0)]
          rw [getD_append_length, ← hbe]
          have key : ∀ wr : NvmeCmdWrapper, (p.ws.put p.count wr).toList.take (p.count + 1) = p.ws.toList.take p.count ++ [wr] := by
            intro wr
            match p.count, hn with
            | 0, _ => rfl
            | 1, _ => rfl
          rw [key, List.map_append]
          simp only [List.map_cons, List.map_nil, handed_identify]
          rfl
        · rw [hh (p.count + 1) (by omega) (by omega)]
          match p.count, hn with
          | 0, _ => rfl
          | 1, _ => rfl
  · have hb' : (p.as.e0.data_addr == 0) = false := by simpa using ha
    refine ⟨_, _, [], ms6_used E cdb nsid p w hl (by omega) hd' ha, by simpa using hb, ?_, ?_⟩ <;>
      rw [if_neg hl', if_neg hd, if_pos hb']
    · simp
    · exact ⟨ofNat32_byte cdb 4, by simp⟩

theorem plan_unmap (E : Env) (cdb : List Byte) (buf : Span) (data : List Byte) (nsid : U32) (t : Translation) (w : World)
    (hg : GoodAllocator E) (hc : Clean (startPipe t).as)
    (hd : w.mem.read buf.ptr buf.len = some data) :
    ∃ p' w' as, beginUnmap E cdb.tail buf nsid (startPipe t) w = .ok (p', w') ∧ PagesAsked E w w' as ∧
      (unmapPlan cdb nsid.toNat data (slots t) (as.getD · 0)).asked = as.length ∧
      Meets p' (unmapPlan cdb nsid.toNat data (slots t) (as.getD · 0)) := by
  unfold beginUnmap
  simp only [M.bind_run, kPageSize]
  have hslots : ∀ (wr : NvmeCmdWrapper) i, i < 3 → 1 ≤ i →
      (slots t i).len = ((({ t.nvme_wrappers with e0 := wr } : Arr3 NvmeCmdWrapper).get? i).getD wr).buffer_len.toNat := by
    intro wr i h1 h2
    match i with
    | 1 => rfl
    | 2 => rfl
  rcases Unmap_run E cdb data buf (startPipe t).ws.e0 nsid (startPipe t).as.e0 (clean_e0 hc) w hd
    with ⟨hn, st, hst, hr⟩ | ⟨rs, hrs, h0, hr⟩ | ⟨rs, hrs, hl1, hl2, h0, ds, hdl, hra, hr⟩
  · rw [hr]
    simp only
    obtain ⟨p', w', as, h1, h2, h3, h4⟩ := plan_mode6 E cdb nsid
      { startPipe t with status := st, count := 1 } w w [] (.nil E w) (by simp) rfl (slots t)
      (hslots t.nvme_wrappers.e0) [slots t 0] rfl
    have hz : ((startPipe t).as.e0.data_addr == 0) = true := by rw [clean_e0 hc]; rfl
    refine ⟨p', w', as, h1, h2, ?_, ?_⟩
    · rw [hz] at h3
      unfold unmapPlan
      rw [hn]
      exact h3
    · rw [hz] at h4
      unfold unmapPlan
      rw [hn]
      exact h4
  · rw [hr]
    simp only
    obtain ⟨p', w', as, h1, h2, h3, h4⟩ := plan_mode6 E cdb nsid
      { startPipe t with status := .kFailure, count := 1, as := { (startPipe t).as with e0 := setAl E w } } w _ _ (.set E w)
      (by simp) rfl (slots t) (hslots t.nvme_wrappers.e0) [slots t 0] rfl
    have hz : ((setAl E w).data_addr == 0) = true := by show (setA E w == 0) = true; rw [h0]; rfl
    have h00 : ([(setA E w).toNat] ++ as).getD 0 0 = 0 := by rw [h0]; rfl
    refine ⟨p', w', _, h1, h2, ?_, ?_⟩
    · simp only [hz] at h3
      unfold unmapPlan
      rw [hrs]
      simp only [h00, if_true]
      exact h3
    · simp only [hz] at h4
      unfold unmapPlan
      rw [hrs]
      simp only [h00, if_true]
      exact h4
  · have hm := set_mapped hg w h0 (16 * rs.length) (by omega)
    rw [hr hm]
    simp only
    obtain ⟨p', w', as, h1, h2, h3, h4⟩ := plan_mode6 E cdb nsid
      { startPipe t with
        status := .kSuccess, count := 1
        ws := { (startPipe t).ws with e0 := { cmd := dsmCmd nsid rs.length (setA E w), buffer_len := 4096, is_admin := true } }
        as := { (startPipe t).as with e0 := setAl E w } } w
      { setW E w with mem := putRanges (setA E w).toNat ds (setW E w).mem } _ ((PagesAsked.set E w).congr rfl)
      (by simp) rfl (slots t) (hslots _) [⟨deallocateSqe nsid.toNat rs.length (setA E w).toNat, true, 4096⟩]
      (by
        show [handed _] = _
        unfold handed
        rw [dsmCmd_toBytes _ _ hl2]
        rfl)
    have hz : ((setAl E w).data_addr == 0) = false := by show (setA E w == 0) = false; simpa using h0
    have h00 : ([(setA E w).toNat] ++ as).getD 0 0 = (setA E w).toNat := rfl
    have hne := setA_toNat_ne h0
    refine ⟨p', w', _, h1, h2, ?_, ?_⟩
    · simp only [hz] at h3
      unfold unmapPlan
      rw [hrs]
      simp only [h00, if_neg hne]
      exact h3
    · simp only [hz] at h4
      unfold unmapPlan
      rw [hrs]
      simp only [h00, if_neg hne]
      exact h4

/-! ## All commands -/

theorem plan_read (E : Env) (cdb : List Byte) (buf : Span) (lun : U64) (t : Translation) (hop : isRead (byte cdb 0)) :
    ∃ p', beginSwitch E (cdb.headD 0) cdb.tail buf (nsidOf lun) (startPipe t) = pure p' ∧
      Meets p' (readPlan cdb buf (nsidOfLun lun)) ∧ (readPlan cdb buf (nsidOfLun lun)).asked = 0 := by
  have key : ∃ x, ReadOutcome cdb (nsidOf lun) buf x ∧ x.2.2.toNat = readAl cdb 0 ∧
      beginSwitch E (cdb.headD 0) cdb.tail buf (nsidOf lun) (startPipe t) = pure (beginRead x (startPipe t)) := by
    rcases hop with h | h | h | h
    · exact ⟨_, Read6_spec cdb h _ _ buf _, Read6_al cdb h _ _ _ _, by rw [opc_of_byte h (by decide)]; rfl⟩
    · exact ⟨_, Read10_spec cdb h _ _ buf _, Read10_al cdb h _ _ _ _, by rw [opc_of_byte h (by decide)]; rfl⟩
    · exact ⟨_, Read12_spec cdb h _ _ buf _, Read12_al cdb h _ _ _ _, by rw [opc_of_byte h (by decide)]; rfl⟩
    · exact ⟨_, Read16_spec cdb h _ _ buf _, Read16_al cdb h _ _ _ _, by rw [opc_of_byte h (by decide)]; rfl⟩
  obtain ⟨x, hx, hal, hsw⟩ := key
  refine ⟨_, hsw, ?_⟩
  unfold readPlan
  unfold ReadOutcome at hx
  unfold readAl at hal
  cases hd : decodeRw cdb with
  | none =>
    rw [hd] at hx hal
    exact ⟨⟨hal, hx⟩, rfl⟩
  | some rw_ =>
    rw [hd] at hx hal
    simp only at hx hal ⊢
    by_cases hb : rw_.blocks = 0 ∨ 65535 < rw_.blocks
    · rw [if_pos hb] at hal
      rw [if_pos hb]
      refine ⟨⟨hal, ?_⟩, rfl⟩
      cases hp : rdProtect rw_.protect with
      | none => rw [hp] at hx; exact hx
      | some y =>
        rw [hp] at hx
        simp only at hx
        rw [if_neg (by omega)] at hx
        exact hx
    · rw [if_neg hb] at hal
      rw [if_neg hb]
      cases hp : rdProtect rw_.protect with
      | none => rw [hp] at hx; exact ⟨⟨hal, hx⟩, rfl⟩
      | some y =>
        obtain ⟨pract, prchk⟩ := y
        rw [hp] at hx
        simp only at hx ⊢
        by_cases hbuf : buf.len < rw_.blocks * 4096
        · rw [if_neg (by omega)] at hx
          rw [if_pos hbuf]
          exact ⟨⟨hal, hx⟩, rfl⟩
        · rw [if_pos (by omega)] at hx
          rw [if_neg hbuf]
          obtain ⟨h1, h2, -, -, -, h3, h4, -⟩ := hx
          refine ⟨⟨hal, h1, ?_⟩, rfl⟩
          show [handed x.2.1] = _
          unfold handed
          rw [h2, h3, h4, nsidOf_toNat, prp_toNat]

theorem plan_write (E : Env) (cdb : List Byte) (buf : Span) (lun : U64) (t : Translation) (hop : isWrite (byte cdb 0)) :
    ∃ p', beginSwitch E (cdb.headD 0) cdb.tail buf (nsidOf lun) (startPipe t) = pure p' ∧
      Meets p' (writePlan cdb buf (nsidOfLun lun)) ∧ (writePlan cdb buf (nsidOfLun lun)).asked = 0 := by
  obtain ⟨x, hx, hsw⟩ := switch_write E cdb buf (nsidOf lun) (startPipe t) hop
  refine ⟨_, hsw, ?_⟩
  unfold writePlan
  unfold WriteOutcome at hx
  cases hd : decodeRw cdb with
  | none => rw [hd] at hx; exact ⟨⟨rfl, hx⟩, rfl⟩
  | some rw_ =>
    rw [hd] at hx
    simp only at hx ⊢
    cases hp : wrProtect rw_.protect with
    | none => rw [hp] at hx; exact ⟨⟨rfl, hx⟩, rfl⟩
    | some y =>
      obtain ⟨pract, prchk⟩ := y
      rw [hp] at hx
      simp only at hx ⊢
      by_cases hb : rw_.blocks = 0
      · rw [if_neg (by omega)] at hx
        rw [if_pos hb]
        exact ⟨⟨rfl, hx⟩, rfl⟩
      · rw [if_pos (by omega)] at hx
        rw [if_neg hb]
        obtain ⟨h1, lo, hi, c12, h2, h3, h4, h5, h6⟩ := hx
        refine ⟨⟨rfl, h1, ?_⟩, rfl⟩
        show [handed x.2] = _
        rw [h2]
        unfold handed
        simp only [BitVec.toNat_ofNat]
        congr 2
        by_cases hz : rw_.blocks % 65536 = 0
        · rw [if_pos hz, h6 hz]
          unfold writeCmd
          rw [toBytes_sqe, h3, h4, nsidOf_toNat, prp_toNat]
          rfl
        · rw [if_neg hz]
          unfold writeCmd writeSqe
          rw [toBytes_sqe, h3, h4, nsidOf_toNat, prp_toNat, h5 (by omega)]
          rfl

/-- **C78.** `Begin` is exactly the function `plan`, for every command block: which pages are asked for, whether the
command is accepted, which NVMe commands are handed out (all 64 bytes, the queue and the buffer length of each), and the
announced allocation length. -/
theorem C78_begin (E t w ptr cdb buf lun r t' w' data) (h : Began E t w ptr cdb buf lun r t' w')
    (hu : byte cdb 0 = 0x42 → GoodAllocator E ∧ w.mem.read buf.ptr buf.len = some data) :
    ∃ evs, w'.trace = evs ++ w.trace ∧
      let pl := plan cdb buf data lun (slots t) fun i => (pageAnswers evs).getD i 0
      (pageAnswers evs).length = (if E.allocCb = none then 0 else pl.asked) ∧
      r.status = .kSuccess ∧ r.alloc_len.toNat = pl.announced ∧
      match pl.result with
      | none => ¬ Accepted t' ∧ t'.GetNvmeWrappers = []
      | some cs => Accepted t' ∧ t'.GetNvmeWrappers.map handed = cs := by
  by_cases hne : cdb = []
  · subst hne
    rcases Begin_inv E t h.idle.idle w _ buf lun r t' w' h.call with hb | ⟨hb, -⟩
    · obtain ⟨-, rfl, rfl, rfl⟩ := hb
      refine ⟨[], rfl, ?_⟩
      unfold plan
      simp only [if_true]
      refine ⟨by split <;> rfl, trivial, rfl, by simp [Accepted], ?_⟩
      unfold Translation.GetNvmeWrappers
      have : t.nvme_cmd_count = 0 := h.count0
      simp only [this, List.take_zero]
    · exact absurd rfl hb
  -- it is enough to follow the `switch`
  suffices key : ∃ p w1 as, beginSwitch E (cdb.headD 0) cdb.tail buf (nsidOf lun) (startPipe t) w = .ok (p, w1) ∧
      PagesAsked E w w1 as ∧ (plan cdb buf data lun (slots t) (as.getD · 0)).asked = as.length ∧
      Meets p (plan cdb buf data lun (slots t) (as.getD · 0)) by
    obtain ⟨p, w1, as, hs, ⟨evs, ht, hev⟩, hask, hmeets⟩ := key
    have e := h.ends hne hs
    obtain ⟨evs', h1, h2⟩ := finish_answers E p w w1 evs ht
    have hfun : (fun i => (pageAnswers evs').getD i 0) = (as.getD · 0) := by
      funext i
      rw [h2]
      rcases hev with ⟨-, g, g'⟩ | ⟨-, g⟩
      · rw [g]
        simp only [List.getD_eq_getElem?_getD]
        cases hi : as[i]? with
        | none => rfl
        | some x => rw [g' x (List.mem_of_getElem? hi)]; rfl
      · rw [g]
    refine ⟨evs', by rw [e.worldE]; exact h1, ?_⟩
    simp only [hfun]
    refine ⟨?_, by rw [e.resp], by rw [e.resp]; exact hmeets.1, ?_⟩
    · rw [h2, hask]
      rcases hev with ⟨g0, g, -⟩ | ⟨g0, g⟩
      · rw [if_pos g0, g]; rfl
      · rw [if_neg g0, g]
    · have := hmeets.2
      split
      · rename_i hr
        rw [hr] at this
        exact ⟨fun hh => this (e.acc.mp hh), e.none this⟩
      · rename_i cs hr
        rw [hr] at this
        exact ⟨e.acc.mpr this.1, by rw [e.cmds this.1]; exact this.2⟩
  have hnil := PagesAsked.nil E w
  have hz : ((startPipe t).as.e0.data_addr == 0) = true := by rw [clean_e0 h.clean]; rfl
  rcases opcode_cases (byte cdb 0) with ho | ho | ho | ho | ho | ho | ho | ho | ho | ho | ho | ho | ho | ho
  · refine ⟨_, _, [], by rw [switch_unknown E cdb buf _ _ ho]; rfl, hnil, ?_⟩
    have hp : plan cdb buf data lun (slots t) (([] : List Nat).getD · 0) = ⟨0, none, 0⟩ := by
      unfold plan
      have hr : ¬ isRead (byte cdb 0) := fun hh => ho (by rcases hh with hh | hh | hh | hh <;> rw [hh] <;> decide)
      have hw : ¬ isWrite (byte cdb 0) := fun hh => ho (by rcases hh with hh | hh | hh | hh <;> rw [hh] <;> decide)
      simp only [if_neg hne, if_neg hr, if_neg hw]
      split <;> first | rfl | (rename_i hk; exact absurd (by rw [hk]; decide) ho)
    rw [hp]
    exact ⟨rfl, rfl, by simp⟩
  · obtain ⟨p', hsw, hm, ha⟩ := plan_read E cdb buf lun t ho
    refine ⟨p', w, [], by rw [hsw]; rfl, hnil, ?_⟩
    unfold plan
    simp only [if_neg hne, if_pos ho]
    exact ⟨ha, hm⟩
  · obtain ⟨p', hsw, hm, ha⟩ := plan_write E cdb buf lun t ho
    refine ⟨p', w, [], by rw [hsw]; rfl, hnil, ?_⟩
    have hr : ¬ isRead (byte cdb 0) := by unfold isRead; unfold isWrite at ho; omega
    unfold plan
    simp only [if_neg hne, if_neg hr, if_pos ho]
    exact ⟨ha, hm⟩
  all_goals have hr : ¬ isRead (byte cdb 0) := by unfold isRead; omega
  all_goals have hw : ¬ isWrite (byte cdb 0) := by unfold isWrite; omega
  all_goals unfold plan
  all_goals simp only [if_neg hne, if_neg hr, if_neg hw]
  · refine ⟨_, _, [], by rw [switch_tur E cdb buf _ _ ho]; rfl, hnil, ?_⟩
    rw [ho]
    refine ⟨rfl, rfl, rfl, ?_⟩
    show (List.take (startPipe t).count _).map handed = []
    rw [h.count0]
    rfl
  · refine ⟨_, _, [], by rw [switch_requestsense E cdb buf _ _ ho]; rfl, hnil, ?_⟩
    rw [rs_closed, ho]
    simp only
    split
    · exact ⟨rfl, rfl, by simp⟩
    · refine ⟨rfl, ofNat32_byte cdb 4, rfl, ?_⟩
      show (List.take (startPipe t).count _).map handed = []
      rw [h.count0]
      rfl
  · obtain ⟨p', w', as, h1, h2, h3, h4⟩ := plan_inquiry E cdb (nsidOf lun) (startPipe t) w h.clean rfl
    refine ⟨p', w', as, by rw [switch_inquiry E cdb buf _ _ ho]; exact h1, h2, ?_⟩
    rw [ho, ← nsidOf_toNat]
    exact ⟨h3, h4⟩
  · obtain ⟨p', w', as, h1, h2, h3, h4⟩ := plan_mode6 E cdb (nsidOf lun) (startPipe t) w w [] hnil
      (by rw [h.count0]; omega) rfl (slots t)
      (by
        intro i hi _
        unfold slots handed
        rfl) [] (by rw [h.count0]; rfl)
    refine ⟨p', w', as, by rw [switch_modesense6 E cdb buf _ _ ho]; exact h1, h2, ?_⟩
    rw [ho, ← nsidOf_toNat]
    rw [hz] at h3 h4
    exact ⟨h3, h4⟩
  · obtain ⟨p', w', as, h1, h2, h3, h4⟩ := plan_capacity E cdb (nsidOf lun) (startPipe t) w (clean_e0 h.clean) rfl
    refine ⟨p', w', as, by rw [switch_readcapacity E cdb buf _ _ ho]; exact h1, h2, ?_⟩
    rw [ho, ← nsidOf_toNat]
    exact ⟨h3, h4⟩
  · refine ⟨_, _, [], by rw [switch_verify E cdb buf _ _ ho]; rfl, hnil, ?_⟩
    rw [ho]
    simp only
    unfold verifyPlan
    have hv := Verify_closed cdb (startPipe t).ws.e0
    split at hv
    · rename_i hc
      obtain ⟨st, hst, hv⟩ := hv
      rw [hv, if_pos hc]
      exact ⟨rfl, rfl, hst⟩
    · rename_i hc
      obtain ⟨wr', hv, g1, -, -, g2, g3⟩ := hv
      rw [hv, if_neg hc]
      refine ⟨rfl, rfl, rfl, ?_⟩
      show [handed wr'] = _
      unfold handed
      rw [g1, g2, g3]
      rfl
  · refine ⟨_, _, [], by rw [switch_sync E cdb buf _ _ ho]; rfl, hnil, ?_⟩
    rw [ho]
    refine ⟨rfl, rfl, rfl, ?_⟩
    show [handed _] = _
    unfold handed
    rw [← nsidOf_toNat]
    congr 2
    exact toBytes_sqe 0 (nsidOf lun) 0 0 0 0
  · obtain ⟨hg, hd⟩ := hu ho
    obtain ⟨p', w', as, h1, h2, h3, h4⟩ := plan_unmap E cdb buf data (nsidOf lun) t w hg h.clean hd
    refine ⟨p', w', as, by rw [switch_unmap E cdb buf _ _ ho]; exact h1, h2, ?_⟩
    rw [ho, ← nsidOf_toNat]
    exact ⟨h3, h4⟩
  · obtain ⟨p', w', as, h1, h2, h3, h4⟩ := plan_mode10 E cdb (nsidOf lun) (startPipe t) w h.count0 (clean_e0 h.clean) rfl
    refine ⟨p', w', as, by rw [switch_modesense10 E cdb buf _ _ ho]; exact h1, h2, ?_⟩
    rw [ho]
    exact ⟨h3, h4⟩
  · obtain ⟨p', w', as, h1, h2, h3, h4⟩ := plan_luns E cdb (startPipe t) w w [] hnil
    refine ⟨p', w', as, by rw [switch_reportluns E cdb buf _ _ ho]; exact h1, h2, ?_⟩
    rw [ho]
    rw [hz] at h3 h4
    exact ⟨h3, h4⟩
  · obtain ⟨p', w', as, h1, h2, h3, h4⟩ := plan_maintenance E cdb (startPipe t) w w [] hnil
    refine ⟨p', w', as, by rw [switch_maintenance E cdb buf _ _ ho]; exact h1, h2, ?_⟩
    rw [ho]
    rw [hz] at h3 h4
    exact ⟨h3, h4⟩

/-! ## Examples -/

/-- MODE SENSE(6) of the caching page with block descriptor: two commands, the second with a buffer length left over. -/
def modeSense6Caching : List Byte := [0x1a, 0, 0x48, 0, 36, 0]

/-- A concrete run and its plan: with one page granted at 0x100000. -/
example : ∃ r t' w', Began Demo.env (Translation.init Demo.ws) ⟨Demo.mem modeSense6Caching, []⟩ 0x100 modeSense6Caching
    Demo.data 3 r t' w' ∧ Accepted t' ∧
      (plan modeSense6Caching Demo.data [] 3 (slots (Translation.init Demo.ws)) fun _ => 0x100000)
        = ⟨1, some (t'.GetNvmeWrappers.map handed), 36⟩ ∧
      t'.GetNvmeWrappers.map (fun wr => wr.cmd.toBytes) = [identifySqe 4 0 0x100000, getFeaturesSqe 4 6 2] :=
  began_of _ _ _ _ _ _ _ (fun _ t' => Accepted t' ∧ _ = _ ∧ _ = _) (by decide +kernel) (by decide +kernel)

/-- A READ(10) of 3 blocks into a buffer of two is rejected and announces three blocks. -/
example : plan [0x28, 0, 0, 0, 0, 9, 0, 0, 3, 0] ⟨0x8000, 8192⟩ [] 0 (fun _ => ⟨[], false, 0⟩) (fun _ => 0)
    = ⟨0, none, 12288⟩ := by decide +kernel

/-- The hypotheses of C78 for UNMAP. -/
example : ∃ r t' w', Began boundedEnv (Translation.init Demo.ws) ⟨Demo.mem unmapOdd2 unmapData, []⟩ 0x100 unmapOdd2
    ⟨0x8000, 40⟩ 3 r t' w' ∧ Accepted t' ∧ GoodAllocator boundedEnv ∧
      (⟨Demo.mem unmapOdd2 unmapData, []⟩ : World).mem.read 0x8000 40 = some unmapData := by
  obtain ⟨r, t', w', h, ha⟩ := began_of boundedEnv Demo.ws ⟨Demo.mem unmapOdd2 unmapData, []⟩ 0x100 unmapOdd2
    ⟨0x8000, 40⟩ 3 (fun _ t' => Accepted t') (by decide +kernel) (by decide +kernel)
  exact ⟨r, t', w', h, ha, boundedEnv_good, by decide +kernel⟩

end Scsi2Nvme
