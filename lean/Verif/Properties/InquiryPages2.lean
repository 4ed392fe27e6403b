import Verif.Properties.InquiryPages
/-!
# INQUIRY data, continued (C37-C43)
-/

namespace Scsi2Nvme
open Spec

/-! ## C37 -/

/-- `x` and `y` are the same INQUIRY as far as the device, the LUN and the buffer size are concerned. -/
structure SameInquiry (x y : Ran) (page : Nat) (ns ctrl : List Byte) : Prop where
  left : Inquired x true page ns ctrl
  right : Inquired y true page ns ctrl
  lun : x.lun = y.lun
  len : x.din.len = y.din.len
  leftGood : GoodAllocator x.E
  rightGood : GoodAllocator y.E

/-- **C37**, full statement (false, see `C37_refuted`): the bytes written for page 80h are the same whatever the
stack contains. -/
def C37_statement : Prop := ∀ (x y : Ran) (ns ctrl : List Byte), SameInquiry x y 0x80 ns ctrl →
  ∃ bs, x.wrote x.din.ptr bs ∧ y.wrote y.din.ptr bs

/-- Every number the serial number is made of has at least 15 significant hexadecimal digits. -/
def almostFull (ns : List Byte) : Prop :=
  if nguid ns ≠ zeros 16 then 16 ^ 14 ≤ leAt ns 104 8 ∧ 16 ^ 14 ≤ leAt ns 112 8
  else if eui64 ns ≠ zeros 8 then 16 ^ 14 ≤ leAt ns 120 8 else True

instance (ns : List Byte) : Decidable (almostFull ns) := by unfold almostFull; infer_instance

/-- The digits beyond the ones needed do not matter. -/
theorem insertNumbers_congr (n k : Nat) (ps h h' : List Byte) (hk : ((ps.take n).filter (· ≠ 0x5f)).length ≤ k)
    (he : h.take k = h'.take k) : Inquiry.insertNumbers n ps h = Inquiry.insertNumbers n ps h' := by
  induction n generalizing k ps h h' with
  | zero => rfl
  | succ n ih =>
    cases ps with
    | nil => rfl
    | cons p ps =>
      unfold Inquiry.insertNumbers
      by_cases hp : p ≠ 0x5f
      · rw [if_pos hp, if_pos hp]
        rw [List.take_succ_cons, List.filter_cons_of_pos (by simpa using hp), List.length_cons] at hk
        obtain ⟨k, rfl⟩ : ∃ k', k = k' + 1 := ⟨k - 1, by omega⟩
        have h1 : h.headD 0 = h'.headD 0 := by
          cases h <;> cases h' <;> simp_all
        have h2 : h.tail.take k = h'.tail.take k := by
          cases h <;> cases h' <;> simp_all
        rw [h1, ih k ps _ _ (by omega) h2]
      · rw [if_neg hp, if_neg hp]
        rw [List.take_succ_cons, List.filter_cons_of_neg (by simpa using hp)] at hk
        rw [ih k ps _ _ hk he]

theorem sprintf_almost (n : Nat) (h : 16 ^ 14 ≤ n) : 16 ≤ (Inquiry.sprintf08x n).length := by
  unfold Inquiry.sprintf08x Inquiry.hexLen
  rw [hexN_eq, List.length_append, hex_length]
  have : 15 ≤ Inquiry.hexLen.hexLenAux 15 n := by
    have : ∀ k n, 16 ^ k ≤ n → k + 1 ≤ Inquiry.hexLen.hexLenAux (k + 1) n := by
      intro k
      induction k with
      | zero =>
        intro n _
        unfold Inquiry.hexLen.hexLenAux
        split <;> omega
      | succ k ih =>
        intro n hn
        have h16 : 16 ≤ n := Nat.le_trans (by rw [Nat.pow_succ]; have := Nat.pow_pos (n := k) (show 0 < 16 by omega); omega) hn
        have := ih (n / 16) (by rw [Nat.le_div_iff_mul_le (by omega)]; rw [Nat.pow_succ] at hn; exact hn)
        rw [Inquiry.hexLen.hexLenAux]
        rw [if_neg (by omega)]
        omega
    exact this 14 n h
  simp only [List.length_cons, List.length_nil]
  omega

theorem sprintf_le (n : Nat) : (Inquiry.sprintf08x n).length ≤ 17 := by
  unfold Inquiry.sprintf08x Inquiry.hexLen
  rw [hexN_eq, List.length_append, hex_length]
  have := hexLenAux_le 15 n
  simp only [List.length_cons, List.length_nil]
  omega

theorem overwrite_take (a b s : List Byte) (hs : 16 ≤ s.length) :
    (Inquiry.overwrite a 0 s).take 16 = (Inquiry.overwrite b 0 s).take 16 := by
  unfold Inquiry.overwrite
  rw [List.take_zero, List.take_zero, List.nil_append, List.take_append_of_le_length hs, List.take_append_of_le_length hs]

theorem overwrite_take32 (a b s : List Byte) (hs : 16 ≤ s.length) (h : a.take 16 = b.take 16)
    (ha : 16 ≤ a.length) (hb : 16 ≤ b.length) :
    (Inquiry.overwrite a 16 s).take 32 = (Inquiry.overwrite b 16 s).take 32 := by
  unfold Inquiry.overwrite
  have l1 : (a.take 16 ++ s).length ≥ 32 := by rw [List.length_append, List.length_take]; omega
  have l2 : (b.take 16 ++ s).length ≥ 32 := by rw [List.length_append, List.length_take]; omega
  rw [List.take_append_of_le_length l1, List.take_append_of_le_length l2, h]

/-- The serial number page does not depend on the stack if every number has at least 15 digits. -/
theorem productSerial_det (j j' : Nat → Byte) (ctrl ns : List Byte) (nsid : U32) (hl : ns.length = 4096)
    (hf : almostFull ns) : Inquiry.productSerial j ctrl ns nsid = Inquiry.productSerial j' ctrl ns nsid := by
  have e0 : (getF ns Nvme.IdentifyNamespace.nguid_0).toNat = leAt ns 104 8 := getF_leAt ns 104 8
  have e1 : (getF ns Nvme.IdentifyNamespace.nguid_1).toNat = leAt ns 112 8 := getF_leAt ns 112 8
  have e2 : (htolll (getF ns Nvme.IdentifyNamespace.eui64)).toNat = leAt ns 120 8 := by
    rw [htolll_id]; exact getF_leAt ns 120 8
  have hj : ∀ j : Nat → Byte, ((List.range 33).map j).length = 33 := by intro j; simp
  have hov : ∀ (j : Nat → Byte) s, s.length ≤ 17 → 16 ≤ (Inquiry.overwrite ((List.range 33).map j) 0 s).length := by
    intro j s hs
    unfold Inquiry.overwrite
    rw [List.length_append, List.length_append, List.length_drop, hj, List.take_zero, List.length_nil]
    omega
  unfold almostFull at hf
  unfold Inquiry.productSerial
  by_cases c1 : Inquiry.nguidNz ns = true
  · rw [if_pos ((nguid_nz ns hl).mp c1)] at hf
    simp only [if_pos c1, e0, e1]
    rw [insertNumbers_congr 39 32 (Inquiry.underscores 40) _ _ (by decide +kernel)
      (overwrite_take32 _ _ _ (sprintf_almost _ hf.2) (overwrite_take _ _ _ (sprintf_almost _ hf.1))
        (hov j _ (sprintf_le _)) (hov j' _ (sprintf_le _)))]
  · by_cases c2 : Inquiry.eui64Nz ns = true
    · rw [if_neg (fun h => c1 ((nguid_nz ns hl).mpr h)), if_pos ((eui64_nz ns hl).mp c2)] at hf
      simp only [if_neg c1, if_pos c2, e2]
      rw [insertNumbers_congr 19 16 (Inquiry.underscores 20) _ _ (by decide +kernel)
        (overwrite_take _ ((List.range 33).map j') _ (sprintf_almost _ hf))]
    · simp only [if_neg c1, if_neg c2]

/-- **C37**, the part that holds: page 80h does not depend on the contents of the stack if every number it is made
of has at least 15 significant hexadecimal digits (or there is no identifier).  What is missing: numbers below
16^14, for which bytes of the stack are returned to the initiator. -/
theorem C37_serial_determined_partial (x y : Ran) (ns ctrl : List Byte) (h : SameInquiry x y 0x80 ns ctrl)
    (hf : almostFull ns) : ∃ bs, x.wrote x.din.ptr bs ∧ y.wrote y.din.ptr bs := by
  have h1 := (serial_outcome h.leftGood h.left).2
  have h2 := (serial_outcome h.rightGood h.right).2
  simp only at h1 h2
  rw [productSerial_det (y.E.junk y.w2) (x.E.junk x.w2) ctrl ns _ (x.page_length h.left.ns) hf, ← h.lun, ← h.len] at h2
  have nothing : ∀ (z : Ran) p, z.wroteNothing → z.wrote p [] := by
    rintro z p ⟨evs, a, b⟩
    exact ⟨evs, a, fun q hq => by rw [b q hq, put_nil, put_nil]⟩
  by_cases c1 : 44 ≤ x.din.len
  · rw [if_pos c1] at h1 h2
    exact ⟨_, h1, h2⟩
  · rw [if_neg c1] at h1 h2
    by_cases c2 : 4 ≤ x.din.len
    · rw [if_pos c2] at h1 h2
      exact ⟨_, h1, h2⟩
    · rw [if_neg c2] at h1 h2
      exact ⟨[], nothing _ _ h1, nothing _ _ h2⟩

/-- Met by two runs with different stacks and an EUI-64 of 15 digits. -/
example : ∃ x y ns ctrl, SameInquiry x y 0x80 ns ctrl ∧ x.E ≠ y.E ∧ almostFull ns ∧ ¬ fullDigits ns := by
  obtain ⟨x, e1, h1, h2, h3, h4, -⟩ := Demo.inq_demo (fun _ _ => 0) 1 0x80 (zeros 120 ++ List.replicate 7 0x33 ++ [0x03]) []
    (by decide +kernel) (by decide) 64 (by decide)
  obtain ⟨y, e2, g1, g2, g3, g4, -⟩ := Demo.inq_demo (fun _ _ => 1) 1 0x80 (zeros 120 ++ List.replicate 7 0x33 ++ [0x03]) []
    (by decide +kernel) (by decide) 64 (by decide)
  refine ⟨x, y, _, _, ⟨h2, g2, by rw [h4, g4], by rw [h3, g3], h1, g1⟩, ?_, by decide +kernel, by decide +kernel⟩
  rw [e1, e2]
  intro hh
  have := congrArg (fun E : Env => E.junk ⟨fun _ => none, []⟩ 0) hh
  exact absurd this (by decide)

/-- C37 does not hold: of the EUI-64 123h, seven bytes of the serial number are stack contents. -/
theorem C37_refuted : ¬ C37_statement := by
  intro hall
  obtain ⟨x, e1, h1, h2, h3, h4, h5, -⟩ := Demo.inq_demo (fun _ _ => 0) 1 0x80 shortEui [] (by decide) (by decide) 64 (by decide)
  obtain ⟨y, e2, g1, g2, g3, g4, g5, g6⟩ := Demo.inq_demo (fun _ _ => 1) 1 0x80 shortEui [] (by decide) (by decide) 64 (by decide)
  obtain ⟨bs, w1, w2⟩ := hall x y _ _ ⟨h2, g2, by rw [h4, g4], by rw [h3, g3], h1, g1⟩
  have o1 := (serial_outcome h1 h2).2
  have o2 := (serial_outcome g1 g2).2
  simp only [shortEui_serial] at o1 o2
  rw [if_pos (by rw [h3]; decide)] at o1
  rw [if_pos (by rw [g3]; decide)] at o2
  rw [h3] at o1 w1
  rw [g3] at o2 w2
  change x.wrote 0x8000 bs at w1
  change y.wrote 0x8000 bs at w2
  -- byte 15 of the page
  have a1 := demo_get h1 h5 o1 15 (by simp [vpdHead, le_eq, beBytes, ascii, zeros]) (by decide)
  have a2 := demo_get g1 g5 o2 15 (by simp [vpdHead, le_eq, beBytes, ascii, zeros]) (by decide)
  have b1 : x.w3.mem (0x8000 + 15) = some 0 := a1.trans (by rw [e1]; rfl)
  have b2 : y.w3.mem (0x8000 + 15) = some 1 := a2.trans (by rw [e2]; rfl)
  have hc : (Demo.inq 1 0x80).length ≤ 0x300 := by unfold Demo.inq; simp
  have c1 := x.wrote_at h1 w1 _ (Demo.demo_data hc h5 (0x8000 + 15) (by decide) (by decide))
  have c2 := y.wrote_at g1 w2 _ (Demo.demo_data hc g5 (0x8000 + 15) (by decide) (by decide))
  rw [b1] at c1
  rw [b2] at c2
  rcases Nat.lt_or_ge 15 bs.length with hl | hl
  · rw [put_inside hl] at c1 c2
    rw [← c1] at c2
    cases c2
  · rw [put_outside (by omega), g6] at c2
    change some 1 = Demo.mem2 (Demo.inq 1 128) shortEui [] (32768 + 15) at c2
    rw [Demo.mem2_data _ _ _ hc _ (by decide) (by decide)] at c2
    cases c2

end Scsi2Nvme
