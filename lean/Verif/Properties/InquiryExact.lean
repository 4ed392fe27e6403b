import Verif.Properties.InquiryPages3
import Verif.Spec.Actual
/-!
# C76, C77: INQUIRY vital product data, exactly
-/

namespace Scsi2Nvme
open Spec

theorem hexLenAux_digits (k n : Nat) (h : n < 16 ^ (k + 1)) : Inquiry.hexLen.hexLenAux k n = digits n := by
  induction k generalizing n with
  | zero =>
    unfold digits
    rw [if_pos (by omega)]
    rfl
  | succ k ih =>
    unfold Inquiry.hexLen.hexLenAux digits
    split
    · rfl
    · rw [ih]
      rw [Nat.pow_succ] at h
      exact Nat.div_lt_of_lt_mul (by rw [Nat.mul_comm]; exact h)

theorem sprintf_eq (n : Nat) (h : n < 2 ^ 64) : Inquiry.sprintf08x n = hex (max 8 (digits n)) n ++ [0] := by
  unfold Inquiry.sprintf08x Inquiry.hexLen
  rw [hexLenAux_digits 15 n (by simpa using h), hexN_eq]

theorem digits_le (n : Nat) (h : n < 2 ^ 64) : digits n ≤ 16 := by
  rw [← hexLenAux_digits 15 n (by simpa using h)]
  exact hexLenAux_le 15 n

/-- 16 characters of the buffer after one `sprintf`. -/
theorem overwrite_printed (a : List Byte) (n : Nat) (h : n < 2 ^ 64) :
    (Inquiry.overwrite a 0 (Inquiry.sprintf08x n)).take 16 = printed a n := by
  unfold Inquiry.overwrite printed
  rw [sprintf_eq n h, List.take_zero, List.nil_append, List.length_append, hex_length, Nat.zero_add]
  rfl

theorem printed_length (a : List Byte) (n : Nat) (h : n < 2 ^ 64) (ha : 16 ≤ a.length) : (printed a n).length = 16 := by
  have := digits_le n h
  unfold printed
  simp only [List.length_take, List.length_append, hex_length, List.length_drop, List.length_cons, List.length_nil]
  omega

/-- The loop inserting the digits, 40 characters. -/
theorem insertNumbers_40 (h p q : List Byte) (hp : h.take 16 = p) (hq : (h.drop 16).take 16 = q) (lp : p.length = 16)
    (lq : q.length = 16) :
    Inquiry.insertNumbers 39 (Inquiry.underscores 40) h = groups p ++ ascii "_" ++ groups q ++ ascii "." := by
  have hh : h = p ++ (q ++ h.drop 32) := by
    have : h.drop 32 = (h.drop 16).drop 16 := by rw [List.drop_drop]
    rw [← hp, ← hq, this, List.take_append_drop, List.take_append_drop]
  generalize h.drop 32 = r at hh
  subst hh
  clear hp hq
  obtain ⟨a0, a1, a2, a3, a4, a5, a6, a7, a8, a9, a10, a11, a12, a13, a14, a15, rfl⟩ := list16 lp
  obtain ⟨b0, b1, b2, b3, b4, b5, b6, b7, b8, b9, b10, b11, b12, b13, b14, b15, rfl⟩ := list16 lq
  have hu : Inquiry.underscores 40 = [0,0,0,0,0x5f,0,0,0,0,0x5f,0,0,0,0,0x5f,0,0,0,0,0x5f,0,0,0,0,0x5f,0,0,0,0,0x5f,
    0,0,0,0,0x5f,0,0,0,0,0x2e] := by decide +kernel
  rw [hu]
  rfl

/-- The loop inserting the digits, 20 characters. -/
theorem insertNumbers_20 (h p : List Byte) (hp : h.take 16 = p) (lp : p.length = 16) :
    Inquiry.insertNumbers 19 (Inquiry.underscores 20) h = groups p ++ ascii "." ++ zeros 20 := by
  have hh : h = p ++ h.drop 16 := by rw [← hp, List.take_append_drop]
  generalize h.drop 16 = r at hh
  subst hh
  clear hp
  obtain ⟨a0, a1, a2, a3, a4, a5, a6, a7, a8, a9, a10, a11, a12, a13, a14, a15, rfl⟩ := list16 lp
  have hu : Inquiry.underscores 20 = [0,0,0,0,0x5f,0,0,0,0,0x5f,0,0,0,0,0x5f,0,0,0,0,0x2e,0,0,0,0,0,0,0,0,0,0,
    0,0,0,0,0,0,0,0,0,0] := by decide +kernel
  rw [hu]
  rfl

theorem groups_length (p : List Byte) (h : p.length = 16) : (groups p).length = 19 := by
  unfold groups slice
  simp only [List.length_append, List.length_take, List.length_drop, h, show (ascii "_").length = 1 from rfl]
  rfl

/-- The contents of the buffer on the stack. -/
def stackBytes (j : Nat → Byte) : List Byte := (List.range 33).map j

theorem stackBytes_length (j : Nat → Byte) : (stackBytes j).length = 33 := by simp [stackBytes]

theorem actualSerial_length (j : Nat → Byte) (ns ctrl : List Byte) (n : Nat) (hc : ctrl.length = 4096) :
    (actualSerial (stackBytes j) ns ctrl n).length = if nguid ns ≠ zeros 16 then 40 else if eui64 ns ≠ zeros 8 then 20 else 30 := by
  have hp : ∀ (k p : Nat), k ≤ 16 → ((groups (printed ((stackBytes j).drop k) (leAt ns p 8))).length = 19) := by
    intro k p hk
    refine groups_length _ (printed_length _ _ (leAt_lt ns p 8) ?_)
    rw [List.length_drop, stackBytes_length]
    omega
  unfold actualSerial
  split
  · have h1 := hp 0 104 (by omega)
    rw [List.drop_zero] at h1
    simp only [List.length_append, h1, hp 16 112 (by omega), show (ascii "_").length = 1 from rfl, show (ascii ".").length = 1 from rfl]
  · split
    · have h1 := hp 0 120 (by omega)
      rw [List.drop_zero] at h1
      simp only [List.length_append, h1, show (ascii ".").length = 1 from rfl]
    · simp only [slice, List.length_append, List.length_take, List.length_drop, hc, hex_length,
        show (ascii "_").length = 1 from rfl, show (ascii ".").length = 1 from rfl]
      rfl

theorem productSerial_exact (j : Nat → Byte) (ctrl ns : List Byte) (nsid : U32) (hl : ns.length = 4096) (hc : ctrl.length = 4096) :
    let s := actualSerial (stackBytes j) ns ctrl nsid.toNat
    Inquiry.productSerial j ctrl ns nsid = (s.length, s ++ zeros (40 - s.length)) := by
  intro s
  have hs : s.length = _ := actualSerial_length j ns ctrl nsid.toNat hc
  rw [hs]
  have e0 : (getF ns Nvme.IdentifyNamespace.nguid_0).toNat = leAt ns 104 8 := getF_leAt ns 104 8
  have e1 : (getF ns Nvme.IdentifyNamespace.nguid_1).toNat = leAt ns 112 8 := getF_leAt ns 112 8
  have e2 : (htolll (getF ns Nvme.IdentifyNamespace.eui64)).toNat = leAt ns 120 8 := by
    rw [htolll_id]; exact getF_leAt ns 120 8
  have l33 := stackBytes_length j
  have b0 := leAt_lt ns 104 8
  have b1 := leAt_lt ns 112 8
  have b2 := leAt_lt ns 120 8
  by_cases c1 : nguid ns ≠ zeros 16
  · have hsv : s = groups (printed (stackBytes j) (leAt ns 104 8)) ++ ascii "_" ++
        groups (printed ((stackBytes j).drop 16) (leAt ns 112 8)) ++ ascii "." := if_pos c1
    rw [if_pos c1, hsv]
    unfold Inquiry.productSerial
    rw [if_pos ((nguid_nz ns hl).mpr c1), e0, e1]
    have hsp := sprintf_le (leAt ns 104 8)
    have hlen : (Inquiry.overwrite (stackBytes j) 0 (Inquiry.sprintf08x (leAt ns 104 8))).length = 33 := by
      unfold Inquiry.overwrite
      rw [List.length_append, List.length_append, List.length_drop, l33, List.take_zero, List.length_nil]
      omega
    have hdrop : (Inquiry.overwrite (stackBytes j) 0 (Inquiry.sprintf08x (leAt ns 104 8))).drop 17 = (stackBytes j).drop 17 := by
      unfold Inquiry.overwrite
      rw [List.take_zero, List.nil_append, List.drop_append, List.drop_eq_nil_of_le hsp, List.nil_append, List.drop_drop]
      congr 1
      omega
    have h1 := overwrite_printed (stackBytes j) _ b0
    change _ = (40, groups _ ++ _ ++ _ ++ _ ++ zeros 0)
    rw [show zeros 0 = [] from rfl, List.append_nil]
    refine congrArg (Prod.mk 40) (insertNumbers_40 _ _ _ ?_ ?_ ?_ ?_)
    · change (Inquiry.overwrite (Inquiry.overwrite (stackBytes j) 0 _) 16 _).take 16 = _
      rw [← h1]
      generalize Inquiry.overwrite (stackBytes j) 0 (Inquiry.sprintf08x (leAt ns 104 8)) = a at *
      rw [Inquiry.overwrite, List.append_assoc, List.take_append_of_le_length (by rw [List.length_take]; omega), List.take_take]
      rfl
    · change ((Inquiry.overwrite (Inquiry.overwrite (stackBytes j) 0 _) 16 _).drop 16).take 16 = _
      generalize Inquiry.overwrite (stackBytes j) 0 (Inquiry.sprintf08x (leAt ns 104 8)) = a at *
      have hk := digits_le _ b1
      rw [Inquiry.overwrite, List.append_assoc, List.drop_append, List.drop_eq_nil_of_le (by rw [List.length_take]; omega),
        List.nil_append, List.length_take, hlen, show 16 - min 16 33 = 0 from rfl, List.drop_zero]
      rw [sprintf_eq _ b1, List.length_append, hex_length]
      unfold printed
      have : a.drop (16 + (max 8 (digits (leAt ns 112 8)) + [(0 : Byte)].length))
          = ((stackBytes j).drop 16).drop (max 8 (digits (leAt ns 112 8)) + 1) := by
        rw [List.drop_drop]
        have e : 16 + (max 8 (digits (leAt ns 112 8)) + 1) = 17 + max 8 (digits (leAt ns 112 8)) := by omega
        rw [show [(0 : Byte)].length = 1 from rfl, e, ← List.drop_drop, ← List.drop_drop, hdrop]
      rw [this]
    · exact printed_length _ _ b0 (by omega)
    · exact printed_length _ _ b1 (by rw [List.length_drop]; omega)
  · have c1' : nguid ns = zeros 16 := Decidable.not_not.mp c1
    rw [if_neg c1]
    by_cases c2 : eui64 ns ≠ zeros 8
    · have hsv : s = groups (printed (stackBytes j) (leAt ns 120 8)) ++ ascii "." := (if_neg c1).trans (if_pos c2)
      rw [if_pos c2, hsv]
      unfold Inquiry.productSerial
      rw [if_neg (fun h => c1 ((nguid_nz ns hl).mp h)), if_pos ((eui64_nz ns hl).mpr c2), e2]
      exact congrArg (Prod.mk 20) (insertNumbers_20 _ _ (overwrite_printed (stackBytes j) _ b2) (printed_length _ _ b2 (by omega)))
    · have hsv : s = slice ctrl 4 20 ++ ascii "_" ++ hex 8 nsid.toNat ++ ascii "." := (if_neg c1).trans (if_neg c2)
      rw [if_neg c2, hsv, productSerial_sn j ctrl ns nsid hl hc c1' (Decidable.not_not.mp c2)]

/-- **C76.** The vital product data returned, exactly, for every page code and every buffer length: the page `actualVpd` if
the buffer can hold it; if not, the four bytes of the head alone for the pages 00h and 80h (if they fit), and nothing
otherwise; nothing for any other page code.  The command is answered with GOOD in any case. -/
theorem C76_vpd_exact (x : Ran) (page : Nat) (ns ctrl : List Byte) (hg : GoodAllocator x.E) (h : Inquired x true page ns ctrl) :
    x.good ∧ match actualVpd ((List.range 33).map (x.E.junk x.w2)) page ns ctrl (nsidOfLun x.lun) with
      | none => x.wroteNothing
      | some bs => if bs.length ≤ x.din.len then x.wrote x.din.ptr bs
        else if page ∈ [0x00, 0x80] ∧ 4 ≤ x.din.len then x.wrote x.din.ptr (bs.take 4) else x.wroteNothing := by
  have hns := x.page_length h.ns
  have hct := x.page_length h.ctrl
  by_cases c0 : page = 0x00
  · subst c0
    obtain ⟨h1, h2⟩ := C35_page_list x ns ctrl hg h
    refine ⟨h1, ?_⟩
    change if 11 ≤ x.din.len then _ else if _ then x.wrote x.din.ptr [0x00, 0x00, 0x00, 0x07] else _
    split at h2
    · rename_i c; rw [if_pos c]; exact h2
    · rename_i c; rw [if_neg c]
      split at h2
      · rename_i c'; rw [if_pos ⟨by decide, c'⟩]; exact h2
      · rename_i c'; rw [if_neg fun hh => c' hh.2]; exact h2
  by_cases c1 : page = 0x80
  · subst c1
    obtain ⟨h1, h2⟩ := serial_outcome hg h
    refine ⟨h1, ?_⟩
    rw [productSerial_exact _ ctrl ns _ hns hct, nsidOf_toNat] at h2
    have hl := actualSerial_length (x.E.junk x.w2) ns ctrl (nsidOfLun x.lun) hct
    have hv : actualVpd ((List.range 33).map (x.E.junk x.w2)) 0x80 ns ctrl (nsidOfLun x.lun)
        = some (vpdHead 0x80 (actualSerial (stackBytes (x.E.junk x.w2)) ns ctrl (nsidOfLun x.lun)).length
          ++ (actualSerial (stackBytes (x.E.junk x.w2)) ns ctrl (nsidOfLun x.lun)
            ++ zeros (40 - (actualSerial (stackBytes (x.E.junk x.w2)) ns ctrl (nsidOfLun x.lun)).length))) := rfl
    rw [hv]
    simp only at h2 ⊢
    have h40 : (actualSerial (stackBytes (x.E.junk x.w2)) ns ctrl (nsidOfLun x.lun)).length ≤ 40 := by
      rw [hl]; split; exact Nat.le_refl _; split <;> decide
    generalize actualSerial (stackBytes (x.E.junk x.w2)) ns ctrl (nsidOfLun x.lun) = s at *
    have hlen : (vpdHead 128 s.length ++ (s ++ zeros (40 - s.length))).length = 44 := by
      have : (vpdHead 128 s.length).length = 4 := rfl
      rw [List.length_append, List.length_append, this]
      simp only [zeros, List.length_replicate]
      omega
    have ht : (vpdHead 128 s.length ++ (s ++ zeros (40 - s.length))).take 4 = vpdHead 128 s.length := List.take_left' rfl
    rw [hlen, ht]
    split at h2
    · rename_i c; rw [if_pos c]; exact h2
    · rename_i c; rw [if_neg c]
      split at h2
      · rename_i c'; rw [if_pos ⟨by decide, c'⟩]; exact h2
      · rename_i c'; rw [if_neg fun hh => c' hh.2]; exact h2
  have hno : ¬ (page ∈ [0x00, 0x80] ∧ 4 ≤ x.din.len) := by
    intro hh
    simp only [List.mem_cons, List.not_mem_nil, or_false] at hh
    omega
  simp only [if_neg hno]
  unfold actualVpd
  rw [if_neg c0, if_neg c1]
  by_cases c2 : page = 0x83
  · subst c2
    obtain ⟨h1, h2⟩ := C38_device_id_partial x ns ctrl hg h
    refine ⟨h1, ?_⟩
    rw [if_pos rfl]
    cases hi : identifier ns with
    | none => rw [hi] at h2; exact h2
    | some id =>
      rw [hi] at h2
      simp only [Option.map_some] at h2 ⊢
      have hl : ([0x00, 0x83] ++ le 1 (3 + id.length) ++ designator id).length = 7 + id.length := by
        unfold designator
        simp only [List.length_append, le_eq, leBytes_length, List.length_cons, List.length_nil]
        omega
      rw [hl]
      exact h2
  rw [if_neg c2]
  by_cases c3 : page = 0x86
  · subst c3
    obtain ⟨h1, h2⟩ := extended_outcome hg h
    refine ⟨h1, ?_⟩
    rw [if_pos rfl]
    cases hs : spt (supportsType3 ns) (supportsType2 ns) (supportsType1 ns) with
    | none => rw [hs] at h2; exact h2
    | some s =>
      rw [hs] at h2
      have hl : ([0x00, 0x86, 0x3c, 0x00] ++ extendedBody ns ctrl s).length = 14 := by
        unfold extendedBody zeros
        simp only [List.length_append, le_eq, leBytes_length, List.length_cons, List.length_nil, List.length_replicate]
      simp only [Option.map_some]
      rw [hl]
      exact h2.2
  rw [if_neg c3]
  by_cases c4 : page = 0xb0
  · subst c4
    obtain ⟨h1, h2⟩ := C41_block_limits x ns ctrl hg h
    refine ⟨h1, ?_⟩
    rw [if_pos rfl]
    have hl : ([0x00, 0xb0, 0x3c, 0x00] ++ blockLimitsBody ctrl).length = 64 := by
      rw [List.length_append, blockLimitsBody_length]; rfl
    simp only
    rw [hl]
    by_cases c : 64 ≤ x.din.len
    · rw [if_pos c]; exact blockLimits_head x ns ctrl hg h c
    · rw [if_neg c] at h2 ⊢; exact h2
  rw [if_neg c4]
  by_cases c5 : page = 0xb1
  · subst c5
    obtain ⟨h1, h2⟩ := C66_characteristics_partial x ns ctrl hg h
    rw [if_pos rfl]
    exact ⟨h1, h2⟩
  rw [if_neg c5]
  by_cases c6 : page = 0xb2
  · subst c6
    obtain ⟨h1, h2⟩ := C43_provisioning x ns ctrl hg h
    refine ⟨h1, ?_⟩
    rw [if_pos rfl]
    have hl : (provisioningPage ns ctrl ++ zeros 56).length = 64 := by
      unfold provisioningPage vpdHead zeros beBytes
      simp only [List.length_append, List.length_cons, List.length_nil, List.length_replicate, le_eq, leBytes_length,
        List.length_reverse]
    simp only
    rw [hl]
    exact h2
  rw [if_neg c6]
  exact C35_unlisted x page ns ctrl hg h (by simp; omega)

/-- Met by every page code and every content of the Identify pages. -/
example (page : Byte) (p0 p1 : List Byte) (h0 : p0.length ≤ 4096) (h1 : p1.length ≤ 4096) (len : Nat) (hl : len ≤ 0x8000) :
    ∃ x, GoodAllocator x.E ∧ Inquired x true page.toNat (Demo.pad p0) (Demo.pad p1) ∧ x.din.len = len := by
  obtain ⟨x, -, h1, h2, h3, -⟩ := Demo.inq_demo Demo.env.junk 1 page p0 p1 h0 h1 len hl
  have hb : Spec.bit (Demo.inq 1 page) 1 0 = true := by simp [Spec.bit, byte, Demo.inq]
  rw [hb] at h2
  exact ⟨x, h1, h2, by rw [h3]⟩

/-! ## C77 -/

theorem groups_inj (p q : List Byte) (hp : p.length = 16) (hq : q.length = 16) (h : groups p = groups q) : p = q := by
  obtain ⟨a0, a1, a2, a3, a4, a5, a6, a7, a8, a9, a10, a11, a12, a13, a14, a15, rfl⟩ := list16 hp
  obtain ⟨b0, b1, b2, b3, b4, b5, b6, b7, b8, b9, b10, b11, b12, b13, b14, b15, rfl⟩ := list16 hq
  simp only [groups, slice, ascii, List.drop, List.take, List.cons_append, List.nil_append, List.cons.injEq] at h
  simp_all

/-- The last of the 16 characters is from the stack if the number has less than 15 digits. -/
theorem printed_last (s : List Byte) (n : Nat) (h : n < 16 ^ 14) : (printed s n)[15]? = s[15]? := by
  have hd : digits n ≤ 14 := by
    rw [← hexLenAux_digits 15 n (by simp only [Nat.reducePow] at h ⊢; omega)]
    exact hexLenAux_small 15 n 13 (by decide) (by simpa using h)
  unfold printed
  rw [List.getElem?_take, if_pos (by decide), List.append_assoc, List.getElem?_append_right (by rw [hex_length]; omega), hex_length,
    List.getElem?_append_right (by simp only [List.length_cons, List.length_nil]; omega), List.getElem?_drop]
  congr 1
  simp only [List.length_cons, List.length_nil]
  omega

/-- With two stacks that differ everywhere, the serial numbers differ if a number has less than 15 digits. -/
theorem actualSerial_differs (ns ctrl : List Byte) (n : Nat) (hf : ¬ almostFull ns) :
    actualSerial (List.replicate 33 0) ns ctrl n ≠ actualSerial (List.replicate 33 1) ns ctrl n := by
  have key : ∀ k p, k ≤ 16 → leAt ns p 8 < 16 ^ 14 →
      groups (printed ((List.replicate 33 0).drop k) (leAt ns p 8)) ≠ groups (printed ((List.replicate 33 1).drop k) (leAt ns p 8)) := by
    intro k p hk h heq
    have := groups_inj _ _ (printed_length _ _ (leAt_lt ns p 8) (by rw [List.length_drop, List.length_replicate]; omega))
      (printed_length _ _ (leAt_lt ns p 8) (by rw [List.length_drop, List.length_replicate]; omega)) heq
    have h2 := printed_last ((List.replicate 33 (0 : Byte)).drop k) _ h
    rw [this, printed_last _ _ h] at h2
    rw [List.getElem?_drop, List.getElem?_drop, List.getElem?_replicate, List.getElem?_replicate, if_pos (by omega), if_pos (by omega)] at h2
    exact absurd h2 (by decide)
  have gl : ∀ (b : Byte) (k p : Nat), k ≤ 16 → (groups (printed ((List.replicate 33 b).drop k) (leAt ns p 8))).length = 19 := by
    intro b k p hk
    exact groups_length _ (printed_length _ _ (leAt_lt ns p 8) (by rw [List.length_drop, List.length_replicate]; omega))
  have key0 := fun p => key 0 p (by omega)
  have gl0 := fun b p => gl b 0 p (by omega)
  simp only [List.drop_zero] at key0 gl0
  intro heq
  unfold almostFull at hf
  unfold actualSerial at heq
  by_cases c1 : nguid ns ≠ zeros 16
  · rw [if_pos c1] at hf
    rw [if_pos c1, if_pos c1] at heq
    have h1 := List.append_inj_left' heq rfl
    obtain ⟨h2, h3⟩ := List.append_inj' h1 (by rw [gl _ _ _ (by omega), gl _ _ _ (by omega)])
    have h4 := List.append_inj_left' h2 rfl
    rcases Nat.lt_or_ge (leAt ns 104 8) (16 ^ 14) with hlt | hge
    · exact key0 104 hlt h4
    · rcases Nat.lt_or_ge (leAt ns 112 8) (16 ^ 14) with hlt | hge2
      · exact key 16 112 (by omega) hlt h3
      · exact hf ⟨hge, hge2⟩
  · rw [if_neg c1] at hf
    rw [if_neg c1, if_neg c1] at heq
    by_cases c2 : eui64 ns ≠ zeros 8
    · rw [if_pos c2] at hf
      rw [if_pos c2, if_pos c2] at heq
      exact key0 120 (Nat.lt_of_not_le hf) (List.append_inj_left' heq rfl)
    · rw [if_neg c2] at hf
      exact hf trivial

theorem pad_self (ns : List Byte) (h : ns.length = 4096) : Demo.pad ns = ns := by
  unfold Demo.pad
  rw [h]
  exact List.append_nil ns

theorem actualVpd_serial (s ns ctrl : List Byte) (n : Nat) :
    actualVpd s 0x80 ns ctrl n = some (vpdHead 0x80 (actualSerial s ns ctrl n).length
      ++ (actualSerial s ns ctrl n ++ zeros (40 - (actualSerial s ns ctrl n).length))) := rfl

/-- **C77.** Page 80h depends on the contents of the stack exactly if one of the numbers it is made of has less than 15
hexadecimal digits: otherwise any two executions return the same bytes, and in this case there are two executions with the
same device, LUN and buffer length which return different bytes, so that the initiator learns stack contents. -/
theorem C77_leak_exact (ns ctrl : List Byte) (hn : ns.length = 4096) (hc : ctrl.length = 4096) :
    almostFull ns ↔ ∀ x y, SameInquiry x y 0x80 ns ctrl → ∃ bs, x.wrote x.din.ptr bs ∧ y.wrote y.din.ptr bs := by
  refine ⟨fun hf x y h => C37_serial_determined_partial x y ns ctrl h hf, fun hall => Classical.byContradiction fun hf => ?_⟩
  obtain ⟨x, e1, h1, h2, h3, h4, h5, h6⟩ := Demo.inq_demo (fun _ _ => 0) 1 0x80 ns ctrl (by omega) (by omega) 64 (by decide)
  obtain ⟨y, e2, g1, g2, g3, g4, g5, g6⟩ := Demo.inq_demo (fun _ _ => 1) 1 0x80 ns ctrl (by omega) (by omega) 64 (by decide)
  rw [pad_self ns hn, pad_self ctrl hc] at h2 g2
  change Inquired x true 0x80 ns ctrl at h2
  change Inquired y true 0x80 ns ctrl at g2
  obtain ⟨bs, w1, w2⟩ := hall x y ⟨h2, g2, by rw [h4, g4], by rw [h3, g3], h1, g1⟩
  have hst : ∀ b : Byte, (List.range 33).map (fun _ => b) = List.replicate 33 b := by
    intro b; rw [List.map_const', List.length_range]
  have o1 := (C76_vpd_exact x _ _ _ h1 h2).2
  have o2 := (C76_vpd_exact y _ _ _ g1 g2).2
  have j1 : (List.range 33).map (x.E.junk x.w2) = List.replicate 33 0 := by rw [e1]; exact hst 0
  have j2 : (List.range 33).map (y.E.junk y.w2) = List.replicate 33 1 := by rw [e2]; exact hst 1
  rw [j1, h4] at o1
  rw [j2, g4] at o2
  have l1 := actualSerial_length (fun _ => (0 : Byte)) ns ctrl (nsidOfLun 1) hc
  have l2 := actualSerial_length (fun _ => (1 : Byte)) ns ctrl (nsidOfLun 1) hc
  rw [stackBytes, hst] at l1 l2
  have hd := actualSerial_differs ns ctrl (nsidOfLun 1) hf
  have h40 : (if nguid ns ≠ zeros 16 then 40 else if eui64 ns ≠ zeros 8 then 20 else 30) ≤ 40 := by
    split
    · exact Nat.le_refl _
    · split <;> decide
  have o1' := actualVpd_serial (List.replicate 33 0) ns ctrl (nsidOfLun 1)
  have o2' := actualVpd_serial (List.replicate 33 1) ns ctrl (nsidOfLun 1)
  rw [o1'] at o1
  rw [o2'] at o2
  rw [l1] at o1
  rw [l2] at o2
  generalize actualSerial (List.replicate 33 0) ns ctrl (nsidOfLun 1) = s0 at *
  generalize actualSerial (List.replicate 33 1) ns ctrl (nsidOfLun 1) = s1 at *
  generalize (if nguid ns ≠ zeros 16 then 40 else if eui64 ns ≠ zeros 8 then 20 else 30) = k at *
  have hl : ∀ s : List Byte, s.length = k → (vpdHead 0x80 k ++ (s ++ zeros (40 - k))).length = 44 := by
    intro s hs
    have : (vpdHead 0x80 k).length = 4 := rfl
    rw [List.length_append, List.length_append, this, hs]
    simp only [zeros, List.length_replicate]
    omega
  simp only at o1 o2
  rw [hl s0 l1, if_pos (by rw [h3]; decide), h3] at o1
  rw [hl s1 l2, if_pos (by rw [g3]; decide), g3] at o2
  rw [h3] at w1
  rw [g3] at w2
  apply hd
  have heq : vpdHead 0x80 k ++ (s0 ++ zeros (40 - k)) = vpdHead 0x80 k ++ (s1 ++ zeros (40 - k)) := by
    apply List.ext_getElem (by rw [hl s0 l1, hl s1 l2])
    intro i i1 i2
    have hi : i < 0x8000 := by rw [hl s0 l1] at i1; omega
    have q1 := demo_same h1 (inq_short _ _) h5 h6 o1 w1 i hi
    have q2 := demo_same g1 (inq_short _ _) g5 g6 o2 w2 i hi
    rw [← q2, List.getD_eq_getElem?_getD, List.getD_eq_getElem?_getD, List.getElem?_eq_getElem i1, List.getElem?_eq_getElem i2] at q1
    exact q1
  exact List.append_inj_left' (List.append_cancel_left heq) rfl

/-- Both cases occur. -/
example : (¬ almostFull (Demo.pad shortEui)) ∧ almostFull (Demo.pad someEui) := by decide +kernel

end Scsi2Nvme
