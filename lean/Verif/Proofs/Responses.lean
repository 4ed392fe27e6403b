import Verif.Spec.Responses
import Verif.Proofs.Complete
/-!
# The parameter data structures, byte by byte
-/

namespace Scsi2Nvme
open Spec Nvme

/-! ## Fields of the identify pages -/

theorem leNat_slice_lt (bs : List Byte) (p l : Nat) : leNat ((bs.drop p).take l) < 256 ^ l := by
  refine Nat.lt_of_lt_of_le (leNat_lt _) (Nat.pow_le_pow_right (by omega) ?_)
  rw [List.length_take]
  omega

theorem leAt_lt (bs : List Byte) (p l : Nat) : leAt bs p l < 256 ^ l := by
  rw [leAt_eq]; exact leNat_slice_lt bs p l

theorem getF_leAt (bs : List Byte) (k n : Nat) : (getF bs ⟨8 * k⟩ : BitVec (8 * n)).toNat = leAt bs k n := by
  rw [getF_aligned, BitVec.toNat_ofNat, leAt_eq, two_pow_eight_mul, Nat.mod_eq_of_lt (leNat_slice_lt bs k n)]

theorem getF_bit (bs : List Byte) (k r : Nat) (h : r < 8) :
    (getF bs ⟨8 * k + r⟩ : BitVec 1) = BitVec.ofBool (Spec.bit bs k r) := by
  rw [getF_sub bs k r 1 (by omega)]
  apply BitVec.eq_of_toNat_eq
  unfold Spec.bit byte
  generalize (bs.getD k 0).toNat / 2 ^ r = v
  rw [BitVec.toNat_ofNat]
  by_cases hv : v % 2 = 1
  · simp [hv]
  · have : v % 2 = 0 := by omega
    simp [this]

theorem getF_nat (bs : List Byte) (k r w : Nat) (h : r + w ≤ 8) :
    (getF bs ⟨8 * k + r⟩ : BitVec w).toNat = byte bs k / 2 ^ r % 2 ^ w := by
  rw [getF_sub bs k r w h, BitVec.toNat_ofNat]; rfl

theorem getF_slice (bs : List Byte) (k n : Nat) (h : k + n ≤ bs.length) :
    leBytes n (getF bs ⟨8 * k⟩ : BitVec (8 * n)).toNat = slice bs k n := by
  rw [getF_leAt, leAt_eq]
  apply leBytes_leNat'
  rw [List.length_take, List.length_drop]
  omega

theorem nsze_eq (ns : List Byte) : (getF ns IdentifyNamespace.nsze).toNat = nsze ns := getF_leAt ns 0 8
theorem ncap_eq (ns : List Byte) : (getF ns IdentifyNamespace.ncap).toNat = ncap ns := getF_leAt ns 8 8
theorem thin_eq (ns : List Byte) : getF ns IdentifyNamespace.nsfeat_thin_prov = BitVec.ofBool (thin ns) :=
  getF_bit ns 24 0 (by omega)
theorem t1_eq (ns : List Byte) : getF ns IdentifyNamespace.dpc_pit1 = BitVec.ofBool (supportsType1 ns) :=
  getF_bit ns 28 0 (by omega)
theorem t2_eq (ns : List Byte) : getF ns IdentifyNamespace.dpc_pit2 = BitVec.ofBool (supportsType2 ns) :=
  getF_bit ns 28 1 (by omega)
theorem t3_eq (ns : List Byte) : getF ns IdentifyNamespace.dpc_pit3 = BitVec.ofBool (supportsType3 ns) :=
  getF_bit ns 28 2 (by omega)
theorem dsm_eq (c : List Byte) : getF c IdentifyControllerData.oncs_dsm = BitVec.ofBool (deallocates c) :=
  getF_bit c 520 2 (by omega)
theorem fuses_eq (c : List Byte) :
    getF c IdentifyControllerData.fuses_compare_and_write = BitVec.ofBool (fusedCompareWrite c) :=
  getF_bit c 522 0 (by omega)
theorem vwc_eq (c : List Byte) : getF c IdentifyControllerData.vwc_present = BitVec.ofBool (writeCache c) :=
  getF_bit c 525 0 (by omega)
theorem mdts_eq (c : List Byte) : (getF c IdentifyControllerData.mdts).toNat = mdts c := by
  have := getF_nat c 77 0 8 (by omega)
  simp only [Nat.pow_zero, Nat.div_one] at this
  refine this.trans ?_
  unfold mdts
  have := byte_lt c 77
  omega

theorem dps_eq (ns : List Byte) :
    (getF ns IdentifyNamespace.dps_pit = 0 ∧ getF ns IdentifyNamespace.dps_md_start = 0) ↔ protection ns = false := by
  have h1 : (getF ns IdentifyNamespace.dps_pit).toNat = byte ns 29 / 2 ^ 0 % 2 ^ 3 := getF_nat ns 29 0 3 (by omega)
  have h2 : (getF ns IdentifyNamespace.dps_md_start).toNat = byte ns 29 / 2 ^ 3 % 2 ^ 1 := getF_nat ns 29 3 1 (by omega)
  have e1 : getF ns IdentifyNamespace.dps_pit = 0 ↔ byte ns 29 % 8 = 0 := by
    constructor
    · intro h; rw [h] at h1; simp at h1; omega
    · intro h; apply BitVec.eq_of_toNat_eq; rw [h1]; simp; omega
  have e2 : getF ns IdentifyNamespace.dps_md_start = 0 ↔ byte ns 29 / 8 % 2 = 0 := by
    constructor
    · intro h; rw [h] at h2; simp at h2; omega
    · intro h; apply BitVec.eq_of_toNat_eq; rw [h2]; simp; omega
  rw [e1, e2]
  unfold protection
  simp only [ne_eq, decide_eq_false_iff_not, Decidable.not_not]
  omega

theorem lbads_eq (ns : List Byte) :
    (getF ns (IdentifyNamespace.lbads (getF ns IdentifyNamespace.flbas_format).toNat)).toNat = lbads ns := by
  have h1 : (getF ns IdentifyNamespace.flbas_format).toNat = byte ns 26 / 2 ^ 0 % 2 ^ 4 := getF_nat ns 26 0 4 (by omega)
  rw [h1]
  simp only [Nat.pow_zero, Nat.div_one, Nat.reducePow]
  unfold IdentifyNamespace.lbads lbads
  have h2 := getF_nat ns (128 + 4 * (byte ns 26 % 16) + 2) 0 8 (by omega)
  rw [show (⟨IdentifyNamespace.lbaf.off + 32 * (byte ns 26 % 16) + 16⟩ : Fld 8)
    = ⟨8 * (128 + 4 * (byte ns 26 % 16) + 2) + 0⟩ from congrArg Fld.mk (by
      show 1024 + 32 * (byte ns 26 % 16) + 16 = _
      omega), h2]
  have := byte_lt ns (128 + 4 * (byte ns 26 % 16) + 2)
  simp only [Nat.pow_zero, Nat.div_one]
  omega

theorem zeros_eq (n : Nat) : zeros n = leBytes n 0 := (leBytes_zero n).symm

theorem leAt_zero_iff (bs : List Byte) (k n : Nat) (h : k + n ≤ bs.length) :
    leAt bs k n = 0 ↔ slice bs k n = zeros n := by
  have hl : ((bs.drop k).take n).length = n := by rw [List.length_take, List.length_drop]; omega
  rw [leAt_eq]
  unfold slice
  constructor
  · intro h0
    rw [← leBytes_leNat' n _ hl, h0, leBytes_zero]
  · intro h0
    rw [h0, zeros_eq, leNat_leBytes, Nat.zero_mod]

theorem slice_append (bs : List Byte) (k a b : Nat) : slice bs k (a + b) = slice bs k a ++ slice bs (k + a) b := by
  unfold slice
  rw [List.take_add, List.drop_drop]

theorem nguid_nz (ns : List Byte) (h : ns.length = 4096) :
    Inquiry.nguidNz ns = true ↔ nguid ns ≠ zeros 16 := by
  have h0 : (getF ns IdentifyNamespace.nguid_0).toNat = leAt ns 104 8 := getF_leAt ns 104 8
  have h1 : (getF ns IdentifyNamespace.nguid_1).toNat = leAt ns 112 8 := getF_leAt ns 112 8
  have z0 := leAt_zero_iff ns 104 8 (by omega)
  have z1 := leAt_zero_iff ns 112 8 (by omega)
  have key : nguid ns = zeros 16 ↔ slice ns 104 8 = zeros 8 ∧ slice ns 112 8 = zeros 8 := by
    unfold nguid
    rw [slice_append ns 104 8 8, show zeros 16 = zeros 8 ++ zeros 8 from rfl]
    constructor
    · intro h'
      exact List.append_inj h' (by
        unfold slice zeros
        rw [List.length_take, List.length_drop, List.length_replicate]; omega)
    · rintro ⟨a, b⟩; rw [a, b]
  rw [ne_eq, key, ← z0, ← z1, ← h0, ← h1]
  unfold Inquiry.nguidNz
  simp only [Bool.or_eq_true, bne_iff_ne, ne_eq, ← BitVec.toNat_inj]
  simp only [BitVec.ofNat_eq_ofNat, BitVec.toNat_ofNat, Nat.zero_mod]
  omega

theorem eui64_nz (ns : List Byte) (h : ns.length = 4096) :
    Inquiry.eui64Nz ns = true ↔ eui64 ns ≠ zeros 8 := by
  have h0 : (getF ns IdentifyNamespace.eui64).toNat = leAt ns 120 8 := getF_leAt ns 120 8
  have z0 := leAt_zero_iff ns 120 8 (by omega)
  unfold eui64
  rw [ne_eq, ← z0, ← h0]
  unfold Inquiry.eui64Nz
  simp only [bne_iff_ne, ne_eq, ← BitVec.toNat_inj]
  simp only [BitVec.ofNat_eq_ofNat, BitVec.toNat_ofNat, Nat.zero_mod]

theorem nguidBytes_eq (ns : List Byte) (h : ns.length = 4096) : Inquiry.nguidBytes ns = nguid ns := by
  unfold Inquiry.nguidBytes nguid
  rw [slice_append ns 104 8 8]
  exact congr (congrArg HAppend.hAppend (getF_slice ns 104 8 (by omega))) (getF_slice ns 112 8 (by omega))

theorem eui64Bytes_eq (ns : List Byte) (h : ns.length = 4096) : Inquiry.eui64Bytes ns = eui64 ns :=
  getF_slice ns 120 8 (by omega)

/-! ## Standard INQUIRY data -/

theorem revisionChars_eq (room : Nat) (rs acc : List Byte) :
    Inquiry.revisionChars room rs acc = ((rs.filter graphic).take room).reverse ++ acc := by
  induction rs generalizing room acc with
  | nil => cases room <;> simp [Inquiry.revisionChars]
  | cons c cs ih =>
    cases room with
    | zero => simp [Inquiry.revisionChars]
    | succ room =>
      unfold Inquiry.revisionChars
      have hg : (c ≠ 0x20 ∧ 0x21 ≤ c.toNat ∧ c.toNat ≤ 0x7e) ↔ graphic c = true := by
        unfold graphic
        rw [decide_eq_true_eq]
        constructor
        · exact fun h => h.2
        · intro h
          exact ⟨fun h' => by rw [h'] at h; simp at h, h⟩
      by_cases hc : graphic c = true
      · rw [if_pos (hg.mpr hc), ih, List.filter_cons_of_pos hc]
        simp
      · rw [if_neg (fun h => hc (hg.mp h)), ih, List.filter_cons_of_neg hc]

theorem productRevision_eq (fr : List Byte) : Inquiry.productRevision fr = revision fr := by
  unfold Inquiry.productRevision revision lastN
  rw [revisionChars_eq]
  have : ((fr.reverse.filter graphic).take 4).reverse ++ [] = (fr.filter graphic).drop ((fr.filter graphic).length - 4) := by
    rw [List.filter_reverse, List.append_nil, List.take_reverse, List.reverse_reverse]
  rw [this]
  rfl

theorem revision_length (fr : List Byte) : (revision fr).length = 4 := by
  unfold revision lastN zeros
  simp only [List.length_append, List.length_replicate, List.length_drop]
  omega

theorem standardInquiry_eq (ns ctrl : List Byte) (h : ctrl.length = 4096) :
    (Inquiry.standardInquiryData ctrl ns).toBytes.take 36 = standardInquiry ns ctrl := by
  have hmn : leBytes 16 ((getF ctrl IdentifyControllerData.mn).setWidth 128).toNat = slice ctrl 24 16 := by
    rw [BitVec.toNat_setWidth, show (2 : Nat) ^ 128 = 256 ^ 16 from rfl, leBytes_mod]
    have e : (getF ctrl IdentifyControllerData.mn).toNat = leAt ctrl 24 40 := getF_leAt ctrl 24 40
    rw [e, leAt_eq, ← leBytes_take 40 _ 16 (by omega), leBytes_leNat' 40 _ (by
      rw [List.length_take, List.length_drop]; omega), List.take_take]
    rfl
  have hfr : leBytes 4 (BitVec.ofNat 32 (leNat (Inquiry.productRevision
      (leBytes 8 (getF ctrl IdentifyControllerData.fr).toNat)))).toNat = revision (slice ctrl 64 8) := by
    have e : leBytes 8 (getF ctrl IdentifyControllerData.fr).toNat = slice ctrl 64 8 := getF_slice ctrl 64 8 (by omega)
    rw [e, productRevision_eq, BitVec.toNat_ofNat, show (2 : Nat) ^ 32 = 256 ^ 4 from rfl, leBytes_mod]
    exact leBytes_leNat' 4 _ (revision_length _)
  have hven : leBytes 8 (BitVec.ofNat 64 (leNat kNvmeVendorIdentification)).toNat = ascii "NVMe    " := by decide +kernel
  have hdps := dps_eq ns
  unfold Inquiry.standardInquiryData standardInquiry
  have hm := ((getF ctrl IdentifyControllerData.mn).setWidth 128).isLt
  have hf := (BitVec.ofNat 32 (leNat (Inquiry.productRevision
      (leBytes 8 (getF ctrl IdentifyControllerData.fr).toNat)))).isLt
  have hv := (BitVec.ofNat 64 (leNat kNvmeVendorIdentification)).isLt
  simp only [Scsi.InquiryData.toBytes]
  rw [← hmn, ← hfr, ← hven]
  generalize ((getF ctrl IdentifyControllerData.mn).setWidth 128).toNat = m at *
  generalize (BitVec.ofNat 32 (leNat (Inquiry.productRevision
      (leBytes 8 (getF ctrl IdentifyControllerData.fr).toNat)))).toNat = f at *
  generalize (BitVec.ofNat 64 (leNat kNvmeVendorIdentification)).toNat = v at *
  have hp : (if getF ns IdentifyNamespace.dps_pit = 0 ∧ getF ns IdentifyNamespace.dps_md_start = 0
      then (0 : BitVec 1) else 1).toNat = (protection ns).toNat := by
    by_cases hq : protection ns = false
    · rw [if_pos (hdps.mpr hq), hq]; rfl
    · rw [if_neg (fun h' => hq (hdps.mp h'))]
      simp only [Bool.not_eq_false] at hq
      rw [hq]; rfl
  rw [hp]
  have hpl : (protection ns).toNat < 2 := by cases protection ns <;> decide
  have hpv : (if protection ns = true then (0x01 : Byte) else 0x00) = BitVec.ofNat 8 (protection ns).toNat := by
    cases protection ns <;> rfl
  rw [hpv]
  generalize (protection ns).toNat = p at *
  have hL : ∀ L L' : List (Nat × Nat), L = L' → List.take 36 (packBits 0 0 L') =
      [0, 0, 6, 2, 31, BitVec.ofNat 8 p, 0, 2] ++ leBytes 8 v ++ leBytes 16 m ++ leBytes 4 f →
      List.take 36 (packBits 0 0 L) =
      [0, 0, 6, 2, 31, BitVec.ofNat 8 p, 0, 2] ++ leBytes 8 v ++ leBytes 16 m ++ leBytes 4 f := by
    intro L L' h1 h2; rw [h1]; exact h2
  refine hL _ (List.flatten [[(5, 0), (3, 0)], [(6, 0), (1, 0), (1, 0)], [(8, 6)], [(4, 2), (1, 0), (1, 0), (2, 0)], [(8, 0x1f)],
    [(1, p), (2, 0), (1, 0), (2, 0), (1, 0), (1, 0)],
    [(1, 0), (2, 0), (1, 0), (1, 0), (1, 0), (1, 0), (1, 0)], [(1, 0), (1, 1), (1, 0), (1, 0), (1, 0), (1, 0), (1, 0), (1, 0)],
    [(64, v)], [(128, m)], [(32, f)], [(160, 0), (1, 0), (1, 0), (2, 0), (4, 0), (8, 0), (128, 0), (176, 0)]]) ?_ ?_
  · rfl
  · rw [packBits_groups]
    · simp only [packWidth, packVal, List.map_cons, List.map_nil, List.flatten_cons, List.flatten_nil,
        List.append_nil, Nat.reduceAdd, Nat.reduceDiv, Nat.mul_zero, Nat.add_zero, Nat.reduceMul, Nat.zero_add, Nat.reducePow]
      simp only [← List.append_assoc]
      rw [List.take_left' (by simp [leBytes_length])]
      rfl
    · simp only [List.forall_mem_cons, List.not_mem_nil, false_implies, implies_true, and_true, packWidth, Nat.reduceAdd,
        Nat.reduceDiv, Nat.reduceMul, true_and, Nat.reducePow, Nat.reduceLT]
      exact ⟨by omega, hv, hm, hf⟩

/-! ## Vital product data -/

theorem supportedVpd_eq :
    ({ page_length := BitVec.ofNat 8 Inquiry.supportedPageList.length } : Scsi.SupportedVitalProductData).toBytes
      = vpdHead 0x00 7 ∧ Inquiry.supportedPageList = vpdPages := by decide +kernel

theorem serialHead_eq :
    ({ page_code := Scsi.PageCode.kUnitSerialNumber, page_length := BitVec.ofNat 8 40 } : Scsi.UnitSerialNumber).toBytes
      = vpdHead 0x80 40 ∧
    ({ page_code := Scsi.PageCode.kUnitSerialNumber, page_length := BitVec.ofNat 8 20 } : Scsi.UnitSerialNumber).toBytes
      = vpdHead 0x80 20 ∧
    ({ page_code := Scsi.PageCode.kUnitSerialNumber, page_length := BitVec.ofNat 8 30 } : Scsi.UnitSerialNumber).toBytes
      = vpdHead 0x80 30 := by decide +kernel

theorem hexDigit_eq (d : Nat) (h : d < 16) : Inquiry.hexDigit d = (ascii "0123456789abcdef").getD d 0 := by
  have : ∀ d : Fin 16, Inquiry.hexDigit d.val = (ascii "0123456789abcdef").getD d.val 0 := by decide +kernel
  exact this ⟨d, h⟩

theorem hexN_eq (k n : Nat) : Inquiry.hexN k n = hex k n := by
  induction k generalizing n with
  | zero => rfl
  | succ k ih =>
    unfold Inquiry.hexN
    rw [ih]
    unfold hex
    rw [List.range_succ, List.map_append]
    refine congr (congrArg HAppend.hAppend ?_) ?_
    · apply List.map_congr_left
      intro i hi
      rw [List.mem_range] at hi
      rw [Nat.div_div_eq_div_mul, ← Nat.pow_succ', show (k - 1 - i).succ = k + 1 - 1 - i by omega]
    · simp only [List.map_cons, List.map_nil, Nat.add_sub_cancel, Nat.sub_self, Nat.pow_zero, Nat.div_one]
      rw [hexDigit_eq _ (by omega)]

theorem hex_length (k n : Nat) : (hex k n).length = k := by simp [hex]

theorem hexLenAux_le (k n : Nat) : Inquiry.hexLen.hexLenAux k n ≤ k + 1 := by
  induction k generalizing n with
  | zero => simp [Inquiry.hexLen.hexLenAux]
  | succ k ih =>
    unfold Inquiry.hexLen.hexLenAux
    split
    · omega
    · have := ih (n / 16); omega

theorem hexLenAux_full (k n : Nat) (h : 16 ^ k ≤ n) : Inquiry.hexLen.hexLenAux k n = k + 1 := by
  induction k generalizing n with
  | zero => rfl
  | succ k ih =>
    unfold Inquiry.hexLen.hexLenAux
    have h16 : 16 ≤ n := Nat.le_trans (by rw [Nat.pow_succ]; have := Nat.pow_pos (n := k) (show 0 < 16 by omega); omega) h
    rw [if_neg (by omega), ih]
    rw [Nat.le_div_iff_mul_le (by omega)]
    rw [Nat.pow_succ] at h
    exact h

theorem hexLenAux_small (k n : Nat) (m : Nat) (hm : m ≤ k) (h : n < 16 ^ (m + 1)) :
    Inquiry.hexLen.hexLenAux k n ≤ m + 1 := by
  induction m generalizing k n with
  | zero =>
    cases k with
    | zero => simp [Inquiry.hexLen.hexLenAux]
    | succ k => unfold Inquiry.hexLen.hexLenAux; rw [if_pos (by simpa using h)]; omega
  | succ m ih =>
    cases k with
    | zero => omega
    | succ k =>
      unfold Inquiry.hexLen.hexLenAux
      split
      · omega
      · have := ih k (n / 16) (by omega) (by
          rw [Nat.div_lt_iff_lt_mul (by omega), ← Nat.pow_succ]; exact h)
        omega

/-- `%08lx` of a number with 16 digits. -/
theorem sprintf_full (n : Nat) (h : 16 ^ 15 ≤ n) : Inquiry.sprintf08x n = hex 16 n ++ [0] := by
  unfold Inquiry.sprintf08x Inquiry.hexLen
  rw [hexLenAux_full 15 n h, hexN_eq]
  rfl

/-- `%08x` of a 32-bit number. -/
theorem sprintf_32 (n : Nat) (h : n < 2 ^ 32) : Inquiry.sprintf08x n = hex 8 n ++ [0] := by
  unfold Inquiry.sprintf08x Inquiry.hexLen
  have := hexLenAux_small 15 n 7 (by omega) (by simpa using h)
  rw [Nat.max_eq_left (by omega), hexN_eq]

theorem list16 {l : List Byte} (h : l.length = 16) : ∃ a b c d e f g i j k m n o p q r,
    l = [a, b, c, d, e, f, g, i, j, k, m, n, o, p, q, r] := by
  match l, h with
  | [a, b, c, d, e, f, g, i, j, k, m, n, o, p, q, r], _ => exact ⟨a, b, c, d, e, f, g, i, j, k, m, n, o, p, q, r, rfl⟩

theorem overwrite_all (a : List Byte) (b : List Byte) (h : b.length = a.length) : Inquiry.overwrite a 0 b = b := by
  unfold Inquiry.overwrite
  rw [Nat.zero_add, h, List.drop_length, List.take_zero, List.nil_append, List.append_nil]

/-- The serial number built from an NGUID both halves of which have 16 digits. -/
theorem productSerial_nguid (j : Nat → Byte) (ctrl ns : List Byte) (nsid : U32) (hl : ns.length = 4096)
    (hn : nguid ns ≠ zeros 16) (h0 : 16 ^ 15 ≤ leAt ns 104 8) (h1 : 16 ^ 15 ≤ leAt ns 112 8) :
    Inquiry.productSerial j ctrl ns nsid = (40,
      groups (hex 16 (leAt ns 104 8)) ++ ascii "_" ++ groups (hex 16 (leAt ns 112 8)) ++ ascii ".") := by
  unfold Inquiry.productSerial
  rw [if_pos ((nguid_nz ns hl).mpr hn)]
  have e0 : (getF ns IdentifyNamespace.nguid_0).toNat = leAt ns 104 8 := getF_leAt ns 104 8
  have e1 : (getF ns IdentifyNamespace.nguid_1).toNat = leAt ns 112 8 := getF_leAt ns 112 8
  rw [e0, e1, sprintf_full _ h0, sprintf_full _ h1]
  have k0 := hex_length 16 (leAt ns 104 8)
  have k1 := hex_length 16 (leAt ns 112 8)
  generalize hex 16 (leAt ns 104 8) = x at *
  generalize hex 16 (leAt ns 112 8) = y at *
  obtain ⟨a0, a1, a2, a3, a4, a5, a6, a7, a8, a9, a10, a11, a12, a13, a14, a15, rfl⟩ := list16 k0
  obtain ⟨b0, b1, b2, b3, b4, b5, b6, b7, b8, b9, b10, b11, b12, b13, b14, b15, rfl⟩ := list16 k1
  have hu : Inquiry.underscores 40 = [0,0,0,0,0x5f,0,0,0,0,0x5f,0,0,0,0,0x5f,0,0,0,0,0x5f,0,0,0,0,0x5f,0,0,0,0,0x5f,
    0,0,0,0,0x5f,0,0,0,0,0x2e] := by decide +kernel
  rw [hu]
  rfl

theorem htolll_id (v : U64) : htolll v = v := rfl

theorem productSerial_eui (j : Nat → Byte) (ctrl ns : List Byte) (nsid : U32) (hl : ns.length = 4096)
    (hn : nguid ns = zeros 16) (he : eui64 ns ≠ zeros 8) (h0 : 16 ^ 15 ≤ leAt ns 120 8) :
    Inquiry.productSerial j ctrl ns nsid = (20, groups (hex 16 (leAt ns 120 8)) ++ ascii "." ++ zeros 20) := by
  unfold Inquiry.productSerial
  rw [if_neg (fun h => (nguid_nz ns hl).mp h hn), if_pos ((eui64_nz ns hl).mpr he)]
  have e0 : (htolll (getF ns IdentifyNamespace.eui64)).toNat = leAt ns 120 8 := by
    rw [htolll_id]; exact getF_leAt ns 120 8
  rw [e0, sprintf_full _ h0]
  have k0 := hex_length 16 (leAt ns 120 8)
  generalize hex 16 (leAt ns 120 8) = x at *
  obtain ⟨a0, a1, a2, a3, a4, a5, a6, a7, a8, a9, a10, a11, a12, a13, a14, a15, rfl⟩ := list16 k0
  have hu : Inquiry.underscores 20 = [0,0,0,0,0x5f,0,0,0,0,0x5f,0,0,0,0,0x5f,0,0,0,0,0x2e,0,0,0,0,0,0,0,0,0,0,
    0,0,0,0,0,0,0,0,0,0] := by decide +kernel
  rw [hu]
  rfl

theorem list8 {l : List Byte} (h : l.length = 8) : ∃ a b c d e f g i, l = [a, b, c, d, e, f, g, i] := by
  match l, h with
  | [a, b, c, d, e, f, g, i], _ => exact ⟨a, b, c, d, e, f, g, i, rfl⟩

theorem list20 {l : List Byte} (h : l.length = 20) : ∃ a b c d e f g i j k m n o p q r s t u v,
    l = [a, b, c, d, e, f, g, i, j, k, m, n, o, p, q, r, s, t, u, v] := by
  match l, h with
  | [a, b, c, d, e, f, g, i, j, k, m, n, o, p, q, r, s, t, u, v], _ =>
    exact ⟨a, b, c, d, e, f, g, i, j, k, m, n, o, p, q, r, s, t, u, v, rfl⟩

theorem productSerial_sn (j : Nat → Byte) (ctrl ns : List Byte) (nsid : U32) (hl : ns.length = 4096)
    (hc : ctrl.length = 4096) (hn : nguid ns = zeros 16) (he : eui64 ns = zeros 8) :
    Inquiry.productSerial j ctrl ns nsid
      = (30, slice ctrl 4 20 ++ ascii "_" ++ hex 8 nsid.toNat ++ ascii "." ++ zeros 10) := by
  unfold Inquiry.productSerial
  rw [if_neg (fun h => (nguid_nz ns hl).mp h hn), if_neg (fun h => (eui64_nz ns hl).mp h he)]
  have e0 : leBytes 20 (getF ctrl IdentifyControllerData.sn).toNat = slice ctrl 4 20 := getF_slice ctrl 4 20 (by omega)
  rw [e0, sprintf_32 _ nsid.isLt]
  have k0 : (slice ctrl 4 20).length = 20 := by unfold slice; rw [List.length_take, List.length_drop]; omega
  have k1 := hex_length 8 nsid.toNat
  generalize slice ctrl 4 20 = x at *
  generalize hex 8 nsid.toNat = y at *
  obtain ⟨a0, a1, a2, a3, a4, a5, a6, a7, a8, a9, a10, a11, a12, a13, a14, a15, a16, a17, a18, a19, rfl⟩ := list20 k0
  obtain ⟨b0, b1, b2, b3, b4, b5, b6, b7, rfl⟩ := list8 k1
  rfl

/-! ### Device identification, extended INQUIRY data, block limits, provisioning -/

theorem designator_eq (id : List Byte) (n : Byte) (h : id.length = n.toNat) :
    (Inquiry.identificationDescriptor n).toBytes ++ id = designator id := by
  unfold designator
  rw [h, le_eq]
  have : ∀ n : Fin 256, (Inquiry.identificationDescriptor (BitVec.ofFin n)).toBytes
      = [0x01, 0x02, 0x00] ++ leBytes 1 n.val := by decide +kernel
  exact congrArg (· ++ id) (this n.toFin)

theorem identificationHead_eq :
    ({ peripheral_device_type := Scsi.PeripheralDeviceType.kDirectAccessBlock
       peripheral_qualifier := Scsi.PeripheralQualifier.kPeripheralDeviceConnected
       page_code := Scsi.PageCode.kDeviceIdentification
       page_length := BitVec.ofNat 8 Scsi.DeviceIdentificationVpd.size + 0x10 } : Scsi.DeviceIdentificationVpd).toBytes
      = [0x00, 0x83, 0x13] ∧
    ({ peripheral_device_type := Scsi.PeripheralDeviceType.kDirectAccessBlock
       peripheral_qualifier := Scsi.PeripheralQualifier.kPeripheralDeviceConnected
       page_code := Scsi.PageCode.kDeviceIdentification
       page_length := BitVec.ofNat 8 Scsi.DeviceIdentificationVpd.size + 0x8 } : Scsi.DeviceIdentificationVpd).toBytes
      = [0x00, 0x83, 0x0b] := by decide +kernel

/-- The SPT field as the code computes it: with the types in the opposite order. -/
theorem GetSpt_eq (ns : List Byte) :
    Inquiry.GetSptValueFromDPC ns
      = (spt (supportsType3 ns) (supportsType2 ns) (supportsType1 ns)).map (BitVec.ofNat 8) := by
  unfold Inquiry.GetSptValueFromDPC
  rw [t1_eq, t2_eq, t3_eq]
  cases supportsType1 ns <;> cases supportsType2 ns <;> cases supportsType3 ns <;> rfl

theorem extended_eq (ns ctrl : List Byte) (s : Nat) (hs : s < 8) :
    (Inquiry.extendedInquiryData ctrl ns (BitVec.ofNat 8 s)).toBytes
      = [0x00, 0x86, 0x3c, 0x00] ++ extendedBody ns ctrl s := by
  unfold Inquiry.extendedInquiryData extendedBody
  rw [vwc_eq]
  have hd : (if getF ns IdentifyNamespace.dps_md_start ≠ 0 ∨ getF ns IdentifyNamespace.dps_pit ≠ 0 then (1 : BitVec 1) else 0)
      = BitVec.ofBool (protection ns) := by
    by_cases hq : protection ns = false
    · have := (dps_eq ns).mpr hq
      rw [if_neg (fun h => h.elim (fun h => h this.2) (fun h => h this.1)), hq]; rfl
    · rw [if_pos]
      · simp only [Bool.not_eq_false] at hq
        rw [hq]; rfl
      · apply Decidable.byContradiction
        intro h'
        simp only [not_or, ne_eq, Decidable.not_not] at h'
        exact hq ((dps_eq ns).mp ⟨h'.2, h'.1⟩)
  simp only [hd]
  have key : ∀ (p v : Bool) (s : Fin 8),
    ({ peripheral_device_type := Scsi.PeripheralDeviceType.kDirectAccessBlock
       peripheral_qualifer := Scsi.PeripheralQualifier.kPeripheralDeviceConnected
       page_code := Scsi.PageCode.kExtended
       page_length := Scsi.PageLength.kExtendedInquiryCommand
       ref_chk := BitVec.ofBool p, app_chk := BitVec.ofBool p, grd_chk := BitVec.ofBool p
       spt := (BitVec.ofNat 8 s.val).setWidth 3
       activate_microcode := Scsi.ActivateMicrocode.kActivateAfterHardReset
       uask_sup := 1, v_sup := BitVec.ofBool v, luiclr := 1 } : Scsi.ExtendedInquiryDataVpd).toBytes
      = [0x00, 0x86, 0x3c, 0x00] ++ (le 1 (2 ^ 6 * 2 + 2 ^ 3 * s.val + 7 * p.toNat)
        ++ [0x20] ++ le 1 v.toNat ++ [0x01] ++ zeros 6) := by decide +kernel
  exact key (protection ns) (writeCache ctrl) ⟨s, hs⟩

theorem characteristics_eq :
    Inquiry.blockDeviceCharacteristics.toBytes = [0x00, 0x83, 0x3c, 0x00, 0x01, 0x00, 0x00, 0x00, 0x00] := by
  decide +kernel

theorem blockLimits_eq (ctrl : List Byte) :
    (Inquiry.blockLimits ctrl).toBytes = [0x00, 0xb0, 0x3c, 0x00] ++ blockLimitsBody ctrl := by
  have hm := mdts_eq ctrl
  unfold Inquiry.blockLimits blockLimitsBody maxTransfer
  simp only [dsm_eq, fuses_eq]
  rw [← hm]
  generalize getF ctrl IdentifyControllerData.mdts = m
  generalize deallocates ctrl = d
  generalize fusedCompareWrite ctrl = f
  have key : ∀ (d f : Bool) (m : Fin 18),
      ({ page_code := Scsi.PageCode.kBlockLimitsVpd
         page_length := 0x003c
         max_compare_write_length :=
           if BitVec.ofBool f ≠ 0 then
             (if (Inquiry.maxTransferLength (BitVec.ofNat 8 m.val)).toNat > 255 then 255
               else (Inquiry.maxTransferLength (BitVec.ofNat 8 m.val)).setWidth 8) else 0
         max_transfer_length := htonl (Inquiry.maxTransferLength (BitVec.ofNat 8 m.val))
         max_unmap_lba_count := htonl ((BitVec.ofBool d).setWidth 32)
         max_unmap_block_descriptor_count := htonl (if BitVec.ofBool d ≠ 0 then 0x0100 else 0) } :
        Scsi.BlockLimitsVpd).toBytes = [0x00, 0xb0, 0x3c, 0x00] ++
      ([0x00] ++ le 1 (if f then min (if m.val = 0 then 0 else 2 ^ min m.val 16) 255 else 0) ++ zeros 2
        ++ beBytes 4 (if m.val = 0 then 0 else 2 ^ min m.val 16) ++ zeros 8
        ++ beBytes 4 (if d then 1 else 0) ++ beBytes 4 (if d then 256 else 0) ++ zeros 36) := by decide +kernel
  by_cases hb : m.toNat ≤ 16
  · have := key d f ⟨m.toNat, by omega⟩
    simp only [BitVec.ofNat_toNat, BitVec.setWidth_eq] at this
    exact this
  · have e1 : Inquiry.maxTransferLength m = Inquiry.maxTransferLength (BitVec.ofNat 8 17) := by
      unfold Inquiry.maxTransferLength
      rw [if_pos (by omega), if_pos (by decide)]
    have e2 : (if m.toNat = 0 then 0 else 2 ^ min m.toNat 16) = 2 ^ 16 := by
      rw [if_neg (by omega), Nat.min_eq_right (by omega)]
    rw [e1, e2]
    exact key d f 17

theorem provisioning_eq (ns ctrl : List Byte) :
    (Inquiry.logicalBlockProvisioning ctrl ns).toBytes = provisioningPage ns ctrl ++ zeros 56 := by
  unfold Inquiry.logicalBlockProvisioning provisioningPage provisioningType
  simp only [dsm_eq, thin_eq]
  generalize deallocates ctrl = d
  generalize thin ns = t
  revert d t
  decide +kernel

/-! ## The other answers -/

theorem capacity_eq (ns : List Byte) :
    ({ returned_logical_block_address := htonl (if htolll (getF ns IdentifyNamespace.nsze) > 0xffffffff#64
        then 0xffffffff#32 else (htolll (getF ns IdentifyNamespace.nsze)).setWidth 32)
       block_length := htonl (1#32 <<< (getF ns (IdentifyNamespace.lbads
        (getF ns IdentifyNamespace.flbas_format).toNat)).toNat) } : Scsi.ReadCapacity10Data).toBytes
      = capacity (min (nsze ns) 0xffffffff) (2 ^ lbads ns) := by
  have h1 := nsze_eq ns
  have h2 := lbads_eq ns
  rw [h2, htolll_id]
  have e1 : (if getF ns IdentifyNamespace.nsze > 0xffffffff#64
        then 0xffffffff#32 else (getF ns IdentifyNamespace.nsze).setWidth 32).toNat = min (nsze ns) 0xffffffff := by
    rw [← h1]
    generalize getF ns IdentifyNamespace.nsze = v
    by_cases hv : v > 0xffffffff#64
    · rw [if_pos hv]
      have : v.toNat > 0xffffffff := by simpa [BitVec.lt_def] using hv
      rw [Nat.min_eq_right (by omega)]; rfl
    · rw [if_neg hv]
      have : v.toNat ≤ 0xffffffff := by simpa [BitVec.lt_def] using hv
      rw [Nat.min_eq_left this, BitVec.toNat_setWidth]
      omega
  have e2 : leBytes 4 (1#32 <<< lbads ns).toNat = leBytes 4 (2 ^ lbads ns) := by
    rw [BitVec.toNat_shiftLeft, show (1#32).toNat = 1 from rfl, Nat.shiftLeft_eq, Nat.one_mul,
      show (2 : Nat) ^ 32 = 256 ^ 4 from rfl, leBytes_mod]
  generalize (if getF ns IdentifyNamespace.nsze > 0xffffffff#64
        then 0xffffffff#32 else (getF ns IdentifyNamespace.nsze).setWidth 32) = a at e1
  generalize 1#32 <<< lbads ns = b at e2
  unfold capacity
  simp only [Scsi.ReadCapacity10Data.toBytes]
  have hA := (htonl a).isLt
  have hB := (htonl b).isLt
  have eA : leBytes 4 (htonl a).toNat = beBytes 4 a.toNat := leBytes_bswap_4 a
  have eB : leBytes 4 (htonl b).toNat = beBytes 4 b.toNat := leBytes_bswap_4 b
  have eB' : beBytes 4 b.toNat = beBytes 4 (2 ^ lbads ns) := by unfold beBytes; rw [le_eq, le_eq, e2]
  rw [← e1, ← eA, ← eB', ← eB]
  generalize (htonl a).toNat = x at *
  generalize (htonl b).toNat = y at *
  refine (packBits_groups [[(32, x)], [(32, y)]] ?_).trans ?_
  · simp only [List.forall_mem_cons, List.not_mem_nil, false_implies, implies_true, and_true, packWidth, Nat.reduceAdd,
      Nat.reduceDiv, Nat.reduceMul]
    exact ⟨hA, hB⟩
  · simp only [packWidth, packVal, List.map_cons, List.map_nil, List.flatten_cons, List.flatten_nil,
      List.append_nil, Nat.reduceDiv, Nat.mul_zero, Nat.add_zero]

theorem noSense_eq :
    ({ response_code := Scsi.SenseResponse.kCurrentDescriptorError.setWidth 7
       additional_sense_code := Scsi.Asc.kNoAdditionalSenseInfo } : Scsi.DescriptorFormatSenseData).toBytes
      = noSense true ∧
    ({ response_code := Scsi.SenseResponse.kCurrentFixedError.setWidth 7
       additional_sense_length := 0
       command_specific_info := 0
       additional_sense_code := Scsi.Asc.kNoAdditionalSenseInfo } : Scsi.FixedFormatSenseData).toBytes
      = noSense false := by decide +kernel

theorem notSupported_eq :
    ({ support := 0b001 } : Scsi.OneCommandParamData).toBytes = [0x00, 0x01, 0x00, 0x00] := by decide +kernel

end Scsi2Nvme
