import Verif.Model.Common
/-!
# Lemmas about byte strings, bit-fields and byte order
-/

namespace Scsi2Nvme

theorem leNat_lt (bs : List Byte) : leNat bs < 256 ^ bs.length := by
  induction bs with
  | nil => simp [leNat]
  | cons b bs ih =>
    have hb := b.isLt
    simp only [leNat, List.length_cons, Nat.pow_succ]
    omega

@[simp] theorem leBytes_length (k n : Nat) : (leBytes k n).length = k := by
  induction k generalizing n with
  | zero => rfl
  | succ k ih => simp [leBytes, ih]

theorem leNat_leBytes (k n : Nat) : leNat (leBytes k n) = n % 256 ^ k := by
  induction k generalizing n with
  | zero => simp [leBytes, leNat, Nat.mod_one]
  | succ k ih =>
    simp only [leBytes, leNat, ih, BitVec.toNat_ofNat]
    rw [Nat.pow_succ 256 k, Nat.mul_comm (256 ^ k) 256, Nat.mod_mul]

theorem leBytes_leNat (bs : List Byte) : leBytes bs.length (leNat bs) = bs := by
  induction bs with
  | nil => rfl
  | cons b bs ih =>
    have hb := b.isLt
    have h1 : (b.toNat + 256 * leNat bs) / 256 = leNat bs := by omega
    simp only [List.length_cons, leBytes, leNat, h1, ih, List.cons.injEq, and_true]
    apply BitVec.eq_of_toNat_eq
    simp only [BitVec.toNat_ofNat]
    omega

theorem leBytes_leNat' (k : Nat) (bs : List Byte) (h : bs.length = k) : leBytes k (leNat bs) = bs := by
  subst h; exact leBytes_leNat bs

theorem leBytes_mod (k n : Nat) : leBytes k (n % 256 ^ k) = leBytes k n := by
  have := leBytes_leNat' k (leBytes k n) (leBytes_length k n)
  rwa [leNat_leBytes] at this

theorem leNat_append (a b : List Byte) : leNat (a ++ b) = leNat a + 256 ^ a.length * leNat b := by
  induction a with
  | nil => simp [leNat]
  | cons x xs ih =>
    simp only [List.cons_append, leNat, ih, List.length_cons, Nat.pow_succ]
    rw [Nat.mul_add, ← Nat.add_assoc, ← Nat.mul_assoc, Nat.mul_comm 256 (256 ^ xs.length)]

theorem leNat_drop (bs : List Byte) (k : Nat) : leNat (bs.drop k) = leNat bs / 256 ^ k := by
  induction k generalizing bs with
  | zero => simp
  | succ k ih =>
    cases bs with
    | nil => simp [leNat]
    | cons b bs =>
      have hb := b.isLt
      simp only [List.drop_succ_cons, ih, leNat, Nat.pow_succ]
      rw [Nat.mul_comm (256 ^ k) 256, ← Nat.div_div_eq_div_mul]
      congr 1; omega

theorem leNat_take (bs : List Byte) (k : Nat) : leNat (bs.take k) = leNat bs % 256 ^ k := by
  induction k generalizing bs with
  | zero => simp [leNat, Nat.mod_one]
  | succ k ih =>
    cases bs with
    | nil => simp [leNat]
    | cons b bs =>
      have hb := b.isLt
      simp only [List.take_succ_cons, ih, leNat]
      rw [Nat.pow_succ 256 k, Nat.mul_comm (256 ^ k) 256, Nat.mod_mul,
        show (b.toNat + 256 * leNat bs) % 256 = b.toNat by omega,
        show (b.toNat + 256 * leNat bs) / 256 = leNat bs by omega]

theorem leNat_slice (bs : List Byte) (k n : Nat) :
    leNat ((bs.drop k).take n) = leNat bs / 256 ^ k % 256 ^ n := by
  rw [leNat_take, leNat_drop]

theorem leNat_getD (bs : List Byte) (k : Nat) : (bs.getD k 0).toNat = leNat bs / 256 ^ k % 256 := by
  rw [← leNat_drop]
  have : bs.getD k 0 = (bs.drop k).headD 0 := by
    simp [List.headD_eq_head?_getD, List.head?_drop]
  rw [this]
  cases bs.drop k with
  | nil => simp [leNat]
  | cons b _ => have := b.isLt; simp only [List.headD_cons, leNat]; omega

theorem leBytes_append (a b n : Nat) : leBytes (a + b) n = leBytes a n ++ leBytes b (n / 256 ^ a) := by
  induction a generalizing n with
  | zero => simp [leBytes]
  | succ a ih =>
    rw [show a + 1 + b = (a + b) + 1 by omega]
    simp only [leBytes, ih, List.cons_append, Nat.div_div_eq_div_mul, Nat.pow_succ]
    rw [Nat.mul_comm 256]

theorem leBytes_drop (k n j : Nat) : (leBytes k n).drop j = leBytes (k - j) (n / 256 ^ j) := by
  by_cases h : j ≤ k
  · obtain ⟨d, rfl⟩ := Nat.exists_eq_add_of_le h
    rw [leBytes_append, List.drop_left' (by simp)]
    congr 1; omega
  · rw [List.drop_of_length_le (by simp; omega), show k - j = 0 by omega]; rfl

theorem leBytes_take (k n j : Nat) (h : j ≤ k) : (leBytes k n).take j = leBytes j n := by
  obtain ⟨d, rfl⟩ := Nat.exists_eq_add_of_le h
  rw [leBytes_append, List.take_left' (by simp)]

theorem leNat_inj {a b : List Byte} (hl : a.length = b.length) (h : leNat a = leNat b) : a = b := by
  rw [← leBytes_leNat a, ← leBytes_leNat b, hl, h]

/-! ## Bit-fields -/

theorem getF_toNat (bs : List Byte) (f : Fld w) : (getF bs f).toNat = leNat bs / 2 ^ f.off % 2 ^ w := by
  simp [getF]

theorem two_pow_eight_mul (k : Nat) : 2 ^ (8 * k) = 256 ^ k := by
  rw [Nat.pow_mul]

/-- A byte-aligned field is the little endian number at its position. -/
theorem getF_aligned (bs : List Byte) (k n : Nat) :
    (getF bs ⟨8 * k⟩ : BitVec (8 * n)) = BitVec.ofNat (8 * n) (leNat ((bs.drop k).take n)) := by
  apply BitVec.eq_of_toNat_eq
  simp only [getF, BitVec.toNat_ofNat, leNat_slice, two_pow_eight_mul, Nat.mod_mod]

/-- A field inside one byte. -/
theorem getF_sub (bs : List Byte) (k r w : Nat) (h : r + w ≤ 8) :
    (getF bs ⟨8 * k + r⟩ : BitVec w) = BitVec.ofNat w ((bs.getD k 0).toNat / 2 ^ r) := by
  apply BitVec.eq_of_toNat_eq
  simp only [getF, BitVec.toNat_ofNat, leNat_getD, Nat.pow_add, two_pow_eight_mul,
    ← Nat.div_div_eq_div_mul]
  generalize leNat bs / 256 ^ k = x
  obtain ⟨d, hd⟩ := Nat.exists_eq_add_of_le h
  have h256 : (256 : Nat) = 2 ^ r * 2 ^ (w + d) := by
    rw [← Nat.pow_add, show r + (w + d) = 8 by omega]
  rw [h256, Nat.mod_mul_right_div_self, Nat.pow_add, Nat.mod_mul_right_mod]

/-! ## Packing -/

/-- The number formed by consecutive bit-fields. -/
def packVal : List (Nat × Nat) → Nat
  | [] => 0
  | (w, v) :: fs => v + 2 ^ w * packVal fs

/-- Total width. -/
def packWidth : List (Nat × Nat) → Nat
  | [] => 0
  | (w, _) :: fs => w + packWidth fs

theorem packBits_eq (fs : List (Nat × Nat)) (acc nb : Nat) (hnb : nb < 8) :
    packBits acc nb fs = leBytes ((nb + packWidth fs) / 8) (acc + 2 ^ nb * packVal fs) := by
  induction fs generalizing acc nb with
  | nil => simp [packBits, packWidth, packVal, leBytes, Nat.div_eq_of_lt hnb]
  | cons f fs ih =>
    obtain ⟨w, v⟩ := f
    simp only [packBits, packWidth, packVal]
    rw [ih _ _ (Nat.mod_lt _ (by omega))]
    have e1 : (nb + (w + packWidth fs)) / 8
        = (nb + w) / 8 + ((nb + w) % 8 + packWidth fs) / 8 := by omega
    rw [e1, leBytes_append]
    have e2 : acc + 2 ^ nb * (v + 2 ^ w * packVal fs)
        = (acc + v * 2 ^ nb) + 256 ^ ((nb + w) / 8) * (2 ^ ((nb + w) % 8) * packVal fs) := by
      rw [← two_pow_eight_mul, ← Nat.mul_assoc, ← Nat.pow_add, Nat.mul_add, ← Nat.mul_assoc,
        ← Nat.pow_add, show 8 * ((nb + w) / 8) + (nb + w) % 8 = nb + w by omega, Nat.mul_comm v,
        Nat.add_assoc]
    rw [e2]
    have hp : 0 < 256 ^ ((nb + w) / 8) := Nat.pos_of_ne_zero (by simp)
    congr 1
    · rw [← leBytes_mod _ (acc + v * 2 ^ nb + _), Nat.add_mul_mod_self_left, leBytes_mod]
    · rw [Nat.add_mul_div_left _ _ hp]

theorem packBits_zero (fs : List (Nat × Nat)) :
    packBits 0 0 fs = leBytes (packWidth fs / 8) (packVal fs) := by
  rw [packBits_eq _ _ _ (by omega)]; simp

theorem leNat_packBits (fs : List (Nat × Nat)) :
    leNat (packBits 0 0 fs) = packVal fs % 256 ^ (packWidth fs / 8) := by
  rw [packBits_zero, leNat_leBytes]

theorem packBits_length (fs : List (Nat × Nat)) : (packBits 0 0 fs).length = packWidth fs / 8 := by
  rw [packBits_zero, leBytes_length]

theorem packVal_lt (fs : List (Nat × Nat)) (h : ∀ p ∈ fs, p.2 < 2 ^ p.1) :
    packVal fs < 2 ^ packWidth fs := by
  induction fs with
  | nil => simp [packVal, packWidth]
  | cons f fs ih =>
    obtain ⟨w, v⟩ := f
    have hv := h (w, v) (by simp)
    have := ih (fun p hp => h p (by simp [hp]))
    simp only [packVal, packWidth, Nat.pow_add]
    simp only at hv
    calc v + 2 ^ w * packVal fs < 2 ^ w + 2 ^ w * packVal fs := by omega
      _ = 2 ^ w * (packVal fs + 1) := by rw [Nat.mul_add, Nat.mul_one, Nat.add_comm]
      _ ≤ 2 ^ w * 2 ^ packWidth fs := Nat.mul_le_mul_left _ this

/-- The value of a field can be read back from the packed number: prefix `fs`, field `(w, v)`. -/
theorem packVal_field (fs gs : List (Nat × Nat)) (w v : Nat) (hv : v < 2 ^ w)
    (h : ∀ p ∈ fs, p.2 < 2 ^ p.1) :
    packVal (fs ++ (w, v) :: gs) / 2 ^ packWidth fs % 2 ^ w = v := by
  induction fs with
  | nil =>
    simp only [List.nil_append, packVal, packWidth, Nat.pow_zero, Nat.div_one,
      Nat.add_mul_mod_self_left, Nat.mod_eq_of_lt hv]
  | cons f fs ih =>
    obtain ⟨w', v'⟩ := f
    have hv' := h (w', v') (by simp)
    simp only at hv'
    simp only [List.cons_append, packVal, packWidth, Nat.pow_add, ← Nat.div_div_eq_div_mul]
    rw [Nat.add_mul_div_left _ _ (Nat.pow_pos (by omega)), Nat.div_eq_of_lt hv', Nat.zero_add]
    exact ih (fun p hp => h p (by simp [hp]))

/-- Cutting a number into bit-fields. -/
def splitBits (off n : Nat) : List Nat → List (Nat × Nat)
  | [] => []
  | w :: ws => (w, n / 2 ^ off % 2 ^ w) :: splitBits (off + w) n ws

theorem packWidth_splitBits (off n : Nat) (ws : List Nat) : packWidth (splitBits off n ws) = ws.sum := by
  induction ws generalizing off with
  | nil => rfl
  | cons w ws ih => simp [splitBits, packWidth, ih]

theorem packVal_splitBits (off n : Nat) (ws : List Nat) :
    packVal (splitBits off n ws) = n / 2 ^ off % 2 ^ ws.sum := by
  induction ws generalizing off with
  | nil => simp [splitBits, packVal, Nat.mod_one]
  | cons w ws ih =>
    simp only [splitBits, packVal, ih, List.sum_cons]
    rw [Nat.pow_add 2 w, Nat.mod_mul, Nat.pow_add 2 off, ← Nat.div_div_eq_div_mul]

/-- Packing the fields cut out of a byte string gives the byte string back. -/
theorem packBits_splitBits (bs : List Byte) (ws : List Nat) (h : ws.sum = 8 * bs.length) :
    packBits 0 0 (splitBits 0 (leNat bs) ws) = bs := by
  rw [packBits_zero, packWidth_splitBits, packVal_splitBits, h]
  have hlt := leNat_lt bs
  rw [two_pow_eight_mul, Nat.pow_zero, Nat.div_one, Nat.mod_eq_of_lt hlt,
    show 8 * bs.length / 8 = bs.length by omega, leBytes_leNat]

/-! ## Byte order -/

theorem bswap_ofNat (n : Nat) (bs : List Byte) (h : bs.length = n) :
    bswap n (BitVec.ofNat (8 * n) (leNat bs)) = BitVec.ofNat (8 * n) (leNat bs.reverse) := by
  unfold bswap
  have hlt := leNat_lt bs
  rw [h] at hlt
  rw [BitVec.toNat_ofNat, two_pow_eight_mul, Nat.mod_eq_of_lt hlt, leBytes_leNat' n bs h]

theorem bswap_toNat (n : Nat) (v : BitVec (8 * n)) :
    (bswap n v).toNat = leNat (leBytes n v.toNat).reverse := by
  unfold bswap
  rw [BitVec.toNat_ofNat, Nat.mod_eq_of_lt]
  have := leNat_lt (leBytes n v.toNat).reverse
  simpa [two_pow_eight_mul] using this

theorem leBytes_bswap (n : Nat) (v : BitVec (8 * n)) :
    leBytes n (bswap n v).toNat = (leBytes n v.toNat).reverse := by
  rw [bswap_toNat]
  exact leBytes_leNat' n _ (by simp)

theorem bswap_bswap (n : Nat) (v : BitVec (8 * n)) : bswap n (bswap n v) = v := by
  apply BitVec.eq_of_toNat_eq
  rw [bswap_toNat, leBytes_bswap, List.reverse_reverse, leNat_leBytes, Nat.mod_eq_of_lt]
  have := v.isLt
  rwa [two_pow_eight_mul] at this

end Scsi2Nvme
