import Verif.Proofs.Wire
import Verif.Proofs.Vpd
import Verif.Proofs.Alloc
/-!
# The helpers of common.h: byte order (C60), spans (C61), page requests (C62)
-/

namespace Scsi2Nvme
open Spec

/-! ## C60 -/

theorem reverse_beBytes (n v : Nat) : (leBytes n v).reverse = beBytes n v := by rw [beBytes, le_eq]

theorem bswap_reverse (n : Nat) (v : BitVec (8 * n)) : (leBytes n (bswap n v).toNat).reverse = le n v.toNat := by
  rw [leBytes_bswap, List.reverse_reverse, le_eq]

/-- **C60.** On machines of either byte order, the object holding the result of `htonll` consists of the bytes of the
value, most significant first. -/
theorem C60_htonll (e : Endian) (v : U64) : memImage e 8 (htonllE e v).toNat = beBytes 8 v.toNat := by
  cases e with
  | little => rw [htonllE_little]; exact leBytes_bswap_8 v
  | big =>
    unfold htonllE
    rw [if_neg (by rw [isLittleEndian_big]; decide)]
    exact reverse_beBytes 8 _

/-- `htols`: least significant first. -/
theorem C60_htols (e : Endian) (v : U16) : memImage e 2 (htolsE e v).toNat = le 2 v.toNat := by
  unfold htolsE
  cases e with
  | little => rw [if_pos isLittleEndian_little]; exact (le_eq _ _).symm
  | big => rw [if_neg (by rw [isLittleEndian_big]; decide)]; exact bswap_reverse 2 v

/-- `htoll` -/
theorem C60_htoll (e : Endian) (v : U32) : memImage e 4 (htollE e v).toNat = le 4 v.toNat := by
  unfold htollE
  cases e with
  | little => rw [if_pos isLittleEndian_little]; exact (le_eq _ _).symm
  | big => rw [if_neg (by rw [isLittleEndian_big]; decide)]; exact bswap_reverse 4 v

/-- `htolll` -/
theorem C60_htolll (e : Endian) (v : U64) : memImage e 8 (htolllE e v).toNat = le 8 v.toNat := by
  unfold htolllE
  cases e with
  | little => rw [if_pos isLittleEndian_little]; exact (le_eq _ _).symm
  | big => rw [if_neg (by rw [isLittleEndian_big]; decide)]; exact bswap_reverse 8 v

/-- All of them are their own inverses, which is why the names `ntohll`, `ltohs`, `ltohl` and `ltohll` are aliases. -/
theorem C60_involutions (e : Endian) : (∀ v, htonllE e (htonllE e v) = v) ∧ (∀ v, htolsE e (htolsE e v) = v) ∧
    (∀ v, htollE e (htollE e v) = v) ∧ (∀ v, htolllE e (htolllE e v) = v) := by
  cases e with
  | little =>
    refine ⟨fun v => ?_, fun v => ?_, fun v => ?_, fun v => ?_⟩
    · rw [htonllE_little, htonllE_little]; exact bswap_bswap 8 v
    · unfold htolsE; rw [if_pos isLittleEndian_little, if_pos isLittleEndian_little]
    · unfold htollE; rw [if_pos isLittleEndian_little, if_pos isLittleEndian_little]
    · unfold htolllE; rw [if_pos isLittleEndian_little, if_pos isLittleEndian_little]
  | big =>
    have hb : ¬ isLittleEndian .big = true := by rw [isLittleEndian_big]; decide
    refine ⟨fun v => ?_, fun v => ?_, fun v => ?_, fun v => ?_⟩
    · unfold htonllE; rw [if_neg hb, if_neg hb]
    · unfold htolsE; rw [if_neg hb, if_neg hb]; exact bswap_bswap 2 v
    · unfold htollE; rw [if_neg hb, if_neg hb]; exact bswap_bswap 4 v
    · unfold htolllE; rw [if_neg hb, if_neg hb]; exact bswap_bswap 8 v

/-- A value for which the two byte orders differ. -/
example : memImage .little 8 (htonllE .little 0x0102030405060708#64).toNat = [1, 2, 3, 4, 5, 6, 7, 8] := by decide +kernel

/-! ## C61 -/

/-- **C61.** The bytes of a subspan are bytes of the span it was taken from, beginning at the given position; its
length is what is left, or the given length if this is smaller (0 if nothing is left). -/
theorem C61_subspan (s : Span) (pos : Nat) (len : Option Nat) :
    let t := s.subspan pos len
    (∀ i, i < t.len → t.ptr + i = s.ptr + (pos + i) ∧ pos + i < s.len) ∧
      t.len = match len with
        | none => s.len - pos
        | some l => min l (s.len - pos) := by
  simp only
  unfold Span.subspan
  split
  · refine ⟨fun i hi => absurd hi (Nat.not_lt_zero i), ?_⟩
    have : s.len - pos = 0 := by omega
    rw [this]
    cases len <;> simp
  · rw [sizeSub_le (by omega)]
    cases len with
    | none => exact ⟨fun i hi => ⟨by simp only; omega, by simp only at hi; omega⟩, rfl⟩
    | some l =>
      simp only
      split
      · exact ⟨fun i hi => ⟨by simp only; omega, by simp only at hi; omega⟩, by simp only; omega⟩
      · exact ⟨fun i hi => ⟨by simp only; omega, by simp only at hi; omega⟩, by simp only; omega⟩

/-- **C61.** `ReadValue` on a span with contents `bs` succeeds exactly if the span is not shorter than the type, and
then returns the value of the leading bytes; it changes nothing. -/
theorem C61_read_value (size : Nat) (dec : List Byte → α) (s : Span) (w : World) (bs : List Byte)
    (h : w.mem.read s.ptr s.len = some bs) :
    ReadValue size dec s w = .ok (if size ≤ s.len then some (dec (bs.take size)) else none, w) := by
  unfold ReadValue
  split
  · rw [if_neg (by omega)]; rfl
  · rw [if_pos (by omega)]
    have hr : w.mem.read s.ptr size = some (bs.take size) := by
      have h1 := read_eq_some.mp h
      refine read_eq_some.mpr ⟨by rw [List.length_take]; omega, fun i hi => ?_⟩
      rw [List.getElem?_take, if_pos hi]
      exact h1.2 i (by omega)
    simp only [M.bind_run, load_ok hr]
    rfl

/-- **C61.** `WriteValue` of `n` bytes of a value into an accessible span succeeds exactly if neither the span nor the
value is shorter.  If so, the `n` leading bytes of the span become those of the value, and nothing else changes;
otherwise nothing changes. -/
theorem C61_write_value (bytes : List Byte) (s : Span) (n : Nat) (w : World) (h : accessible w.mem s) :
    ∃ w', WriteValue bytes s n w = .ok (decide (n ≤ s.len ∧ n ≤ bytes.length), w') ∧ w'.trace = w.trace ∧
      ∀ a, w'.mem a = if (n ≤ s.len ∧ n ≤ bytes.length) ∧ s.ptr ≤ a ∧ a < s.ptr + n then bytes[a - s.ptr]? else w.mem a := by
  by_cases hc : n ≤ s.len ∧ n ≤ bytes.length
  · have hm : w.mem.mapped s.ptr n := mapped_iff.mpr fun i hi => h i (by omega)
    refine ⟨{ w with mem := w.mem.put s.ptr (bytes.take n) }, by rw [decide_eq_true hc]; exact WriteValue_true hc.1 hc.2 hm, rfl, fun a => ?_⟩
    have hl : (bytes.take n).length = n := by rw [List.length_take]; omega
    by_cases ha : s.ptr ≤ a ∧ a < s.ptr + n
    · rw [if_pos ⟨hc, ha⟩]
      simp only
      have e : a = s.ptr + (a - s.ptr) := by omega
      rw [e, put_inside (by omega), Nat.add_sub_cancel_left, List.getElem?_take, if_pos (by omega)]
    · rw [if_neg fun hh => ha hh.2]
      simp only
      exact put_outside (by omega)
  · refine ⟨w, by rw [decide_eq_false hc]; exact WriteValue_false (by omega), rfl, fun a => ?_⟩
    rw [if_neg fun hh => hc hh.1]

/-- An accessible span. -/
example : accessible (fun a => if a < 100 then some 7 else none) ⟨10, 20⟩ := by
  intro i hi
  have hi : i < 20 := hi
  simp only
  rw [if_pos (by omega)]
  rfl

/-! ## C62 -/

/-- **C62.** `SetPages` fails without calling the allocator and without changing the record if it would overwrite the
address of pages of a kind it is asked for. -/
theorem C62_refuses (E : Env) (a : Allocation) (ps : U32) (n m : U16) (w : World)
    (h : (n ≠ 0 ∧ a.data_addr ≠ 0) ∨ (m ≠ 0 ∧ a.mdata_addr ≠ 0)) :
    a.SetPages E ps n m w = .ok ((.kFailure, a), w) := by
  unfold Allocation.SetPages
  rw [if_pos h]
  rfl

/-- **C62.** Otherwise it requests both kinds of pages, first data and then metadata, records the addresses and the
counts, and succeeds exactly if no request for at least one page was answered with 0. -/
theorem C62_requests (E : Env) (a : Allocation) (ps : U32) (n m : U16) (w : World) (f : World → U32 → U16 → U64 × Mem)
    (hf : E.allocCb = some f)
    (h : ¬ ((n ≠ 0 ∧ a.data_addr ≠ 0) ∨ (m ≠ 0 ∧ a.mdata_addr ≠ 0))) :
    let r1 := f w ps n
    let r2 := f ⟨r1.2, .alloc ps n r1.1 :: w.trace⟩ ps m
    a.SetPages E ps n m w = .ok
      ((if (n ≠ 0 → r1.1 ≠ 0) ∧ (m ≠ 0 → r2.1 ≠ 0) then .kSuccess else .kFailure, ⟨r1.1, n, r2.1, m⟩),
        ⟨r2.2, .alloc ps m r2.1 :: .alloc ps n r1.1 :: w.trace⟩) := by
  simp only
  unfold Allocation.SetPages
  rw [if_neg h]
  simp only [M.bind_run, AllocPages, hf]
  generalize (f w ps n) = r1
  generalize f _ ps m = r2
  by_cases hc : (n ≠ 0 ∧ r1.1 = 0) ∨ (m ≠ 0 ∧ r2.1 = 0)
  · rw [if_pos hc, if_neg (by rintro ⟨h1, h2⟩; rcases hc with h | h; exact h1 h.1 h.2; exact h2 h.1 h.2)]
    rfl
  · rw [if_neg hc, if_pos ⟨fun h1 h2 => hc (Or.inl ⟨h1, h2⟩), fun h1 h2 => hc (Or.inr ⟨h1, h2⟩)⟩]
    rfl

/-- **C62.** Without a callback every request counts as answered with 0. -/
theorem C62_no_callback (E : Env) (a : Allocation) (ps : U32) (n m : U16) (w : World) (hf : E.allocCb = none)
    (h : ¬ ((n ≠ 0 ∧ a.data_addr ≠ 0) ∨ (m ≠ 0 ∧ a.mdata_addr ≠ 0))) :
    a.SetPages E ps n m w = .ok ((if n = 0 ∧ m = 0 then .kSuccess else .kFailure, ⟨0, n, 0, m⟩), w) := by
  unfold Allocation.SetPages
  rw [if_neg h]
  simp only [M.bind_run, AllocPages, hf]
  by_cases hc : n = 0 ∧ m = 0
  · rw [if_neg (by rintro (⟨h, -⟩ | ⟨h, -⟩); exact h hc.1; exact h hc.2), if_pos hc]
    rfl
  · rw [if_pos (by by_cases h0 : n = 0; exact Or.inr ⟨fun h1 => hc ⟨h0, h1⟩, trivial⟩; exact Or.inl ⟨h0, trivial⟩), if_neg hc]
    rfl

/-- A free record, and one which holds data pages. -/
example : ¬ (((1 : U16) ≠ 0 ∧ (⟨0, 0, 0, 0⟩ : Allocation).data_addr ≠ 0) ∨ ((0 : U16) ≠ 0 ∧ (⟨0, 0, 0, 0⟩ : Allocation).mdata_addr ≠ 0)) ∧
    (((1 : U16) ≠ 0 ∧ (⟨0x1000, 1, 0, 0⟩ : Allocation).data_addr ≠ 0) ∨
      ((0 : U16) ≠ 0 ∧ (⟨0x1000, 1, 0, 0⟩ : Allocation).mdata_addr ≠ 0)) := by decide

end Scsi2Nvme
