import Verif.Proofs.Cases2
import Verif.Spec.Unmap
/-!
# The UNMAP translator
-/

namespace Scsi2Nvme
open Spec

theorem Span.subspan_none (s : Span) (k : Nat) (h : k < s.len) : s.subspan k = ⟨s.ptr + k, s.len - k⟩ := by
  unfold Span.subspan
  rw [if_neg (by omega), sizeSub_le (by omega)]

theorem ReadValue_run {α : Type} {size : Nat} {dec : List Byte → α} {s : Span} {w : World} {bs : List Byte}
    (h1 : size ≤ s.len) (h : w.mem.read s.ptr size = some bs) :
    ReadValue size dec s w = .ok (some (dec bs), w) := by
  unfold ReadValue
  rw [if_neg (by omega)]
  simp [load_ok h]

theorem ReadValue_short {α : Type} {size : Nat} {dec : List Byte → α} {s : Span} {w : World}
    (h1 : s.len < size) : ReadValue size dec s w = .ok (none, w) := by
  unfold ReadValue
  rw [if_pos h1]; rfl

theorem ReadValue_inv {α : Type} {size : Nat} {dec : List Byte → α} {s : Span} {w w' : World} {r : Option α}
    (h : ReadValue size dec s w = .ok (r, w')) : w' = w := by
  unfold ReadValue at h
  split at h
  · simp at h; exact h.2.symm
  · simp only [M.bind_run] at h
    split at h
    · simp at h
    · rename_i a w1 hl
      obtain ⟨rfl, -⟩ := load_inv hl
      simp at h; exact h.2.symm

/-- The descriptors in a byte string. -/
def descs : Nat → List Byte → List Scsi.UnmapBlockDescriptor
  | 0, _ => []
  | n + 1, bs => Scsi.UnmapBlockDescriptor.ofBytes (bs.take 16) :: descs n (bs.drop 16)

theorem descs_length (n : Nat) (bs : List Byte) : (descs n bs).length = n := by
  induction n generalizing bs with
  | zero => rfl
  | succ n ih => simp [descs, ih]

theorem descs_get (n : Nat) (bs : List Byte) (i : Nat) (h : i < n) :
    (descs n bs)[i]'(by rw [descs_length]; exact h)
      = Scsi.UnmapBlockDescriptor.ofBytes ((bs.drop (16 * i)).take 16) := by
  induction n generalizing bs i with
  | zero => omega
  | succ n ih =>
    cases i with
    | zero => simp [descs]
    | succ i =>
      simp only [descs, List.getElem_cons_succ]
      rw [ih (bs.drop 16) i (by omega), List.drop_drop, show 16 + 16 * i = 16 * (i + 1) by omega]

theorem readDescriptors_run (n : Nat) (s : Span) (w : World) (bs : List Byte) (hl : 16 * n ≤ s.len)
    (h : w.mem.read s.ptr (16 * n) = some bs) :
    Unmap.readDescriptors n s w = .ok (some (descs n bs), w) := by
  induction n generalizing s bs with
  | zero => rfl
  | succ n ih =>
    unfold Unmap.readDescriptors
    have h0 := read_sub h 0 16 (by omega)
    simp only [Nat.add_zero, List.drop_zero] at h0
    have hlen := read_length h
    simp only [M.bind_run]
    rw [ReadValue_run (by simp [Scsi.UnmapBlockDescriptor.size]; omega) (by exact h0)]
    simp only [M.bind_run]
    cases n with
    | zero => simp [Unmap.readDescriptors, descs]
    | succ n =>
      have h1 := read_sub h 16 (16 * (n + 1)) (by omega)
      rw [List.take_of_length_le (by simp; omega)] at h1
      have hs : s.subspan Scsi.UnmapBlockDescriptor.size = ⟨s.ptr + 16, s.len - 16⟩ := by
        rw [Span.subspan_none _ _ (by simp [Scsi.UnmapBlockDescriptor.size]; omega)]; rfl
      rw [hs, ih ⟨s.ptr + 16, s.len - 16⟩ (bs.drop 16) (by simp only; omega) h1]
      rfl

theorem readDescriptors_inv (n : Nat) (s : Span) (w w' : World) (r)
    (h : Unmap.readDescriptors n s w = .ok (r, w')) :
    w' = w ∧ (∀ ds, r = some ds → ds.length = n) := by
  induction n generalizing s r w' with
  | zero => simp [Unmap.readDescriptors] at h; simp [← h.1, h.2]
  | succ n ih =>
    unfold Unmap.readDescriptors at h
    simp only [M.bind_run] at h
    split at h
    · simp at h
    · rename_i a w1 hr
      have := ReadValue_inv hr
      subst this
      split at h
      · simp at h; simp [← h.1, h.2]
      · simp only [M.bind_run] at h
        split at h
        · simp at h
        · rename_i b w2 hr2
          obtain ⟨rfl, hds⟩ := ih _ _ _ hr2
          split at h
          · simp at h; simp [← h.1, h.2]
          · rename_i ds
            simp at h
            refine ⟨h.2.symm, fun ds' h' => ?_⟩
            rw [← h.1] at h'
            simp at h'
            rw [← h']
            simp [hds ds rfl]

/-- Memory after the ranges were written at `A`. -/
def putRanges (A : Nat) : List Scsi.UnmapBlockDescriptor → Mem → Mem
  | [], m => m
  | d :: ds, m => putRanges (A + 16) ds
      ((m.put (A + 8) (leBytes 8 (bswap_64 d.logical_block_addr).toNat)).put (A + 4)
        (leBytes 4 (bswap_32 d.logical_block_count).toNat))

theorem putRanges_outside (ds : List Scsi.UnmapBlockDescriptor) (A : Nat) (m : Mem) (a : Nat)
    (h : a < A ∨ A + 16 * ds.length ≤ a) : putRanges A ds m a = m a := by
  induction ds generalizing A m with
  | nil => rfl
  | cons d ds ih =>
    simp only [List.length_cons] at h
    simp only [putRanges]
    rw [ih (A + 16) _ (by omega), put_outside (by simp; omega), put_outside (by simp; omega)]

theorem mapped_put {m : Mem} {p q n : Nat} {bs : List Byte} (h : m.mapped q bs.length)
    (hm : m.mapped p n) : (m.put q bs).mapped p n := by
  rw [mapped_iff] at hm ⊢
  intro i hi
  rw [put_isSome h]; exact hm i hi

theorem mapped_sub {m : Mem} {p n q k : Nat} (h : m.mapped p n) (h1 : p ≤ q) (h2 : q + k ≤ p + n) :
    m.mapped q k := by
  rw [mapped_iff] at h ⊢
  intro i hi
  have := h (q + i - p) (by omega)
  rwa [show p + (q + i - p) = q + i by omega] at this

theorem writeRanges_run (ds : List Scsi.UnmapBlockDescriptor) (s : Span) (w : World)
    (hl : 16 * ds.length ≤ s.len) (hA : s.ptr ≠ 0) (hm : w.mem.mapped s.ptr (16 * ds.length)) :
    Unmap.writeRanges ds s w = .ok (true, { w with mem := putRanges s.ptr ds w.mem }) := by
  induction ds generalizing s w with
  | nil => rfl
  | cons d ds ih =>
    simp only [List.length_cons] at hl hm
    unfold Unmap.writeRanges
    have hc : SafePointerCast Nvme.DatasetManagmentRange.size s = s.ptr := by
      unfold SafePointerCast
      rw [if_neg (by simp [Nvme.DatasetManagmentRange.size]; omega)]
    have m8 : w.mem.mapped (s.ptr + 8) (leBytes 8 (bswap_64 d.logical_block_addr).toNat).length :=
      mapped_sub hm (by omega) (by simp; omega)
    have m4 : (w.mem.put (s.ptr + 8) (leBytes 8 (bswap_64 d.logical_block_addr).toNat)).mapped (s.ptr + 4)
        (leBytes 4 (bswap_32 d.logical_block_count).toNat).length :=
      mapped_put m8 (mapped_sub hm (by omega) (by simp; omega))
    simp only [hc, hA, if_false, M.bind_run]
    rw [store_ok m8]
    simp only
    rw [store_ok m4]
    simp only
    cases ds with
    | nil => rfl
    | cons d' ds =>
      simp only [List.length_cons] at hl hm ih
      have hs : s.subspan Nvme.DatasetManagmentRange.size = ⟨s.ptr + 16, s.len - 16⟩ := by
        rw [Span.subspan_none _ _ (by simp [Nvme.DatasetManagmentRange.size]; omega)]; rfl
      rw [hs, ih ⟨s.ptr + 16, s.len - 16⟩ _ (by simp only; omega) (by simp only; omega)
        (mapped_put m4 (mapped_put m8 (mapped_sub hm (by simp) (by simp only; omega))))]
      rfl

theorem writeRanges_inv (ds : List Scsi.UnmapBlockDescriptor) (s : Span) (w w' : World) (b : Bool)
    (h : Unmap.writeRanges ds s w = .ok (b, w')) (hl : 16 * ds.length ≤ s.len) (hA : s.ptr ≠ 0) :
    b = true ∧ w' = { w with mem := putRanges s.ptr ds w.mem } ∧
      (∀ a, (w'.mem a).isSome = (w.mem a).isSome) := by
  induction ds generalizing s w with
  | nil =>
    simp [Unmap.writeRanges] at h
    obtain ⟨rfl, rfl⟩ := h
    exact ⟨rfl, rfl, fun _ => rfl⟩
  | cons d ds ih =>
    simp only [List.length_cons] at hl
    unfold Unmap.writeRanges at h
    have hc : SafePointerCast Nvme.DatasetManagmentRange.size s = s.ptr := by
      unfold SafePointerCast
      rw [if_neg (by simp [Nvme.DatasetManagmentRange.size]; omega)]
    simp only [hc, hA, if_false, M.bind_run] at h
    split at h
    · simp at h
    · rename_i u w1 h1
      obtain ⟨rfl, m1⟩ := store_inv h1
      split at h
      · simp at h
      · rename_i u w2 h2
        obtain ⟨rfl, m2⟩ := store_inv h2
        cases ds with
        | nil =>
          simp only [Unmap.writeRanges, M.pure_run, Except.ok.injEq, Prod.mk.injEq] at h
          obtain ⟨rfl, rfl⟩ := h
          refine ⟨rfl, rfl, fun a => ?_⟩
          exact (put_isSome m2).trans (put_isSome m1)
        | cons d' ds =>
          simp only [List.length_cons] at hl ih
          have hs : s.subspan Nvme.DatasetManagmentRange.size = ⟨s.ptr + 16, s.len - 16⟩ := by
            rw [Span.subspan_none _ _ (by simp [Nvme.DatasetManagmentRange.size]; omega)]; rfl
          rw [hs] at h
          obtain ⟨hb, hw, hi⟩ := ih ⟨s.ptr + 16, s.len - 16⟩ _ h (by simp only; omega) (by simp only; omega)
          refine ⟨hb, hw, fun a => ?_⟩
          rw [hi a]
          exact (put_isSome m2).trans (put_isSome m1)

/-- The ranges found in memory afterwards. -/
theorem putRanges_at (ds : List Scsi.UnmapBlockDescriptor) (A : Nat) (m : Mem) (i : Nat)
    (h : i < ds.length) :
    (putRanges A ds m).read (A + 16 * i + 4) 4
        = some (leBytes 4 (bswap_32 ds[i].logical_block_count).toNat) ∧
    (putRanges A ds m).read (A + 16 * i + 8) 8
        = some (leBytes 8 (bswap_64 ds[i].logical_block_addr).toNat) := by
  induction ds generalizing A m i with
  | nil => simp at h
  | cons d ds ih =>
    cases i with
    | zero =>
      simp only [putRanges, Nat.mul_zero, Nat.add_zero, List.getElem_cons_zero]
      constructor
      · rw [read_congr (m := ((m.put (A + 8) (leBytes 8 (bswap_64 d.logical_block_addr).toNat)).put (A + 4)
          (leBytes 4 (bswap_32 d.logical_block_count).toNat)))
          (fun j hj => putRanges_outside _ _ _ _ (by omega))]
        have := @read_put_self (m.put (A + 8) (leBytes 8 (bswap_64 d.logical_block_addr).toNat)) (A + 4)
          (leBytes 4 (bswap_32 d.logical_block_count).toNat)
        rwa [leBytes_length] at this
      · rw [read_congr (m := ((m.put (A + 8) (leBytes 8 (bswap_64 d.logical_block_addr).toNat)).put (A + 4)
          (leBytes 4 (bswap_32 d.logical_block_count).toNat)))
          (fun j hj => putRanges_outside _ _ _ _ (Or.inl (by omega)))]
        rw [read_congr (m := (m.put (A + 8) (leBytes 8 (bswap_64 d.logical_block_addr).toNat)))
          (fun j hj => put_outside (Or.inr (by rw [leBytes_length]; omega)))]
        have := @read_put_self m (A + 8) (leBytes 8 (bswap_64 d.logical_block_addr).toNat)
        rwa [leBytes_length] at this
    | succ i =>
      simp only [putRanges, List.getElem_cons_succ]
      rw [show A + 16 * (i + 1) = A + 16 + 16 * i by omega]
      exact ih (A + 16) _ i (by simpa using h)

/-- The context attribute bytes are left as they were. -/
theorem putRanges_context (ds : List Scsi.UnmapBlockDescriptor) (A : Nat) (m : Mem) (i j : Nat)
    (h : i < ds.length) (hj : j < 4) : putRanges A ds m (A + 16 * i + j) = m (A + 16 * i + j) := by
  induction ds generalizing A m i with
  | nil => simp at h
  | cons d ds ih =>
    cases i with
    | zero =>
      simp only [putRanges]
      rw [putRanges_outside _ _ _ _ (by omega), put_outside (by simp; omega), put_outside (by simp; omega)]
    | succ i =>
      simp only [putRanges]
      have := ih (A + 16) ((m.put (A + 8) (leBytes 8 (bswap_64 d.logical_block_addr).toNat)).put (A + 4)
        (leBytes 4 (bswap_32 d.logical_block_count).toNat)) i (by simpa using h)
      rw [show A + 16 * (i + 1) + j = A + 16 + 16 * i + j by omega, this,
        put_outside (by simp; omega), put_outside (by simp; omega)]

/-! ## The whole translator -/

theorem bit_false_iff (cdb : List Byte) (N o k r : Nat) (hk : o = 8 * k + r) (h : k < N) (hr : r + 1 ≤ 8) :
    (getF (cdb.tail.take N) ⟨o⟩ : BitVec 1) = 1#1 ↔ Spec.bit cdb (k + 1) r = true := by
  have := fieldBit cdb N o k r hk h hr
  rw [← this]; simp

/-- What `UnmapToNvme` does after the checks of the CDB. -/
def unmapRest (E : Env) (buffer_out : Span) (wr : NvmeCmdWrapper) (nsid : U32) (al : Allocation) :
    M (StatusCode × NvmeCmdWrapper × Allocation) := do
  let r ← ReadValue 8 Scsi.UnmapParamList.ofBytes buffer_out
  match r with
  | none => pure (.kFailure, wr, al)
  | some pl =>
    let bo := buffer_out.subspan 8
    let n := (ntohs pl.block_desc_data_length).toNat
    if bo.len < n then pure (.kFailure, wr, al)
    else if n % 16 ≠ 0 then pure (.kInvalidInput, wr, al)
    else if n / 16 = 0 ∨ n / 16 > 256 then pure (.kNoTranslation, wr, al)
    else do
      let ds ← Unmap.readDescriptors (n / 16) bo
      match ds with
      | none => pure (.kFailure, wr, al)
      | some ds =>
        let (st, al) ← al.SetPages E 4096 1 0
        if st = .kFailure then pure (.kFailure, wr, al)
        else do
          let ok ← Unmap.writeRanges ds ⟨al.data_addr.toNat, 16 * (n / 16)⟩
          if ok then
            pure (.kSuccess, { cmd := Unmap.datasetCmd nsid (n / 16) al.data_addr,
                               buffer_len := 4096, is_admin := true }, al)
          else pure (.kFailure, wr, al)

theorem Unmap_short (E : Env) (cdb : List Byte) (buf : Span) (wr : NvmeCmdWrapper) (nsid : U32)
    (al : Allocation) (h : cdb.length < 10) :
    Unmap.UnmapToNvme E cdb.tail buf wr 4096 nsid al = pure (.kFailure, wr, al) := by
  unfold Unmap.UnmapToNvme
  rw [readValue_none (by simp [Scsi.UnmapCommand.size]; omega)]

theorem Unmap_head (E : Env) (cdb : List Byte) (buf : Span) (wr : NvmeCmdWrapper) (nsid : U32)
    (al : Allocation) (h : 10 ≤ cdb.length) :
    Unmap.UnmapToNvme E cdb.tail buf wr 4096 nsid al
      = if beAt cdb 7 2 < 8 then pure (.kFailure, wr, al)
        else if Spec.bit cdb 1 0 = true then pure (.kNoTranslation, wr, al)
        else unmapRest E buf wr nsid al := by
  have f1 := field16 cdb 9 48 6 (by omega) (by omega) (by omega)
  have f2 := bit_false_iff cdb 9 0 0 0 (by omega) (by omega) (by omega)
  simp only [Nat.reduceAdd, Nat.zero_add] at f1 f2
  have g1 : (ntohs (Scsi.UnmapCommand.ofBytes (List.take Scsi.UnmapCommand.size cdb.tail)).param_list_length).toNat
    = beAt cdb 7 2 := f1
  have g2 : (Scsi.UnmapCommand.ofBytes (List.take Scsi.UnmapCommand.size cdb.tail)).anchor = 1
    ↔ Spec.bit cdb 1 0 = true := f2
  unfold Unmap.UnmapToNvme
  rw [readValue_some (by simp [Scsi.UnmapCommand.size]; omega)]
  simp only [g1, g2]
  rfl

/-- Partial correctness: what can have happened, whatever the memory. -/
theorem Unmap_inv (E : Env) (cdb : List Byte) (buf : Span) (wr : NvmeCmdWrapper) (nsid : U32)
    (al : Allocation) (ha : al.data_addr = 0) (w w' : World) (r)
    (h : Unmap.UnmapToNvme E cdb.tail buf wr 4096 nsid al w = .ok (r, w')) :
    (r.1 ≠ .kSuccess ∧ r.2 = (wr, al) ∧ w' = w) ∨
    (setA E w = 0 ∧ r = (.kFailure, wr, setAl E w) ∧ w' = setW E w) ∨
    (setA E w ≠ 0 ∧ ∃ ds : List Scsi.UnmapBlockDescriptor, 1 ≤ ds.length ∧ ds.length ≤ 256 ∧
      r = (.kSuccess, { cmd := dsmCmd nsid ds.length (setA E w), buffer_len := 4096, is_admin := true },
        setAl E w) ∧
      w' = { setW E w with mem := putRanges (setA E w).toNat ds (setW E w).mem } ∧
      (∀ a, (w'.mem a).isSome = ((setW E w).mem a).isSome)) := by
  rcases Nat.lt_or_ge cdb.length 10 with hl | hl
  · rw [Unmap_short E cdb buf wr nsid al hl] at h
    simp at h; exact Or.inl ⟨by rw [← h.1]; simp, by rw [← h.1], h.2.symm⟩
  rw [Unmap_head E cdb buf wr nsid al hl] at h
  split at h
  · simp at h; exact Or.inl ⟨by rw [← h.1]; simp, by rw [← h.1], h.2.symm⟩
  split at h
  · simp at h; exact Or.inl ⟨by rw [← h.1]; simp, by rw [← h.1], h.2.symm⟩
  unfold unmapRest at h
  simp only [M.bind_run] at h
  split at h
  · simp at h
  rename_i pl w1 hpl
  have := ReadValue_inv hpl
  subst this
  split at h
  · simp at h; exact Or.inl ⟨by rw [← h.1]; simp, by rw [← h.1], h.2.symm⟩
  rename_i pl
  generalize (ntohs pl.block_desc_data_length).toNat = n at h
  split at h
  · simp at h; exact Or.inl ⟨by rw [← h.1]; simp, by rw [← h.1], h.2.symm⟩
  split at h
  · simp at h; exact Or.inl ⟨by rw [← h.1]; simp, by rw [← h.1], h.2.symm⟩
  split at h
  · simp at h; exact Or.inl ⟨by rw [← h.1]; simp, by rw [← h.1], h.2.symm⟩
  rename_i hc
  simp only [M.bind_run] at h
  split at h
  · simp at h
  rename_i dso w1 hds
  obtain ⟨rfl, hdl⟩ := readDescriptors_inv _ _ _ _ _ hds
  split at h
  · simp at h; exact Or.inl ⟨by rw [← h.1]; simp, by rw [← h.1], h.2.symm⟩
  rename_i ds
  have hdl := hdl ds rfl
  simp only [M.bind_run, SetPages_free E _ _ ha] at h
  by_cases h0 : setA E w1 = 0
  · simp only [h0, if_true, M.pure_run] at h
    simp at h
    exact Or.inr (Or.inl ⟨h0, h.1.symm, h.2.symm⟩)
  · simp only [h0, if_false, reduceCtorEq, M.bind_run] at h
    split at h
    · simp at h
    rename_i ok w2 hw
    have hA : (setA E w1).toNat ≠ 0 := fun hh => h0 (BitVec.eq_of_toNat_eq hh)
    obtain ⟨rfl, hw2, hi⟩ := writeRanges_inv ds ⟨(setA E w1).toNat, 16 * (n / 16)⟩ _ _ _ hw
      (by simp only; omega) hA
    simp only [if_true, M.pure_run, Except.ok.injEq, Prod.mk.injEq] at h
    obtain ⟨rfl, rfl⟩ := h
    refine Or.inr (Or.inr ⟨h0, ds, by omega, by omega, ?_, hw2, hi⟩)
    rw [hdl, ← datasetCmd_eq _ _ (by omega) (by omega)]; rfl

theorem getF_slice16 (data : List Byte) (s N o k n : Nat) (hk : o = 8 * k) (h : k + n ≤ N)
    (hl : s + N ≤ data.length) :
    (bswap n (getF ((data.drop s).take N) ⟨o⟩ : BitVec (8 * n))).toNat = beAt data (s + k) n := by
  have := bswap_getF (0 :: data.drop s) N k n h (by simp; omega)
  subst hk
  simp only [List.tail_cons] at this
  rw [this]
  simp [beAt, List.drop_drop]

/-- A translatable UNMAP: exact behaviour when the parameter list is readable. -/
theorem Unmap_run (E : Env) (cdb data : List Byte) (buf : Span) (wr : NvmeCmdWrapper) (nsid : U32)
    (al : Allocation) (ha : al.data_addr = 0) (w : World) (hd : w.mem.read buf.ptr buf.len = some data) :
    (unmapRequest cdb data = none ∧ ∃ st, st ≠ .kSuccess ∧
      Unmap.UnmapToNvme E cdb.tail buf wr 4096 nsid al w = .ok ((st, wr, al), w)) ∨
    (∃ rs, unmapRequest cdb data = some rs ∧ setA E w = 0 ∧
      Unmap.UnmapToNvme E cdb.tail buf wr 4096 nsid al w
        = .ok ((.kFailure, wr, setAl E w), setW E w)) ∨
    (∃ rs, unmapRequest cdb data = some rs ∧ 1 ≤ rs.length ∧ rs.length ≤ 256 ∧ setA E w ≠ 0 ∧
      ∃ ds : List Scsi.UnmapBlockDescriptor, ds.length = rs.length ∧
        (∀ m A, rangesAt (putRanges A ds m) A rs) ∧
        ((setW E w).mem.mapped (setA E w).toNat (16 * rs.length) →
          Unmap.UnmapToNvme E cdb.tail buf wr 4096 nsid al w
            = .ok ((.kSuccess, { cmd := dsmCmd nsid rs.length (setA E w), buffer_len := 4096,
                                 is_admin := true }, setAl E w),
                { setW E w with mem := putRanges (setA E w).toNat ds (setW E w).mem }))) := by
  have hlen := read_length hd
  unfold unmapRequest
  simp only
  rcases Nat.lt_or_ge cdb.length 10 with hl | hl
  · rw [Unmap_short E cdb buf wr nsid al hl]
    exact Or.inl ⟨by rw [if_neg (by omega)], _, by decide, rfl⟩
  rw [Unmap_head E cdb buf wr nsid al hl]
  by_cases c1 : beAt cdb 7 2 < 8
  · rw [if_pos c1]
    exact Or.inl ⟨by rw [if_neg (by omega)], _, by decide, rfl⟩
  rw [if_neg c1]
  by_cases c2 : Spec.bit cdb 1 0 = true
  · rw [if_pos c2]
    exact Or.inl ⟨by rw [if_neg (by simp [c2])], _, by decide, rfl⟩
  rw [if_neg c2]
  have c2' : Spec.bit cdb 1 0 = false := by simpa using c2
  unfold unmapRest
  simp only [M.bind_run]
  by_cases c3 : buf.len < 8
  · rw [ReadValue_short c3]
    exact Or.inl ⟨by rw [if_neg (by omega)], _, by decide, rfl⟩
  have hr := read_sub hd 0 8 (by omega)
  rw [ReadValue_run (by omega) (by simpa using hr)]
  simp only
  have f1 := getF_slice16 data 0 8 16 2 2 (by omega) (by omega) (by omega)
  have g1 : (ntohs (Scsi.UnmapParamList.ofBytes (List.take 8 data)).block_desc_data_length).toNat
      = beAt data 2 2 := by
    rw [List.drop_zero, Nat.zero_add] at f1; exact f1
  simp only [g1]
  by_cases c4 : (buf.subspan 8).len < beAt data 2 2
  · rw [if_pos c4]
    have : ¬ beAt data 2 2 ≤ data.length - 8 := by
      unfold Span.subspan at c4
      split at c4
      · simp only at c4; omega
      · rw [sizeSub_le (by omega)] at c4; simp only at c4; omega
    exact Or.inl ⟨by rw [if_neg (by omega)], _, by decide, rfl⟩
  rw [if_neg c4]
  by_cases c5 : beAt data 2 2 % 16 ≠ 0
  · rw [if_pos c5]
    exact Or.inl ⟨by rw [if_neg (by omega)], _, by decide, rfl⟩
  rw [if_neg c5]
  by_cases c6 : beAt data 2 2 / 16 = 0 ∨ beAt data 2 2 / 16 > 256
  · rw [if_pos c6]
    exact Or.inl ⟨by rw [if_neg (by omega)], _, by decide, rfl⟩
  rw [if_neg c6]
  have hbl : 8 < buf.len := by
    rcases Nat.lt_or_ge 8 buf.len with h | h
    · exact h
    · unfold Span.subspan at c4; rw [if_pos h] at c4; simp only at c4; omega
  rw [Span.subspan_none _ _ hbl] at c4 ⊢
  simp only at c4
  rw [if_pos ⟨hl, by omega, c2', by omega, by omega, by omega, by omega, by omega⟩]
  have hdat : w.mem.read (buf.ptr + 8) (16 * (beAt data 2 2 / 16))
      = some ((data.drop 8).take (16 * (beAt data 2 2 / 16))) := read_sub hd 8 _ (by omega)
  simp only [M.bind_run]
  rw [readDescriptors_run _ ⟨buf.ptr + 8, buf.len - 8⟩ w _ (by simp only; omega) hdat]
  simp only [M.bind_run, SetPages_free E _ _ ha]
  generalize hn : beAt data 2 2 / 16 = n at *
  by_cases h0 : setA E w = 0
  · refine Or.inr (Or.inl ⟨_, rfl, h0, ?_⟩)
    simp only [h0, if_true, M.pure_run]
  · refine Or.inr (Or.inr ⟨_, rfl, by simp; omega, by simp; omega, h0, descs n (List.take (16 * n) (List.drop 8 data)),
      by simp [descs_length], ?_, ?_⟩)
    · intro m A i hi
      simp only [List.length_map, List.length_range] at hi
      have := putRanges_at (descs n (List.take (16 * n) (List.drop 8 data))) A m i (by rw [descs_length]; exact hi)
      rw [descs_get _ _ _ hi] at this
      simp only [List.getElem_map, List.getElem_range, unmapRange]
      have hsl : List.take 16 (List.drop (16 * i) (List.take (16 * n) (List.drop 8 data)))
          = List.take 16 (List.drop (8 + 16 * i) data) := by
        rw [List.drop_take, List.take_take, List.drop_drop, Nat.min_eq_left (by omega)]
      rw [hsl] at this
      have e1 := getF_slice16 data (8 + 16 * i) 16 0 0 8 (by omega) (by omega) (by omega)
      have e2 := getF_slice16 data (8 + 16 * i) 16 64 8 4 (by omega) (by omega) (by omega)
      rw [Nat.add_zero] at e1
      rw [show 8 + 16 * i + 8 = 16 + 16 * i by omega] at e2
      rw [this.1, this.2, le_eq, le_eq, ← e1, ← e2]
      exact ⟨rfl, rfl⟩
    · intro hm
      simp only [List.length_map, List.length_range] at hm ⊢
      simp only [h0, if_false, reduceCtorEq, M.bind_run]
      have hA : (setA E w).toNat ≠ 0 := fun hh => h0 (BitVec.eq_of_toNat_eq hh)
      rw [writeRanges_run (descs n (List.take (16 * n) (List.drop 8 data)))
        ⟨(setAl E w).data_addr.toNat, 16 * n⟩ _ (by simp [descs_length]) hA
        (by rw [descs_length]; exact hm)]
      simp only [if_true, M.pure_run]
      rw [← datasetCmd_eq _ _ (by omega) (by omega)]; rfl

end Scsi2Nvme
