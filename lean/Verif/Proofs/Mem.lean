import Verif.Proofs.Bytes
/-!
# Lemmas about memory and the effect monad
-/

namespace Scsi2Nvme

theorem sizeSub_le {a b : Nat} (h : b ≤ a) : sizeSub a b = a - b := by
  unfold sizeSub
  rw [if_pos h]

/-! ## The monad -/

@[simp] theorem M.pure_run (a : α) (w : World) : (pure a : M α) w = .ok (a, w) := rfl

@[simp] theorem M.bind_run (x : M α) (f : α → M β) (w : World) :
    (x >>= f) w = match x w with
      | .error e => .error e
      | .ok (a, w') => f a w' := rfl

@[simp] theorem M.map_run (f : α → β) (x : M α) (w : World) :
    (f <$> x) w = match x w with
      | .error e => .error e
      | .ok (a, w') => .ok (f a, w') := rfl

@[simp] theorem M.get_run (w : World) : M.get w = .ok (w, w) := rfl

@[simp] theorem M.ub_run (e : UB) (w : World) : (M.ub e : M α) w = .error e := rfl

theorem M.bind_eq (x : M α) (f : α → M β) (w w' : World) (a : α) (h : x w = .ok (a, w')) :
    (x >>= f) w = f a w' := by simp [h]

instance : LawfulMonad M := LawfulMonad.mk'
  (id_map := by
    intro α x; funext w
    show (match x w with | .error e => .error e | .ok (a, w') => .ok (id a, w')) = x w
    cases x w <;> rfl)
  (pure_bind := by intros; rfl)
  (bind_assoc := by
    intro α β γ x f g; funext w
    simp only [M.bind_run]
    cases x w with
    | error e => rfl
    | ok r => rfl)

/-! ## Memory -/

theorem read_eq_some {m : Mem} {p n : Nat} {bs : List Byte} :
    m.read p n = some bs ↔ bs.length = n ∧ ∀ i, i < n → m (p + i) = bs[i]? := by
  unfold Mem.read
  induction n generalizing bs with
  | zero =>
    simp only [List.range_zero, List.mapM_nil, Option.pure_def, Option.some.injEq]
    constructor
    · rintro rfl; simp
    · rintro ⟨h, _⟩; exact (List.length_eq_zero_iff.mp h).symm
  | succ n ih =>
    rw [List.range_succ, List.mapM_append]
    simp only [List.mapM_cons, List.mapM_nil, Option.bind_eq_bind, Option.pure_def, Option.bind_some]
    constructor
    · intro h
      simp only [Option.bind_eq_some_iff, Option.some.injEq] at h
      obtain ⟨xs, hxs, b, ⟨c, hc, hb⟩, hbs⟩ := h
      obtain ⟨hl, hi⟩ := ih.mp hxs
      subst hb; subst hbs
      refine ⟨by simp [hl], fun i hi' => ?_⟩
      by_cases h : i < n
      · rw [hi i h, List.getElem?_append_left (by omega)]
      · have : i = n := by omega
        subst this
        rw [hc, List.getElem?_append_right (by omega)]
        simp [hl]
    · rintro ⟨hl, hi⟩
      have hne : bs ≠ [] := by intro h; simp [h] at hl
      have hd : (bs.dropLast).length = n := by simp [hl]
      have h1 : List.mapM (fun i => m (p + i)) (List.range n) = some bs.dropLast := by
        refine ih.mpr ⟨hd, fun i h => ?_⟩
        rw [hi i (by omega), List.getElem?_dropLast]
        simp [hl, h]
      have h2 : m (p + n) = some (bs.getLast hne) := by
        rw [hi n (by omega), List.getLast_eq_getElem]
        simp [hl]
      simp only [h1, h2, Option.bind_some, Option.some.injEq]
      exact List.dropLast_concat_getLast hne

theorem read_isSome {m : Mem} {p n : Nat} :
    (m.read p n).isSome ↔ ∀ i, i < n → (m (p + i)).isSome := by
  constructor
  · intro h i hi
    obtain ⟨bs, hbs⟩ := Option.isSome_iff_exists.mp h
    obtain ⟨hl, hj⟩ := read_eq_some.mp hbs
    rw [hj i hi]; simp [hl, hi]
  · intro h
    rw [Option.isSome_iff_exists]
    refine ⟨(List.range n).map (fun i => (m (p + i)).getD 0), read_eq_some.mpr ⟨by simp, ?_⟩⟩
    intro i hi
    have := h i hi
    obtain ⟨b, hb⟩ := Option.isSome_iff_exists.mp this
    simp [hi, hb]

theorem read_length {m : Mem} {p n : Nat} {bs : List Byte} (h : m.read p n = some bs) :
    bs.length = n := (read_eq_some.mp h).1

theorem mapped_iff {m : Mem} {p n : Nat} :
    m.mapped p n = true ↔ ∀ i, i < n → (m (p + i)).isSome := by
  simp [Mem.mapped]

theorem mapped_iff_read {m : Mem} {p n : Nat} : m.mapped p n = true ↔ (m.read p n).isSome := by
  rw [mapped_iff, read_isSome]

theorem read_congr {m m' : Mem} {p n : Nat} (h : ∀ i, i < n → m' (p + i) = m (p + i)) :
    m'.read p n = m.read p n := by
  unfold Mem.read
  suffices H : ∀ l : List Nat, (∀ i ∈ l, i < n) →
      l.mapM (fun i => m' (p + i)) = l.mapM (fun i => m (p + i)) from
    H _ (fun i hi => by simpa using hi)
  intro l
  induction l with
  | nil => intro _; rfl
  | cons a l ih =>
    intro hl
    rw [List.mapM_cons, List.mapM_cons, h a (hl a (by simp)), ih (fun i hi => hl i (by simp [hi]))]

theorem put_outside {m : Mem} {p a : Nat} {bs : List Byte} (h : a < p ∨ p + bs.length ≤ a) :
    m.put p bs a = m a := by
  unfold Mem.put
  rw [if_neg (by omega)]

theorem put_inside {m : Mem} {p i : Nat} {bs : List Byte} (h : i < bs.length) :
    m.put p bs (p + i) = bs[i]? := by
  unfold Mem.put
  rw [if_pos (by omega)]
  congr 1; omega

theorem read_put_self {m : Mem} {p : Nat} {bs : List Byte} :
    (m.put p bs).read p bs.length = some bs :=
  read_eq_some.mpr ⟨rfl, fun _ hi => put_inside hi⟩

theorem put_isSome {m : Mem} {p a : Nat} {bs : List Byte} (h : m.mapped p bs.length) :
    (m.put p bs a).isSome = (m a).isSome := by
  by_cases hin : p ≤ a ∧ a < p + bs.length
  · obtain ⟨i, rfl⟩ := Nat.exists_eq_add_of_le hin.1
    rw [put_inside (by omega)]
    have := mapped_iff.mp h i (by omega)
    rw [this]
    simp; omega
  · rw [put_outside (by omega)]

theorem put_nil (m : Mem) (p : Nat) : m.put p [] = m := by
  funext a
  unfold Mem.put
  rw [if_neg (by simp)]

theorem put_append (m : Mem) (p : Nat) (a b : List Byte) :
    (m.put p a).put (p + a.length) b = m.put p (a ++ b) := by
  funext x
  unfold Mem.put
  simp only [List.length_append]
  by_cases h1 : p + a.length ≤ x ∧ x < p + a.length + b.length
  · rw [if_pos h1, if_pos (by omega), List.getElem?_append_right (by omega)]
    congr 1; omega
  · rw [if_neg h1]
    by_cases h2 : p ≤ x ∧ x < p + a.length
    · rw [if_pos h2, if_pos (by omega), List.getElem?_append_left (by omega)]
    · rw [if_neg h2, if_neg (by omega)]

theorem read_append {m : Mem} {p n k : Nat} {a b : List Byte}
    (ha : m.read p n = some a) (hb : m.read (p + n) k = some b) :
    m.read p (n + k) = some (a ++ b) := by
  obtain ⟨la, ia⟩ := read_eq_some.mp ha
  obtain ⟨lb, ib⟩ := read_eq_some.mp hb
  refine read_eq_some.mpr ⟨by simp [la, lb], fun i hi => ?_⟩
  by_cases h : i < n
  · rw [ia i h, List.getElem?_append_left (by omega)]
  · have := ib (i - n) (by omega)
    rw [List.getElem?_append_right (by omega), la, ← this]
    congr 1; omega

theorem read_sub {m : Mem} {p n : Nat} {bs : List Byte} (h : m.read p n = some bs) (k l : Nat)
    (hkl : k + l ≤ n) : m.read (p + k) l = some ((bs.drop k).take l) := by
  obtain ⟨la, ia⟩ := read_eq_some.mp h
  refine read_eq_some.mpr ⟨by simp; omega, fun i hi => ?_⟩
  rw [Nat.add_assoc, ia (k + i) (by omega), List.getElem?_take, if_pos hi, List.getElem?_drop]

/-! ## Loads and stores -/

theorem load_ok {w : World} {p n : Nat} {bs : List Byte} (h : w.mem.read p n = some bs) :
    load p n w = .ok (bs, w) := by simp [load, h]

theorem load_inv {w w' : World} {p n : Nat} {bs : List Byte} (h : load p n w = .ok (bs, w')) :
    w' = w ∧ w.mem.read p n = some bs := by
  unfold load at h
  split at h
  · rename_i bs' hb
    simp only [Except.ok.injEq, Prod.mk.injEq] at h
    exact ⟨h.2.symm, by rw [hb, h.1]⟩
  · simp at h

theorem store_ok {w : World} {p : Nat} {bs : List Byte} (h : w.mem.mapped p bs.length) :
    store p bs w = .ok ((), { w with mem := w.mem.put p bs }) := by simp [store, h]

theorem store_inv {w w' : World} {p : Nat} {bs : List Byte} {u : Unit}
    (h : store p bs w = .ok (u, w')) :
    w' = { w with mem := w.mem.put p bs } ∧ w.mem.mapped p bs.length := by
  unfold store at h
  split at h
  · rename_i hm
    simp only [Except.ok.injEq, Prod.mk.injEq] at h
    exact ⟨h.2.symm, hm⟩
  · simp at h

theorem WriteValue_false {w : World} {bytes : List Byte} {out : Span} {n : Nat}
    (h : n > out.len ∨ n > bytes.length) : WriteValue bytes out n w = .ok (false, w) := by
  simp [WriteValue, h]

theorem WriteValue_true {w : World} {bytes : List Byte} {out : Span} {n : Nat}
    (h1 : n ≤ out.len) (h2 : n ≤ bytes.length) (hm : w.mem.mapped out.ptr n) :
    WriteValue bytes out n w = .ok (true, { w with mem := w.mem.put out.ptr (bytes.take n) }) := by
  unfold WriteValue
  rw [if_neg (by omega)]
  have : (bytes.take n).length = n := by simp [h2]
  simp only [M.bind_run]
  rw [store_ok (by rw [this]; exact hm)]
  rfl

theorem WriteValue'_false {w : World} {bytes : List Byte} {out : Span}
    (h : bytes.length > out.len) : WriteValue' bytes out w = .ok (false, w) :=
  WriteValue_false (Or.inl h)

theorem WriteValue'_true {w : World} {bytes : List Byte} {out : Span}
    (h1 : bytes.length ≤ out.len) (hm : w.mem.mapped out.ptr bytes.length) :
    WriteValue' bytes out w = .ok (true, { w with mem := w.mem.put out.ptr bytes }) := by
  unfold WriteValue'
  rw [WriteValue_true h1 (Nat.le_refl _) hm, List.take_length]

end Scsi2Nvme
