import Verif.Proofs.BeginApi
/-!
# Allocator calls made by `Begin`
-/

namespace Scsi2Nvme
open Spec

theorem set_none {E : Env} (h : E.allocCb = none) (w : World) : setW E w = w ∧ setA E w = 0 := by
  unfold setW setA allocW allocRes; rw [h]; exact ⟨rfl, rfl⟩

theorem set_trace {E : Env} (h : E.allocCb ≠ none) (w : World) :
    (setW E w).trace = [.alloc 4096 0 (setM E w), .alloc 4096 1 (setA E w)] ++ w.trace := by
  unfold setW setA setM allocW allocRes
  cases hf : E.allocCb with
  | none => exact absurd hf h
  | some f => rfl

theorem dealloc_trace (E : Env) (ps : List (U64 × U16)) (w : World) :
    ∃ ds, (deallocAll E ps w).trace = ds ++ w.trace ∧ ∀ e ∈ ds, ∃ a n, e = Event.dealloc a n := by
  induction ps generalizing w with
  | nil => exact ⟨[], rfl, by simp⟩
  | cons p ps ih =>
    obtain ⟨ds, h1, h2⟩ := ih (deallocW E p.1 p.2 w)
    change ∃ ds, (deallocAll E ps (deallocW E p.1 p.2 w)).trace = _ ∧ _
    cases hd : E.deallocCb with
    | none =>
      have e : deallocW E p.1 p.2 w = w := by unfold deallocW; rw [hd]
      rw [e] at h1 ⊢
      exact ⟨ds, h1, h2⟩
    | some f =>
      have e : (deallocW E p.1 p.2 w).trace = .dealloc p.1 p.2 :: w.trace := by unfold deallocW; rw [hd]
      refine ⟨ds ++ [.dealloc p.1 p.2], by rw [h1, e]; simp, ?_⟩
      intro x hx
      simp only [List.mem_append, List.mem_cons, List.not_mem_nil, or_false] at hx
      rcases hx with hx | hx
      · exact h2 x hx
      · exact ⟨_, _, hx⟩

/-- The new allocator calls after `Begin`, given those of the `switch`. -/
theorem finish_events (E : Env) (p : Pipe) (w w1 : World) (evs : List Event) (h : w1.trace = evs ++ w.trace) :
    ∃ evs', (finishW E p w1).trace = evs' ++ w.trace ∧ (pageRefused evs' ↔ pageRefused evs) := by
  unfold finishW
  split
  · exact ⟨evs, h, Iff.rfl⟩
  · obtain ⟨ds, h1, h2⟩ := dealloc_trace E (livePages p.count p.as) w1
    refine ⟨ds ++ evs, by rw [h1, h]; simp, ?_⟩
    constructor
    · rintro ⟨ps, n, hn, hm⟩
      simp only [List.mem_append] at hm
      rcases hm with hm | hm
      · obtain ⟨a, k, e⟩ := h2 _ hm
        cases e
      · exact ⟨ps, n, hn, hm⟩
    · rintro ⟨ps, n, hn, hm⟩
      exact ⟨ps, n, hn, List.mem_append_right _ hm⟩

theorem refused_nil : ¬ pageRefused [] := by rintro ⟨_, _, _, h⟩; cases h

theorem refused_set (E : Env) (w : World) :
    pageRefused [.alloc 4096 0 (setM E w), .alloc 4096 1 (setA E w)] ↔ setA E w = 0 := by
  unfold pageRefused
  constructor
  · rintro ⟨ps, n, hn, hm⟩
    simp only [List.mem_cons, Event.alloc.injEq, List.not_mem_nil, or_false] at hm
    rcases hm with ⟨-, h0, -⟩ | ⟨-, -, h⟩
    · exact absurd h0 hn
    · exact h.symm
  · intro h
    exact ⟨4096, 1, by decide, by rw [h]; simp⟩

theorem refused_append (a b : List Event) : pageRefused (a ++ b) ↔ pageRefused a ∨ pageRefused b := by
  unfold pageRefused
  simp only [List.mem_append]
  constructor
  · rintro ⟨ps, n, hn, h | h⟩
    · exact Or.inl ⟨ps, n, hn, h⟩
    · exact Or.inr ⟨ps, n, hn, h⟩
  · rintro (⟨ps, n, hn, h⟩ | ⟨ps, n, hn, h⟩)
    · exact ⟨ps, n, hn, Or.inl h⟩
    · exact ⟨ps, n, hn, Or.inr h⟩

/-- A `switch` that made no allocator call. -/
theorem events_none (E : Env) (p : Pipe) (w : World) :
    ∃ evs, (finishW E p w).trace = evs ++ w.trace ∧ ¬ pageRefused evs := by
  obtain ⟨evs, h1, h2⟩ := finish_events E p w w [] rfl
  exact ⟨evs, h1, fun h => refused_nil (h2.mp h)⟩

/-- A `switch` that requested one page. -/
theorem events_one (E : Env) (p : Pipe) (w : World) :
    ∃ evs, (finishW E p (setW E w)).trace = evs ++ w.trace ∧ (pagesGranted E evs ↔ setA E w ≠ 0) := by
  unfold pagesGranted
  by_cases hn : E.allocCb = none
  · obtain ⟨evs, h1, -⟩ := finish_events E p w w [] rfl
    rw [(set_none hn w).1, (set_none hn w).2]
    exact ⟨evs, h1, by simp [hn]⟩
  · obtain ⟨evs, h1, h2⟩ := finish_events E p w (setW E w) _ (set_trace hn w)
    refine ⟨evs, h1, ?_⟩
    rw [h2, refused_set]
    simp [hn]

/-- A `switch` that requested two pages. -/
theorem events_two (E : Env) (p : Pipe) (w : World) :
    ∃ evs, (finishW E p (setW E (setW E w))).trace = evs ++ w.trace ∧
      (pagesGranted E evs ↔ setA E w ≠ 0 ∧ setA E (setW E w) ≠ 0) := by
  unfold pagesGranted
  by_cases hn : E.allocCb = none
  · obtain ⟨evs, h1, -⟩ := finish_events E p w w [] rfl
    rw [(set_none hn w).1, (set_none hn w).1, (set_none hn w).2]
    exact ⟨evs, h1, by simp [hn]⟩
  · obtain ⟨evs, h1, h2⟩ := finish_events E p w (setW E (setW E w))
      ([.alloc 4096 0 (setM E (setW E w)), .alloc 4096 1 (setA E (setW E w))] ++
        [.alloc 4096 0 (setM E w), .alloc 4096 1 (setA E w)])
      (by rw [set_trace hn, set_trace hn]; simp)
    refine ⟨evs, h1, ?_⟩
    rw [h2, refused_append, refused_set, refused_set, not_or]
    simp only [ne_eq, hn, not_false_eq_true, true_and]
    exact And.comm

end Scsi2Nvme
