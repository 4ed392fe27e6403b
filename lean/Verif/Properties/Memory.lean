import Verif.Proofs.Good
/-!
# C07, C08, C09: memory
-/

namespace Scsi2Nvme
open Spec

/-- **C07.** `Begin` is defined in every memory in which the command block and the data buffer are
accessible (nothing else needs to be), for every object reached by any history, every content, every LUN
and every outcome of a well-behaved allocator. -/
theorem C07_begin_safe (E : Env) (hg : GoodAllocator E) (t : Translation) (s : Proto) (ht : Reached t s)
    (w : World) (cdb buf : Span) (lun : U64) (hc : accessible w.mem cdb) (hb : accessible w.mem buf) :
    ∃ r t' w', t.Begin E cdb buf lun w = .ok ((r, t'), w') := by
  cases s with
  | none => exact Begin_defined hg ht.rel w cdb buf lun hc hb
  | some cs => exact ⟨_, _, _, Begin_busy E t ht.rel.2.1 cdb buf lun w⟩

/-- **C08.** `Begin` changes no byte that was accessible before the call (the pages it allocates were not). -/
theorem C08_begin_frame (E : Env) (hg : GoodAllocator E) (t : Translation) (s : Proto) (ht : Reached t s)
    (w : World) (cdb buf : Span) (lun : U64) (r : BeginResponse) (t' : Translation) (w' : World)
    (h : t.Begin E cdb buf lun w = .ok ((r, t'), w')) (x : Nat) (hx : (w.mem x).isSome) :
    w'.mem x = w.mem x := by
  cases s with
  | none => exact Begin_keeps hg ht.rel h x hx
  | some cs =>
    rw [Begin_busy E t ht.rel.2.1 cdb buf lun w] at h
    cases h
    rfl

/-- Handing back pages: the calls made, and what stays unchanged. -/
theorem dealloc_frame {E : Env} (hg : GoodAllocator E) (ps : List (U64 × U16)) (w : World) :
    ∃ evs, (deallocAll E ps w).trace = evs ++ w.trace ∧
      ∀ x, (∀ a n, Event.dealloc a n ∈ evs → ¬ inRange a.toNat (4096 * n.toNat) x) →
        (deallocAll E ps w).mem x = w.mem x := by
  induction ps generalizing w with
  | nil => exact ⟨[], rfl, fun _ _ => rfl⟩
  | cons p ps ih =>
    change ∃ evs, (deallocAll E ps (deallocW E p.1 p.2 w)).trace = evs ++ w.trace ∧ ∀ x, _ →
      (deallocAll E ps (deallocW E p.1 p.2 w)).mem x = w.mem x
    obtain ⟨evs, h1, h2⟩ := ih (deallocW E p.1 p.2 w)
    cases hd : E.deallocCb with
    | none =>
      have e : deallocW E p.1 p.2 w = w := by unfold deallocW; rw [hd]
      rw [e] at h1 h2 ⊢
      exact ⟨evs, h1, h2⟩
    | some f =>
      have e : deallocW E p.1 p.2 w = { mem := f w p.1 p.2, trace := .dealloc p.1 p.2 :: w.trace } := by
        unfold deallocW; rw [hd]
      refine ⟨evs ++ [.dealloc p.1 p.2], by rw [h1, e]; simp, fun x hx => ?_⟩
      rw [h2 x fun a n h => hx a n (by simp [h]), e]
      exact hg.dealloc f hd w p.1 p.2 x (hx p.1 p.2 (by simp))

/-- **C09.** `Complete` changes no byte outside of the data-in buffer, the sense buffer and the pages it
hands back to the allocator during the call (`evs` are the callback calls made by `Complete`, all of them
deallocations). -/
theorem C09_complete_frame (E : Env) (hg : GoodAllocator E) (t : Translation) (s : Proto) (ht : Reached t s)
    (w : World) (cpl : List Nvme.GenericQueueEntryCpl) (bin sense : Span) (r : CompleteResponse)
    (t' : Translation) (w' : World) (h : t.Complete E cpl bin sense w = .ok ((r, t'), w')) :
    ∃ evs, w'.trace = evs ++ w.trace ∧
      ∀ x, ¬ inRange bin.ptr bin.len x → ¬ inRange sense.ptr sense.len x →
        (∀ a n, Event.dealloc a n ∈ evs → ¬ inRange a.toNat (4096 * n.toNat) x) → w'.mem x = w.mem x := by
  rcases Complete_inv E t ht.rel.wf w cpl bin sense r t' w' h with ⟨-, -, -, rfl⟩ | ⟨-, -, w1, rfl, hc⟩
  · exact ⟨[], rfl, fun _ _ _ _ => rfl⟩
  · have hw : w1.trace = w.trace ∧ ∀ x, ¬ inRange bin.ptr bin.len x → ¬ inRange sense.ptr sense.len x →
        w1.mem x = w.mem x := by
      rcases hc with ⟨-, -, rfl⟩ | ⟨-, -, -, ok, hf⟩ | ⟨-, -, s, -, -, ok, hf⟩ | ⟨-, -, -, -, bs, st, -, hf⟩
      · exact ⟨rfl, fun _ _ _ => rfl⟩
      · have := FillSenseBuffer_framed _ _ _ _ _ _ hf
        exact ⟨this.1, fun x _ h2 => this.2.1 x h2⟩
      · have := FillSenseBuffer_framed _ _ _ _ _ _ hf
        exact ⟨this.1, fun x _ h2 => this.2.1 x h2⟩
      · have := completeSwitch_framed _ _ _ _ _ _ _ _ _ hf
        exact ⟨this.1, fun x h1 _ => this.2.1 x h1⟩
    obtain ⟨evs, e1, e2⟩ := dealloc_frame hg (livePages t.nvme_cmd_count t.allocations) w1
    exact ⟨evs, by rw [← hw.1]; exact e1, fun x h1 h2 h3 => (e2 x h3).trans (hw.2 x h1 h2)⟩

/-! ### The hypotheses are met -/

/-- The environment of the examples is a well-behaved allocator as long as addresses do not overflow; this
variant refuses when they would. -/
def boundedEnv : Env :=
  { Demo.env with
    allocCb := some fun w ps n =>
      let a := 0x100000 + 0x10000 * Demo.allocs w.trace
      if n = 0 ∨ a + ps.toNat * n.toNat ≥ 2 ^ 64 ∨
          ((List.range (ps.toNat * n.toNat)).any fun i => (w.mem (a + i)).isSome) then (0, w.mem)
      else (BitVec.ofNat 64 a, fun x => if a ≤ x ∧ x < a + ps.toNat * n.toNat then some 0 else w.mem x) }

theorem boundedEnv_good : GoodAllocator boundedEnv where
  alloc := by
    intro f hf w n
    simp only [boundedEnv, Option.some.injEq] at hf
    subst hf
    have hps : (4096 : U32).toNat = 4096 := rfl
    rw [← hps]
    generalize (4096 : U32) = ps
    simp only
    by_cases hc : (n = 0 ∨ 0x100000 + 0x10000 * Demo.allocs w.trace + ps.toNat * n.toNat ≥ 2 ^ 64 ∨
      ((List.range (ps.toNat * n.toNat)).any fun i => (w.mem (0x100000 + 0x10000 * Demo.allocs w.trace + i)).isSome) = true)
    · rw [if_pos hc]
      exact Or.inl ⟨rfl, rfl⟩
    · rw [if_neg hc]
      simp only [not_or] at hc
      obtain ⟨-, c2, c3⟩ := hc
      generalize hA : 0x100000 + 0x10000 * Demo.allocs w.trace = A at c2 c3
      have hlt : A < 2 ^ 64 := by
        generalize ps.toNat * n.toNat = k at c2
        omega
      have ht : (BitVec.ofNat 64 A : U64).toNat = A := by
        rw [BitVec.toNat_ofNat, Nat.mod_eq_of_lt hlt]
      have hz : (BitVec.ofNat 64 A : U64) ≠ 0 := by
        intro hh
        rw [hh] at ht
        simp at ht
        omega
      refine Or.inr ⟨hz, by simp only; rw [ht]; omega, fun x hx => ?_, fun x hx => ?_⟩
      · simp only [ht] at hx ⊢
        unfold inRange at hx
        refine ⟨?_, by rw [if_pos hx]; rfl⟩
        simp only [List.any_eq_true, List.mem_range, not_exists, not_and] at c3
        have := c3 (x - A) (by omega)
        rw [Nat.add_sub_cancel' hx.1] at this
        simpa using this
      · simp only [ht] at hx ⊢
        unfold inRange at hx
        rw [if_neg hx]
  dealloc := by
    intro f hf w a n x hx
    simp only [boundedEnv, Demo.env, Option.some.injEq] at hf
    subst hf
    unfold inRange at hx
    simp only
    rw [if_neg hx]

example : GoodAllocator boundedEnv ∧ IdleObject (Translation.init Demo.ws) ∧
    accessible (Demo.mem Demo.inquiry) (Demo.cdbSpan Demo.inquiry) ∧
    accessible (Demo.mem Demo.inquiry) Demo.data :=
  ⟨boundedEnv_good, IdleObject_init _, by unfold accessible; decide +kernel, by
    unfold accessible
    intro i hi
    have hi : i < 0x2000 := hi
    have : (Demo.mem Demo.inquiry : Mem) (Demo.data.ptr + i) = some 0 := by
      have e : Demo.data.ptr = 0x8000 := rfl
      have l : Demo.inquiry.length = 6 := rfl
      unfold Demo.mem
      rw [e, l]
      simp only [List.length_nil, Nat.add_zero]
      repeat' split
      all_goals first | omega | rfl
    rw [this]; rfl⟩

end Scsi2Nvme
