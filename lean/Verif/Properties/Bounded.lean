import Verif.Properties.Many
import Verif.Properties.Memory
/-!
# C114: bounded use of memory
-/

namespace Scsi2Nvme

namespace Spec

/-- The requests made to the page allocation callback: page size and number of pages (most recent first). -/
def requests (evs : List Event) : List (U32 × U16) :=
  evs.filterMap fun e => match e with
    | .alloc ps n _ => some (ps, n)
    | .dealloc _ _ => none

/-- Number of pages in a list of page ranges. -/
def pageTotal (l : List (U64 × U16)) : Nat := (l.map fun p => p.2.toNat).sum

end Spec

open Spec

theorem pageTotal_append (a b : List (U64 × U16)) : pageTotal (a ++ b) = pageTotal a + pageTotal b := by
  simp [pageTotal]

theorem pageTotal_perm {a b : List (U64 × U16)} (h : a.Perm b) : pageTotal a = pageTotal b :=
  (h.map _).sum_nat

theorem requests_append (a b : List Event) : requests (a ++ b) = requests a ++ requests b := by
  simp [requests]

theorem requests_dealloc (E : Env) (ps : List (U64 × U16)) (w : World) :
    ∃ evs, (deallocAll E ps w).trace = evs ++ w.trace ∧ requests evs = [] := by
  induction ps generalizing w with
  | nil => exact ⟨[], rfl, rfl⟩
  | cons p ps ih =>
    change ∃ evs, (deallocAll E ps (deallocW E p.1 p.2 w)).trace = evs ++ w.trace ∧ _
    obtain ⟨evs, h1, h2⟩ := ih (deallocW E p.1 p.2 w)
    rw [h1]
    unfold deallocW
    cases E.deallocCb with
    | none => exact ⟨evs, rfl, h2⟩
    | some f =>
      refine ⟨evs ++ [.dealloc p.1 p.2], by simp, ?_⟩
      rw [requests_append, h2]
      rfl

/-- The requests for one allocation record: one data page, no metadata pages. -/
def oneRequest : List (U32 × U16) := [(4096, 0), (4096, 1)]

theorem requests_set (E : Env) (w : World) : ∃ evs k, (setW E w).trace = evs ++ w.trace ∧ k ≤ 1 ∧
    requests evs = (List.replicate k oneRequest).flatten := by
  unfold setW allocW
  cases E.allocCb with
  | none => exact ⟨[], 0, rfl, by omega, rfl⟩
  | some f => exact ⟨[_, _], 1, rfl, by omega, rfl⟩

theorem requests_effect {E : Env} {as as' : Arr3 Allocation} {w w' : World} {n : Nat}
    (h : AllocEffect E as w n as' w') : ∃ evs k, w'.trace = evs ++ w.trace ∧ k ≤ 2 ∧
      requests evs = (List.replicate k oneRequest).flatten := by
  have two : ∃ evs k, (setW E (setW E w)).trace = evs ++ w.trace ∧ k ≤ 2 ∧
      requests evs = (List.replicate k oneRequest).flatten := by
    obtain ⟨e1, k1, a1, b1, c1⟩ := requests_set E w
    obtain ⟨e2, k2, a2, b2, c2⟩ := requests_set E (setW E w)
    refine ⟨e2 ++ e1, k2 + k1, by rw [a2, a1, List.append_assoc], by omega, ?_⟩
    rw [requests_append, c1, c2, ← List.replicate_append_replicate, List.flatten_append]
  cases h with
  | none => exact ⟨[], 0, rfl, by omega, rfl⟩
  | one _ _ _ ht =>
    obtain ⟨e1, k1, a1, b1, c1⟩ := requests_set E w
    exact ⟨e1, k1, by rw [ht, a1], by omega, c1⟩
  | two => exact two
  | again => exact two

/-- **C114.** Whatever has happened before on an object, a call asks the allocator at most twice for one page of 4096
bytes, and each time also for zero pages of metadata; it asks for nothing else, and only `Begin` asks for anything. -/
theorem C114_requests (E : Env) (t : Translation) (s : Proto) (ht : Reached t s) (c : Call) (w : World) (r : Ret)
    (t' : Translation) (w' : World) (h : c.exec E t w = .ok ((r, t'), w')) :
    ∃ evs k, w'.trace = evs ++ w.trace ∧ requests evs = (List.replicate k [(4096, 0), (4096, 1)]).flatten ∧ k ≤ 2 ∧
      ((∀ cdb buf lun, c ≠ .begin cdb buf lun) → k = 0) := by
  have hwf := ht.rel.wf
  cases c with
  | begin cdb buf lun =>
    simp only [Call.exec, M.bind_run] at h
    cases hb : t.Begin E cdb buf lun w with
    | error e => rw [hb] at h; cases h
    | ok y =>
      obtain ⟨⟨r0, t0⟩, w0⟩ := y
      rw [hb] at h
      simp only [M.pure_run, Except.ok.injEq, Prod.mk.injEq] at h
      obtain ⟨⟨rfl, rfl⟩, rfl⟩ := h
      by_cases hu : t.pipeline_status = .kUninitialized
      · have hi := hwf.idle_of hu
        rcases Begin_inv E t hi w cdb buf lun r0 t0 w0 hb with ⟨-, -, rfl, rfl⟩ | ⟨-, bs, p, w1, -, -, -, hc, he, -, rfl, rfl⟩
        · exact ⟨[], 0, rfl, rfl, by omega, fun _ => rfl⟩
        · obtain ⟨evs, k, h1, h2, h3⟩ := requests_effect he
          unfold finishW
          split
          · exact ⟨evs, k, h1, h3, h2, fun h => absurd rfl (h _ _ _)⟩
          · obtain ⟨ev2, d1, d2⟩ := requests_dealloc E (livePages p.count p.as) w1
            refine ⟨ev2 ++ evs, k, by rw [d1, h1, List.append_assoc], ?_, h2, fun h => absurd rfl (h _ _ _)⟩
            rw [requests_append, d2, h3]
            rfl
      · rw [Begin_busy E t hu] at hb
        simp only [Except.ok.injEq, Prod.mk.injEq] at hb
        obtain ⟨⟨rfl, rfl⟩, rfl⟩ := hb
        exact ⟨[], 0, rfl, rfl, by omega, fun _ => rfl⟩
  | complete cpl b s =>
    simp only [Call.exec, M.bind_run] at h
    cases hb : t.Complete E cpl b s w with
    | error e => rw [hb] at h; cases h
    | ok y =>
      obtain ⟨⟨r0, t0⟩, w0⟩ := y
      rw [hb] at h
      simp only [M.pure_run, Except.ok.injEq, Prod.mk.injEq] at h
      obtain ⟨⟨rfl, rfl⟩, rfl⟩ := h
      rcases Complete_inv E t hwf w cpl b s r0 t0 w0 hb with ⟨-, -, rfl, rfl⟩ | ⟨-, rfl, w1, rfl, hc⟩
      · exact ⟨[], 0, rfl, rfl, by omega, fun _ => rfl⟩
      · have hw : w1.trace = w.trace := by
          rcases hc with ⟨-, -, rfl⟩ | ⟨-, -, -, ok, hf⟩ | ⟨-, -, s, -, -, ok, hf⟩ | ⟨-, -, -, -, bs, st, -, hf⟩
          · rfl
          · exact (FillSenseBuffer_framed _ _ _ _ _ _ hf).1
          · exact (FillSenseBuffer_framed _ _ _ _ _ _ hf).1
          · exact (completeSwitch_framed _ _ _ _ _ _ _ _ _ hf).1
        obtain ⟨evs, h1, h2⟩ := requests_dealloc E (livePages t.nvme_cmd_count t.allocations) w1
        exact ⟨evs, 0, by rw [← hw]; exact h1, h2, by omega, fun _ => rfl⟩
  | abort =>
    simp only [Call.exec, M.bind_run, Abort_run E t hwf, M.pure_run, Except.ok.injEq, Prod.mk.injEq] at h
    obtain ⟨⟨rfl, rfl⟩, rfl⟩ := h
    obtain ⟨evs, h1, h2⟩ := requests_dealloc E (livePages t.nvme_cmd_count t.allocations) w
    exact ⟨evs, 0, h1, h2, by omega, fun _ => rfl⟩

/-! ## Pages held -/

theorem pagesOf_total (E : Env) (w : World) : pageTotal (pagesOf (setAl E w)) ≤ 1 := by
  unfold pagesOf setAl pageTotal
  simp only
  split <;> split <;> simp

/-- The object holds at most two pages. -/
def Small (t : Translation) : Prop := pageTotal (livePages t.nvme_cmd_count t.allocations) ≤ 2

theorem small_effect {E : Env} {as as' : Arr3 Allocation} {w w' : World} {n : Nat} (hc : Clean as)
    (h : AllocEffect E as w n as' w') : pageTotal (livePages n as') ≤ 2 := by
  have hpg := h.pages hc
  obtain ⟨c0, c1, c2⟩ := (Clean_iff as).mp hc
  rw [← hpg]
  cases h with
  | none => rw [livePages_mono_nil hc]; simp [pageTotal]
  | one _ hn _ ht hs ho hz =>
    have := pagesOf_total E w
    simpa [livePages, Arr3.toList, c1, c2] using Nat.le_trans this (by omega)
  | two h0 =>
    have h1 := pagesOf_total E w
    have h2 := pagesOf_total E (setW E w)
    simp only [livePages, Arr3.toList, List.take, List.flatMap_cons, List.flatMap_nil, c2, List.append_nil,
      pageTotal_append]
    omega
  | again _ hn h0 =>
    have := pagesOf_total E (setW E w)
    simpa [livePages, Arr3.toList, c1, c2] using Nat.le_trans this (by omega)

theorem small_abort (t : Translation) : Small (abortT t) := by
  simp [Small, abortT, livePages, pageTotal]

theorem exec_small (E : Env) (t : Translation) (ht : Wf t) (hs : Small t) (c : Call) (w : World) (r : Ret)
    (t' : Translation) (w' : World) (h : c.exec E t w = .ok ((r, t'), w')) : Small t' := by
  cases c with
  | begin cdb buf lun =>
    simp only [Call.exec, M.bind_run] at h
    cases hb : t.Begin E cdb buf lun w with
    | error e => rw [hb] at h; cases h
    | ok y =>
      obtain ⟨⟨r0, t0⟩, w0⟩ := y
      rw [hb] at h
      simp only [M.pure_run, Except.ok.injEq, Prod.mk.injEq] at h
      obtain ⟨⟨rfl, rfl⟩, rfl⟩ := h
      by_cases hu : t.pipeline_status = .kUninitialized
      · have hi := ht.idle_of hu
        rcases Begin_inv E t hi w cdb buf lun r0 t0 w0 hb with ⟨-, -, rfl, rfl⟩ | ⟨-, bs, p, w1, -, -, -, hc, he, -, rfl, rfl⟩
        · exact hs
        · unfold finishT Small
          by_cases hs : p.status = .kSuccess
          · simp only [if_pos hs]
            exact small_effect hi.clean he
          · simp only [if_neg hs]
            simp [livePages, pageTotal]
      · rw [Begin_busy E t hu] at hb
        simp only [Except.ok.injEq, Prod.mk.injEq] at hb
        obtain ⟨⟨rfl, rfl⟩, rfl⟩ := hb
        exact hs
  | complete cpl b s =>
    simp only [Call.exec, M.bind_run] at h
    cases hb : t.Complete E cpl b s w with
    | error e => rw [hb] at h; cases h
    | ok y =>
      obtain ⟨⟨r0, t0⟩, w0⟩ := y
      rw [hb] at h
      simp only [M.pure_run, Except.ok.injEq, Prod.mk.injEq] at h
      obtain ⟨⟨rfl, rfl⟩, rfl⟩ := h
      rcases Complete_inv E t ht w cpl b s r0 t0 w0 hb with ⟨-, -, rfl, rfl⟩ | ⟨-, rfl, w1, rfl, hc⟩
      · exact hs
      · exact small_abort t
  | abort =>
    simp only [Call.exec, M.bind_run, Abort_run E t ht, M.pure_run, Except.ok.injEq, Prod.mk.injEq] at h
    obtain ⟨⟨rfl, rfl⟩, rfl⟩ := h
    exact small_abort t

theorem run_small (E : Env) (steps : List Step) (t : Translation) (ht : Wf t) (hs : Small t) (tr : List Event)
    (os : List Obs) (t' : Translation) (tr' : List Event) (h : run E t tr steps = .ok (os, t', tr')) : Small t' := by
  induction steps generalizing t tr os with
  | nil =>
    simp only [run, Except.ok.injEq, Prod.mk.injEq] at h
    obtain ⟨rfl, rfl, rfl⟩ := h
    exact hs
  | cons st ss ih =>
    simp only [run] at h
    split at h
    · cases h
    · rename_i r t1 w1 he
      split at h
      · cases h
      · rename_i os1 t2 tr2 hrun
        simp only [Except.ok.injEq, Prod.mk.injEq] at h
        obtain ⟨rfl, rfl, rfl⟩ := h
        exact ih t1 (exec_wf E t ht _ _ _ _ _ he) (exec_small E t ht hs _ _ _ _ _ he) _ _ hrun

/-- **C114.** For every allocator (with a way to hand back pages) and after every history of calls on an object, the
object holds at most two pages. -/
theorem C114_held (E : Env) (hd : E.deallocCb.isSome) (ws : Arr3 NvmeCmdWrapper)
    (tr : List Event) (l : List (U64 × U16)) (steps : List Step) (os : List Obs) (t : Translation)
    (tr' : List Event) (hl : outstanding tr = some l)
    (h : run E (Translation.init ws) tr steps = .ok (os, t, tr')) :
    ∃ l', outstanding tr' = some l' ∧ pageTotal l' ≤ pageTotal l + 2 := by
  have ha : Acc E l (Translation.init ws) tr :=
    ⟨l, [], hl, by simp [Translation.init, livePages], fun _ => rfl, by simp⟩
  obtain ⟨l', x, h1, h2, -, h3⟩ := run_acc E hd l steps _ (Idle_init ws).wf tr os t tr' h ha
  refine ⟨l', h1, ?_⟩
  have hs : Small t := run_small E steps _ (Idle_init ws).wf (by simp [Small, Translation.init, livePages, pageTotal])
    tr os t tr' h
  have hx : pageTotal x = 0 := by
    unfold pageTotal
    clear h2
    induction x with
    | nil => rfl
    | cons p x ih =>
      have := h3 p (by simp)
      simp only [List.map_cons, List.sum_cons, this]
      have := ih fun q hq => h3 q (by simp [hq])
      simpa using this
  rw [pageTotal_perm h2, pageTotal_append, pageTotal_append, hx]
  unfold Small at hs
  omega

theorem many_small [DecidableEq ι] (ms : List (Move ι)) (objs : ι → Translation) (hw : ∀ i, Wf (objs i))
    (hs : ∀ i, Small (objs i)) (tr : List Event) (os : List (ι × Obs)) (objs' : ι → Translation) (tr' : List Event)
    (h : runMany objs tr ms = .ok (os, objs', tr')) : ∀ i, Small (objs' i) := by
  induction ms generalizing objs tr os with
  | nil =>
    simp only [runMany, Except.ok.injEq, Prod.mk.injEq] at h
    obtain ⟨rfl, rfl, rfl⟩ := h
    exact hs
  | cons m ms ih =>
    simp only [runMany] at h
    split at h
    · cases h
    · rename_i r t1 w1 he
      split at h
      · cases h
      · rename_i os1 objs2 tr2 hrun
        simp only [Except.ok.injEq, Prod.mk.injEq] at h
        obtain ⟨rfl, rfl, rfl⟩ := h
        refine ih _ (fun i => ?_) (fun i => ?_) _ _ hrun
        · unfold put
          by_cases hi : i = m.who
          · rw [if_pos hi]; exact exec_wf m.env _ (hw _) _ _ _ _ _ he
          · rw [if_neg hi]; exact hw i
        · unfold put
          by_cases hi : i = m.who
          · rw [if_pos hi]; exact exec_small m.env _ (hw _) (hs _) _ _ _ _ _ he
          · rw [if_neg hi]; exact hs i

/-- **C114.** Any number of objects used in any interleaving hold at most two pages each. -/
theorem C114_many [DecidableEq ι] (is : List ι) (hnd : is.Nodup) (ws : ι → Arr3 NvmeCmdWrapper) (tr : List Event)
    (l : List (U64 × U16)) (ms : List (Move ι))
    (hms : ∀ m ∈ ms, m.who ∈ is ∧ m.env.deallocCb.isSome ∧ ZeroIsNull m.env) (os : List (ι × Obs))
    (objs : ι → Translation) (tr' : List Event) (hl : outstanding tr = some l)
    (h : runMany (fun i => Translation.init (ws i)) tr ms = .ok (os, objs, tr')) :
    ∃ l', outstanding tr' = some l' ∧ pageTotal l' ≤ pageTotal l + 2 * is.length := by
  have h0 : allPages is (fun i => Translation.init (ws i)) = [] := by
    unfold allPages
    simp [Translation.init, livePages]
  obtain ⟨l', h1, h2⟩ := many_acc is hnd l ms hms _ (fun i => (Idle_init (ws i)).wf) tr os objs tr' h
    ⟨l, hl, by rw [h0]; exact .refl _⟩
  have hs := many_small ms _ (fun i => (Idle_init (ws i)).wf)
    (fun i => by simp [Small, Translation.init, livePages, pageTotal]) tr os objs tr' h
  refine ⟨l', h1, ?_⟩
  have : ∀ js : List ι, pageTotal (allPages js objs) ≤ 2 * js.length := by
    intro js
    induction js with
    | nil => simp [allPages, pageTotal]
    | cons j js ih =>
      have hj := hs j
      unfold Small at hj
      unfold allPages at ih ⊢
      simp only [List.flatMap_cons, pageTotal_append, List.length_cons]
      omega
  rw [pageTotal_perm h2, pageTotal_append]
  have := this is
  omega

/-- The bounds are reached: an INQUIRY holds two pages, after two requests for one page and two for none. -/
example :
    (run Demo.env (Translation.init Demo.ws) [] (demoSteps.take 1)).toOption.map
      (fun x => ((outstanding x.2.2).map pageTotal, requests x.2.2))
      = some (some 2, [(4096, 0), (4096, 1), (4096, 0), (4096, 1)]) ∧
    (runMany (fun _ => Translation.init Demo.ws) [] (manyMoves.take 2)).toOption.map
      (fun x => (outstanding x.2.2).map pageTotal) = some (some 4) := by
  constructor <;> decide +kernel

end Scsi2Nvme
