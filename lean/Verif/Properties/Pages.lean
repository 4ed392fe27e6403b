import Verif.Properties.Protocol
/-!
# C05, C06: page accounting
-/

namespace Scsi2Nvme
open Spec

/-- The allocator answers 0 when asked for no pages. -/
def ZeroIsNull (E : Env) : Prop := ∀ f, E.allocCb = some f → ∀ w ps, (f w ps 0).1 = 0

/-- The page accounting the user relies on: over every history on a fresh object (starting with any pages
`l` outstanding, for instance those of other objects), only outstanding page ranges are handed back, and
when the object is idle exactly the ranges outstanding at the start are outstanding again. -/
def Balanced (E : Env) : Prop :=
  ∀ (ws : Arr3 NvmeCmdWrapper) (tr : List Event) (l : List (U64 × U16)) (steps : List Step) (os : List Obs)
    (t : Translation) (tr' : List Event),
    outstanding tr = some l →
    run E (Translation.init ws) tr steps = .ok (os, t, tr') →
    ∃ l', outstanding tr' = some l' ∧ (Conforms none os none → l'.Perm l)

/-! ## Effect of the callbacks on the outstanding pages -/

theorem outstanding_alloc (E : Env) (ps : U32) (n : U16) (w : World) (l : List (U64 × U16))
    (h : outstanding w.trace = some l) :
    outstanding (allocW E ps n w).trace
      = some ((if allocRes E ps n w = 0 then [] else [(allocRes E ps n w, n)]) ++ l) := by
  unfold allocW allocRes
  cases E.allocCb with
  | none => simp [h]
  | some f =>
    simp only [outstanding, h, Option.map_some]
    split <;> simp

theorem outstanding_set (E : Env) (w : World) (l : List (U64 × U16)) (h : outstanding w.trace = some l) :
    ∃ l', outstanding (setW E w).trace = some l' ∧ l'.Perm (pagesOf (setAl E w) ++ l) := by
  unfold setW
  refine ⟨_, outstanding_alloc E 4096 0 _ _ (outstanding_alloc E 4096 1 w l h), ?_⟩
  change ((if setM E w = 0 then [] else [(setM E w, 0)]) ++ ((if setA E w = 0 then [] else [(setA E w, 1)]) ++ l)).Perm _
  unfold pagesOf setAl
  simp only
  by_cases h1 : setA E w = 0#64 <;> by_cases h2 : setM E w = 0#64 <;>
    simp only [BitVec.ofNat_eq_ofNat, h1, h2, ne_eq, not_true_eq_false, not_false_eq_true, if_true, if_false,
      List.nil_append, List.append_nil, List.cons_append]
  · exact .refl _
  · exact .refl _
  · exact .refl _
  · exact List.Perm.swap _ _ _

theorem setM_zero (E : Env) (hz : ZeroIsNull E) (w : World) : setM E w = 0 := by
  unfold setM allocRes
  cases h : E.allocCb with
  | none => rfl
  | some f => exact hz f h _ _

theorem outstanding_dealloc (E : Env) (hd : E.deallocCb.isSome) (ps r l : List (U64 × U16)) (w : World)
    (h : outstanding w.trace = some l) (hp : l.Perm (ps ++ r)) :
    ∃ l', outstanding (deallocAll E ps w).trace = some l' ∧ l'.Perm r := by
  induction ps generalizing w l with
  | nil => exact ⟨l, h, hp⟩
  | cons p ps ih =>
    obtain ⟨f, hf⟩ := Option.isSome_iff_exists.mp hd
    have hm : p ∈ l := hp.mem_iff.mpr (by simp)
    have h1 : outstanding (deallocW E p.1 p.2 w).trace = some (l.erase p) := by
      unfold deallocW
      rw [hf]
      simp only [outstanding, h, Option.bind_some]
      rw [if_pos hm]
    refine ih _ _ h1 ?_
    have := hp.erase p
    simpa using this

theorem outstanding_dealloc_none (E : Env) (hd : E.deallocCb = none) (ps : List (U64 × U16)) (w : World) :
    (deallocAll E ps w).trace = w.trace := by
  induction ps generalizing w with
  | nil => rfl
  | cons p ps ih =>
    change (deallocAll E ps (deallocW E p.1 p.2 w)).trace = _
    rw [ih]
    unfold deallocW
    rw [hd]

/-- Pages lost by an overwritten record. -/
theorem AllocEffect.outstanding {E : Env} {as as' : Arr3 Allocation} {w w' : World} {n : Nat} (hc : Clean as)
    (h : AllocEffect E as w n as' w') (l : List (U64 × U16)) (hl : outstanding w.trace = some l) :
    ∃ l' x, Spec.outstanding w'.trace = some l' ∧ l'.Perm (livePages n as' ++ (x ++ l)) ∧
      (ZeroIsNull E → x = []) ∧ (∀ p ∈ x, p.2 = 0) := by
  have hpg := h.pages hc
  obtain ⟨c0, c1, c2⟩ := (Clean_iff as).mp hc
  cases h with
  | none =>
    exact ⟨l, [], hl, by rw [livePages_mono_nil hc]; exact .refl _, ⟨fun _ => rfl, by simp⟩⟩
  | one _ hn _ ht hs ho hz =>
    obtain ⟨l', h1, h2⟩ := outstanding_set E w l hl
    refine ⟨l', [], by rw [ht]; exact h1, ?_, ⟨fun _ => rfl, by simp⟩⟩
    rw [← hpg]
    simpa [livePages, Arr3.toList, c1, c2] using h2
  | two h0 =>
    obtain ⟨l1, h1, p1⟩ := outstanding_set E w l hl
    obtain ⟨l2, h2, p2⟩ := outstanding_set E (setW E w) l1 h1
    refine ⟨l2, [], h2, ?_, ⟨fun _ => rfl, by simp⟩⟩
    refine p2.trans ((List.Perm.append_left _ p1).trans ?_)
    simp only [livePages, Arr3.toList, List.take, List.flatMap_cons, List.flatMap_nil, List.append_nil,
      List.nil_append]
    rw [← List.append_assoc]
    exact List.Perm.append_right _ List.perm_append_comm
  | again _ hn h0 =>
    obtain ⟨l1, h1, p1⟩ := outstanding_set E w l hl
    obtain ⟨l2, h2, p2⟩ := outstanding_set E (setW E w) l1 h1
    refine ⟨l2, pagesOf (setAl E w), h2, ?_, fun hz => ?_, ?_⟩
    · refine p2.trans ((List.Perm.append_left _ p1).trans ?_)
      rw [← hpg]
      simp [livePages, Arr3.toList, c1, c2]
    · rw [pagesOf_eq_nil]
      exact ⟨h0, setM_zero E hz w⟩
    · intro p hp
      unfold pagesOf setAl at hp
      simp only [h0, ne_eq, not_true_eq_false, if_false, List.nil_append] at hp
      split at hp
      · rw [List.mem_singleton.mp hp]
      · cases hp

/-- Accounting invariant: the outstanding pages are those recorded by the object, those outstanding at the
start, and possibly lost ones, which are ranges of no pages. -/
def Acc (E : Env) (l : List (U64 × U16)) (t : Translation) (tr : List Event) : Prop :=
  ∃ l' x, outstanding tr = some l' ∧ l'.Perm (livePages t.nvme_cmd_count t.allocations ++ (x ++ l)) ∧
    (ZeroIsNull E → x = []) ∧ (∀ p ∈ x, p.2 = 0)

theorem abort_acc (E : Env) (hd : E.deallocCb.isSome) (l : List (U64 × U16)) (t : Translation) (w : World)
    (h : Acc E l t w.trace) : Acc E l (abortT t) (abortW E t w).trace := by
  obtain ⟨l', x, h1, h2, h3⟩ := h
  obtain ⟨l'', h4, h5⟩ := outstanding_dealloc E hd _ _ _ _ h1 h2
  exact ⟨l'', x, h4, by simpa [abortT, livePages] using h5, h3⟩

theorem exec_acc (E : Env) (hd : E.deallocCb.isSome) (l : List (U64 × U16)) (t : Translation) (ht : Wf t)
    (c : Call) (w : World) (r : Ret) (t' : Translation) (w' : World)
    (h : c.exec E t w = .ok ((r, t'), w')) (ha : Acc E l t w.trace) : Acc E l t' w'.trace := by
  cases c with
  | begin cdb buf lun =>
    simp only [Call.exec, M.bind_run] at h
    cases hb : t.Begin E cdb buf lun w with
    | error e => rw [hb] at h; cases h
    | ok y =>
      obtain ⟨⟨r0, t0⟩, w0⟩ := y
      rw [hb] at h
      simp only [M.pure_run, Except.ok.injEq, Prod.mk.injEq] at h
      obtain ⟨⟨rfl, rfl⟩, rfl⟩ := h
      by_cases hu : t.pipeline_status = .kUninitialized
      · have hi := ht.idle_of hu
        rcases Begin_inv E t hi w cdb buf lun r0 t0 w0 hb with ⟨-, -, rfl, rfl⟩ | ⟨-, bs, p, w1, -, -, -, hc, he, -, rfl, rfl⟩
        · exact ha
        · obtain ⟨l0, x0, a1, a2, a3⟩ := ha
          rw [livePages_mono_nil hi.clean] at a2
          obtain ⟨l1, x1, b1, b2, b3⟩ := he.outstanding hi.clean l0 a1
          have b4 : l1.Perm (livePages p.count p.as ++ ((x1 ++ x0) ++ l)) := by
            rw [List.append_assoc]
            exact b2.trans (List.Perm.append_left _ (List.Perm.append_left _ a2))
          have b5 : (ZeroIsNull E → x1 ++ x0 = []) ∧ (∀ p ∈ x1 ++ x0, p.2 = 0) :=
            ⟨fun hz => by rw [b3.1 hz, a3.1 hz]; rfl, fun p hp => (List.mem_append.mp hp).elim (b3.2 p) (a3.2 p)⟩
          unfold finishT finishW
          by_cases hs : p.status = .kSuccess
          · simp only [if_pos hs]
            exact ⟨l1, x1 ++ x0, b1, b4, b5⟩
          · simp only [if_neg hs]
            obtain ⟨l2, d1, d2⟩ := outstanding_dealloc E hd _ _ _ _ b1 b4
            exact ⟨l2, x1 ++ x0, d1, by simpa [livePages] using d2, b5⟩
      · rw [Begin_busy E t hu] at hb
        simp only [Except.ok.injEq, Prod.mk.injEq] at hb
        obtain ⟨⟨rfl, rfl⟩, rfl⟩ := hb
        exact ha
  | complete cpl b s =>
    simp only [Call.exec, M.bind_run] at h
    cases hb : t.Complete E cpl b s w with
    | error e => rw [hb] at h; cases h
    | ok y =>
      obtain ⟨⟨r0, t0⟩, w0⟩ := y
      rw [hb] at h
      simp only [M.pure_run, Except.ok.injEq, Prod.mk.injEq] at h
      obtain ⟨⟨rfl, rfl⟩, rfl⟩ := h
      rcases Complete_inv E t ht w cpl b s r0 t0 w0 hb with ⟨-, -, rfl, rfl⟩ | ⟨-, rfl, w1, rfl, hc⟩
      · exact ha
      · have hw : w1.trace = w.trace := by
          rcases hc with ⟨-, -, rfl⟩ | ⟨-, -, -, ok, hf⟩ | ⟨-, -, s, -, -, ok, hf⟩ | ⟨-, -, -, -, bs, st, -, hf⟩
          · rfl
          · exact (FillSenseBuffer_framed _ _ _ _ _ _ hf).1
          · exact (FillSenseBuffer_framed _ _ _ _ _ _ hf).1
          · exact (completeSwitch_framed _ _ _ _ _ _ _ _ _ hf).1
        exact abort_acc E hd l t w1 (by rw [hw]; exact ha)
  | abort =>
    simp only [Call.exec, M.bind_run, Abort_run E t ht, M.pure_run, Except.ok.injEq, Prod.mk.injEq] at h
    obtain ⟨⟨rfl, rfl⟩, rfl⟩ := h
    exact abort_acc E hd l t w ha

theorem run_acc (E : Env) (hd : E.deallocCb.isSome) (l : List (U64 × U16)) (steps : List Step)
    (t : Translation) (ht : Wf t) (tr : List Event) (os : List Obs) (t' : Translation) (tr' : List Event)
    (h : run E t tr steps = .ok (os, t', tr')) (ha : Acc E l t tr) : Acc E l t' tr' := by
  induction steps generalizing t tr os with
  | nil =>
    simp only [run, Except.ok.injEq, Prod.mk.injEq] at h
    obtain ⟨rfl, rfl, rfl⟩ := h
    exact ha
  | cons st ss ih =>
    simp only [run] at h
    split at h
    · cases h
    · rename_i r t1 w1 he
      split at h
      · cases h
      · rename_i os1 t2 tr2 hrun
        simp only [Except.ok.injEq, Prod.mk.injEq] at h
        obtain ⟨rfl, rfl, rfl⟩ := h
        exact ih t1 (exec_wf E t ht _ _ _ _ _ he) _ _ hrun (exec_acc E hd l t ht _ _ _ _ _ he ha)

/-- **C05.** With an allocator that answers 0 to a zero-page request the accounting is balanced. -/
theorem C05_balance (E : Env) (hd : E.deallocCb.isSome) (hz : ZeroIsNull E) : Balanced E := by
  intro ws tr l steps os t tr' hl h
  have ha : Acc E l (Translation.init ws) tr :=
    ⟨l, [], hl, by simp [Translation.init, livePages], fun _ => rfl, by simp⟩
  obtain ⟨l', x, h1, h2, h3⟩ := run_acc E hd l steps _ (Idle_init ws).wf tr os t tr' h ha
  refine ⟨l', h1, fun hc => ?_⟩
  obtain ⟨s, hs, hr⟩ := run_rel E steps _ none (Idle_init ws) tr os t tr' h
  cases Conforms_unique hs hc
  rw [livePages_mono_nil hr.clean, h3.1 hz] at h2
  exact h2

/-- **C05.** While a command is pending, what is outstanding beyond the start are exactly the page ranges the
object has recorded for the pending commands (so they are available to be handed back). -/
theorem C05_pending (E : Env) (hd : E.deallocCb.isSome) (hz : ZeroIsNull E) (ws : Arr3 NvmeCmdWrapper)
    (tr : List Event) (l : List (U64 × U16)) (steps : List Step) (os : List Obs) (t : Translation)
    (tr' : List Event) (hl : outstanding tr = some l)
    (h : run E (Translation.init ws) tr steps = .ok (os, t, tr')) :
    ∃ l', outstanding tr' = some l' ∧ l'.Perm (livePages 3 t.allocations ++ l) := by
  have ha : Acc E l (Translation.init ws) tr :=
    ⟨l, [], hl, by simp [Translation.init, livePages], fun _ => rfl, by simp⟩
  obtain ⟨l', x, h1, h2, h3⟩ := run_acc E hd l steps _ (Idle_init ws).wf tr os t tr' h ha
  obtain ⟨s, hs, hr⟩ := run_rel E steps _ none (Idle_init ws) tr os t tr' h
  refine ⟨l', h1, ?_⟩
  rw [hr.wf.pages]
  rw [h3.1 hz] at h2
  exact h2

/-- **C06 (partial).** For every allocator: nothing is handed back that is not outstanding, and no page
that was outstanding at the start is handed back.  Missing: that nothing is lost, which is false, see
`C06_refuted`. -/
theorem C06_no_double_free_partial (E : Env) (hd : E.deallocCb.isSome) (ws : Arr3 NvmeCmdWrapper)
    (tr : List Event) (l : List (U64 × U16)) (steps : List Step) (os : List Obs) (t : Translation)
    (tr' : List Event) (hl : outstanding tr = some l)
    (h : run E (Translation.init ws) tr steps = .ok (os, t, tr')) :
    ∃ l' x, outstanding tr' = some l' ∧ l'.Perm (x ++ l) := by
  have ha : Acc E l (Translation.init ws) tr :=
    ⟨l, [], hl, by simp [Translation.init, livePages], fun _ => rfl, by simp⟩
  obtain ⟨l', x, h1, h2, -⟩ := run_acc E hd l steps _ (Idle_init ws).wf tr os t tr' h ha
  exact ⟨l', _, h1, by rw [← List.append_assoc] at h2; exact h2⟩

/-- **C06 (partial).** For every allocator: when the object is idle, exactly the ranges of at least one page that were
outstanding at the start are outstanding again.  What can get lost are answers to requests for no pages. -/
theorem C06_pages_balance_partial (E : Env) (hd : E.deallocCb.isSome) (ws : Arr3 NvmeCmdWrapper)
    (tr : List Event) (l : List (U64 × U16)) (steps : List Step) (os : List Obs) (t : Translation)
    (tr' : List Event) (hl : outstanding tr = some l)
    (h : run E (Translation.init ws) tr steps = .ok (os, t, tr')) :
    ∃ l', outstanding tr' = some l' ∧
      (Conforms none os none → (l'.filter (fun p => p.2 ≠ 0)).Perm (l.filter (fun p => p.2 ≠ 0))) := by
  have ha : Acc E l (Translation.init ws) tr :=
    ⟨l, [], hl, by simp [Translation.init, livePages], fun _ => rfl, by simp⟩
  obtain ⟨l', x, h1, h2, h3⟩ := run_acc E hd l steps _ (Idle_init ws).wf tr os t tr' h ha
  refine ⟨l', h1, fun hc => ?_⟩
  obtain ⟨s, hs, hr⟩ := run_rel E steps _ none (Idle_init ws) tr os t tr' h
  cases Conforms_unique hs hc
  rw [livePages_mono_nil hr.clean, List.nil_append] at h2
  have := h2.filter (fun p => p.2 ≠ 0)
  have hx : x.filter (fun p => p.2 ≠ 0) = [] := List.filter_eq_nil_iff.mpr (by intro p hp; simp [h3.2 p hp])
  rw [List.filter_append, hx, List.nil_append] at this
  exact this

/-- An allocator that is out of pages but answers a zero-page request with an address. -/
def oddEnv : Env where
  allocCb := some fun w _ n => (if n = 0 then 0x1000 else 0, w.mem)
  deallocCb := some fun w _ _ => w.mem
  junk := fun _ _ => 0

/-- A MODE SENSE(10) command block of twelve bytes. -/
def oddCdb : List Byte := [0x5a, 0, 0, 0, 0, 0, 0, 0, 64, 0, 0, 0]

/-- Begin and abort. -/
def oddSteps : List Step :=
  [⟨Demo.mem oddCdb, .begin (Demo.cdbSpan oddCdb) Demo.data 0⟩, ⟨Demo.mem oddCdb, .abort⟩]

/-- **C06 is false.** There is an allocator for which a history ends idle with a page range lost: the
fall-through from MODE SENSE(10) to REPORT LUNS overwrites an allocation record. -/
theorem C06_refuted : ∃ E : Env, E.deallocCb.isSome ∧ ¬ Balanced E := by
  refine ⟨oddEnv, rfl, fun hb => ?_⟩
  have hrun : (run oddEnv (Translation.init Demo.ws) [] oddSteps).toOption.map (fun x => (outstanding x.2.2, x.2.1.pipeline_status))
      = some (some [(0x1000, 0)], .kUninitialized) := by decide +kernel
  cases h : run oddEnv (Translation.init Demo.ws) [] oddSteps with
  | error e => rw [h] at hrun; cases hrun
  | ok x =>
    obtain ⟨os, t, tr'⟩ := x
    rw [h] at hrun
    simp only [Except.toOption, Option.map_some, Option.some.injEq, Prod.mk.injEq] at hrun
    obtain ⟨l', h1, h2⟩ := hb Demo.ws [] [] oddSteps os t tr' rfl h
    rw [hrun.1] at h1
    cases h1
    obtain ⟨s, hs, hr⟩ := run_rel oddEnv oddSteps _ none (Idle_init Demo.ws) [] os t tr' h
    have : s = none := by
      cases s with
      | none => rfl
      | some cs => exact absurd hrun.2 hr.2.1
    subst this
    have := (h2 hs).length_eq
    simp at this

/-- The hypotheses of C05 are met, with a history that allocates: an INQUIRY (two pages) begun and pending. -/
example : Demo.env.deallocCb.isSome ∧ ZeroIsNull Demo.env ∧
    (run Demo.env (Translation.init Demo.ws) [] (demoSteps.take 1)).toOption.map (fun x => outstanding x.2.2)
      = some (some [(0x120000, 1), (0x100000, 1)]) ∧
    (run Demo.env (Translation.init Demo.ws) [] (demoSteps.take 3)).toOption.map (fun x => outstanding x.2.2)
      = some (some []) := by
  refine ⟨rfl, ?_, by decide +kernel, by decide +kernel⟩
  intro f hf w ps
  simp only [Demo.env, Option.some.injEq] at hf
  rw [← hf]
  rfl

end Scsi2Nvme
