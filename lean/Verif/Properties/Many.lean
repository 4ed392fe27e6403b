import Verif.Properties.Pages
import Verif.Spec.Many
/-!
# C84: several objects, interleaved calls, callbacks replaced at run time
-/

namespace Scsi2Nvme
open Spec

theorem many_rel [DecidableEq ι] (ms : List (Move ι)) (objs : ι → Translation) (st : ι → Proto)
    (hr : ∀ i, Rel (objs i) (st i)) (tr : List Event) (os : List (ι × Obs)) (objs' : ι → Translation)
    (tr' : List Event) (h : runMany objs tr ms = .ok (os, objs', tr')) :
    ∀ i, ∃ s', Conforms (st i) (ofObject i os) s' ∧ Rel (objs' i) s' := by
  induction ms generalizing objs st tr os with
  | nil =>
    simp only [runMany, Except.ok.injEq, Prod.mk.injEq] at h
    obtain ⟨rfl, rfl, rfl⟩ := h
    exact fun i => ⟨st i, .nil, hr i⟩
  | cons m ms ih =>
    simp only [runMany] at h
    split at h
    · cases h
    · rename_i r t1 w1 he
      split at h
      · cases h
      · rename_i os1 objs2 tr2 hrun
        simp only [Except.ok.injEq, Prod.mk.injEq] at h
        obtain ⟨rfl, rfl, rfl⟩ := h
        obtain ⟨s1, ha, hr1⟩ := exec_step m.env (objs m.who) (st m.who) (hr _) m.call _ r t1 w1 he
        have hr' : ∀ i, Rel (put objs m.who t1 i) ((fun i => if i = m.who then s1 else st i) i) := by
          intro i
          unfold put
          by_cases hi : i = m.who
          · simp only [if_pos hi]; exact hr1
          · simp only [if_neg hi]; exact hr i
        intro i
        obtain ⟨s2, hc, hr2⟩ := ih _ _ hr' _ _ hrun i
        refine ⟨s2, ?_, hr2⟩
        unfold ofObject
        by_cases hi : i = m.who
        · subst hi
          rw [List.filterMap_cons_some (b := ⟨m.call, r, t1.GetNvmeWrappers⟩) (by simp)]
          simp only [if_true] at hc
          exact .cons ha hc
        · rw [List.filterMap_cons_none (by simp [Ne.symm hi])]
          simp only [if_neg hi] at hc
          exact hc

/-- **C84.** Whatever calls are made on other objects in between, and whatever callbacks are registered, each object
follows the protocol by itself. -/
theorem C84_protocol [DecidableEq ι] (ws : ι → Arr3 NvmeCmdWrapper) (tr : List Event) (ms : List (Move ι))
    (os : List (ι × Obs)) (objs : ι → Translation) (tr' : List Event)
    (h : runMany (fun i => Translation.init (ws i)) tr ms = .ok (os, objs, tr')) (i : ι) :
    ∃ s, Conforms none (ofObject i os) s := by
  obtain ⟨s, hc, -⟩ := many_rel ms _ (fun _ => none) (fun i => Idle_init (ws i)) tr os objs tr' h i
  exact ⟨s, hc⟩

/-- The pages recorded by the objects `is`. -/
def allPages (is : List ι) (objs : ι → Translation) : List (U64 × U16) :=
  is.flatMap fun i => livePages (objs i).nvme_cmd_count (objs i).allocations

theorem allPages_put [DecidableEq ι] (is : List ι) (objs : ι → Translation) (i : ι) (t : Translation) (h : i ∉ is) :
    allPages is (put objs i t) = allPages is objs := by
  unfold allPages
  induction is with
  | nil => rfl
  | cons j js ih =>
    have hj : j ≠ i := fun e => h (by simp [e])
    simp only [List.flatMap_cons]
    rw [ih (fun hm => h (by simp [hm]))]
    unfold put
    rw [if_neg hj]

theorem many_acc [DecidableEq ι] (is : List ι) (hnd : is.Nodup) (l : List (U64 × U16)) (ms : List (Move ι))
    (hms : ∀ m ∈ ms, m.who ∈ is ∧ m.env.deallocCb.isSome ∧ ZeroIsNull m.env) (objs : ι → Translation)
    (hw : ∀ i, Wf (objs i)) (tr : List Event) (os : List (ι × Obs)) (objs' : ι → Translation) (tr' : List Event)
    (h : runMany objs tr ms = .ok (os, objs', tr'))
    (ha : ∃ l', outstanding tr = some l' ∧ l'.Perm (allPages is objs ++ l)) :
    ∃ l', outstanding tr' = some l' ∧ l'.Perm (allPages is objs' ++ l) := by
  induction ms generalizing objs tr os with
  | nil =>
    simp only [runMany, Except.ok.injEq, Prod.mk.injEq] at h
    obtain ⟨rfl, rfl, rfl⟩ := h
    exact ha
  | cons m ms ih =>
    obtain ⟨hm, hd, hz⟩ := hms m (by simp)
    simp only [runMany] at h
    split at h
    · cases h
    · rename_i r t1 w1 he
      split at h
      · cases h
      · rename_i os1 objs2 tr2 hrun
        simp only [Except.ok.injEq, Prod.mk.injEq] at h
        obtain ⟨rfl, rfl, rfl⟩ := h
        refine ih (fun m hm => hms m (by simp [hm])) _ (fun i => ?_) _ _ hrun ?_
        · unfold put
          by_cases hi : i = m.who
          · rw [if_pos hi]; exact exec_wf m.env _ (hw _) _ _ _ _ _ he
          · rw [if_neg hi]; exact hw i
        · obtain ⟨js, ks, rfl⟩ := List.append_of_mem hm
          have hjs : m.who ∉ js ∧ m.who ∉ ks := by
            have := List.nodup_append.mp hnd
            refine ⟨fun hj => this.2.2 _ hj _ (by simp) rfl, ?_⟩
            exact (List.nodup_cons.mp this.2.1).1
          obtain ⟨l', h1, h2⟩ := ha
          have split : ∀ o : ι → Translation, (allPages (js ++ m.who :: ks) o ++ l).Perm
              (livePages (o m.who).nvme_cmd_count (o m.who).allocations ++ ([] ++ (allPages js o ++ allPages ks o ++ l))) := by
            intro o
            unfold allPages
            simp only [List.flatMap_append, List.flatMap_cons, List.nil_append, List.append_assoc]
            exact (List.perm_append_comm_assoc _ _ _)
          have hacc : Acc m.env (allPages js objs ++ allPages ks objs ++ l) (objs m.who) tr :=
            ⟨l', [], h1, h2.trans (split objs), fun _ => rfl, by simp⟩
          obtain ⟨l2, x, a1, a2, a3⟩ := exec_acc m.env hd _ _ (hw _) _ _ _ _ _ he hacc
          rw [a3.1 hz] at a2
          refine ⟨l2, a1, a2.trans ?_⟩
          have hp : put objs m.who t1 m.who = t1 := by unfold put; rw [if_pos rfl]
          have := (split (put objs m.who t1)).symm
          rw [hp, allPages_put _ _ _ _ hjs.1, allPages_put _ _ _ _ hjs.2] at this
          exact this

/-- **C84.** With deallocation callbacks registered, and allocators answering 0 to empty requests: in every
interleaving of calls on the objects `is`, only page ranges that are outstanding are handed back; once every object
is idle again exactly the ranges outstanding at the start are outstanding. -/
theorem C84_pages [DecidableEq ι] (is : List ι) (hnd : is.Nodup) (ws : ι → Arr3 NvmeCmdWrapper) (tr : List Event)
    (l : List (U64 × U16)) (ms : List (Move ι))
    (hms : ∀ m ∈ ms, m.who ∈ is ∧ m.env.deallocCb.isSome ∧ ZeroIsNull m.env) (os : List (ι × Obs))
    (objs : ι → Translation) (tr' : List Event) (hl : outstanding tr = some l)
    (h : runMany (fun i => Translation.init (ws i)) tr ms = .ok (os, objs, tr')) :
    ∃ l', outstanding tr' = some l' ∧ ((∀ i ∈ is, Conforms none (ofObject i os) none) → l'.Perm l) := by
  have h0 : allPages is (fun i => Translation.init (ws i)) = [] := by
    unfold allPages
    simp [Translation.init, livePages]
  obtain ⟨l', h1, h2⟩ := many_acc is hnd l ms hms _ (fun i => (Idle_init (ws i)).wf) tr os objs tr' h
    ⟨l, hl, by rw [h0]; exact .refl _⟩
  refine ⟨l', h1, fun hc => ?_⟩
  have h3 : allPages is objs = [] := by
    unfold allPages
    rw [List.flatMap_eq_nil_iff]
    intro i hi
    obtain ⟨s, hs, hr⟩ := many_rel ms _ (fun _ => none) (fun i => Idle_init (ws i)) tr os objs tr' h i
    cases Conforms_unique hs (hc i hi)
    exact livePages_mono_nil hr.clean _
  rw [h3] at h2
  exact h2

/-- Two objects: an INQUIRY is begun on both, the first is aborted, the second completed (one page callback per
object, the second one recording the same pages). -/
def manyMoves : List (Move Bool) :=
  let m := Demo.mem Demo.inquiry
  [⟨true, Demo.env, m, .begin (Demo.cdbSpan Demo.inquiry) Demo.data 0⟩,
   ⟨false, Demo.env, m, .begin (Demo.cdbSpan Demo.inquiry) Demo.data 1⟩,
   ⟨true, { Demo.env with junk := fun _ _ => 0 }, m, .abort⟩,
   ⟨false, Demo.env, m, .complete [Demo.cpl 0 4, Demo.cpl 0 0] Demo.data Span.null⟩]

/-- The hypotheses of C84 are met by an interleaving in which four page ranges of two objects are outstanding at the
same time, and none at the end. -/
example :
    (∀ m ∈ manyMoves, m.who ∈ [true, false] ∧ m.env.deallocCb.isSome ∧ ZeroIsNull m.env) ∧
    (runMany (fun _ => Translation.init Demo.ws) [] (manyMoves.take 2)).toOption.map (fun x => outstanding x.2.2)
      = some (some [(0x160000, 1), (0x140000, 1), (0x120000, 1), (0x100000, 1)]) ∧
    (runMany (fun _ => Translation.init Demo.ws) [] (manyMoves.take 3)).toOption.map (fun x => outstanding x.2.2)
      = some (some [(0x160000, 1), (0x140000, 1)]) ∧
    (runMany (fun _ => Translation.init Demo.ws) [] manyMoves).toOption.map (fun x => outstanding x.2.2)
      = some (some []) := by
  refine ⟨?_, by decide +kernel, by decide +kernel, by decide +kernel⟩
  have hz : ZeroIsNull Demo.env := by
    intro f hf w ps
    simp only [Demo.env, Option.some.injEq] at hf
    rw [← hf]
    rfl
  intro m hm
  simp only [manyMoves, List.mem_cons, List.not_mem_nil, or_false] at hm
  rcases hm with rfl | rfl | rfl | rfl
  · exact ⟨by decide, rfl, hz⟩
  · exact ⟨by decide, rfl, hz⟩
  · exact ⟨by decide, rfl, hz⟩
  · exact ⟨by decide, rfl, hz⟩

end Scsi2Nvme
