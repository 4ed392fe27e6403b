import Verif.Proofs.Api
import Verif.Spec.Demo
/-!
# C01, C02, C03: the protocol of the API
-/

namespace Scsi2Nvme
open Spec

/-- Relation between the object and the state of the automaton. -/
def Rel (t : Translation) : Proto → Prop
  | none => Idle t
  | some cs => Wf t ∧ t.pipeline_status ≠ .kUninitialized ∧ t.GetNvmeWrappers = cs

theorem Rel.wf {t : Translation} {s : Proto} (h : Rel t s) : Wf t := by
  cases s with
  | none => exact Idle.wf h
  | some cs => exact h.1

theorem Idle.cmds {t : Translation} (h : Idle t) : t.GetNvmeWrappers = [] := by
  simp [Translation.GetNvmeWrappers, h.count]

theorem Wf.cmds_length {t : Translation} (h : Wf t) : t.GetNvmeWrappers.length = t.nvme_cmd_count := by
  have := h.count
  simp [Translation.GetNvmeWrappers, Arr3.toList]; omega

theorem Begin_busy (E : Env) (t : Translation) (h : t.pipeline_status ≠ .kUninitialized) (cdb buf : Span)
    (lun : U64) (w : World) : t.Begin E cdb buf lun w = .ok ((⟨.kFailure, 0⟩, t), w) := by
  unfold Translation.Begin; rw [if_pos h]; rfl

theorem Complete_idle (E : Env) (t : Translation) (h : t.pipeline_status = .kUninitialized)
    (cpl : List Nvme.GenericQueueEntryCpl) (b s : Span)
    (w : World) : t.Complete E cpl b s w = .ok ((⟨.kFailure, 0⟩, t), w) := by
  unfold Translation.Complete; rw [if_pos h]; rfl

theorem exec_step (E : Env) (t : Translation) (s : Proto) (hr : Rel t s) (c : Call) (w : World) (r : Ret)
    (t' : Translation) (w' : World) (h : c.exec E t w = .ok ((r, t'), w')) :
    ∃ s', allowed s ⟨c, r, t'.GetNvmeWrappers⟩ s' ∧ Rel t' s' := by
  have hwf' := exec_wf E t hr.wf c w r t' w' h
  cases c with
  | begin cdb buf lun =>
    simp only [Call.exec, M.bind_run] at h
    cases s with
    | none =>
      cases hb : t.Begin E cdb buf lun w with
      | error e => rw [hb] at h; cases h
      | ok x =>
        obtain ⟨⟨r0, t0⟩, w0⟩ := x
        rw [hb] at h
        simp only [M.pure_run, Except.ok.injEq, Prod.mk.injEq] at h
        obtain ⟨⟨rfl, rfl⟩, rfl⟩ := h
        have hn : t0.pipeline_status ≠ .kUninitialized ∧ ∃ al, r0 = ⟨.kSuccess, al⟩ := by
          rcases Begin_inv E t hr w cdb buf lun r0 t0 w0 hb with
            ⟨-, hr, rfl, -⟩ | ⟨-, bs, p, w1, -, -, hs, -, -, hr, rfl, -⟩
          · exact ⟨by simp, _, hr⟩
          · exact ⟨by rw [finishT_status]; exact hs, _, hr⟩
        obtain ⟨hs, al, rfl⟩ := hn
        exact ⟨_, .begin (by rw [hwf'.cmds_length]; exact hwf'.count), hwf', hs, rfl⟩
    | some cs =>
      obtain ⟨hw, hs, rfl⟩ := hr
      rw [Begin_busy E t hs] at h
      simp only [M.pure_run, Except.ok.injEq, Prod.mk.injEq] at h
      obtain ⟨⟨rfl, rfl⟩, rfl⟩ := h
      exact ⟨_, .beginBusy, hw, hs, rfl⟩
  | complete cpl b s' =>
    simp only [Call.exec, M.bind_run] at h
    cases hb : t.Complete E cpl b s' w with
    | error e => rw [hb] at h; cases h
    | ok x =>
      obtain ⟨⟨r0, t0⟩, w0⟩ := x
      rw [hb] at h
      simp only [M.pure_run, Except.ok.injEq, Prod.mk.injEq] at h
      obtain ⟨⟨rfl, rfl⟩, rfl⟩ := h
      have hinv := Complete_inv E t hr.wf w cpl b s' r0 t0 w0 hb
      cases s with
      | none =>
        rcases hinv with ⟨-, rfl, rfl, -⟩ | ⟨hu, -⟩
        · exact ⟨none, by rw [Idle.cmds hr]; exact .completeIdle, hr⟩
        · exact absurd hr.status hu
      | some cs =>
        obtain ⟨hw, hs, rfl⟩ := hr
        rcases hinv with ⟨hu, -⟩ | ⟨-, rfl, w1, -, hc⟩
        · exact absurd hu hs
        · refine ⟨none, ?_, abortT_idle hw⟩
          rw [(abortT_idle hw).cmds]
          rcases hc with ⟨hl, rfl, -⟩ | ⟨hl, -, rfl, -⟩ | ⟨hl, -, s, -, rfl, -⟩ | ⟨hl, -, -, rfl, -⟩
          · exact .completeMismatch (by rw [hw.cmds_length]; exact hl)
          · exact .complete (by rw [hw.cmds_length]; exact hl)
          · exact .complete (by rw [hw.cmds_length]; exact hl)
          · exact .complete (by rw [hw.cmds_length]; exact hl)
  | abort =>
    simp only [Call.exec, M.bind_run, Abort_run E t hr.wf, M.pure_run, Except.ok.injEq, Prod.mk.injEq] at h
    obtain ⟨⟨rfl, rfl⟩, rfl⟩ := h
    exact ⟨none, by rw [(abortT_idle hr.wf).cmds]; exact .abort, abortT_idle hr.wf⟩

theorem run_rel (E : Env) (steps : List Step) (t : Translation) (s : Proto) (hr : Rel t s) (tr : List Event)
    (os : List Obs) (t' : Translation) (tr' : List Event) (h : run E t tr steps = .ok (os, t', tr')) :
    ∃ s', Conforms s os s' ∧ Rel t' s' := by
  induction steps generalizing t s tr os with
  | nil =>
    simp only [run, Except.ok.injEq, Prod.mk.injEq] at h
    obtain ⟨rfl, rfl, rfl⟩ := h
    exact ⟨s, .nil, hr⟩
  | cons st ss ih =>
    simp only [run] at h
    split at h
    · cases h
    · rename_i r t1 w1 he
      split at h
      · cases h
      · rename_i os1 t2 tr2 hrun
        simp only [Except.ok.injEq, Prod.mk.injEq] at h
        obtain ⟨rfl, rfl, rfl⟩ := h
        obtain ⟨s1, ha, hr1⟩ := exec_step E t s hr st.call _ r t1 w1 he
        obtain ⟨s2, hc, hr2⟩ := ih t1 s1 hr1 _ _ hrun
        exact ⟨s2, .cons ha hc, hr2⟩

theorem run_calls (E : Env) (steps : List Step) (t : Translation) (tr : List Event)
    (os : List Obs) (t' : Translation) (tr' : List Event) (h : run E t tr steps = .ok (os, t', tr')) :
    os.map (·.call) = steps.map (·.call) := by
  induction steps generalizing t tr os with
  | nil =>
    simp only [run, Except.ok.injEq, Prod.mk.injEq] at h
    obtain ⟨rfl, -⟩ := h
    rfl
  | cons st ss ih =>
    simp only [run] at h
    split at h
    · cases h
    · rename_i r t1 w1 he
      split at h
      · cases h
      · rename_i os1 t2 tr2 hrun
        simp only [Except.ok.injEq, Prod.mk.injEq] at h
        obtain ⟨rfl, rfl, rfl⟩ := h
        simp only [List.map_cons, ih _ _ _ hrun]

theorem allowed_unique {s s1 s2 : Proto} {o : Obs} (h1 : allowed s o s1) (h2 : allowed s o s2) : s1 = s2 := by
  cases h1 <;> cases h2 <;> first | rfl | contradiction

theorem Conforms_unique {s s1 s2 : Proto} {os : List Obs} (h1 : Conforms s os s1) (h2 : Conforms s os s2) :
    s1 = s2 := by
  induction os generalizing s with
  | nil => cases h1; cases h2; rfl
  | cons o os ih =>
    cases h1 with
    | cons a1 t1 =>
      cases h2 with
      | cons a2 t2 =>
        cases allowed_unique a1 a2
        exact ih t1 t2

/-- **C01.** Every history of calls on a fresh object behaves as the automaton `allowed` says. -/
theorem C01_protocol (E : Env) (ws : Arr3 NvmeCmdWrapper) (tr : List Event) (steps : List Step)
    (os : List Obs) (t : Translation) (tr' : List Event)
    (h : run E (Translation.init ws) tr steps = .ok (os, t, tr')) : ∃ s, Conforms none os s := by
  obtain ⟨s, hc, -⟩ := run_rel E steps _ none (Idle_init ws) tr os t tr' h
  exact ⟨s, hc⟩

/-- **C02.** After any history: while a command is pending, `Begin` returns a failure with length 0 and
changes neither the object nor the world (memory, allocator calls). -/
theorem C02_begin_refused (E : Env) (ws : Arr3 NvmeCmdWrapper) (tr : List Event) (steps : List Step)
    (os : List Obs) (t : Translation) (tr' : List Event) (cs : List NvmeCmdWrapper)
    (h : run E (Translation.init ws) tr steps = .ok (os, t, tr')) (hp : Conforms none os (some cs))
    (cdb buf : Span) (lun : U64) (w : World) :
    t.GetNvmeWrappers = cs ∧ t.Begin E cdb buf lun w = .ok ((⟨.kFailure, 0⟩, t), w) := by
  obtain ⟨s, hc, hr⟩ := run_rel E steps _ none (Idle_init ws) tr os t tr' h
  cases Conforms_unique hc hp
  exact ⟨hr.2.2, Begin_busy E t hr.2.1 cdb buf lun w⟩

/-- **C02.** After any history: while the object is idle, `Complete` returns a failure with status 0 and
changes neither the object nor the world. -/
theorem C02_complete_refused (E : Env) (ws : Arr3 NvmeCmdWrapper) (tr : List Event) (steps : List Step)
    (os : List Obs) (t : Translation) (tr' : List Event)
    (h : run E (Translation.init ws) tr steps = .ok (os, t, tr')) (hp : Conforms none os none)
    (cpl : List Nvme.GenericQueueEntryCpl) (bin sense : Span) (w : World) :
    t.GetNvmeWrappers = [] ∧ t.Complete E cpl bin sense w = .ok ((⟨.kFailure, 0⟩, t), w) := by
  obtain ⟨s, hc, hr⟩ := run_rel E steps _ none (Idle_init ws) tr os t tr' h
  cases Conforms_unique hc hp
  exact ⟨Idle.cmds hr, Complete_idle E t hr.status cpl bin sense w⟩

/-- **C03.** After any history the command list has at most three entries (the array has three elements,
and the list is as long as the stored count says), and it is empty if the object is idle or the last
command was not translated. -/
theorem C03_command_list (E : Env) (ws : Arr3 NvmeCmdWrapper) (tr : List Event) (steps : List Step)
    (os : List Obs) (t : Translation) (tr' : List Event)
    (h : run E (Translation.init ws) tr steps = .ok (os, t, tr')) :
    t.nvme_cmd_count ≤ 3 ∧ t.GetNvmeWrappers.length = t.nvme_cmd_count ∧
    (t.pipeline_status ≠ .kSuccess → t.GetNvmeWrappers = []) ∧
    (Conforms none os none → t.GetNvmeWrappers = []) ∧
    (∀ o ∈ os, o.cmds.length ≤ 3) := by
  obtain ⟨s, hc, hr⟩ := run_rel E steps _ none (Idle_init ws) tr os t tr' h
  have hl := hr.wf.cmds_length
  refine ⟨hr.wf.count, hl, fun hs => ?_, fun hi => ?_, ?_⟩
  · exact List.length_eq_zero_iff.mp (by rw [hl]; exact hr.wf.idle hs)
  · cases Conforms_unique hc hi
    exact Idle.cmds hr
  · suffices H : ∀ (os : List Obs) (s s' : Proto), (∀ cs, s = some cs → cs.length ≤ 3) → Conforms s os s' →
        ∀ o ∈ os, o.cmds.length ≤ 3 from H os none s (by simp) hc
    intro os
    induction os with
    | nil => intro s s' _ _ o ho; cases ho
    | cons o1 os ih =>
      intro s s' hs h o ho
      cases h with
      | @cons _ s1 _ _ _ a t =>
        have hh : o1.cmds.length ≤ 3 ∧ ∀ cs, s1 = some cs → cs.length ≤ 3 := by
          refine ⟨?_, ?_⟩
          rotate_left
          · exact fun cs => by
              cases a with
              | begin h => rintro ⟨⟩; exact h
              | beginBusy => exact hs cs
              | _ => rintro ⟨⟩
          · cases a with
            | begin h => exact h
            | beginBusy => exact hs _ rfl
            | _ => simp
        rcases List.mem_cons.mp ho with rfl | ho
        · exact hh.1
        · exact ih _ _ hh.2 t o ho

/-! ### The hypotheses are met -/

/-- Begin, a second Begin, a Complete with too few completions, a Complete on the idle object, a READ that
is completed. -/
def demoSteps : List Step :=
  let m := Demo.mem Demo.read10
  [⟨Demo.mem Demo.inquiry, .begin (Demo.cdbSpan Demo.inquiry) Demo.data 0⟩,
   ⟨m, .begin (Demo.cdbSpan Demo.read10) Demo.data 0⟩,
   ⟨m, .complete [Demo.cpl 0 0] Demo.data Demo.sense⟩,
   ⟨m, .complete [] Demo.data Demo.sense⟩,
   ⟨m, .begin (Demo.cdbSpan Demo.read10) Demo.data 0⟩]

example : (run Demo.env (Translation.init Demo.ws) [] demoSteps).toOption.map
      (fun x => x.1.map fun o => (o.ret, o.cmds.length)) =
    some [(.begin ⟨.kSuccess, 96⟩, 2), (.begin ⟨.kFailure, 0⟩, 2), (.complete ⟨.kFailure, 0⟩, 0),
       (.complete ⟨.kFailure, 0⟩, 0), (.begin ⟨.kSuccess, 0x2000⟩, 1)] := by decide +kernel

end Scsi2Nvme
