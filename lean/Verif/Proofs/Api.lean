import Verif.Proofs.Frame
import Verif.Proofs.Rets
import Verif.Spec.History
/-!
# Inversion of the API calls, and the invariant of the object
-/

namespace Scsi2Nvme
open Spec

theorem Begin_inv (E : Env) (t : Translation) (ht : Idle t) (w : World) (cdb buf : Span) (lun : U64)
    (r : BeginResponse) (t' : Translation) (w' : World)
    (h : t.Begin E cdb buf lun w = .ok ((r, t'), w')) :
    (cdb.len = 0 ∧ r = ⟨.kSuccess, 0⟩ ∧ t' = { t with pipeline_status := .kFailure } ∧ w' = w) ∨
    (cdb.len ≠ 0 ∧ ∃ bs p w1, w.mem.read cdb.ptr cdb.len = some bs ∧
      beginSwitch E (bs.headD 0) bs.tail buf (nsidOf lun) (startPipe t) w = .ok (p, w1) ∧
      p.status ≠ .kUninitialized ∧ p.count ≤ 3 ∧ AllocEffect E t.allocations w p.count p.as w1 ∧
      r = ⟨.kSuccess, p.alloc_len⟩ ∧ t' = finishT cdb p ∧ w' = finishW E p w1) := by
  have h' := h
  unfold Translation.Begin at h'
  rw [if_neg (by simp [ht.status])] at h'
  by_cases hl : cdb.len = 0
  · left
    rw [if_pos hl] at h'
    simp only [M.pure_run, Except.ok.injEq, Prod.mk.injEq] at h'
    obtain ⟨⟨rfl, rfl⟩, rfl⟩ := h'
    exact ⟨hl, rfl, rfl, rfl⟩
  · right
    refine ⟨hl, ?_⟩
    rw [if_neg hl] at h'
    simp only [M.bind_run] at h'
    cases hld : load cdb.ptr cdb.len w with
    | error e => rw [hld] at h'; cases h'
    | ok x =>
      obtain ⟨bs, w0⟩ := x
      obtain ⟨rfl, hread⟩ := load_inv hld
      have hbl := read_length hread
      rw [hld] at h'
      simp only at h'
      have hne : bs ≠ [] := by intro hn; rw [hn] at hbl; exact hl hbl.symm
      have hread' : w0.mem.read cdb.ptr bs.length = some bs := by rw [hbl]; exact hread
      cases hs : beginSwitch E (bs.headD 0) bs.tail buf (nsidOf lun) (startPipe t) w0 with
      | error e =>
        have hb := Begin_ub E t ht w0 cdb.ptr bs hread' hne buf lun e hs
        rw [hbl] at hb
        rw [h] at hb
        cases hb
      | ok x =>
        obtain ⟨p, w1⟩ := x
        obtain ⟨hc, he⟩ := switch_effect E bs buf (nsidOf lun) (startPipe t) w0 ht.clean ht.count p w1 hs
        have hst := switch_rets E _ _ _ _ _ _ _ _ hs
        have hb := Begin_run E t ht w0 cdb.ptr bs hread' hne buf lun p w1 hs hc
        rw [hbl] at hb
        rw [h] at hb
        simp only [Except.ok.injEq, Prod.mk.injEq] at hb
        obtain ⟨⟨rfl, rfl⟩, rfl⟩ := hb
        exact ⟨bs, p, w1, hread, hs, hst, hc, he, rfl, rfl, rfl⟩

/-- Invariant of the object. -/
structure Wf (t : Translation) : Prop where
  count : t.nvme_cmd_count ≤ 3
  pages : livePages 3 t.allocations = livePages t.nvme_cmd_count t.allocations
  idle : t.pipeline_status ≠ .kSuccess → t.nvme_cmd_count = 0

theorem Idle.wf {t : Translation} (h : Idle t) : Wf t :=
  ⟨by rw [h.count]; omega, by rw [livePages_mono_nil h.clean, livePages_mono_nil h.clean], fun _ => h.count⟩

theorem Wf.idle_of {t : Translation} (h : Wf t) (hs : t.pipeline_status = .kUninitialized) : Idle t := by
  have h0 := h.idle (by rw [hs]; simp)
  refine ⟨hs, h0, ?_⟩
  have := h.pages
  rw [h0] at this
  exact this

/-- The pages recorded by the switch are those of the counted slots. -/
theorem AllocEffect.pages {E : Env} {as as' : Arr3 Allocation} {w w' : World} {n : Nat} (hc : Clean as)
    (h : AllocEffect E as w n as' w') : livePages 3 as' = livePages n as' := by
  obtain ⟨h0, h1, h2⟩ := (Clean_iff as).mp hc
  cases h with
  | none => rw [livePages_mono_nil hc, livePages_mono_nil hc]
  | one hn =>
    have : n = 1 ∨ n = 2 ∨ n ≥ 3 := by omega
    rcases this with rfl | rfl | hn
    · simp [livePages, Arr3.toList, h1, h2]
    · simp [livePages, Arr3.toList, h1, h2]
    · simp [livePages, Arr3.toList, List.take_of_length_le, hn]
  | two => simp [livePages, Arr3.toList, h2]
  | again hn =>
    have : n = 1 ∨ n = 2 ∨ n ≥ 3 := by omega
    rcases this with rfl | rfl | hn
    · simp [livePages, Arr3.toList, h1, h2]
    · simp [livePages, Arr3.toList, h1, h2]
    · simp [livePages, Arr3.toList, List.take_of_length_le, hn]

theorem finishT_wf {E : Env} {cdb : Span} {p : Pipe} {as : Arr3 Allocation} {w w' : World}
    (hc : Clean as) (hn : p.count ≤ 3) (h : AllocEffect E as w p.count p.as w') : Wf (finishT cdb p) := by
  have hp := h.pages hc
  unfold finishT
  split
  · rename_i hs
    exact ⟨hn, hp, fun h => absurd hs h⟩
  · refine ⟨by simp, ?_, fun _ => rfl⟩
    have := clean_clearN hp hn
    rw [livePages_mono_nil this, livePages_mono_nil this]

theorem finishT_status (cdb : Span) (p : Pipe) : (finishT cdb p).pipeline_status = p.status := by
  unfold finishT; split <;> rfl

/-- The object after `AbortPipeline`. -/
def abortT (t : Translation) : Translation :=
  { t with pipeline_status := .kUninitialized, nvme_cmd_count := 0
           allocations := clearN t.nvme_cmd_count t.allocations }

/-- The world after `AbortPipeline`. -/
def abortW (E : Env) (t : Translation) (w : World) : World :=
  deallocAll E (livePages t.nvme_cmd_count t.allocations) w

theorem Abort_run (E : Env) (t : Translation) (h : Wf t) (w : World) :
    t.AbortPipeline E w = .ok (abortT t, abortW E t w) := AbortPipeline_run E t w h.count

theorem abortT_idle {t : Translation} (h : Wf t) : Idle (abortT t) :=
  ⟨rfl, rfl, clean_clearN h.pages h.count⟩

/-- `Complete`, when it is defined: its result, and the world just before the pages are handed back. -/
theorem Complete_inv (E : Env) (t : Translation) (ht : Wf t) (w : World)
    (cpl : List Nvme.GenericQueueEntryCpl) (bin sense : Span) (r : CompleteResponse) (t' : Translation)
    (w' : World) (h : t.Complete E cpl bin sense w = .ok ((r, t'), w')) :
    (t.pipeline_status = .kUninitialized ∧ r = ⟨.kFailure, 0⟩ ∧ t' = t ∧ w' = w) ∨
    (t.pipeline_status ≠ .kUninitialized ∧ t' = abortT t ∧ ∃ w1, w' = abortW E t w1 ∧
      ((cpl.length ≠ t.nvme_cmd_count ∧ r = ⟨.kFailure, 0⟩ ∧ w1 = w) ∨
       (cpl.length = t.nvme_cmd_count ∧ t.pipeline_status ≠ .kSuccess ∧ r = ⟨.kSuccess, 2⟩ ∧
          ∃ ok, FillSenseBuffer E sense rejectedStatus w = .ok (ok, w1)) ∨
       (cpl.length = t.nvme_cmd_count ∧ t.pipeline_status = .kSuccess ∧ ∃ s, firstError cpl = some s ∧
          r = ⟨.kSuccess, s.status⟩ ∧ ∃ ok, FillSenseBuffer E sense s w = .ok (ok, w1)) ∨
       (cpl.length = t.nvme_cmd_count ∧ t.pipeline_status = .kSuccess ∧ firstError cpl = none ∧
          r = ⟨.kSuccess, 0⟩ ∧ ∃ bs st, w.mem.read t.scsi_cmd.ptr t.scsi_cmd.len = some bs ∧
            completeSwitch E t (bs.headD 0) bs.tail cpl bin w = .ok (st, w1)))) := by
  unfold Translation.Complete at h
  by_cases hu : t.pipeline_status = .kUninitialized
  · left
    rw [if_pos hu] at h
    simp only [M.pure_run, Except.ok.injEq, Prod.mk.injEq] at h
    obtain ⟨⟨rfl, rfl⟩, rfl⟩ := h
    exact ⟨hu, rfl, rfl, rfl⟩
  right
  refine ⟨hu, ?_⟩
  rw [if_neg hu] at h
  by_cases hl : cpl.length = t.nvme_cmd_count
  rotate_left
  · rw [if_pos hl] at h
    simp only [M.bind_run, Abort_run E t ht, M.pure_run, Except.ok.injEq, Prod.mk.injEq] at h
    obtain ⟨⟨rfl, rfl⟩, rfl⟩ := h
    exact ⟨rfl, w, rfl, Or.inl ⟨hl, rfl, rfl⟩⟩
  rw [if_neg (by simpa using hl)] at h
  by_cases hs : t.pipeline_status = .kSuccess
  rotate_left
  · rw [if_pos hs] at h
    simp only [M.bind_run] at h
    cases hf : FillSenseBuffer E sense rejectedStatus w with
    | error e => rw [hf] at h; cases h
    | ok x =>
      obtain ⟨ok, w1⟩ := x
      rw [hf] at h
      simp only [Abort_run E t ht, M.pure_run, Except.ok.injEq, Prod.mk.injEq] at h
      obtain ⟨⟨rfl, rfl⟩, rfl⟩ := h
      exact ⟨rfl, w1, rfl, Or.inr (Or.inl ⟨hl, hs, rfl, ok, by first | exact hf | rfl⟩)⟩
  rw [if_neg (by simpa using hs)] at h
  cases hfe : firstError cpl with
  | some s =>
    rw [hfe] at h
    simp only [M.bind_run] at h
    cases hf : FillSenseBuffer E sense s w with
    | error e => rw [hf] at h; cases h
    | ok x =>
      obtain ⟨ok, w1⟩ := x
      rw [hf] at h
      simp only [Abort_run E t ht, M.pure_run, Except.ok.injEq, Prod.mk.injEq] at h
      obtain ⟨⟨rfl, rfl⟩, rfl⟩ := h
      exact ⟨rfl, w1, rfl, Or.inr (Or.inr (Or.inl ⟨hl, hs, s, rfl, rfl, ok, hf⟩))⟩
  | none =>
    rw [hfe] at h
    simp only [M.bind_run] at h
    cases hld : load t.scsi_cmd.ptr t.scsi_cmd.len w with
    | error e => rw [hld] at h; cases h
    | ok x =>
      obtain ⟨bs, w0⟩ := x
      obtain ⟨rfl, hread⟩ := load_inv hld
      rw [hld] at h
      simp only at h
      cases hsw : completeSwitch E t (bs.headD 0) bs.tail cpl bin w0 with
      | error e => rw [hsw] at h; cases h
      | ok x =>
        obtain ⟨st, w1⟩ := x
        rw [hsw] at h
        simp only at h
        rw [AbortPipeline_run E _ _ (by exact ht.count)] at h
        simp only [M.pure_run, Except.ok.injEq, Prod.mk.injEq] at h
        obtain ⟨⟨rfl, rfl⟩, rfl⟩ := h
        exact ⟨rfl, w1, rfl, Or.inr (Or.inr (Or.inr ⟨hl, hs, rfl, rfl, bs, st, hread, hsw⟩))⟩

/-- The invariant is kept by every call. -/
theorem exec_wf (E : Env) (t : Translation) (ht : Wf t) (c : Call) (w : World) (r : Ret) (t' : Translation)
    (w' : World) (h : c.exec E t w = .ok ((r, t'), w')) : Wf t' := by
  cases c with
  | begin cdb buf lun =>
    simp only [Call.exec, M.bind_run] at h
    cases hb : t.Begin E cdb buf lun w with
    | error e => rw [hb] at h; cases h
    | ok x =>
      obtain ⟨⟨r0, t0⟩, w0⟩ := x
      rw [hb] at h
      simp only [M.pure_run, Except.ok.injEq, Prod.mk.injEq] at h
      obtain ⟨⟨rfl, rfl⟩, rfl⟩ := h
      by_cases hu : t.pipeline_status = .kUninitialized
      · have hi := ht.idle_of hu
        rcases Begin_inv E t hi w cdb buf lun r0 t0 w0 hb with ⟨-, -, rfl, -⟩ | ⟨-, bs, p, w1, -, -, -, hc, he, -, rfl, -⟩
        · exact ⟨ht.count, ht.pages, fun _ => hi.count⟩
        · exact finishT_wf hi.clean hc he
      · unfold Translation.Begin at hb
        rw [if_pos hu] at hb
        simp only [M.pure_run, Except.ok.injEq, Prod.mk.injEq] at hb
        obtain ⟨⟨rfl, rfl⟩, rfl⟩ := hb
        exact ht
  | complete cpl b s =>
    simp only [Call.exec, M.bind_run] at h
    cases hb : t.Complete E cpl b s w with
    | error e => rw [hb] at h; cases h
    | ok x =>
      obtain ⟨⟨r0, t0⟩, w0⟩ := x
      rw [hb] at h
      simp only [M.pure_run, Except.ok.injEq, Prod.mk.injEq] at h
      obtain ⟨⟨rfl, rfl⟩, rfl⟩ := h
      rcases Complete_inv E t ht w cpl b s r0 t0 w0 hb with ⟨-, -, rfl, -⟩ | ⟨-, rfl, -⟩
      · exact ht
      · exact (abortT_idle ht).wf
  | abort =>
    simp only [Call.exec, M.bind_run, Abort_run E t ht, M.pure_run, Except.ok.injEq, Prod.mk.injEq] at h
    obtain ⟨⟨rfl, rfl⟩, rfl⟩ := h
    exact (abortT_idle ht).wf

end Scsi2Nvme
