import Verif.Spec.Engine
import Verif.Proofs.Complete
/-!
# The engine: what a call consists of
-/

namespace Scsi2Nvme
open Spec Engine

theorem submitAll_run {σ : Type} (D : Device σ) (wrs : List NvmeCmdWrapper) (s : σ) (w : World) :
    ∃ cs s' m', submitAll D wrs s w = .ok ((cs, s'), ⟨m', w.trace⟩) ∧
      Dialog D s w.mem (wrs.map submissionOf) cs s' m' := by
  induction wrs generalizing s w with
  | nil => exact ⟨[], s, w.mem, rfl, .nil⟩
  | cons wr wrs ih =>
    obtain ⟨cs, s', m', h1, h2⟩ := ih (D s w.mem (submissionOf wr)).1 ⟨(D s w.mem (submissionOf wr)).2.1, w.trace⟩
    refine ⟨_ :: cs, s', m', ?_, .cons h2⟩
    simp only [submitAll, M.bind_run, M.get_run]
    simp only [h1, M.pure_run]

theorem Spec.Dialog.length {σ : Type} {D : Device σ} {s m subs cs s' m'} (h : Dialog D s m subs cs s' m') :
    cs.length = subs.length := by
  induction h with
  | nil => rfl
  | cons _ ih => simp [ih]

/-- Every completion is an answer of the device. -/
theorem Spec.Dialog.answer {σ : Type} {D : Device σ} {s m subs cs s' m'} (h : Dialog D s m subs cs s' m')
    (c : Nvme.GenericQueueEntryCpl) (hc : c ∈ cs) : ∃ s m, ∃ sub ∈ subs, (D s m sub).2.2 = c := by
  induction h with
  | nil => cases hc
  | @cons s0 m0 sub subs cs s' m' h ih =>
    rcases List.mem_cons.mp hc with h | h
    · exact ⟨s0, m0, sub, by simp, h.symm⟩
    · obtain ⟨s, m, sub, hs, e⟩ := ih h
      exact ⟨s, m, sub, by simp [hs], e⟩

/-- What the device leaves alone stays. -/
theorem Spec.Dialog.keeps {σ : Type} {D : Device σ} {s m subs cs s' m'} (h : Dialog D s m subs cs s' m') (a : Nat)
    (ha : ∀ s m, ∀ sub ∈ subs, (D s m sub).2.1 a = m a) : m' a = m a := by
  induction h with
  | nil => rfl
  | cons h ih =>
    rw [ih fun s m sub hs => ha s m sub (by simp [hs])]
    exact ha _ _ _ (by simp)

/-- The data-in span given to `Complete`. -/
def dataIn {σ : Type} (x : Served σ) (n : Nat) : Span := if x.isIn then ⟨x.data, n⟩ else Span.null

theorem served_began {σ : Type} (x : Served σ) : ∃ r t1 w1,
    Began x.E (Translation.init x.ws) x.w x.ptr x.cdb x.buf x.lun r t1 w1 ∧ r.status = .kSuccess ∧
    ((x.dataLen.toNat < r.alloc_len.toNat ∧ x.resp = ⟨0x40, 0⟩ ∧ x.s' = x.s ∧ x.w' = w1) ∨
     (r.alloc_len.toNat ≤ x.dataLen.toNat ∧ ∃ cs m c t2,
        Dialog x.D x.s w1.mem (t1.GetNvmeWrappers.map submissionOf) cs x.s' m ∧
        t1.Complete x.E cs (dataIn x r.alloc_len.toNat) ⟨x.sense, x.senseLen.toNat⟩ ⟨m, w1.trace⟩ = .ok ((c, t2), x.w') ∧
        c.status = .kSuccess ∧ x.resp = ⟨c.scsi_status.toNat, r.alloc_len.toNat⟩)) := by
  have hlen : (BitVec.ofNat 16 x.cdb.length).toNat = x.cdb.length := by
    rw [BitVec.toNat_ofNat]; exact Nat.mod_eq_of_lt x.short
  have h := x.call
  unfold ScsiToNvme at h
  simp only [M.bind_run, hlen] at h
  cases hb : (Translation.init x.ws).Begin x.E ⟨x.ptr, x.cdb.length⟩ ⟨x.data, x.dataLen.toNat⟩ x.lun x.w with
  | error e => rw [hb] at h; cases h
  | ok y =>
    obtain ⟨⟨r, t1⟩, w1⟩ := y
    rw [hb] at h
    simp only at h
    have hB : Began x.E (Translation.init x.ws) x.w x.ptr x.cdb x.buf x.lun r t1 w1 := ⟨IdleObject_init _, x.stored, hb⟩
    have hst : r.status = .kSuccess ∧ Wf t1 ∧ t1.pipeline_status ≠ .kUninitialized := by
      rcases Begin_inv x.E _ (Idle_init x.ws) x.w _ _ _ _ _ _ hb with ⟨-, hr, rfl, -⟩ | ⟨-, bs, p, w', -, -, hs, hc, he, hr, rfl, -⟩
      · exact ⟨by rw [hr], ⟨(Idle_init x.ws).wf.count, (Idle_init x.ws).wf.pages, fun _ => (Idle_init x.ws).count⟩, by simp⟩
      · exact ⟨by rw [hr], finishT_wf (Idle_init x.ws).clean hc he, by rw [finishT_status]; exact hs⟩
    refine ⟨r, t1, w1, hB, hst.1, ?_⟩
    rw [if_neg (by rw [hst.1]; simp)] at h
    by_cases hl : x.dataLen.toNat < r.alloc_len.toNat
    · rw [if_pos hl] at h
      simp only [M.pure_run, Except.ok.injEq, Prod.mk.injEq] at h
      obtain ⟨⟨h1, h2⟩, h3⟩ := h
      exact .inl ⟨hl, h1.symm, h2.symm, h3.symm⟩
    · rw [if_neg hl] at h
      obtain ⟨cs, s', m', e1, e2⟩ := submitAll_run x.D t1.GetNvmeWrappers x.s w1
      simp only [M.bind_run, e1] at h
      cases hc : t1.Complete x.E cs (dataIn x r.alloc_len.toNat) ⟨x.sense, x.senseLen.toNat⟩ ⟨m', w1.trace⟩ with
      | error e => unfold dataIn at hc; rw [hc] at h; cases h
      | ok y =>
        obtain ⟨⟨c, t2⟩, w3⟩ := y
        have hc' := hc
        unfold dataIn at hc'
        rw [hc'] at h
        simp only at h
        have hcs : cs.length = t1.nvme_cmd_count := by
          rw [e2.length, List.length_map, hst.2.1.cmds_length]
        have hok : c.status = .kSuccess := by
          rcases Complete_inv x.E t1 hst.2.1 _ _ _ _ _ _ _ hc with ⟨hu, -⟩ | ⟨-, -, w', -, hh⟩
          · exact absurd hu hst.2.2
          · rcases hh with ⟨hn, -⟩ | ⟨-, -, rfl, -⟩ | ⟨-, -, s, -, rfl, -⟩ | ⟨-, -, -, rfl, -⟩
            · exact absurd hcs hn
            · rfl
            · rfl
            · rfl
        rw [if_neg (by rw [hok]; simp)] at h
        simp only [M.pure_run, Except.ok.injEq, Prod.mk.injEq] at h
        obtain ⟨⟨h1, h2⟩, h3⟩ := h
        subst h2 h3
        exact .inr ⟨by omega, cs, m', c, t2, e2, hc, hok, h1.symm⟩

end Scsi2Nvme
