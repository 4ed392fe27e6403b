import Verif.Properties.Engine
/-!
# C06: page accounting with allocators which answer requests for no pages

What gets lost is lost by UNMAP and MODE SENSE(10), which fall through into another command, and only if a page was refused.
-/

namespace Scsi2Nvme
open Spec

/-- Apart from UNMAP and MODE SENSE(10), a command does not ask again after a page was refused. -/
theorem switch_calls (E : Env) (cdb : List Byte) (buf : Span) (nsid : U32) (p : Pipe) (w : World)
    (hc : Clean p.as) (hn : p.count = 0) (p' : Pipe) (w' : World)
    (h : beginSwitch E (cdb.headD 0) cdb.tail buf nsid p w = .ok (p', w')) (hop : byte cdb 0 ≠ 0x42 ∧ byte cdb 0 ≠ 0x5a) :
    w' = w ∨ w' = setW E w ∨ setA E w ≠ 0 := by
  rcases opcode_cases (byte cdb 0) with ho | ho | ho | ho | ho | ho | ho | ho | ho | ho | ho | ho | ho | ho
  · rw [switch_unknown E cdb buf nsid p ho] at h
    simp at h
    exact .inl h.2.symm
  · obtain ⟨r, -, e⟩ := switch_read E cdb buf nsid p ho
    rw [e] at h
    simp at h
    exact .inl h.2.symm
  · obtain ⟨r, -, e⟩ := switch_write E cdb buf nsid p ho
    rw [e] at h
    simp at h
    exact .inl h.2.symm
  · rw [switch_tur E cdb buf nsid p ho] at h
    simp at h
    exact .inl h.2.symm
  · rw [switch_requestsense E cdb buf nsid p ho, rs_closed] at h
    simp at h
    exact .inl h.2.symm
  · rw [switch_inquiry E cdb buf nsid p ho] at h
    rcases Nat.lt_or_ge cdb.length 6 with hl | hl
    · rw [inquiry_short E cdb nsid p w hl] at h
      simp at h
      exact .inl h.2.symm
    by_cases h0 : setA E w = 0
    · rw [inquiry_fail0 E cdb nsid p w hl hc h0] at h
      simp at h
      exact .inr (.inl h.2.symm)
    · exact .inr (.inr h0)
  · rw [switch_modesense6 E cdb buf nsid p ho] at h
    obtain ⟨p1, w2, e, c1, c2, hcase⟩ := ms6_cases E cdb nsid p w (by omega)
    rw [e] at h
    simp at h; obtain ⟨rfl, rfl⟩ := h
    rcases hcase with ⟨-, e1⟩ | ⟨-, -, -, e1⟩
    · exact .inl e1
    · exact .inr (.inl e1)
  · rw [switch_readcapacity E cdb buf nsid p ho] at h
    rcases Nat.lt_or_ge cdb.length 10 with hl | hl
    · rw [rc_short E cdb nsid p w hl] at h
      simp at h
      exact .inl h.2.symm
    by_cases hd : Spec.bit cdb 9 2 = true
    · rw [rc_bad E cdb nsid p w hl hd] at h
      simp at h
      exact .inl h.2.symm
    have hd' : Spec.bit cdb 9 2 = false := by simpa using hd
    by_cases h0 : setA E w = 0
    · rw [rc_fail E cdb nsid p w hl hd' (clean_e0 hc) h0] at h
      simp at h
      exact .inr (.inl h.2.symm)
    · exact .inr (.inr h0)
  · rw [switch_verify E cdb buf nsid p ho] at h
    simp at h
    exact .inl h.2.symm
  · rw [switch_sync E cdb buf nsid p ho] at h
    simp at h
    exact .inl h.2.symm
  · exact absurd ho hop.1
  · exact absurd ho hop.2
  · rw [switch_reportluns E cdb buf nsid p ho] at h
    obtain ⟨p2, w2, e2, c2, hcase⟩ := rl_cases E cdb p w
    rw [e2] at h
    simp only [Except.ok.injEq, Prod.mk.injEq] at h
    obtain ⟨rfl, rfl⟩ := h
    rcases hcase with ⟨-, e1⟩ | ⟨-, -, e1⟩
    · exact .inl e1
    · exact .inr (.inl e1)
  · rw [switch_maintenance E cdb buf nsid p ho] at h
    obtain ⟨st, al, e1⟩ := maint_run E cdb p
    rw [e1] at h
    obtain ⟨p2, w2, e2, c2, hcase⟩ := rl_cases E cdb { p with status := st, count := 0, alloc_len := al } w
    rw [e2] at h
    simp only [Except.ok.injEq, Prod.mk.injEq] at h
    obtain ⟨rfl, rfl⟩ := h
    rcases hcase with ⟨-, e1⟩ | ⟨-, -, e1⟩
    · exact .inl e1
    · exact .inr (.inl e1)

theorem setW_trace_length (E : Env) (w : World) (f) (hf : E.allocCb = some f) : (setW E w).trace.length = w.trace.length + 2 := by
  unfold setW allocW
  rw [hf]
  simp

/-- Nothing is lost if the code does not ask again after a refusal. -/
theorem AllocEffect.strict {E : Env} {as as' : Arr3 Allocation} {w w' : World} {n : Nat} (hc : Clean as)
    (h : AllocEffect E as w n as' w') (hs : w' = w ∨ w' = setW E w ∨ setA E w ≠ 0) (l : List (U64 × U16))
    (hl : Spec.outstanding w.trace = some l) :
    ∃ l', Spec.outstanding w'.trace = some l' ∧ l'.Perm (livePages n as' ++ l) := by
  cases ha : E.allocCb with
  | none =>
    obtain ⟨l', x, h1, h2, h3, -⟩ := h.outstanding hc l hl
    rw [h3 (by intro f hf; rw [ha] at hf; cases hf)] at h2
    exact ⟨l', h1, h2⟩
  | some f =>
    cases h with
    | again _ hn h0 =>
      exfalso
      have e := setW_trace_length E w f ha
      have e' := setW_trace_length E (setW E w) f ha
      rcases hs with hs | hs | hs
      · rw [hs] at e'; omega
      · rw [hs] at e'; omega
      · exact hs h0
    | none =>
      exact ⟨l, hl, by rw [livePages_mono_nil hc]; exact .refl _⟩
    | one _ hn _ ht hs' ho hz =>
      have hpg := (AllocEffect.one (as := as) n hn w' ht hs' ho hz).pages hc
      obtain ⟨c0, c1, c2⟩ := (Clean_iff as).mp hc
      obtain ⟨l', h1, h2⟩ := outstanding_set E w l hl
      refine ⟨l', by rw [ht]; exact h1, ?_⟩
      rw [← hpg]
      simpa [livePages, Arr3.toList, c1, c2] using h2
    | two h0 =>
      obtain ⟨l1, h1, p1⟩ := outstanding_set E w l hl
      obtain ⟨l2, h2, p2⟩ := outstanding_set E (setW E w) l1 h1
      refine ⟨l2, h2, ?_⟩
      refine p2.trans ((List.Perm.append_left _ p1).trans ?_)
      simp only [livePages, Arr3.toList, List.take, List.flatMap_cons, List.flatMap_nil, List.append_nil,
        List.nil_append]
      rw [← List.append_assoc]
      exact List.Perm.append_right _ List.perm_append_comm

/-- A call of the interface which is not a `Begin` of UNMAP or MODE SENSE(10). -/
def Spec.Step.plain (s : Step) : Prop :=
  ∀ cdb buf lun, s.call = .begin cdb buf lun → ∀ b, s.mem cdb.ptr = some b → b ≠ 0x42 ∧ b ≠ 0x5a

/-- The allocator refuses no page. -/
def NeverRefuses (E : Env) : Prop := ∃ f, E.allocCb = some f ∧ ∀ w ps, (f w ps 1).1 ≠ 0

/-- The accounting without losses. -/
def Sharp (l : List (U64 × U16)) (t : Translation) (tr : List Event) : Prop :=
  ∃ l', outstanding tr = some l' ∧ l'.Perm (livePages t.nvme_cmd_count t.allocations ++ l)

theorem abort_sharp (E : Env) (hd : E.deallocCb.isSome) (l : List (U64 × U16)) (t : Translation) (w : World)
    (h : Sharp l t w.trace) : Sharp l (abortT t) (abortW E t w).trace := by
  obtain ⟨l', h1, h2⟩ := h
  obtain ⟨l'', h4, h5⟩ := outstanding_dealloc E hd _ _ _ _ h1 h2
  exact ⟨l'', h4, by simpa [abortT, livePages] using h5⟩

theorem setA_granted {E : Env} (h : NeverRefuses E) (w : World) : setA E w ≠ 0 := by
  obtain ⟨f, hf, h⟩ := h
  unfold setA allocRes
  rw [hf]
  exact h _ _

theorem exec_sharp (E : Env) (hd : E.deallocCb.isSome) (l : List (U64 × U16)) (t : Translation) (ht : Wf t)
    (m : Mem) (tr : List Event) (c : Call) (hp : Spec.Step.plain ⟨m, c⟩ ∨ NeverRefuses E) (r : Ret) (t' : Translation) (w' : World)
    (h : c.exec E t ⟨m, tr⟩ = .ok ((r, t'), w')) (ha : Sharp l t tr) : Sharp l t' w'.trace := by
  cases c with
  | begin cdb buf lun =>
    simp only [Call.exec, M.bind_run] at h
    cases hb : t.Begin E cdb buf lun ⟨m, tr⟩ with
    | error e => rw [hb] at h; cases h
    | ok y =>
      obtain ⟨⟨r0, t0⟩, w0⟩ := y
      rw [hb] at h
      simp only [M.pure_run, Except.ok.injEq, Prod.mk.injEq] at h
      obtain ⟨⟨rfl, rfl⟩, rfl⟩ := h
      by_cases hu : t.pipeline_status = .kUninitialized
      · have hi := ht.idle_of hu
        rcases Begin_inv E t hi ⟨m, tr⟩ cdb buf lun r0 t0 w0 hb with ⟨-, -, rfl, rfl⟩ | ⟨hl0, bs, p, w1, hread, hsw, -, hc, he, -, rfl, rfl⟩
        · exact ha
        · obtain ⟨l0, a1, a2⟩ := ha
          rw [livePages_mono_nil hi.clean] at a2
          have hs : w1 = ⟨m, tr⟩ ∨ w1 = setW E ⟨m, tr⟩ ∨ setA E ⟨m, tr⟩ ≠ 0 := by
            rcases hp with hp | hp
            · refine switch_calls E bs buf _ _ _ hi.clean hi.count p w1 hsw ?_
              have hbl := read_length hread
              cases bs with
              | nil => exact absurd hbl.symm hl0
              | cons b rest =>
                have hb0 : m cdb.ptr = some b := by
                  have h0 := (read_eq_some.mp hread).2 0 (by simp only [List.length_cons] at hbl; omega)
                  simpa using h0
                have := hp cdb buf lun rfl b hb0
                have e : byte (b :: rest) 0 = b.toNat := rfl
                rw [e]
                exact ⟨fun h => this.1 (BitVec.eq_of_toNat_eq h), fun h => this.2 (BitVec.eq_of_toNat_eq h)⟩
            · exact .inr (.inr (setA_granted hp _))
          obtain ⟨l1, b1, b2⟩ := he.strict hi.clean hs l0 a1
          have b4 : l1.Perm (livePages p.count p.as ++ l) := b2.trans (List.Perm.append_left _ a2)
          unfold finishT finishW
          by_cases hs : p.status = .kSuccess
          · simp only [if_pos hs]
            exact ⟨l1, b1, b4⟩
          · simp only [if_neg hs]
            obtain ⟨l2, d1, d2⟩ := outstanding_dealloc E hd _ _ _ _ b1 b4
            exact ⟨l2, d1, by simpa [livePages] using d2⟩
      · rw [Begin_busy E t hu] at hb
        simp only [Except.ok.injEq, Prod.mk.injEq] at hb
        obtain ⟨⟨rfl, rfl⟩, rfl⟩ := hb
        exact ha
  | complete cpl b s =>
    simp only [Call.exec, M.bind_run] at h
    cases hb : t.Complete E cpl b s ⟨m, tr⟩ with
    | error e => rw [hb] at h; cases h
    | ok y =>
      obtain ⟨⟨r0, t0⟩, w0⟩ := y
      rw [hb] at h
      simp only [M.pure_run, Except.ok.injEq, Prod.mk.injEq] at h
      obtain ⟨⟨rfl, rfl⟩, rfl⟩ := h
      rcases Complete_inv E t ht ⟨m, tr⟩ cpl b s r0 t0 w0 hb with ⟨-, -, rfl, rfl⟩ | ⟨-, rfl, w1, rfl, hc⟩
      · exact ha
      · have hw : w1.trace = tr := by
          rcases hc with ⟨-, -, rfl⟩ | ⟨-, -, -, ok, hf⟩ | ⟨-, -, s, -, -, ok, hf⟩ | ⟨-, -, -, -, bs, st, -, hf⟩
          · rfl
          · exact (FillSenseBuffer_framed _ _ _ _ _ _ hf).1
          · exact (FillSenseBuffer_framed _ _ _ _ _ _ hf).1
          · exact (completeSwitch_framed _ _ _ _ _ _ _ _ _ hf).1
        exact abort_sharp E hd l t w1 (by rw [hw]; exact ha)
  | abort =>
    simp only [Call.exec, M.bind_run, Abort_run E t ht, M.pure_run, Except.ok.injEq, Prod.mk.injEq] at h
    obtain ⟨⟨rfl, rfl⟩, rfl⟩ := h
    exact abort_sharp E hd l t ⟨m, tr⟩ ha

theorem run_sharp (E : Env) (hd : E.deallocCb.isSome) (l : List (U64 × U16)) (steps : List Step)
    (hp : ∀ s ∈ steps, s.plain ∨ NeverRefuses E)
    (t : Translation) (ht : Wf t) (tr : List Event) (os : List Obs) (t' : Translation) (tr' : List Event)
    (h : run E t tr steps = .ok (os, t', tr')) (ha : Sharp l t tr) : Sharp l t' tr' := by
  induction steps generalizing t tr os with
  | nil =>
    simp only [run, Except.ok.injEq, Prod.mk.injEq] at h
    obtain ⟨rfl, rfl, rfl⟩ := h
    exact ha
  | cons st ss ih =>
    simp only [run] at h
    split at h
    · cases h
    · rename_i r t1 w1 he
      split at h
      · cases h
      · rename_i os1 t2 tr2 hrun
        simp only [Except.ok.injEq, Prod.mk.injEq] at h
        obtain ⟨rfl, rfl, rfl⟩ := h
        exact ih (fun s hs => hp s (List.mem_cons_of_mem _ hs)) t1 (exec_wf E t ht _ _ _ _ _ he) _ _ hrun
          (exec_sharp E hd l t ht st.mem tr st.call (hp st (List.mem_cons_self ..)) _ _ _ he ha)

/-- **C06 (partial).** For every allocator, whatever it answers: in every history without UNMAP and MODE SENSE(10) - and in every history whatsoever
if the allocator refuses no page - every range is handed back: when the object is idle exactly the ranges outstanding at the start are
outstanding again.  Missing: UNMAP or MODE SENSE(10) after a refusal, see `C06_refuted`. -/
theorem C06_others_partial (E : Env) (hd : E.deallocCb.isSome) (ws : Arr3 NvmeCmdWrapper)
    (tr : List Event) (l : List (U64 × U16)) (steps : List Step) (hp : (∀ s ∈ steps, s.plain) ∨ NeverRefuses E) (os : List Obs)
    (t : Translation) (tr' : List Event) (hl : outstanding tr = some l)
    (h : run E (Translation.init ws) tr steps = .ok (os, t, tr')) :
    ∃ l', outstanding tr' = some l' ∧ (Conforms none os none → l'.Perm l) := by
  have hp' : ∀ s ∈ steps, s.plain ∨ NeverRefuses E := fun s hs => hp.elim (fun h => .inl (h s hs)) .inr
  have ha : Sharp l (Translation.init ws) tr := ⟨l, hl, by simp [Translation.init, livePages]⟩
  obtain ⟨l', h1, h2⟩ := run_sharp E hd l steps hp' _ (Idle_init ws).wf tr os t tr' h ha
  refine ⟨l', h1, fun hc => ?_⟩
  obtain ⟨s, hs, hr⟩ := run_rel E steps _ none (Idle_init ws) tr os t tr' h
  cases Conforms_unique hs hc
  rw [livePages_mono_nil hr.clean] at h2
  exact h2

/-- REPORT LUNS begun and aborted. -/
def plainSteps : List Step :=
  [⟨Demo.mem [0xa0, 0, 0, 0, 0, 0, 0, 0, 0, 64, 0, 0], .begin (Demo.cdbSpan [0xa0, 0, 0, 0, 0, 0, 0, 0, 0, 64, 0, 0]) Demo.data 0⟩,
   ⟨Demo.mem [0xa0, 0, 0, 0, 0, 0, 0, 0, 0, 64, 0, 0], .abort⟩]

/-- The hypotheses are met with the odd allocator of `C06_refuted`: its answer to the request for no pages is handed back, although the
command is rejected for lack of memory. -/
example : oddEnv.deallocCb.isSome ∧ (∀ s ∈ plainSteps, s.plain) ∧
    (run oddEnv (Translation.init Demo.ws) [] plainSteps).toOption.map (fun x => (x.2.2.length, outstanding x.2.2)) = some (3, some []) := by
  refine ⟨rfl, ?_, by decide +kernel⟩
  intro s hs cdb buf lun hc b hb
  simp only [plainSteps, List.mem_cons, List.not_mem_nil, or_false] at hs
  rcases hs with rfl | rfl
  · simp only [Call.begin.injEq] at hc
    obtain ⟨rfl, -, -⟩ := hc
    have : b = 0xa0 := by
      have e : (Demo.mem [0xa0, 0, 0, 0, 0, 0, 0, 0, 0, 64, 0, 0]) (Demo.cdbSpan [0xa0, 0, 0, 0, 0, 0, 0, 0, 0, 64, 0, 0]).ptr = some 0xa0 := by
        decide +kernel
      exact (Option.some.inj (e.symm.trans hb)).symm
    subst this
    decide
  · cases hc

end Scsi2Nvme
