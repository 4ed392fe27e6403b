import Verif.Spec.Reread
import Verif.Properties.Status
/-!
# C113: the command block is read again by `Complete`
-/

namespace Scsi2Nvme
open Spec

theorem deallocAll_trace_congr (E : Env) (ps : List (U64 × U16)) (w w' : World) (h : w.trace = w'.trace) :
    (deallocAll E ps w).trace = (deallocAll E ps w').trace := by
  induction ps generalizing w w' with
  | nil => exact h
  | cons p ps ih =>
    change (deallocAll E ps (deallocW E p.1 p.2 w)).trace = (deallocAll E ps (deallocW E p.1 p.2 w')).trace
    apply ih
    unfold deallocW
    cases E.deallocCb with
    | none => exact h
    | some f => simp only [h]

theorem completeSwitch_silent (E : Env) (t : Translation) (opc : Byte) (cmd : List Byte)
    (cpl : List Nvme.GenericQueueEntryCpl) (bin : Span) (w : World) (h : opc.toNat ∈ silentCodes) :
    ∃ st, completeSwitch E t opc cmd cpl bin w = .ok (st, w) := by
  have ho : opc = BitVec.ofNat 8 opc.toNat := by simp
  generalize opc.toNat = k at h ho
  subst ho
  unfold silentCodes at h
  simp only [List.mem_cons, List.not_mem_nil, or_false] at h
  rcases h with rfl | rfl | rfl | rfl | rfl | rfl | rfl | rfl | rfl | rfl | rfl | rfl <;> exact ⟨_, rfl⟩

/-- What `Complete` wrote before the pages are handed back, for both memories. -/
theorem same_of {x : Ran} (hg : GoodAllocator x.E) {m' : Mem} (hm : Reused x m') {wm wm' : World}
    (hw : x.w3 = abortW x.E x.t1 wm) (ht : wm.trace = x.w2.trace) (ht' : wm'.trace = x.w2.trace)
    (he : ∀ a, ¬ inRange x.ptr x.cdb.length a → wm'.mem a = wm.mem a)
    (hc : x.t1.Complete x.E x.cpl x.din x.sense ⟨m', x.w2.trace⟩ = .ok ((x.c, x.t2), abortW x.E x.t1 wm')) :
    SameCompletion x m' := by
  have htr : (abortW x.E x.t1 wm').trace = x.w3.trace := by
    rw [hw]
    exact deallocAll_trace_congr _ _ _ _ (ht'.trans ht.symm)
  obtain ⟨evs, e1, e2⟩ := dealloc_frame hg (livePages x.t1.nvme_cmd_count x.t1.allocations) wm
  obtain ⟨evs', e1', e2'⟩ := dealloc_frame hg (livePages x.t1.nvme_cmd_count x.t1.allocations) wm'
  refine ⟨_, hc, htr, evs, by rw [hw, ← ht]; exact e1, fun a ha hev => ?_⟩
  have hev' : evs' = evs := by
    have h1 : evs' ++ wm'.trace = evs ++ wm.trace := by
      rw [← e1, ← e1']
      exact deallocAll_trace_congr _ _ _ _ (ht'.trans ht.symm)
    rw [ht, ht'] at h1
    exact List.append_cancel_right h1
  subst hev'
  rw [hw]
  exact ((e2' a hev).trans (he a ha)).trans (e2 a hev).symm

theorem put_congr {m m' : Mem} {a : Nat} (h : m a = m' a) (p : Nat) (bs : List Byte) : m.put p bs a = m'.put p bs a := by
  unfold Mem.put
  split <;> simp_all

theorem Spec.Reused.fill {x : Ran} {m' : Mem} (hm : Reused x m') {s : ScsiStatus} {ok : Bool} {wm : World}
    (hf : FillSenseBuffer x.E x.sense s x.w2 = .ok (ok, wm)) :
    ∃ wm', FillSenseBuffer x.E x.sense s ⟨m', x.w2.trace⟩ = .ok (ok, wm') ∧ wm.trace = x.w2.trace ∧
      wm'.trace = x.w2.trace ∧ ∀ a, ¬ inRange x.ptr x.cdb.length a → wm'.mem a = wm.mem a := by
  unfold FillSenseBuffer at hf ⊢
  simp only [M.bind_run, M.get_run] at hf ⊢
  rw [hm.junk]
  rcases WriteValue'_inv hf with ⟨h1, rfl, h2, rfl⟩ | ⟨h1, rfl, rfl⟩
  · refine ⟨_, WriteValue'_true h1 ?_, rfl, rfl, fun a ha => put_congr (hm.outside a ha) _ _⟩
    rw [mapped_iff] at h2 ⊢
    intro i hi
    exact (hm.accessible _).trans (h2 i hi)
  · exact ⟨_, WriteValue'_false h1, rfl, rfl, fun a ha => hm.outside a ha⟩

/-- **C113**, the full statement: once `Begin` has returned, the command has been translated, and the caller may use
the command block for something else: `Complete` does the same. -/
def C113_statement : Prop :=
  ∀ (x : Ran) (m' : Mem), GoodAllocator x.E → Reused x m' → SameCompletion x m'

/-- **C113**, part: what `Complete` returns, the state of the object afterwards and the callback calls do not depend
on the contents of memory at all, as long as `Complete` returns. -/
theorem C113_status_partial (x : Ran) (w2' : World) (htr : w2'.trace = x.w2.trace) (c' : CompleteResponse)
    (t2' : Translation) (w3' : World)
    (h : x.t1.Complete x.E x.cpl x.din x.sense w2' = .ok ((c', t2'), w3')) :
    c' = x.c ∧ t2' = x.t2 ∧ w3'.trace = x.w3.trace := by
  obtain ⟨hwf, hu⟩ := x.wf
  have key : ∀ {w : World} {wm : World} {s : ScsiStatus} {ok : Bool},
      FillSenseBuffer x.E x.sense s w = .ok (ok, wm) → wm.trace = w.trace := fun hf =>
    (FillSenseBuffer_framed _ _ _ _ _ _ hf).1
  rcases Complete_inv _ _ hwf _ _ _ _ _ _ _ x.call with ⟨a, -⟩ | ⟨-, ht, w1, hw, h1⟩
  · exact absurd a hu
  rcases Complete_inv _ _ hwf _ _ _ _ _ _ _ h with ⟨a, -⟩ | ⟨-, ht', w1', hw', h1'⟩
  · exact absurd a hu
  have fin : w1.trace = x.w2.trace → w1'.trace = w2'.trace → w3'.trace = x.w3.trace := by
    intro a b
    rw [hw, hw']
    exact deallocAll_trace_congr _ _ _ _ (by rw [a, b, htr])
  have tr : w1.trace = x.w2.trace := by
    rcases h1 with ⟨-, -, rfl⟩ | ⟨-, -, -, ok, hf⟩ | ⟨-, -, s, -, -, ok, hf⟩ | ⟨-, -, -, -, bs, st, -, hf⟩
    · rfl
    · exact key hf
    · exact key hf
    · exact (completeSwitch_framed _ _ _ _ _ _ _ _ _ hf).1
  have tr' : w1'.trace = w2'.trace := by
    rcases h1' with ⟨-, -, rfl⟩ | ⟨-, -, -, ok, hf⟩ | ⟨-, -, s, -, -, ok, hf⟩ | ⟨-, -, -, -, bs, st, -, hf⟩
    · rfl
    · exact key hf
    · exact key hf
    · exact (completeSwitch_framed _ _ _ _ _ _ _ _ _ hf).1
  refine ⟨?_, by rw [ht, ht'], fin tr tr'⟩
  rcases h1 with ⟨a1, a2, -⟩ | ⟨a1, a2, a3, -⟩ | ⟨a1, a2, s, a3, a4, -⟩ | ⟨a1, a2, a3, a4, -⟩ <;>
  rcases h1' with ⟨b1, b2, -⟩ | ⟨b1, b2, b3, -⟩ | ⟨b1, b2, s', b3, b4, -⟩ | ⟨b1, b2, b3, b4, -⟩ <;>
  simp_all

/-- **C113**, part: the command block is not needed any more if the command is not going to be answered with GOOD
status: `Begin` rejected it, or the device reported an error, or the number of completions is wrong. -/
theorem C113_failed_partial (x : Ran) (m' : Mem) (hg : GoodAllocator x.E) (hm : Reused x m')
    (hs : ¬ x.succeeded) : SameCompletion x m' := by
  obtain ⟨hwf, hu⟩ := x.wf
  have hl := x.cmds_length
  obtain ⟨wm, hw, ht, h⟩ := x.inv
  rcases h with ⟨h1, h2, rfl⟩ | ⟨h1, h2, h3, ok, hf⟩ | ⟨h1, h2, s, h3, h4, ok, hf⟩ | ⟨h1, h2, h3, -⟩
  · refine same_of hg hm hw rfl (wm' := ⟨m', x.w2.trace⟩) rfl hm.outside ?_
    unfold Translation.Complete
    rw [if_neg hu, if_pos (by rw [← hl]; exact h1)]
    simp only [M.bind_run, Abort_run x.E x.t1 hwf, M.pure_run, ht, h2]
  · obtain ⟨wm', e, e1, e2, e3⟩ := hm.fill hf
    refine same_of hg hm hw e1 e2 e3 ?_
    unfold Translation.Complete
    rw [if_neg hu, if_neg (by rw [← hl]; exact fun h => h h1), if_pos (show x.t1.pipeline_status ≠ .kSuccess from h2)]
    simp only [M.bind_run, e, Abort_run x.E x.t1 hwf, M.pure_run, ht, h3]
    rfl
  · obtain ⟨wm', e, e1, e2, e3⟩ := hm.fill hf
    refine same_of hg hm hw e1 e2 e3 ?_
    unfold Translation.Complete
    rw [if_neg hu, if_neg (by rw [← hl]; exact fun h => h h1),
      if_neg (show ¬ x.t1.pipeline_status ≠ .kSuccess from fun h => h h2), h3]
    simp only [M.bind_run, e, Abort_run x.E x.t1 hwf, M.pure_run, ht, h4]
  · exact absurd ⟨h2, h1, (firstError_none _).mp h3⟩ hs

/-- **C113**, part: for the commands whose data goes directly between the device and the data buffer, or which have
none, the operation code alone is needed. -/
theorem C113_opcode_partial (x : Ran) (m' : Mem) (hg : GoodAllocator x.E) (hm : Reused x m')
    (h0 : m' x.ptr = x.w2.mem x.ptr) (ho : byte x.cdb 0 ∈ silentCodes) : SameCompletion x m' := by
  by_cases hs : x.succeeded
  rotate_left
  · exact C113_failed_partial x m' hg hm hs
  obtain ⟨hwf, hu⟩ := x.wf
  have hl := x.cmds_length
  have hne := x.cdb_ne hs.1
  obtain ⟨wm, hw, ht, h⟩ := x.inv
  rcases h with ⟨h1, -⟩ | ⟨-, h1, -⟩ | ⟨-, -, s, h1, -⟩ | ⟨h1, h2, h3, h4, st, hsw⟩
  · exact absurd hs.2.1 h1
  · exact absurd hs.1 h1
  · rw [(firstError_none _).mpr hs.2.2] at h1; cases h1
  have hk := x.kept
  have hmap : ((⟨m', x.w2.trace⟩ : World).mem.read x.ptr x.cdb.length).isSome := by
    rw [read_isSome]
    intro i hi
    refine (hm.accessible _).trans ?_
    exact read_isSome.mp (by rw [hk]; rfl) i hi
  obtain ⟨bs, hr⟩ := Option.isSome_iff_exists.mp hmap
  have hb : bs.headD 0 = x.cdb.headD 0 := by
    have hp : 0 < x.cdb.length := List.length_pos_iff.mpr hne
    have a1 := (read_eq_some.mp hr).2 0 hp
    have a2 := (read_eq_some.mp hk).2 0 hp
    simp only [Nat.add_zero] at a1 a2
    have := (a1.symm.trans h0).trans a2
    rw [List.headD_eq_head?_getD, List.headD_eq_head?_getD, List.head?_eq_getElem?, List.head?_eq_getElem?, this]
  obtain ⟨st1, e1⟩ := completeSwitch_silent x.E x.t1 (x.cdb.headD 0) x.cdb.tail x.cpl x.din x.w2
    (by rw [← byte0_headD]; exact ho)
  obtain ⟨st2, e2⟩ := completeSwitch_silent x.E x.t1 (bs.headD 0) bs.tail x.cpl x.din ⟨m', x.w2.trace⟩
    (by rw [hb, ← byte0_headD]; exact ho)
  rw [e1] at hsw
  simp only [Except.ok.injEq, Prod.mk.injEq] at hsw
  obtain ⟨-, rfl⟩ := hsw
  refine same_of hg hm hw rfl (wm' := ⟨m', x.w2.trace⟩) rfl hm.outside ?_
  unfold Translation.Complete
  rw [if_neg hu, if_neg (by rw [← hl]; exact fun h => h h1),
    if_neg (show ¬ x.t1.pipeline_status ≠ .kSuccess from fun h => h h2), h3]
  have hr' : (⟨m', x.w2.trace⟩ : World).mem.read x.t1.scsi_cmd.ptr x.t1.scsi_cmd.len = some bs := by
    rw [x.span h2]
    exact hr
  simp only [M.bind_run, load_ok hr', e2]
  rw [AbortPipeline_run x.E { x.t1 with pipeline_status := st2 } _ hwf.count]
  simp only [M.pure_run, ht, h4]
  rfl

/-- The command block of a READ(10), overwritten with an INQUIRY. -/
def Demo.reread : List Byte := [0x12, 0, 0, 0, 96, 0, 0, 0, 0, 0]

/-- Uninitialised wrappers, with data pointers into nowhere. -/
def Demo.wsAway : Arr3 NvmeCmdWrapper :=
  let x : NvmeCmdWrapper := ⟨{ opc := 0xaa, nsid := 7, prp1 := 0x5000 }, 0xdeadbeef, false⟩
  ⟨x, x, x⟩

theorem Demo.mem_outside (a b : List Byte) (h : a.length = b.length) (x : Nat) (hx : ¬ inRange 0x100 a.length x) :
    Demo.mem a [] x = Demo.mem b [] x := by
  unfold inRange at hx
  unfold Demo.mem
  rw [← h]
  by_cases h1 : x < 0x100
  · simp [h1]
  · have h2 : ¬ x < 0x100 + a.length := by omega
    simp only [h1, h2, if_false]

theorem Demo.mem_isSome (a b : List Byte) (h : a.length = b.length) (x : Nat) :
    (Demo.mem a [] x).isSome = (Demo.mem b [] x).isSome := by
  unfold Demo.mem
  rw [← h]
  by_cases h1 : x < 0x100
  · simp [h1]
  · rw [if_neg h1, if_neg h1]
    by_cases h2 : x < 0x100 + a.length
    · rw [if_pos h2, if_pos h2]
      rw [List.getElem?_eq_getElem (by omega), List.getElem?_eq_getElem (by omega)]
      rfl
    · rw [if_neg h2, if_neg h2]

/-- A READ(10) which has been executed; and the memory with another command in its command block. -/
theorem reread_run : ∃ x : Ran, GoodAllocator x.E ∧ Reused x (Demo.mem Demo.reread) ∧ x.succeeded ∧
    x.ptr = 0x100 ∧ x.cdb = Demo.read10 ∧ x.w2.mem = Demo.mem Demo.read10 ∧
    x.t1.Complete x.E x.cpl x.din x.sense ⟨Demo.mem Demo.reread, x.w2.trace⟩ = .error .badAccess := by
  obtain ⟨x, h1, -, -, h2, h3, -, -, h4, h5, h6, h7, h8, h9, h10⟩ := ran_of boundedEnv Demo.wsAway
    ⟨Demo.mem Demo.read10, []⟩ 0x100 Demo.read10 Demo.data 0 ⟨Demo.mem Demo.read10, []⟩ [Demo.cpl 0 0] ⟨0, 0⟩ Demo.sense
    (fun _ t1 _ _ => Accepted t1 ∧ t1.GetNvmeWrappers.length = 1 ∧
      (match t1.Complete boundedEnv [Demo.cpl 0 0] ⟨0, 0⟩ Demo.sense ⟨Demo.mem Demo.reread, []⟩ with
        | .error u => u == .badAccess
        | .ok _ => false) = true)
    (by decide +kernel) (by decide +kernel) (by decide +kernel)
  refine ⟨x, h1 ▸ boundedEnv_good, ⟨?_, ?_, ?_⟩, ⟨h8, ?_, ?_⟩, h2, h3, by rw [h4], ?_⟩
  · intro a
    rw [h4]
    exact Demo.mem_isSome Demo.reread Demo.read10 rfl a
  · intro a ha
    rw [h4]
    rw [h2, h3] at ha
    exact Demo.mem_outside Demo.reread Demo.read10 rfl a ha
  · rw [h1]
    rfl
  · unfold Ran.answered Ran.cmds
    rw [h5, h9]
    rfl
  · rw [h5]
    intro c hc
    simp only [List.mem_cons, List.not_mem_nil, or_false] at hc
    subst hc
    decide
  · rw [h1, h4, h5, h6, h7]
    split at h10
    · rename_i u hu
      rw [hu, eq_of_beq h10]
    · cases h10

/-- **C113** does not hold: a READ(10) is executed, and meanwhile its command block is overwritten with an INQUIRY
command: `Complete` reads through pointers in NVMe commands that were never built. -/
theorem C113_refuted : ¬ C113_statement := by
  intro h
  obtain ⟨x, hg, hm, -, -, -, -, he⟩ := reread_run
  obtain ⟨w', hc, -⟩ := h x _ hg hm
  rw [he] at hc
  cases hc

/-- The hypotheses of the theorems above: a READ(10) whose completion is `c`, and any other ten bytes in its command
block. -/
theorem reread_base (c : Nvme.GenericQueueEntryCpl) (hc : c = Demo.cpl 0 0 ∨ c = Demo.cpl 2 0x81) :
    ∃ x : Ran, GoodAllocator x.E ∧ (∀ b : List Byte, b.length = 10 → Reused x (Demo.mem b)) ∧ x.ptr = 0x100 ∧
      x.cdb = Demo.read10 ∧ x.w2.mem = Demo.mem Demo.read10 ∧ x.cpl = [c] := by
  obtain ⟨x, h1, -, -, h2, h3, -, -, h4, h5, -, -, -⟩ := ran_of boundedEnv Demo.ws
    ⟨Demo.mem Demo.read10, []⟩ 0x100 Demo.read10 Demo.data 0 ⟨Demo.mem Demo.read10, []⟩ [c] ⟨0, 0⟩ Demo.sense
    (fun _ _ _ _ => True) (by decide +kernel) (by decide +kernel)
    (by rcases hc with rfl | rfl <;> decide +kernel)
  refine ⟨x, h1 ▸ boundedEnv_good, fun b hb => ⟨?_, ?_, ?_⟩, h2, h3, by rw [h4], h5⟩
  · intro a
    rw [h4]
    exact Demo.mem_isSome b Demo.read10 hb a
  · intro a ha
    rw [h4]
    rw [h2, h3] at ha
    exact Demo.mem_outside b Demo.read10 hb a (by rw [hb]; exact ha)
  · rw [h1]
    rfl

/-- C113_failed_partial: a READ(10) which failed with an unrecovered read error. -/
example : ∃ x : Ran, GoodAllocator x.E ∧ Reused x (Demo.mem Demo.reread) ∧ ¬ x.succeeded ∧
    x.w2.mem x.ptr ≠ Demo.mem Demo.reread [] x.ptr := by
  obtain ⟨x, h1, h2, h3, h4, h5, h6⟩ := reread_base (Demo.cpl 2 0x81) (Or.inr rfl)
  refine ⟨x, h1, h2 _ rfl, fun h => ?_, ?_⟩
  · have := h.2.2 (Demo.cpl 2 0x81) (by rw [h6]; simp)
    revert this
    decide
  · rw [h3, h5]
    decide +kernel

/-- C113_opcode_partial: the same command, executed; the address and the length are overwritten. -/
example : ∃ x : Ran, GoodAllocator x.E ∧ Reused x (Demo.mem [0x28, 1, 2, 3, 4, 5, 6, 7, 8, 9]) ∧
    Demo.mem [0x28, 1, 2, 3, 4, 5, 6, 7, 8, 9] [] x.ptr = x.w2.mem x.ptr ∧ byte x.cdb 0 ∈ silentCodes ∧
    x.w2.mem (x.ptr + 1) ≠ Demo.mem [0x28, 1, 2, 3, 4, 5, 6, 7, 8, 9] [] (x.ptr + 1) := by
  obtain ⟨x, h1, h2, h3, h4, h5, h6⟩ := reread_base (Demo.cpl 0 0) (Or.inl rfl)
  refine ⟨x, h1, h2 _ rfl, ?_, by rw [h4]; decide, ?_⟩
  · rw [h3, h5]
    decide +kernel
  · rw [h3, h5]
    decide +kernel

end Scsi2Nvme
