import Verif.Proofs.Complete
/-!
# Status and sense data (C11-C17)
-/

namespace Scsi2Nvme
open Spec

/-! ## C11: rejected commands -/

/-- **C11.** If `Begin` could not translate a command there are no NVMe commands to run, and `Complete` (with no
completions) reports CHECK CONDITION, ILLEGAL REQUEST, INVALID FIELD IN CDB; only the sense buffer changes. -/
theorem C11_rejected (x : Ran) (hg : GoodAllocator x.E) (hr : ¬ Accepted x.t1) :
    x.cmds = [] ∧ (x.cpl = [] → x.reported ⟨0x02, 0x5, 0x24, 0x00⟩) := by
  refine ⟨x.cmds_rejected hr, fun h0 => ?_⟩
  have ha : x.answered := by unfold Ran.answered; rw [h0, x.cmds_rejected hr]; rfl
  obtain ⟨wm, hw, -, h⟩ := x.inv
  rcases h with ⟨h1, -⟩ | ⟨-, -, h1, ok, h2⟩ | ⟨-, h1, -⟩ | ⟨-, h1, -⟩
  · exact absurd ha h1
  · refine ⟨by rw [h1], by rw [h1]; rfl, ?_⟩
    exact x.sense_of hg hw (s := rejectedStatus) (by decide) h2
  · exact absurd h1 hr
  · exact absurd h1 hr

/-- The hypotheses of C11 are met: FORMAT UNIT (04h) is rejected. -/
example : ∃ x : Ran, GoodAllocator x.E ∧ ¬ Accepted x.t1 ∧ x.cpl = [] ∧ x.c = ⟨.kSuccess, 2⟩ := by
  obtain ⟨x, h1, -, -, -, -, -, -, -, h2, -, -, h3⟩ := ran_of boundedEnv Demo.ws ⟨Demo.mem [4, 0, 0, 0, 0, 0], []⟩ 0x100
    [4, 0, 0, 0, 0, 0] Demo.data 1 ⟨Demo.mem [4, 0, 0, 0, 0, 0], []⟩ [] Demo.data Demo.sense
    (fun _ t c _ => ¬ Accepted t ∧ c = ⟨.kSuccess, 2⟩) (by decide +kernel) (by decide +kernel) (by decide +kernel)
  exact ⟨x, h1 ▸ boundedEnv_good, h3.1, h2, h3.2⟩

/-! ## C12, C13, C14: device errors -/

/-- **C12.** If the device failed some NVMe command, `Complete` reports the translated status of the first
failing one; only the sense buffer changes. -/
theorem C12_first_error (x : Ran) (hg : GoodAllocator x.E) (hacc : Accepted x.t1) (ha : x.answered)
    (pre post : List Nvme.GenericQueueEntryCpl) (c : Nvme.GenericQueueEntryCpl) (hc : x.cpl = pre ++ c :: post)
    (hpre : ∀ d ∈ pre, cplOk d) (hfail : ¬ cplOk c) : x.reported (cplStatus c) := by
  obtain ⟨wm, hw, -, h⟩ := x.inv
  have hf := firstError_split pre c post hpre hfail
  rw [← hc] at hf
  rcases h with ⟨h1, -⟩ | ⟨-, h1, -⟩ | ⟨-, -, s, h1, h2, ok, h3⟩ | ⟨-, -, h1, -⟩
  · exact absurd ha h1
  · exact absurd hacc h1
  · rw [hf] at h1
    cases h1
    obtain ⟨e1, e2⟩ := statusOf_eq c.sct c.sc
    have e1' : infoOf (Status.StatusToScsi c.sct c.sc) = cplStatus c := e1
    refine ⟨by rw [h2], by rw [h2, ← e1']; rfl, ?_⟩
    rw [← e1']
    exact x.sense_of hg hw e2 h3
  · rw [hf] at h1; cases h1

/-- The hypotheses of C12 are met: an INQUIRY whose second command fails with an internal error (generic 06h). -/
example : ∃ x : Ran, GoodAllocator x.E ∧ Accepted x.t1 ∧ x.answered ∧ x.cpl = [Demo.cpl 0 0] ++ Demo.cpl 0 6 :: [] ∧
    cplOk (Demo.cpl 0 0) ∧ ¬ cplOk (Demo.cpl 0 6) ∧ x.c = ⟨.kSuccess, 2⟩ := by
  obtain ⟨x, h1, -, -, -, -, -, -, -, h2, -, -, h3, h4, h5⟩ := ran_of boundedEnv Demo.ws
    ⟨Demo.mem Demo.inquiry, []⟩ 0x100 Demo.inquiry Demo.data 1 ⟨Demo.mem2 Demo.inquiry [] [], []⟩
    [Demo.cpl 0 0, Demo.cpl 0 6] Demo.data Demo.sense
    (fun _ t c _ => Accepted t ∧ t.GetNvmeWrappers.length = 2 ∧ c = ⟨.kSuccess, 2⟩)
    (by decide +kernel) (by decide +kernel) (by decide +kernel)
  refine ⟨x, h1 ▸ boundedEnv_good, h3, ?_, h2, by decide, by decide, h5⟩
  unfold Ran.answered Ran.cmds
  rw [h2, h4]
  rfl

/-- **C13.** The translation of a status code type and status code is the one of the table: SCSI status, sense
key, additional sense code and qualifier; CHECK CONDITION with NO SENSE for pairs not in the table. -/
theorem C13_status_table (sct : BitVec 3) (sc : Byte) :
    let s := Status.StatusToScsi sct sc
    let info := statusOf sct.toNat sc.toNat
    s.status.toNat = info.status ∧ s.sense_key.toNat = info.key ∧ s.asc.toNat = info.asc ∧ s.ascq.toNat = info.ascq := by
  have h := (statusOf_eq sct sc).1
  simp only [infoOf] at h
  rw [← h]
  exact ⟨rfl, rfl, rfl, rfl⟩

/-- **C13**, at the interface: the device answers the only NVMe command of a SCSI command with an arbitrary
status; `Complete` returns the SCSI status of the table. -/
theorem C13_api (x : Ran) (hg : GoodAllocator x.E) (hacc : Accepted x.t1) (c : Nvme.GenericQueueEntryCpl)
    (hcpl : x.cpl = [c]) (ha : x.answered) : x.c.status = .kSuccess ∧ x.c.scsi_status.toNat = (cplStatus c).status := by
  by_cases hok : cplOk c
  · obtain ⟨st, wm, -, h, -⟩ := x.switch ⟨hacc, ha, by rw [hcpl]; simpa using hok⟩
    rw [show x.c = ⟨.kSuccess, 0⟩ from h]
    exact ⟨rfl, ((statusOf_good _ _).mpr hok).symm⟩
  · have := C12_first_error x hg hacc ha [] [] c hcpl (by simp) hok
    exact ⟨this.1, this.2.1⟩

/-- The hypotheses of `C13_api` are met by a SYNCHRONIZE CACHE answered with a media error (2, 81h). -/
example : ∃ x : Ran, GoodAllocator x.E ∧ Accepted x.t1 ∧ x.cpl = [Demo.cpl 2 0x81] ∧ x.answered := by
  obtain ⟨x, h1, -, -, -, -, -, -, -, h2, -, -, h3, h4⟩ := ran_of boundedEnv Demo.ws
    ⟨Demo.mem [0x35, 0, 0, 0, 0, 0, 0, 0, 0, 0], []⟩ 0x100 [0x35, 0, 0, 0, 0, 0, 0, 0, 0, 0] Demo.data 1
    ⟨Demo.mem [0x35, 0, 0, 0, 0, 0, 0, 0, 0, 0], []⟩ [Demo.cpl 2 0x81] Demo.data Demo.sense
    (fun _ t _ _ => Accepted t ∧ t.GetNvmeWrappers.length = 1)
    (by decide +kernel) (by decide +kernel) (by decide +kernel)
  refine ⟨x, h1 ▸ boundedEnv_good, h3, h2, ?_⟩
  unfold Ran.answered Ran.cmds
  rw [h2, h4]
  rfl

/-- **C14.** For an accepted command and one completion per NVMe command, `Complete` succeeds, and the status is
GOOD exactly if every completion has status code type 0 and status code 0.  For a rejected command it is never
GOOD. -/
theorem C14_good_iff (x : Ran) (ha : x.answered) :
    x.c.status = .kSuccess ∧ (x.c.scsi_status = 0 ↔ Accepted x.t1 ∧ ∀ c ∈ x.cpl, cplOk c) := by
  obtain ⟨wm, hw, -, h⟩ := x.inv
  rcases h with ⟨h1, -⟩ | ⟨-, h1, h2, -⟩ | ⟨-, h0, s, h1, h2, -⟩ | ⟨-, h0, h1, h2, -⟩
  · exact absurd ha h1
  · rw [h2]
    exact ⟨rfl, by simp, fun h => absurd h.1 h1⟩
  · rw [h2]
    refine ⟨rfl, fun h => ?_, fun h => ?_⟩
    · obtain ⟨pre, c, post, -, -, h4, h5⟩ := firstError_some _ _ h1
      exact absurd ((good_iff c.sct c.sc).mp (h5 ▸ h)) h4
    · rw [(firstError_none _).mpr h.2] at h1; cases h1
  · rw [h2]
    exact ⟨rfl, fun _ => ⟨h0, (firstError_none _).mp h1⟩, fun _ => rfl⟩

/-! ## C16, C17: sense data -/

/-- **C16.** Whenever `Complete` returns a status other than GOOD, it reports sense data for some status `s`: the
8 bytes of descriptor format sense data are placed at the start of the sense buffer if it has at least 8 bytes,
and nothing is written otherwise.  `s` is the rejection status for rejected commands and the translated status
of a failing completion for the others. -/
theorem C16_sense (x : Ran) (hg : GoodAllocator x.E) (hs : x.c.status = .kSuccess) (hn : x.c.scsi_status ≠ 0) :
    ∃ s, x.reported s ∧ s.status ≠ 0 ∧ (¬ Accepted x.t1 → s = ⟨0x02, 0x5, 0x24, 0x00⟩) ∧
      (Accepted x.t1 → ∃ c ∈ x.cpl, ¬ cplOk c ∧ s = cplStatus c) := by
  obtain ⟨wm, hw, -, h⟩ := x.inv
  rcases h with ⟨-, h1, -⟩ | ⟨h0, h1, h2, h3⟩ | ⟨h0, h1, s, h2, h3, -⟩ | ⟨-, -, -, h1, -⟩
  · rw [h1] at hs; cases hs
  · have hl : x.cpl = [] := by
      unfold Ran.answered at h0
      rw [x.cmds_rejected h1] at h0
      exact List.length_eq_zero_iff.mp h0
    exact ⟨_, (C11_rejected x hg h1).2 hl, by decide, fun _ => rfl, fun h => absurd h h1⟩
  · obtain ⟨pre, c, post, h4, h5, h6, h7⟩ := firstError_some _ _ h2
    refine ⟨cplStatus c, C12_first_error x hg h1 h0 pre post c h4 h5 h6, ?_, fun h => absurd h1 h, fun _ => ?_⟩
    · intro hz; exact h6 ((statusOf_good _ _).mp hz)
    · exact ⟨c, by rw [h4]; simp, h6, rfl⟩
  · rw [h1] at hn; exact absurd rfl hn

/-- The pages `Complete` handed back do not touch the first 8 bytes of the sense buffer. -/
def senseKept (x : Ran) : Prop := ∀ evs, x.w3.trace = evs ++ x.w2.trace → ∀ q n, Event.dealloc q n ∈ evs →
  ∀ a, inRange x.sense.ptr 8 a → ¬ inRange q.toNat (4096 * n.toNat) a

/-- **C17**, full statement (false, see `C17_refuted`): two commands reported with the same status leave the same
8 bytes in the sense buffer. -/
def C17_statement : Prop := ∀ (x y : Ran) (s : SenseInfo), GoodAllocator x.E → GoodAllocator y.E →
  x.reported s → y.reported s → 8 ≤ x.sense.len → 8 ≤ y.sense.len → senseKept x → senseKept y →
  x.w3.mem.read x.sense.ptr 8 = y.w3.mem.read y.sense.ptr 8

/-- **C17**, the part that holds: the response code, the sense key, the additional sense code and its qualifier
and the additional length are determined by the status.  What is missing are the reserved bits: bit 7 of byte 0,
bits 4-7 of byte 1 and bytes 4 to 6. -/
theorem C17_sense_determined_partial (x : Ran) (s : SenseInfo) (hr : x.reported s) (hl : 8 ≤ x.sense.len)
    (hk : senseKept x) : ∃ bs, x.w3.mem.read x.sense.ptr 8 = some bs ∧ isSense bs s := by
  have h := hr.2.2
  rw [if_pos hl] at h
  obtain ⟨bs, h1, evs, h2, h3⟩ := h
  refine ⟨bs, ?_, h1⟩
  have hbl := h1.1
  rw [← hbl]
  rw [← read_put_self (m := x.w2.mem) (p := x.sense.ptr) (bs := bs)]
  apply read_congr
  intro i hi
  apply h3
  intro q n hq
  exact hk evs h2 q n hq _ ⟨by omega, by omega⟩

/-- Another environment: the same allocator, other stack contents. -/
def otherStack : Env := { boundedEnv with junk := fun _ _ => 0 }

theorem otherStack_good : GoodAllocator otherStack := ⟨boundedEnv_good.alloc, boundedEnv_good.dealloc⟩

theorem senseKept_of (x : Ran) (h : x.w3.trace = x.w2.trace) : senseKept x := by
  intro evs he q n hq
  rw [h] at he
  have : evs = [] := by
    have := congrArg List.length he
    simp only [List.length_append] at this
    exact List.length_eq_zero_iff.mp (by omega)
  rw [this] at hq
  cases hq

/-- C17 does not hold: the reserved bits of the sense data are uninitialised stack memory. -/
theorem C17_refuted : ¬ C17_statement := by
  intro hall
  have mk : ∀ E : Env, (match (Translation.init Demo.ws).Begin E ⟨0x100, 6⟩ Demo.data 1 ⟨Demo.mem [4, 0, 0, 0, 0, 0], []⟩ with
      | .ok ((_, t1), _) =>
        match t1.Complete E [] Demo.data Demo.sense ⟨Demo.mem [4, 0, 0, 0, 0, 0], []⟩ with
        | .ok ((_, _), w3) => decide (¬ Accepted t1 ∧ w3.trace = [] ∧ w3.mem.read 0x400 8
            = some (senseData (E.junk ⟨Demo.mem [4, 0, 0, 0, 0, 0], []⟩) rejectedStatus).toBytes)
        | .error _ => false
      | .error _ => false) = true → GoodAllocator E →
      ∃ x : Ran, x.E = E ∧ x.reported ⟨0x02, 0x5, 0x24, 0x00⟩ ∧ x.sense = Demo.sense ∧ senseKept x ∧
        x.w3.mem.read 0x400 8
          = some (senseData (E.junk ⟨Demo.mem [4, 0, 0, 0, 0, 0], []⟩) rejectedStatus).toBytes := by
    intro E h hg
    obtain ⟨x, h1, -, -, -, -, -, -, h5, h2, -, h6, h3, h4, h7⟩ := ran_of E Demo.ws ⟨Demo.mem [4, 0, 0, 0, 0, 0], []⟩ 0x100
      [4, 0, 0, 0, 0, 0] Demo.data 1 ⟨Demo.mem [4, 0, 0, 0, 0, 0], []⟩ [] Demo.data Demo.sense
      (fun _ t _ w => ¬ Accepted t ∧ w.trace = [] ∧ w.mem.read 0x400 8
            = some (senseData (E.junk ⟨Demo.mem [4, 0, 0, 0, 0, 0], []⟩) rejectedStatus).toBytes)
      (by decide +kernel) (by decide +kernel) h
    refine ⟨x, h1, (C11_rejected x (h1 ▸ hg) h3).2 h2, h6, senseKept_of x ?_, h7⟩
    rw [h4, h5]
  obtain ⟨x, e1, r1, s1, k1, m1⟩ := mk boundedEnv (by decide +kernel) boundedEnv_good
  obtain ⟨y, e2, r2, s2, k2, m2⟩ := mk otherStack (by decide +kernel) otherStack_good
  have := hall x y _ (e1 ▸ boundedEnv_good) (e2 ▸ otherStack_good) r1 r2 (by rw [s1]; decide) (by rw [s2]; decide) k1 k2
  rw [s1, s2, show Demo.sense.ptr = 0x400 from rfl, m1, m2] at this
  revert this
  decide +kernel

end Scsi2Nvme
