import Verif.Properties.BeginAll
import Verif.Properties.UnmapBegin
/-!
# C32, C52: the remaining cases, exactly
-/

namespace Scsi2Nvme
open Spec

/-- **C32**, the commands for which it fails: the buffer lengths of Flush (SYNCHRONIZE CACHE) and Compare
(VERIFY) are what the first command slot held before; so is, for MODE SENSE(6), the length of Get Features with
the slot it comes to lie in (Identify, in the first slot if there is one, has 4096). -/
theorem C32_leftover_partial (E t w ptr cdb buf lun r t' w') (h : Began E t w ptr cdb buf lun r t' w')
    (ha : Accepted t') :
    (byte cdb 0 = 0x35 ∨ byte cdb 0 = 0x2f →
      t'.GetNvmeWrappers.map (fun x => x.buffer_len) = [t.nvme_wrappers.e0.buffer_len]) ∧
    (byte cdb 0 = 0x1a → Spec.bit cdb 1 3 = true → ∀ wr, t'.GetNvmeWrappers = [wr] →
      wr.buffer_len = t.nvme_wrappers.e0.buffer_len) ∧
    (byte cdb 0 = 0x1a → ∀ wr0 wr1, t'.GetNvmeWrappers = [wr0, wr1] →
      wr0.buffer_len.toNat = 4096 ∧ wr1.buffer_len = t.nvme_wrappers.e1.buffer_len) := by
  refine ⟨?_, ?_, ?_⟩
  · rintro (hop | hop)
    · have e := h.ends (ne_nil_of_byte hop (by decide)) (by rw [switch_sync E cdb buf _ _ hop]; rfl)
      rw [e.cmds rfl]
      rfl
    · have e := h.ends (ne_nil_of_byte hop (by decide)) (by rw [switch_verify E cdb buf _ _ hop]; rfl)
      have hv := Verify_closed cdb (startPipe t).ws.e0
      split at hv
      · obtain ⟨st, hst, hv⟩ := hv
        rw [hv] at e
        exact absurd (e.acc.mp ha) hst
      · obtain ⟨wr', hv, -, -, -, -, hb⟩ := hv
        rw [hv] at e
        rw [e.cmds rfl]
        change [wr'.buffer_len] = _
        rw [hb]
        rfl
  · intro hop hd wr hwr
    obtain ⟨p, w1, e, hcase⟩ := ms_cases h hop
    rcases hcase with ⟨-, hn, -⟩ | ⟨-, hd', hs, hw, hcn, -⟩ | ⟨-, hd', -⟩ | ⟨-, hd', -⟩
    · exact absurd (e.acc.mp ha) hn
    · rw [e.cmds (e.acc.mp ha), hw, hcn] at hwr
      revert hwr
      unfold msPage
      split
      · split
        · intro hwr; cases hwr; rfl
        · intro hwr; cases hwr; rfl
      · split
        · intro hwr; cases hwr
        · intro hwr; cases hwr
    · rw [hd] at hd'; cases hd'
    · rw [hd] at hd'; cases hd'
  · intro hop wr0 wr1 hwr
    obtain ⟨p, w1, e, hcase⟩ := ms_cases h hop
    rcases hcase with ⟨-, hn, -⟩ | ⟨-, hd', hs, hw, hcn, -⟩ | ⟨-, hd', -, hn, -⟩ | ⟨-, hd', -, hs, hw, hcn, -⟩
    · exact absurd (e.acc.mp ha) hn
    · rw [e.cmds (e.acc.mp ha), hw, hcn] at hwr
      revert hwr
      unfold msPage
      split
      · split
        · intro hwr; cases hwr
        · intro hwr; cases hwr
      · split
        · intro hwr; cases hwr
        · intro hwr; cases hwr
    · exact absurd (e.acc.mp ha) hn
    · rw [e.cmds (e.acc.mp ha), hw, hcn] at hwr
      revert hwr
      unfold msPage
      split
      · split
        · intro hwr; cases hwr; exact ⟨rfl, rfl⟩
        · intro hwr; cases hwr; exact ⟨rfl, rfl⟩
      · split
        · intro hwr; cases hwr
        · intro hwr; cases hwr

/-- Flush and Compare after an object whose first slot announced 0xdeadbeef bytes. -/
example : ∃ r t' w', Began Demo.env (Translation.init Demo.ws) ⟨Demo.mem sync10, []⟩ 0x100 sync10
    Demo.data 3 r t' w' ∧ Accepted t' ∧ t'.GetNvmeWrappers.map (fun x => x.buffer_len) = [0xdeadbeef] :=
  began_of _ _ _ _ _ _ _ (fun _ t' => Accepted t' ∧ _ = _) (by decide +kernel) (by decide +kernel)

/-- **C52**, what MODE SENSE(10) does, exactly.  It is accepted exactly if the command block has at least 12
bytes, byte 2 is at most 2 and the page is granted, and then only if DBD is set or the page MODE SENSE asked for
first was refused; it then hands out what REPORT LUNS would: one Identify (active namespace list), with the
allocation length of bytes 6-9. -/
theorem C52_mode_sense10_exact_partial (E t w ptr cdb buf lun r t' w') (h : Began E t w ptr cdb buf lun r t' w')
    (hop : byte cdb 0 = 0x5a) :
    ∃ evs, w'.trace = evs ++ w.trace ∧
      (Accepted t' ↔ 12 ≤ cdb.length ∧ byte cdb 2 ≤ 2 ∧
        ∃ a, a ≠ 0 ∧ pageAnswers evs = if Spec.bit cdb 1 3 = true then [a] else [0, a]) ∧
      (Accepted t' → r.alloc_len.toNat = beAt cdb 6 4 ∧ ∃ wr, t'.GetNvmeWrappers = [wr] ∧
        wr.cmd.toBytes = identifySqe 0 2 ((pageAnswers evs).getLast?.getD 0) ∧ wr.buffer_len.toNat = 4096 ∧
        wr.is_admin = true) := by
  have hne := ne_nil_of_byte hop (by decide)
  have hsw := switch_modesense10 E cdb buf (nsidOf lun) (startPipe t) hop
  obtain ⟨q, hq, e1⟩ := ms10_run E cdb (nsidOf lun) (startPipe t) w h.count0 (clean_e0 h.clean)
  have hsw' : ∀ p w1, beginReportLuns E cdb.tail q (if ms10Alloc cdb then setW E w else w) = .ok (p, w1) →
      Ends E t ptr cdb p w1 r t' w' := fun p w1 hr => h.ends hne (by rw [hsw, e1, hr])
  -- the calls of the MODE SENSE part
  have first : ∃ evs, (if ms10Alloc cdb then setW E w else w).trace = evs ++ w.trace ∧
      (¬ ms10Alloc cdb → pageAnswers evs = []) ∧
      (ms10Alloc cdb → ((E.allocCb = none ∧ pageAnswers evs = []) ∨
        (E.allocCb ≠ none ∧ pageAnswers evs = [(setA E w).toNat]))) := by
    by_cases hm : ms10Alloc cdb
    · rw [if_pos hm]
      obtain ⟨evs, g1, g2⟩ := set_answers E w
      refine ⟨evs, g1, fun hh => absurd hm hh, fun _ => ?_⟩
      rcases g2 with ⟨a, -, b⟩ | g
      · exact Or.inl ⟨a, b⟩
      · exact Or.inr g
    · rw [if_neg hm]
      exact ⟨[], rfl, fun _ => rfl, fun hh => absurd hh hm⟩
  obtain ⟨evs0, f1, f2, f3⟩ := first
  have hA0 : ∀ w : World, (setA E w).toNat = 0 → setA E w = 0 := fun w hh => BitVec.eq_of_toNat_eq hh
  rcases Nat.lt_or_ge cdb.length 12 with hl | hl
  · have e := hsw' _ _ (rl_short E cdb q _ hl)
    obtain ⟨evs, h1, -⟩ := finish_answers E { q with status := .kInvalidInput, count := 1 } w _ evs0 f1
    refine ⟨evs, by rw [e.worldE]; exact h1, ⟨fun ha => absurd (e.acc.mp ha) (by simp), fun hh => by omega⟩,
      fun ha => absurd (e.acc.mp ha) (by simp)⟩
  rcases Nat.lt_or_ge 2 (byte cdb 2) with hb | hb
  · have e := hsw' _ _ (rl_bad E cdb q _ hl hb)
    obtain ⟨evs, h1, -⟩ := finish_answers E { q with status := .kInvalidInput, count := 1 } w _ evs0 f1
    refine ⟨evs, by rw [e.worldE]; exact h1, ⟨fun ha => absurd (e.acc.mp ha) (by simp), fun hh => by omega⟩,
      fun ha => absurd (e.acc.mp ha) (by simp)⟩
  by_cases hq0 : q.as.e0.data_addr = 0
  · -- the page is asked for (again)
    generalize hw0 : (if ms10Alloc cdb then setW E w else w) = w0 at hsw' f1
    obtain ⟨evs2, g1, g2⟩ := set_answers E w0
    by_cases h0 : setA E w0 = 0
    · have e := hsw' _ _ (rl_fail E cdb q w0 hl hb hq0 h0)
      obtain ⟨evs, h1, h2⟩ := finish_answers E _ w (setW E w0) (evs2 ++ evs0) (by rw [g1, f1]; simp)
      refine ⟨evs, by rw [e.worldE]; exact h1, ⟨fun ha => absurd (e.acc.mp ha) (by simp), ?_⟩,
        fun ha => absurd (e.acc.mp ha) (by simp)⟩
      rintro ⟨-, -, a, ha0, ha⟩
      exfalso
      rw [h2, pageAnswers_append] at ha
      have hlast : (pageAnswers evs0 ++ pageAnswers evs2).getLast?.getD 0 = a := by
        rw [ha]; split <;> rfl
      rcases g2 with ⟨gn, -, g⟩ | ⟨gn, g⟩
      · rw [g, List.append_nil] at hlast
        by_cases hm : ms10Alloc cdb
        · rcases f3 hm with ⟨-, f⟩ | ⟨f, -⟩
          · rw [f] at hlast; exact ha0 hlast.symm
          · exact f gn
        · rw [f2 hm] at hlast; exact ha0 hlast.symm
      · rw [g, h0] at hlast
        simp at hlast
        exact ha0 hlast.symm
    · have e := hsw' _ _ (rl_ok E cdb q w0 hl hb hq0 h0)
      obtain ⟨evs, h1, h2⟩ := finish_answers E
        { status := .kSuccess, count := 1, ws := { q.ws with e0 := identifyWr 0 2 (setA E w0) }
          as := { q.as with e0 := setAl E w0 }, alloc_len := BitVec.ofNat 32 (beAt cdb 6 4) }
        w (setW E w0) (evs2 ++ evs0) (by rw [g1, f1]; simp)
      have g : E.allocCb ≠ none ∧ pageAnswers evs2 = [(setA E w0).toNat] := by
        rcases g2 with ⟨-, g, -⟩ | g
        · exact absurd g h0
        · exact g
      have hans : pageAnswers evs = if Spec.bit cdb 1 3 = true then [(setA E w0).toNat] else [0, (setA E w0).toNat] := by
        rw [h2, pageAnswers_append, g.2]
        by_cases hm : ms10Alloc cdb
        · have hd : ¬ Spec.bit cdb 1 3 = true := by rw [hm.2]; simp
          rw [if_neg hd]
          rcases f3 hm with ⟨f, -⟩ | ⟨-, f⟩
          · exact absurd f g.1
          · rw [f]
            rw [if_pos hm] at hq
            rw [hq] at hq0
            have : setA E w = 0 := hq0
            rw [this]; rfl
        · have hd : Spec.bit cdb 1 3 = true := by
            rcases Bool.eq_false_or_eq_true (Spec.bit cdb 1 3) with hd | hd
            · exact hd
            · exact absurd ⟨by omega, hd⟩ hm
          rw [if_pos hd, f2 hm]; rfl
      refine ⟨evs, by rw [e.worldE]; exact h1, ⟨fun _ => ⟨hl, hb, _, fun hh => h0 (hA0 _ hh), hans⟩,
        fun _ => e.acc.mpr rfl⟩, fun _ => ⟨?_, _, e.cmds rfl, ?_, rfl, rfl⟩⟩
      · rw [e.resp]
        simp only
        rw [BitVec.toNat_ofNat, Nat.mod_eq_of_lt (beAt_lt cdb 6 4)]
      · have hlast : (pageAnswers evs).getLast?.getD 0 = (setA E w0).toNat := by
          rw [hans]; split <;> rfl
        rw [hlast]
        exact identifyCmd_toBytes 0 2 (setA E w0)
  · -- MODE SENSE already holds a page
    have e := hsw' _ _ (rl_used E cdb q _ hl hb hq0)
    obtain ⟨evs, h1, h2⟩ := finish_answers E _ w _ evs0 f1
    refine ⟨evs, by rw [e.worldE]; exact h1, ⟨fun ha => absurd (e.acc.mp ha) (by simp), ?_⟩,
      fun ha => absurd (e.acc.mp ha) (by simp)⟩
    rintro ⟨-, -, a, ha0, ha⟩
    exfalso
    rw [h2] at ha
    have hm : ms10Alloc cdb := by
      apply Classical.byContradiction
      intro hm
      rw [if_neg hm] at hq
      rw [hq] at hq0
      exact hq0 (clean_e0 h.clean)
    rw [if_neg (by rw [hm.2]; simp)] at ha
    rcases f3 hm with ⟨-, f⟩ | ⟨-, f⟩
    · rw [f] at ha; cases ha
    · rw [f] at ha; exact absurd (congrArg List.length ha) (by simp)

/-- The accepted case of C52 arises: 12 bytes, DBD set. -/
example : ∃ r t' w', Began Demo.env (Translation.init Demo.ws) ⟨Demo.mem modeSense10Odd, []⟩ 0x100 modeSense10Odd
    Demo.data 3 r t' w' ∧ Accepted t' ∧ r.alloc_len = 7 ∧
      t'.GetNvmeWrappers.map (fun wr => wr.cmd.toBytes) = [identifySqe 0 2 0x100000] :=
  began_of _ _ _ _ _ _ _ (fun r t' => Accepted t' ∧ r.alloc_len = 7 ∧ _ = _) (by decide +kernel) (by decide +kernel)

end Scsi2Nvme
