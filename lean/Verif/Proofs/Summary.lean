import Verif.Proofs.Cases4
/-!
# What `Begin` can do, over all operation codes
-/

namespace Scsi2Nvme
open Spec

theorem switch_unknown (E : Env) (cdb : List Byte) (buf : Span) (nsid : U32) (p : Pipe)
    (h : byte cdb 0 ∉ supported) :
    beginSwitch E (cdb.headD 0) cdb.tail buf nsid p = pure { p with status := .kFailure } := by
  have hne : ∀ k : Nat, k ∈ supported → cdb.headD 0 ≠ BitVec.ofNat 8 k := by
    intro k hk hh
    apply h
    rw [byte0_headD, hh, BitVec.toNat_ofNat, Nat.mod_eq_of_lt]
    · exact hk
    · exact (show ∀ k ∈ supported, k < 2 ^ 8 by decide) k hk
  unfold beginSwitch
  rw [if_neg (show ¬ cdb.headD 0 = Scsi.OpCode.kInquiry from hne 0x12 (by decide)), if_neg (show ¬ cdb.headD 0 = Scsi.OpCode.kUnmap from hne 0x42 (by decide)), if_neg (show ¬ cdb.headD 0 = Scsi.OpCode.kModeSense6 from hne 0x1a (by decide)),
    if_neg (show ¬ cdb.headD 0 = Scsi.OpCode.kModeSense10 from hne 0x5a (by decide)), if_neg (show ¬ cdb.headD 0 = Scsi.OpCode.kMaintenanceIn from hne 0xa3 (by decide)), if_neg (show ¬ cdb.headD 0 = Scsi.OpCode.kReportLuns from hne 0xa0 (by decide)),
    if_neg (show ¬ cdb.headD 0 = Scsi.OpCode.kReadCapacity10 from hne 0x25 (by decide)), if_neg (show ¬ cdb.headD 0 = Scsi.OpCode.kRequestSense from hne 0x03 (by decide)), if_neg (show ¬ cdb.headD 0 = Scsi.OpCode.kRead6 from hne 0x08 (by decide)),
    if_neg (show ¬ cdb.headD 0 = Scsi.OpCode.kRead10 from hne 0x28 (by decide)), if_neg (show ¬ cdb.headD 0 = Scsi.OpCode.kRead12 from hne 0xa8 (by decide)), if_neg (show ¬ cdb.headD 0 = Scsi.OpCode.kRead16 from hne 0x88 (by decide)),
    if_neg (show ¬ cdb.headD 0 = Scsi.OpCode.kSync10 from hne 0x35 (by decide)), if_neg (show ¬ cdb.headD 0 = Scsi.OpCode.kVerify10 from hne 0x2f (by decide)), if_neg (show ¬ cdb.headD 0 = Scsi.OpCode.kTestUnitReady from hne 0x00 (by decide)),
    if_neg (show ¬ cdb.headD 0 = Scsi.OpCode.kWrite6 from hne 0x0a (by decide)), if_neg (show ¬ cdb.headD 0 = Scsi.OpCode.kWrite10 from hne 0x2a (by decide)), if_neg (show ¬ cdb.headD 0 = Scsi.OpCode.kWrite12 from hne 0xaa (by decide)),
    if_neg (show ¬ cdb.headD 0 = Scsi.OpCode.kWrite16 from hne 0x8a (by decide))]

theorem opcode_cases (b : Nat) : b ∉ supported ∨ isRead b ∨ isWrite b ∨ b = 0x00 ∨ b = 0x03 ∨ b = 0x12
    ∨ b = 0x1a ∨ b = 0x25 ∨ b = 0x2f ∨ b = 0x35 ∨ b = 0x42 ∨ b = 0x5a ∨ b = 0xa0 ∨ b = 0xa3 := by
  by_cases h : b ∈ supported
  · right
    simp only [supported, List.mem_cons, List.not_mem_nil, or_false] at h
    unfold isRead isWrite
    omega
  · exact Or.inl h

/-- Effect of the `switch` on the allocation slots and the world; `n` is the resulting command count. -/
inductive AllocEffect (E : Env) (as : Arr3 Allocation) (w : World) :
    Nat → Arr3 Allocation → World → Prop
  | none (n : Nat) : AllocEffect E as w n as w
  | one (n : Nat) (hn : 1 ≤ n) (w' : World) (ht : w'.trace = (setW E w).trace)
      (hs : ∀ a, (w'.mem a).isSome = ((setW E w).mem a).isSome)
      (ho : ∀ a, a < (setA E w).toNat ∨ (setA E w).toNat + 4096 ≤ a → w'.mem a = (setW E w).mem a)
      (hz : setA E w = 0 → w' = setW E w) :
      AllocEffect E as w n { as with e0 := setAl E w } w'
  | two (h0 : setA E w ≠ 0) :
      AllocEffect E as w 2 { as with e0 := setAl E w, e1 := setAl E (setW E w) } (setW E (setW E w))
  | again (n : Nat) (hn : 1 ≤ n) (h0 : setA E w = 0) :
      AllocEffect E as w n { as with e0 := setAl E (setW E w) } (setW E (setW E w))

theorem AllocEffect.one' {E : Env} {as : Arr3 Allocation} {w : World} (n : Nat) (hn : 1 ≤ n) :
    AllocEffect E as w n { as with e0 := setAl E w } (setW E w) :=
  .one n hn _ rfl (fun _ => rfl) (fun _ _ => rfl) (fun _ => rfl)

theorem msPage_count (a : ModeSense.CommonCmdAttributes) (nsid : U32) (ws : Arr3 NvmeCmdWrapper) (n : Nat) :
    n ≤ (msPage a nsid ws n).2.2 ∧ (msPage a nsid ws n).2.2 ≤ n + 1 := by
  unfold msPage
  split
  · split <;> simp
  · split <;> simp

/-- MODE SENSE(6), from any starting point. -/
theorem ms6_cases (E : Env) (cdb : List Byte) (nsid : U32) (p : Pipe) (w : World) (hn : p.count < 2) :
    ∃ p' w', beginModeSense6 E cdb.tail nsid p w = .ok (p', w') ∧ p.count ≤ p'.count ∧ p'.count ≤ p.count + 2 ∧
      ((p'.as = p.as ∧ w' = w) ∨
       (p.as.e0.data_addr = 0 ∧ 1 ≤ p'.count ∧ p'.as = { p.as with e0 := setAl E w } ∧ w' = setW E w)) := by
  rcases Nat.lt_or_ge cdb.length 6 with hl | hl
  · exact ⟨_, _, ms6_short E cdb nsid p w hl, by simp, by simp, Or.inl ⟨rfl, rfl⟩⟩
  by_cases hd : Spec.bit cdb 1 3 = true
  · have := msPage_count (attrsOf6 cdb) nsid p.ws p.count
    exact ⟨_, _, ms6_dbd E cdb nsid p w hl (by omega) hd, this.1, by simp only; omega, Or.inl ⟨rfl, rfl⟩⟩
  have hd' : Spec.bit cdb 1 3 = false := by simpa using hd
  by_cases ha : p.as.e0.data_addr = 0
  · by_cases h0 : setA E w = 0
    · exact ⟨_, _, ms6_fail E cdb nsid p w hl (by omega) hd' ha h0, by simp, by simp,
        Or.inr ⟨ha, by simp, rfl, rfl⟩⟩
    · have := msPage_count (attrsOf6 cdb) nsid (p.ws.put p.count (identifyWr nsid 0 (setA E w))) (p.count + 1)
      exact ⟨_, _, ms6_ok E cdb nsid p w hl (by omega) hd' ha h0, by simp only; omega, by simp only; omega,
        Or.inr ⟨ha, by simp only; omega, rfl, rfl⟩⟩
  · exact ⟨_, _, ms6_used E cdb nsid p w hl (by omega) hd' ha, by simp, by simp, Or.inl ⟨rfl, rfl⟩⟩

/-- REPORT LUNS, from any starting point. -/
theorem rl_cases (E : Env) (cdb : List Byte) (p : Pipe) (w : World) :
    ∃ p' w', beginReportLuns E cdb.tail p w = .ok (p', w') ∧ p'.count = 1 ∧
      ((p'.as = p.as ∧ w' = w) ∨
       (p.as.e0.data_addr = 0 ∧ p'.as = { p.as with e0 := setAl E w } ∧ w' = setW E w)) := by
  rcases Nat.lt_or_ge cdb.length 12 with hl | hl
  · exact ⟨_, _, rl_short E cdb p w hl, rfl, Or.inl ⟨rfl, rfl⟩⟩
  rcases Nat.lt_or_ge 2 (byte cdb 2) with hs | hs
  · exact ⟨_, _, rl_bad E cdb p w hl hs, rfl, Or.inl ⟨rfl, rfl⟩⟩
  by_cases ha : p.as.e0.data_addr = 0
  · by_cases h0 : setA E w = 0
    · exact ⟨_, _, rl_fail E cdb p w hl hs ha h0, rfl, Or.inr ⟨ha, rfl, rfl⟩⟩
    · exact ⟨_, _, rl_ok E cdb p w hl hs ha h0, rfl, Or.inr ⟨ha, rfl, rfl⟩⟩
  · exact ⟨_, _, rl_used E cdb p w hl hs ha, rfl, Or.inl ⟨rfl, rfl⟩⟩

theorem setAl_addr (E : Env) (w : World) : (setAl E w).data_addr = setA E w := rfl

/-- UNMAP (and the MODE SENSE(6) case it falls into), partial correctness. -/
theorem unmap_cases (E : Env) (cdb : List Byte) (buf : Span) (nsid : U32) (p : Pipe) (w : World)
    (hc : Clean p.as) (p' : Pipe) (w' : World)
    (h : beginUnmap E cdb.tail buf nsid p w = .ok (p', w')) :
    1 ≤ p'.count ∧ p'.count ≤ 3 ∧ AllocEffect E p.as w p'.count p'.as w' := by
  unfold beginUnmap at h
  simp only [M.bind_run, kPageSize] at h
  split at h
  · simp at h
  rename_i r w1 hu
  obtain ⟨st, wr, a⟩ := r
  simp only at h
  rcases Unmap_inv E cdb buf p.ws.e0 nsid p.as.e0 (clean_e0 hc) w w1 _ hu with
    ⟨hst, hr, rfl⟩ | ⟨h0, hr, rfl⟩ | ⟨h0, ds, hl1, hl2, hr, hw1, hs⟩
  · simp only [Prod.mk.injEq] at hr
    obtain ⟨rfl, rfl⟩ := hr
    obtain ⟨p1, w2, e, c1, c2, hcase⟩ := ms6_cases E cdb nsid { p with status := st, count := 1 } w1 (by simp)
    rw [e] at h
    simp only [Except.ok.injEq, Prod.mk.injEq] at h
    obtain ⟨rfl, rfl⟩ := h
    refine ⟨c1, c2, ?_⟩
    rcases hcase with ⟨e1, rfl⟩ | ⟨_, _, e1, rfl⟩
    · rw [e1]; exact .none _
    · rw [e1]; exact .one' _ (by omega)
  · simp only [Prod.mk.injEq] at hr
    obtain ⟨rfl, rfl, rfl⟩ := hr
    obtain ⟨p1, w2, e, c1, c2, hcase⟩ := ms6_cases E cdb nsid
      { p with status := .kFailure, count := 1, as := { p.as with e0 := setAl E w } } (setW E w) (by simp)
    rw [e] at h
    simp only [Except.ok.injEq, Prod.mk.injEq] at h
    obtain ⟨rfl, rfl⟩ := h
    refine ⟨c1, c2, ?_⟩
    rcases hcase with ⟨e1, rfl⟩ | ⟨_, _, e1, rfl⟩
    · rw [e1]; exact .one' _ (by omega)
    · rw [e1]; exact .again _ (by omega) h0
  · simp only [Prod.mk.injEq] at hr
    obtain ⟨rfl, rfl, rfl⟩ := hr
    obtain ⟨p1, w2, e, c1, c2, hcase⟩ := ms6_cases E cdb nsid
      { p with status := .kSuccess, count := 1, ws := { p.ws with e0 := { cmd := dsmCmd nsid ds.length (setA E w), buffer_len := 4096, is_admin := true } }, as := { p.as with e0 := setAl E w } } w1 (by simp)
    rw [e] at h
    simp only [Except.ok.injEq, Prod.mk.injEq] at h
    obtain ⟨rfl, rfl⟩ := h
    refine ⟨c1, c2, ?_⟩
    rcases hcase with ⟨e1, rfl⟩ | ⟨e0, _⟩
    · rw [e1]
      refine .one _ (by omega) _ (by rw [hw1]) hs (fun a ha => ?_) (fun hz => absurd hz h0)
      rw [hw1]
      simp only
      rw [putRanges_outside _ _ _ _ (by omega)]
    · exact absurd e0 h0

/-- Every completed `switch`: at most three commands, and what happened to pages and memory. -/
theorem switch_effect (E : Env) (cdb : List Byte) (buf : Span) (nsid : U32) (p : Pipe) (w : World)
    (hc : Clean p.as) (hn : p.count = 0) (p' : Pipe) (w' : World)
    (h : beginSwitch E (cdb.headD 0) cdb.tail buf nsid p w = .ok (p', w')) :
    p'.count ≤ 3 ∧ AllocEffect E p.as w p'.count p'.as w' := by
  rcases opcode_cases (byte cdb 0) with ho | ho | ho | ho | ho | ho | ho | ho | ho | ho | ho | ho | ho | ho
  · rw [switch_unknown E cdb buf nsid p ho] at h
    simp at h
    obtain ⟨rfl, rfl⟩ := h
    exact ⟨by simp [hn], .none _⟩
  · obtain ⟨r, -, e⟩ := switch_read E cdb buf nsid p ho
    rw [e] at h
    simp at h
    obtain ⟨rfl, rfl⟩ := h
    exact ⟨by simp [beginRead], .none _⟩
  · obtain ⟨r, -, e⟩ := switch_write E cdb buf nsid p ho
    rw [e] at h
    simp at h
    obtain ⟨rfl, rfl⟩ := h
    exact ⟨by simp [beginWrite], .none _⟩
  · rw [switch_tur E cdb buf nsid p ho] at h
    simp at h
    obtain ⟨rfl, rfl⟩ := h
    exact ⟨by simp [hn], .none _⟩
  · rw [switch_requestsense E cdb buf nsid p ho, rs_closed] at h
    simp at h
    obtain ⟨rfl, rfl⟩ := h
    split <;> exact ⟨by simp [hn], .none _⟩
  · rw [switch_inquiry E cdb buf nsid p ho] at h
    rcases Nat.lt_or_ge cdb.length 6 with hl | hl
    · rw [inquiry_short E cdb nsid p w hl] at h
      simp at h; obtain ⟨rfl, rfl⟩ := h
      exact ⟨by simp, .none _⟩
    by_cases h0 : setA E w = 0
    · rw [inquiry_fail0 E cdb nsid p w hl hc h0] at h
      simp at h; obtain ⟨rfl, rfl⟩ := h
      exact ⟨by simp, .one' _ (by simp)⟩
    by_cases h1 : setA E (setW E w) = 0
    · rw [inquiry_fail1 E cdb nsid p w hl hc h0 h1] at h
      simp at h; obtain ⟨rfl, rfl⟩ := h
      exact ⟨by simp, .two h0⟩
    · rw [inquiry_ok E cdb nsid p w hl hc h0 h1] at h
      simp at h; obtain ⟨rfl, rfl⟩ := h
      exact ⟨by simp, .two h0⟩
  · rw [switch_modesense6 E cdb buf nsid p ho] at h
    obtain ⟨p1, w2, e, c1, c2, hcase⟩ := ms6_cases E cdb nsid p w (by omega)
    rw [e] at h
    simp at h; obtain ⟨rfl, rfl⟩ := h
    refine ⟨by omega, ?_⟩
    rcases hcase with ⟨e1, rfl⟩ | ⟨_, c3, e1, rfl⟩
    · rw [e1]; exact .none _
    · rw [e1]; exact .one' _ c3
  · rw [switch_readcapacity E cdb buf nsid p ho] at h
    rcases Nat.lt_or_ge cdb.length 10 with hl | hl
    · rw [rc_short E cdb nsid p w hl] at h
      simp at h; obtain ⟨rfl, rfl⟩ := h
      exact ⟨by simp, .none _⟩
    by_cases hd : Spec.bit cdb 9 2 = true
    · rw [rc_bad E cdb nsid p w hl hd] at h
      simp at h; obtain ⟨rfl, rfl⟩ := h
      exact ⟨by simp, .none _⟩
    have hd' : Spec.bit cdb 9 2 = false := by simpa using hd
    by_cases h0 : setA E w = 0
    · rw [rc_fail E cdb nsid p w hl hd' (clean_e0 hc) h0] at h
      simp at h; obtain ⟨rfl, rfl⟩ := h
      exact ⟨by simp, .one' _ (by simp)⟩
    · rw [rc_ok E cdb nsid p w hl hd' (clean_e0 hc) h0] at h
      simp at h; obtain ⟨rfl, rfl⟩ := h
      exact ⟨by simp, .one' _ (by simp)⟩
  · rw [switch_verify E cdb buf nsid p ho] at h
    simp at h
    obtain ⟨rfl, rfl⟩ := h
    exact ⟨by simp [beginWrite], .none _⟩
  · rw [switch_sync E cdb buf nsid p ho] at h
    simp at h
    obtain ⟨rfl, rfl⟩ := h
    exact ⟨by simp, .none _⟩
  · rw [switch_unmap E cdb buf nsid p ho] at h
    obtain ⟨-, c, e⟩ := unmap_cases E cdb buf nsid p w hc p' w' h
    exact ⟨c, e⟩
  · rw [switch_modesense10 E cdb buf nsid p ho] at h
    obtain ⟨p1, hp1, e1⟩ := ms10_run E cdb nsid p w hn (clean_e0 hc)
    rw [e1] at h
    obtain ⟨p2, w2, e2, c2, hcase⟩ := rl_cases E cdb p1 (if ms10Alloc cdb then setW E w else w)
    rw [e2] at h
    simp only [Except.ok.injEq, Prod.mk.injEq] at h
    obtain ⟨rfl, rfl⟩ := h
    refine ⟨by omega, ?_⟩
    by_cases hm : ms10Alloc cdb
    · rw [if_pos hm] at hp1
      simp only [if_pos hm] at hcase
      rcases hcase with ⟨e3, rfl⟩ | ⟨e4, e3, rfl⟩
      · rw [e3, hp1]; exact .one' _ (by omega)
      · rw [hp1] at e3 e4
        rw [e3]; exact .again _ (by omega) e4
    · rw [if_neg hm] at hp1
      simp only [if_neg hm] at hcase
      rcases hcase with ⟨e3, rfl⟩ | ⟨e4, e3, rfl⟩
      · rw [e3, hp1]; exact .none _
      · rw [hp1] at e3
        rw [e3]; exact .one' _ (by omega)
  · rw [switch_reportluns E cdb buf nsid p ho] at h
    obtain ⟨p2, w2, e2, c2, hcase⟩ := rl_cases E cdb p w
    rw [e2] at h
    simp only [Except.ok.injEq, Prod.mk.injEq] at h
    obtain ⟨rfl, rfl⟩ := h
    refine ⟨by omega, ?_⟩
    rcases hcase with ⟨e3, rfl⟩ | ⟨e4, e3, rfl⟩
    · rw [e3]; exact .none _
    · rw [e3]; exact .one' _ (by omega)
  · rw [switch_maintenance E cdb buf nsid p ho] at h
    obtain ⟨st, al, e1⟩ := maint_run E cdb p
    rw [e1] at h
    obtain ⟨p2, w2, e2, c2, hcase⟩ := rl_cases E cdb { p with status := st, count := 0, alloc_len := al } w
    rw [e2] at h
    simp only [Except.ok.injEq, Prod.mk.injEq] at h
    obtain ⟨rfl, rfl⟩ := h
    refine ⟨by omega, ?_⟩
    rcases hcase with ⟨e3, rfl⟩ | ⟨e4, e3, rfl⟩
    · rw [e3]; exact .none _
    · rw [e3]; exact .one' _ (by omega)

end Scsi2Nvme
