import Verif.Proofs.ModuleConcurrent
import Verif.Properties.Plan
/-!
# What memory the calls leave behind
-/

namespace Scsi2Nvme
open Spec Engine

variable {ι σ : Type}

/-! ## Pages handed back are gone -/

/-- Handing back pages makes them inaccessible. -/
def Releases (E : Env) : Prop :=
  ∀ (p : U64) (n : U16) (w : World) (x : Nat), p ≠ 0 → inRange p.toNat (4096 * n.toNat) x → (deallocW E p n w).mem x = none

/-- … and makes nothing accessible. -/
def Shrinks (E : Env) : Prop := ∀ (p : U64) (n : U16) (w : World) (x : Nat), w.mem x = none → (deallocW E p n w).mem x = none

theorem module_releases {K : Module.Kernel} (hK : GoodKernel K) (junk : World → Nat → Byte) : Releases (Module.env K junk) := by
  intro p n w x hp hx
  change Module.DeallocPages K w p n x = none
  unfold Module.DeallocPages
  rw [if_pos hp, hK.free]
  exact if_pos hx

theorem module_shrinks {K : Module.Kernel} (hK : GoodKernel K) (junk : World → Nat → Byte) : Shrinks (Module.env K junk) := by
  intro p n w x hx
  change Module.DeallocPages K w p n x = none
  unfold Module.DeallocPages
  split
  · rw [hK.free]
    split
    · rfl
    · exact hx
  · exact hx

theorem deallocAll_none {E : Env} (hs : Shrinks E) (ps : List (U64 × U16)) (w : World) (x : Nat) (h : w.mem x = none) :
    (deallocAll E ps w).mem x = none := by
  induction ps generalizing w with
  | nil => exact h
  | cons p ps ih => exact ih _ (hs p.1 p.2 w x h)

theorem deallocAll_gone {E : Env} (hr : Releases E) (hs : Shrinks E) (ps : List (U64 × U16)) (w : World) (x : Nat) (p : U64 × U16)
    (hp : p ∈ ps) (h0 : p.1 ≠ 0) (hx : inRange p.1.toNat (4096 * p.2.toNat) x) : (deallocAll E ps w).mem x = none := by
  induction ps generalizing w with
  | nil => cases hp
  | cons q ps ih =>
    rcases List.mem_cons.mp hp with rfl | hp
    · exact deallocAll_none hs ps _ x (hr p.1 p.2 w x h0 hx)
    · exact ih _ hp

theorem livePages_nonzero {n : Nat} {as : Arr3 Allocation} {p : U64 × U16} (h : p ∈ livePages n as) : p.1 ≠ 0 := by
  unfold livePages at h
  obtain ⟨a, -, h⟩ := List.mem_flatMap.mp h
  unfold pagesOf at h
  rcases List.mem_append.mp h with h | h
  · split at h
    · rw [List.mem_singleton] at h; subst h; assumption
    · cases h
  · split at h
    · rw [List.mem_singleton] at h; subst h; assumption
    · cases h

/-! ## What `Begin` makes accessible -/

theorem set_new {E : Env} (hg : GoodAllocator E) (w : World) (x : Nat) (h0 : w.mem x = none) (h1 : ((setW E w).mem x).isSome) :
    ∃ p ∈ pagesOf (setAl E w), inRange p.1.toNat (4096 * p.2.toNat) x := by
  rcases set_good hg w with ⟨-, h⟩ | ⟨hne, -, -, hout⟩
  · rw [h, h0] at h1; cases h1
  · by_cases hx : inRange (setA E w).toNat 4096 x
    · refine ⟨(setA E w, 1), ?_, by simpa using hx⟩
      unfold pagesOf setAl
      simp only [List.mem_append]
      left
      rw [if_pos hne]
      exact List.mem_singleton.mpr rfl
    · rw [hout x hx, h0] at h1; cases h1

theorem AllocEffect.new {E : Env} (hg : GoodAllocator E) {as as' : Arr3 Allocation} {w w' : World} {n : Nat}
    (hc : Clean as) (h : AllocEffect E as w n as' w') (x : Nat) (h0 : w.mem x = Option.none) (h1 : (w'.mem x).isSome) :
    ∃ p ∈ livePages n as', inRange p.1.toNat (4096 * p.2.toNat) x := by
  rw [← h.pages hc]
  cases h with
  | none => rw [h0] at h1; cases h1
  | one _ hn _ ht hs ho hz =>
    rw [hs] at h1
    obtain ⟨p, hp, hx⟩ := set_new hg w x h0 h1
    exact ⟨p, by simp only [livePages, Arr3.toList, List.take, List.flatMap_cons, List.mem_append]; exact .inl hp, hx⟩
  | two =>
    cases hm : (setW E w).mem x with
    | none =>
      obtain ⟨p, hp, hx⟩ := set_new hg _ x hm h1
      exact ⟨p, by simp only [livePages, Arr3.toList, List.take, List.flatMap_cons, List.mem_append]; exact .inr (.inl hp), hx⟩
    | some v =>
      obtain ⟨p, hp, hx⟩ := set_new hg w x h0 (by rw [hm]; rfl)
      exact ⟨p, by simp only [livePages, Arr3.toList, List.take, List.flatMap_cons, List.mem_append]; exact .inl hp, hx⟩
  | again n hn hz =>
    have hm : (setW E w).mem = w.mem := by
      rcases set_good hg w with ⟨-, h⟩ | ⟨hne, -⟩
      · exact h
      · exact absurd hz hne
    obtain ⟨p, hp, hx⟩ := set_new hg _ x (by rw [hm]; exact h0) h1
    exact ⟨p, by simp only [livePages, Arr3.toList, List.take, List.flatMap_cons, List.mem_append]; exact .inl hp, hx⟩

/-- What `Begin` makes accessible are pages the object holds afterwards; a rejected command leaves nothing. -/
theorem began_new {E t w ptr cdb buf lun r t' w'} (hg : GoodAllocator E) (hr : Releases E) (hs : Shrinks E)
    (h : Began E t w ptr cdb buf lun r t' w') (x : Nat) (h0 : w.mem x = none) (h1 : (w'.mem x).isSome) :
    Accepted t' ∧ ∃ p ∈ livePages t'.nvme_cmd_count t'.allocations, inRange p.1.toNat (4096 * p.2.toNat) x := by
  have hi := h.idle.idle
  rcases Begin_inv _ _ hi _ _ _ _ _ _ _ h.call with ⟨-, -, -, h⟩ | ⟨-, bs, q, w1, -, -, -, hc, he, -, h, hw⟩
  · rw [h, h0] at h1; cases h1
  · by_cases hst : q.status = .kSuccess
    · unfold finishW at hw
      rw [if_pos hst] at hw
      subst hw
      rw [h]
      unfold finishT
      rw [if_pos hst]
      exact ⟨hst, he.new hg hi.clean x h0 h1⟩
    · exfalso
      unfold finishW at hw
      rw [if_neg hst] at hw
      subst hw
      cases hm : w1.mem x with
      | none => rw [deallocAll_none hs _ _ _ hm] at h1; cases h1
      | some v =>
        obtain ⟨p, hp, hx⟩ := he.new hg hi.clean x h0 (by rw [hm]; rfl)
        rw [deallocAll_gone hr hs _ _ _ p hp (livePages_nonzero hp) hx] at h1
        cases h1

/-- `Complete` takes away what `Begin` made accessible. -/
theorem complete_frees {E t w ptr cdb buf lun r t1 w1} (hg : GoodAllocator E) (hr : Releases E) (hs : Shrinks E)
    (hB : Began E t w ptr cdb buf lun r t1 w1) {w2 cs din sense c t2 w3} (h : t1.Complete E cs din sense w2 = .ok ((c, t2), w3))
    (x : Nat) (h0 : w.mem x = none) (h1 : (w1.mem x).isSome) : w3.mem x = none := by
  obtain ⟨ha, p, hp, hx⟩ := began_new hg hr hs hB x h0 h1
  rcases Complete_inv E t1 (began_wf hB) w2 cs din sense c t2 w3 h with ⟨hu, -⟩ | ⟨-, -, wm, rfl, -⟩
  · have : t1.pipeline_status = .kSuccess := ha
    rw [this] at hu; cases hu
  · exact deallocAll_gone hr hs _ _ _ p hp (livePages_nonzero hp) hx

/-- `Complete` makes nothing accessible. -/
theorem complete_shrinks {E t w ptr cdb buf lun r t1 w1} (hs : Shrinks E)
    (hB : Began E t w ptr cdb buf lun r t1 w1) {w2 cs din sense c t2 w3} (h : t1.Complete E cs din sense w2 = .ok ((c, t2), w3))
    (x : Nat) (h0 : w2.mem x = none) : w3.mem x = none := by
  rcases Complete_inv E t1 (began_wf hB) w2 cs din sense c t2 w3 h with ⟨-, -, -, rfl⟩ | ⟨-, -, wm, rfl, hc⟩
  · exact h0
  · have hw : (wm.mem x).isSome = (w2.mem x).isSome := by
      rcases hc with ⟨-, -, rfl⟩ | ⟨-, -, -, ok, hf⟩ | ⟨-, -, s, -, -, ok, hf⟩ | ⟨-, -, -, -, bs, st, -, hf⟩
      · rfl
      · exact (FillSenseBuffer_framed _ _ _ _ _ _ hf).2.2 x
      · exact (FillSenseBuffer_framed _ _ _ _ _ _ hf).2.2 x
      · exact (completeSwitch_framed _ _ _ _ _ _ _ _ _ hf).2.2 x
    refine deallocAll_none hs _ _ _ ?_
    cases hm : wm.mem x with
    | none => rfl
    | some v => rw [hm, h0] at hw; cases hw

/-! ## What an accepted command announces -/

theorem readPlan_fits {cdb : List Byte} {buf : Span} {nsid : Nat} {cs} (h : (readPlan cdb buf nsid).result = some cs) :
    (readPlan cdb buf nsid).announced ≤ buf.len := by
  unfold readPlan at h ⊢
  split at h
  · cases h
  · split at h
    · cases h
    · rename_i hb
      simp only [if_neg hb]
      split at h
      · cases h
      · rename_i e
        split at h
        · cases h
        · rename_i hl
          simp only [if_neg hl]
          omega

theorem writePlan_zero (cdb : List Byte) (buf : Span) (nsid : Nat) : (writePlan cdb buf nsid).announced = 0 := by
  unfold writePlan
  split
  · rfl
  · split
    · rfl
    · split <;> rfl

theorem inquiryPlan_announced (cdb : List Byte) (nsid : Nat) (a : Nat → Nat) : (inquiryPlan cdb nsid a).announced ≤ beAt cdb 3 2 := by
  unfold inquiryPlan
  split
  · exact Nat.zero_le _
  · split
    · exact Nat.le_refl _
    · split <;> exact Nat.le_refl _

theorem modePlan_announced (cdb : List Byte) (nsid : Nat) (held : Nat → Handed) (a : Nat → Nat) (b : List Handed) (k : Nat) (f : Bool) :
    (modePlan cdb nsid held a b k f).announced ≤ byte cdb 4 := by
  unfold modePlan
  split
  · exact Nat.zero_le _
  · split
    · exact Nat.le_refl _
    · split
      · exact Nat.le_refl _
      · split <;> exact Nat.le_refl _

theorem lunsPlan_announced {cdb : List Byte} {a : Nat → Nat} {k : Nat} {f : Bool} {n : Nat} {cs} (h : (lunsPlan cdb a k f n).result = some cs) :
    (lunsPlan cdb a k f n).announced ≤ beAt cdb 6 4 := by
  unfold lunsPlan at h ⊢
  split
  · rename_i hc
    rw [if_pos hc] at h
    cases h
  · split
    · exact Nat.le_refl _
    · split <;> exact Nat.le_refl _

theorem mode10Plan_announced {cdb : List Byte} {a : Nat → Nat} {cs} (h : (mode10Plan cdb a).result = some cs) :
    (mode10Plan cdb a).announced ≤ beAt cdb 6 4 := by
  unfold mode10Plan maintenancePlan at h ⊢
  split
  · rename_i hc
    rw [if_pos hc] at h
    exact lunsPlan_announced h
  · rename_i hc
    rw [if_neg hc] at h
    split
    · rename_i hb
      rw [if_pos hb] at h
      exact lunsPlan_announced h
    · rename_i hb
      rw [if_neg hb] at h
      exact lunsPlan_announced h

/-- An accepted command (no UNMAP) announces no more than its command block asks for, or its buffer holds. -/
theorem plan_announced {cdb : List Byte} {buf : Span} {data : List Byte} {lun : U64} {held : Nat → Handed} {a : Nat → Nat} {cs}
    (h42 : byte cdb 0 ≠ 0x42) (h : (plan cdb buf data lun held a).result = some cs) :
    (plan cdb buf data lun held a).announced ≤ max (allocationLength cdb) buf.len := by
  have hl : ∀ {n m : Nat}, n ≤ m → n ≤ max m buf.len := fun h => Nat.le_trans h (Nat.le_max_left _ _)
  unfold plan at h ⊢
  simp only at h ⊢
  by_cases h0 : cdb = []
  · rw [if_pos h0] at h; cases h
  rw [if_neg h0] at h ⊢
  by_cases hr : isRead (byte cdb 0)
  · rw [if_pos hr] at h ⊢
    exact Nat.le_trans (readPlan_fits h) (Nat.le_max_right _ _)
  rw [if_neg hr] at h ⊢
  by_cases hw : isWrite (byte cdb 0)
  · rw [if_pos hw] at h ⊢
    rw [writePlan_zero]
    exact Nat.zero_le _
  rw [if_neg hw] at h ⊢
  unfold allocationLength
  split at h
  · exact Nat.zero_le _
  · rename_i e
    simp only [e]
    refine hl ?_
    split
    · exact Nat.zero_le _
    · exact Nat.le_refl _
  · rename_i e
    simp only [e]
    exact hl (inquiryPlan_announced _ _ _)
  · rename_i e
    simp only [e]
    exact hl (modePlan_announced _ _ _ _ _ _ _)
  · rename_i e
    simp only [e]
    refine hl ?_
    unfold capacityPlan
    split
    · exact Nat.zero_le _
    · split <;> exact Nat.le_refl _
  · unfold verifyPlan
    split <;> exact Nat.zero_le _
  · exact Nat.zero_le _
  · rename_i e; exact absurd e h42
  · rename_i e
    simp only [e]
    exact hl (mode10Plan_announced h)
  · rename_i e
    simp only [e]
    exact hl (lunsPlan_announced h)
  · rename_i e
    simp only [e]
    exact hl (lunsPlan_announced h)
  · cases h

theorem began_announced {E t w ptr cdb buf lun r t' w'} (h : Began E t w ptr cdb buf lun r t' w') (h42 : byte cdb 0 ≠ 0x42)
    (ha : Accepted t') (hl : allocationLength cdb ≤ buf.len) : r.alloc_len.toNat ≤ buf.len := by
  obtain ⟨evs, -, -, -, e, hres⟩ := C78_begin E t w ptr cdb buf lun r t' w' [] h (fun e => absurd e h42)
  rw [e]
  cases hp : (plan cdb buf [] lun (slots t) fun i => (pageAnswers evs).getD i 0).result with
  | none => rw [hp] at hres; exact absurd ha hres.1
  | some cs =>
    have := plan_announced h42 hp
    omega

/-! ## The invariant -/

/-- Accessible memory was accessible at the beginning, or belongs to a call. -/
def Tallied (c : ι → Command) (m : Mem) (own : ι → Nat → Prop) (y : Host ι σ) : Prop :=
  ∀ a, (y.world.mem a).isSome → (m a).isSome ∨ ∃ i, own i a ∨ (y.reqs c i).uses a

theorem Tallied.step [DecidableEq ι] {K : Module.Kernel} (hK : GoodKernel K) {junk : World → Nat → Byte} {D : Device σ}
    (hT : Tame (Module.env K junk) D) {c : ι → Command} {m : Mem} (hu : ∀ i a, (c i).uses a → (m a).isSome) {own own'} {y y' : Host ι σ} {i : ι} (hq : (c i).Fair)
    (hl : allocationLength (c i).cdb ≤ (c i).cmd.sg.length % 65536)
    (hI : HInv K junk c own y) (h : HStepped K junk D c y i y') (hI' : HInv K junk c own' y') (hP : Passed own own' i y.view y'.view)
    (hJ : Tallied c m own y) : Tallied c m own' y' := by
  have hg := (C72_util K hK junk).1
  have hr := module_releases hK junk
  have hs := module_shrinks hK junk
  -- it is enough to look at call `i`
  have other : ∀ a, (∀ j, j ≠ i → y'.phase j = y.phase j) →
      ((y'.world.mem a).isSome → (m a).isSome ∨ own' i a ∨ (y'.reqs c i).uses a ∨ ((y.world.mem a).isSome ∧ ¬ own i a ∧ ¬ (y.reqs c i).uses a)) →
      (y'.world.mem a).isSome → (m a).isSome ∨ ∃ j, own' j a ∨ (y'.reqs c j).uses a := by
    intro a hph h1 h2
    rcases h1 h2 with h | h | h | ⟨h, hno, hnu⟩
    · exact .inl h
    · exact .inr ⟨i, .inl h⟩
    · exact .inr ⟨i, .inr h⟩
    · rcases hJ a h with h | ⟨j, h'⟩
      · exact .inl h
      · by_cases e : j = i
        · subst e
          exact absurd h' (not_or.mpr ⟨hno, hnu⟩)
        · refine .inr ⟨j, ?_⟩
          rw [hP.others j e]
          refine h'.imp id fun h => ?_
          unfold Host.reqs
          rw [hph j e]
          exact h
  have phs : ∀ (s : σ) (w : World) (ph : Module.Phase) (j : ι), j ≠ i → (y.to i s w ph).phase j = y.phase j :=
    fun s w ph j hj => Host.to_other y hj s w ph
  have noown : y.phase i = .queued ∨ (∃ b r, y.phase i = .engine b (.returned r)) → ∀ a, ¬ own i a := by
    rintro (hp | ⟨b, r, hp⟩)
    · exact (hI.inv.called i (by change viewPh (y.phase i) = _; rw [hp]; rfl)).2
    · exact hI.inv.returned i r (by change viewPh (y.phase i) = _; rw [hp]; rfl)
  have free : ∀ {b r} (o : Module.Outcome), y.phase i = .engine b (.returned r) → ∀ a,
      ((y.to i y.dev ⟨K.kfree y.world b (Module.dataLen (c i).cmd).toNat, y.world.trace⟩ (.done o)).world.mem a).isSome →
      (m a).isSome ∨ ((y.world.mem a).isSome ∧ ¬ own i a ∧ ¬ (y.reqs c i).uses a) := by
    intro b r o hp a ha
    change (K.kfree y.world b (Module.dataLen (c i).cmd).toNat a).isSome at ha
    rw [hK.free] at ha
    split at ha
    · cases ha
    · rename_i hn
      by_cases hc : (c i).uses a
      · exact .inl (hu i a hc)
      · refine .inr ⟨ha, noown (.inr ⟨b, r, hp⟩) a, fun h => ?_⟩
        unfold Host.reqs at h
        rw [hp] at h
        exact (view_uses.mp h).elim hc hn
  intro a
  cases h with
  | empty hp hz =>
    refine other a (phs _ _ _) fun ha => ?_
    by_cases hc : (y.reqs c i).uses a
    · unfold Host.reqs at hc
      rw [hp] at hc
      exact .inl (hu i a (view_uses_empty.mp hc))
    · exact .inr (.inr (.inr ⟨ha, noown (.inl hp) a, hc⟩))
  | refused hp hz h0 =>
    refine other a (phs _ _ _) fun ha => ?_
    have hm : (K.kzalloc y.world (Module.dataLen (c i).cmd).toNat).2 = y.world.mem := by
      rcases hK.alloc y.world (Module.dataLen (c i).cmd).toNat with ⟨-, h⟩ | ⟨h, -⟩
      · exact h
      · exact absurd h0 h
    change ((K.kzalloc y.world (Module.dataLen (c i).cmd).toNat).2 a).isSome at ha
    rw [hm] at ha
    by_cases hc : (y.reqs c i).uses a
    · unfold Host.reqs at hc
      rw [hp] at hc
      exact .inl (hu i a (view_uses_empty.mp hc))
    · exact .inr (.inr (.inr ⟨ha, noown (.inl hp) a, hc⟩))
  | granted hp hz h0 mm hm =>
    refine other a (phs _ _ _) fun ha => ?_
    rcases hK.alloc y.world (Module.dataLen (c i).cmd).toNat with ⟨h, -⟩ | ⟨-, -, -, -, hout⟩
    · exact absurd h h0
    · by_cases hx : inRange (K.kzalloc y.world (Module.dataLen (c i).cmd).toNat).1 (Module.dataLen (c i).cmd).toNat a
      · refine .inr (.inr (.inl ?_))
        unfold Host.reqs
        rw [Host.to_self]
        exact view_uses.mpr (.inr hx)
      · have e : mm a = y.world.mem a := by
          rw [← hout a hx, hm]
          split
          · rfl
          · refine put_outside ?_
            rw [List.length_take]
            unfold inRange at hx
            omega
        change (mm a).isSome at ha
        rw [e] at ha
        by_cases hc : (y.reqs c i).uses a
        · unfold Host.reqs at hc
          rw [hp] at hc
          exact .inl (hu i a (view_uses_empty.mp hc))
        · exact .inr (.inr (.inr ⟨ha, noown (.inl hp) a, hc⟩))
  | @engine b ph hp hr' y1 hst =>
    refine other a (phs _ _ _) fun ha => ?_
    have hv : y.reqs c i = viewReq (c i) b (Module.dataLen (c i).cmd) := by unfold Host.reqs; rw [hp]; rfl
    have hv' : (y.to i y1.dev y1.world (.engine b (y1.phase i))).reqs c i = viewReq (c i) b (Module.dataLen (c i).cmd) := by
      unfold Host.reqs; rw [Host.to_self]; rfl
    have hvp : y.view.phase i = ph := by change viewPh (y.phase i) = _; rw [hp]; rfl
    have hvp' : (y.to i y1.dev y1.world (.engine b (y1.phase i))).view.phase i = y1.phase i := by
      change viewPh ((y.to i y1.dev y1.world (.engine b (y1.phase i))).phase i) = _; rw [Host.to_self]; rfl
    have hf : (y.reqs c i).Fair := by
      rw [hv]
      exact viewReq_fair hq (hI.buf i b ph hp).1 fun a ha => (hI.buf i b ph hp).2 a (.inl ha)
    change (y1.world.mem a).isSome at ha
    by_cases hua : (y.reqs c i).uses a
    · exact .inr (.inr (.inl (by rw [hv', ← hv]; exact hua)))
    cases hst with
    | @begin r t w1 hp1 hB =>
      cases hm : y.world.mem a with
      | some v => exact .inr (.inr (.inr ⟨rfl, (hI.inv.called i hp1).2 a, hua⟩))
      | none =>
        obtain ⟨hacc, -⟩ := began_new hg hr hs hB a hm ha
        have h42 : byte (y.reqs c i).cdb 0 ≠ 0x42 := fun e =>
          (C28_conforming_rejected _ _ _ _ _ _ _ _ _ _ hB e (hf.unmap e)).1 hacc
        have hfit := began_announced hB h42 hacc (by
          rw [hv]
          change allocationLength (c i).cdb ≤ (Module.dataLen (c i).cmd).toNat
          rw [dataLen_toNat]; exact hl)
        simp only at hfit
        have hph : (y.view.to i y.dev w1 (if r.alloc_len.toNat > (y.reqs c i).dataLen.toNat then .returned ⟨0x40, 0⟩
            else .waiting r t t.GetNvmeWrappers [])).phase i = .waiting r t t.GetNvmeWrappers [] := by
          simp only [Sys.to, if_true]
          exact if_neg (by omega)
        exact .inr (.inl ((hP.fresh hp1 _ _ _ _ (hvp'.trans hph) a).mpr ⟨hm, ha⟩))
    | @submit r t wr todo cs hp1 =>
      by_cases ho : own i a
      · refine .inr (.inl ?_)
        rw [hP.kept _ _ _ _ r t todo (cs ++ [(D y.dev y.world.mem (submissionOf wr)).2.2]) hp1 (by
          rw [hvp']; simp only [Sys.to, if_true]; rfl)]
        exact ho
      · refine .inr (.inr (.inr ⟨?_, ho, hua⟩))
        obtain ⟨w, w1, hb⟩ := hI.inv.waiting i r t _ cs hp1
        obtain ⟨done, hd1, hd2⟩ := hb.progress
        have e := (hT (y.reqs c i) hf _ _ _ _ hb.began wr (by rw [hd1]; simp) y.view.dev y.view.world.mem).1 a
          (fun h => hua (.inr (.inr h.2))) fun h => ho ((hb.owned a).mpr h)
        change ((D y.view.dev y.view.world.mem (submissionOf wr)).2.1 a).isSome at ha
        rw [e] at ha
        exact ha
    | @complete r t cs cc t2 w3 hp1 hcall =>
      obtain ⟨w, w1, hb⟩ := hI.inv.waiting i r t _ cs hp1
      change (w3.mem a).isSome at ha
      by_cases ho : own i a
      · obtain ⟨k1, k2⟩ := (hb.owned a).mp ho
        rw [complete_frees hg hr hs hb.began hcall a k1 k2] at ha
        cases ha
      · refine .inr (.inr (.inr ⟨?_, ho, hua⟩))
        cases hm : y.world.mem a with
        | some v => rfl
        | none =>
          rw [complete_shrinks hs hb.began hcall a hm] at ha
          cases ha
    | returned hp1 => exact absurd (hvp.symm.trans hp1) (hr' _)
  | @finished b r hp hz =>
    refine other a (phs _ _ _) fun ha => ?_
    by_cases hc : (y.reqs c i).uses a
    · unfold Host.reqs at hc
      rw [hp] at hc
      rcases view_uses.mp hc with h | h
      · exact .inl (hu i a h)
      · rw [hz] at h; unfold inRange at h; omega
    · exact .inr (.inr (.inr ⟨ha, noown (.inr ⟨b, r, hp⟩) a, hc⟩))
  | copied hp hz hi hb => exact other a (phs _ _ _) fun ha => (free _ hp a ha).imp id fun h => .inr (.inr h)
  | freed hp hz hi => exact other a (phs _ _ _) fun ha => (free _ hp a ha).imp id fun h => .inr (.inr h)
  | done hp =>
    intro ha
    have ho : own' i = own i ∨ ∀ a, ¬ own i a := .inr (hI.inv.returned i ⟨0, 0⟩ (by change viewPh (y.phase i) = _; rw [hp]; rfl))
    rcases hJ a ha with h | ⟨j, h⟩
    · exact .inl h
    · refine .inr ⟨j, ?_⟩
      by_cases e : j = i
      · subst e
        exact h.imp (fun h => absurd h (hI.inv.returned j ⟨0, 0⟩ (by change viewPh (y.phase j) = _; rw [hp]; rfl) a)) id
      · rw [hP.others j e]; exact h

end Scsi2Nvme
