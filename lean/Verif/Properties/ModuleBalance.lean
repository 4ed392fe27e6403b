import Verif.Proofs.Balance
import Verif.Properties.ModuleConcurrentQuery
/-!
# The kernel module gives all memory back
-/

namespace Scsi2Nvme
open Spec Engine

variable {ι σ : Type}

/-- Through a run: what the invariant of the module says, and where the accessible memory comes from. -/
theorem tallied_run [DecidableEq ι] {D : Device σ} {K : Module.Kernel} (hK : GoodKernel K)
    {junk : World → Nat → Byte} (hT : Tame (Module.env K junk) D) {c : ι → Command} {m : Mem} (hc : Disjoint c m) (hl : ∀ i, allocationLength (c i).cdb ≤ (c i).cmd.sg.length % 65536)
    (sched : List ι) {own} {x y : Host ι σ} (hI : HInv K junk c own x) (hJ : Tallied c m own x)
    (hM : ∀ a, (m a).isSome → (x.world.mem a).isSome ∧ (∀ i, ¬ own i a) ∧ ∀ i, (x.reqs c i).uses a → (c i).uses a)
    (h : x.run K junk D c sched = .ok y) :
    ∃ own', HInv K junk c own' y ∧ Tallied c m own' y ∧ ∀ a, (m a).isSome → (y.world.mem a).isSome := by
  have hu : ∀ i a, (c i).uses a → (m a).isSome := fun i a ha => (HInv.start (K := K) (junk := junk) hc (σ := Unit) () []).inv.used i a (view_uses_empty.mpr ha)
  induction sched generalizing own x with
  | nil => cases h; exact ⟨own, hI, hJ, fun a ha => (hM a ha).1⟩
  | cons i is ih =>
    unfold Host.run at h
    split at h
    · cases h
    · rename_i x1 e
      have hst := hstepped_of hI (hc.fair i) e
      obtain ⟨own1, hI1, hcf, hgr, hp⟩ := hI.steps hK hT (hc.fair i) hst
      refine ih hI1 (hJ.step hK hT hu (hc.fair i) (hl i) hI hst hI1 hp) (fun a ha => ?_) h
      obtain ⟨k1, k2, k3⟩ := hM a ha
      have hne : x.world.mem a ≠ none := fun e => by rw [e] at k1; cases k1
      refine ⟨?_, fun j hj => (hgr.own j a hj).elim (k2 j) hne, fun j hj => k3 j ((hgr.uses j a hj).resolve_right hne)⟩
      by_cases hua : (x.reqs c i).uses a
      · refine hI1.inv.used i a ?_
        have := k3 i hua
        unfold Host.reqs viewOf
        split <;> exact view_uses.mpr (.inl this)
      · rw [hcf a k1 hua (k2 i)]; exact k1

theorem in_use_tame [DecidableEq ι] {D : Device σ} {K : Module.Kernel} (hK : GoodKernel K)
    {junk : World → Nat → Byte} (hT : Tame (Module.env K junk) D)
    {c : ι → Command} {m : Mem} (hc : Disjoint c m) (hl : ∀ i, allocationLength (c i).cdb ≤ (c i).cmd.sg.length % 65536)
    {d : σ} {tr : List Event} {sched : List ι} {y : Host ι σ} (h : (Host.start d m tr).run K junk D c sched = .ok y) (a : Nat) :
    ((m a).isSome → (y.world.mem a).isSome) ∧ ((y.world.mem a).isSome → (m a).isSome ∨ ∃ i, y.busy i) := by
  obtain ⟨own, hI, hJ, hM⟩ := tallied_run hK hT hc hl sched (HInv.start (junk := junk) hc d tr) (fun a ha => .inl ha)
    (fun a ha => ⟨ha, fun _ h => h, fun i h => view_uses_empty.mp h⟩) h
  refine ⟨hM a, fun ha => ?_⟩
  rcases hJ a ha with h | ⟨i, hi⟩
  · exact .inl h
  · have hu : (c i).uses a → (m a).isSome := fun ha =>
      (HInv.start (K := K) (junk := junk) hc (σ := Unit) () []).inv.used i a (view_uses_empty.mpr ha)
    cases hp : y.phase i with
    | queued =>
      left
      rcases hi with hi | hi
      · exact absurd hi ((hI.inv.called i (by change viewPh (y.phase i) = _; rw [hp]; rfl)).2 a)
      · unfold Host.reqs at hi
        rw [hp] at hi
        exact hu (view_uses_empty.mp hi)
    | done o =>
      left
      rcases hi with hi | hi
      · exact absurd hi (hI.inv.returned i ⟨0, 0⟩ (by change viewPh (y.phase i) = _; rw [hp]; rfl) a)
      · unfold Host.reqs at hi
        rw [hp] at hi
        exact hu (view_uses_empty.mp hi)
    | engine b ph => exact .inr ⟨i, by rw [hp]; exact (fun e => by cases e), fun o => by rw [hp]; exact (fun e => by cases e)⟩

/-- **C104.** Commands are handed to the kernel module in any interleaving, none of which asks for more data than its buffer holds.
At any moment: memory accessible at the beginning is still accessible; if more memory is accessible, some command is being executed. -/
theorem C104_in_use [DecidableEq ι] (cap : Nat → Nat) (ident feature) (K : Module.Kernel) (hK : GoodKernel K)
    (junk : World → Nat → Byte) (D : Device Disk) (hS : Storage D cap) (hC : Controller D ident feature) (hT : tidy D)
    (c : ι → Command) (m : Mem) (hc : Disjoint c m) (hl : ∀ i, allocationLength (c i).cdb ≤ (c i).cmd.sg.length % 65536)
    (d : Disk) (tr : List Event) (sched : List ι) (y : Host ι Disk) (h : (Host.start d m tr).run K junk D c sched = .ok y) (a : Nat) :
    ((m a).isSome → (y.world.mem a).isSome) ∧ ((y.world.mem a).isSome → (m a).isSome ∨ ∃ i, y.busy i) := by
  exact in_use_tame hK (Target.tame ⟨hS, hC, hT⟩ (C72_util K hK junk).1) hc hl h a

/-- **C104 (no leak).** … So once no command is being executed, exactly the memory accessible at the beginning is accessible: data buffers
and pages are all given back. -/
theorem C104_no_leak [DecidableEq ι] (cap : Nat → Nat) (ident feature) (K : Module.Kernel) (hK : GoodKernel K)
    (junk : World → Nat → Byte) (D : Device Disk) (hS : Storage D cap) (hC : Controller D ident feature) (hT : tidy D)
    (c : ι → Command) (m : Mem) (hc : Disjoint c m) (hl : ∀ i, allocationLength (c i).cdb ≤ (c i).cmd.sg.length % 65536)
    (d : Disk) (tr : List Event) (sched : List ι) (y : Host ι Disk) (h : (Host.start d m tr).run K junk D c sched = .ok y)
    (hd : ∀ i, ¬ y.busy i) (a : Nat) : (y.world.mem a).isSome = (m a).isSome := by
  obtain ⟨h1, h2⟩ := C104_in_use cap ident feature K hK junk D hS hC hT c m hc hl d tr sched y h a
  rw [Bool.eq_iff_iff]
  exact ⟨fun h => (h2 h).resolve_right fun ⟨i, hi⟩ => hd i hi, h1⟩

/-- The hypotheses are met: WRITE, READ and INQUIRY in any interleaving in which each of them ends.  (In between more memory is
accessible: the INQUIRY gets its data buffer at 0x100000.) -/
example (cap : Nat → Nat) (ident : Nat → Nat → List Byte) (feature : Nat → Nat → Nat → Nat)
    (hs : ∀ n c, (ident n c).length = 4096) (d : Disk) (sg : Fin 3 → List Byte) (h0 : (sg 0).length = 8192) (h1 : (sg 1).length = 12288)
    (h2 : (sg 2).length = 200) (sched : List (Fin 3)) (hn : ∀ i, 7 ≤ sched.count i) :
    (∃ y, (Host.start d demoShared []).run demoKernel3 (fun _ _ => 0) (demoTarget cap ident feature) (demoTrio sg) sched = .ok y ∧
      ∀ a, (y.world.mem a).isSome = (demoShared a).isSome) ∧
    demoShared 0x100000 = none ∧ ((demoKernel3.kzalloc ⟨demoShared, []⟩ 200).2 0x100000).isSome := by
  have hS := demoTarget_storage cap ident feature
  have hC := demoTarget_controller cap ident feature hs
  have hT := demoTarget_tidy cap ident feature
  have hD : Disjoint (demoTrio sg) demoShared := demoTrio_disjoint sg (by
    intro i
    match i with
    | 0 => exact ⟨fun _ => by omega, by omega⟩
    | 1 => exact ⟨fun _ => by omega, by omega⟩
    | 2 => exact ⟨fun h => absurd rfl h, by omega⟩)
  have hop : ∀ i page, steady (demoTrio sg i).cdb page := fun i => steady_of (demoCalls_blocks i).2.1
  obtain ⟨y, r⟩ := C103_defined cap ident feature demoKernel3 demoKernel3_good (fun _ _ => 0) _ hS hC hT (demoTrio sg) demoShared hD
    (fun i => hop i _) d [] sched
  refine ⟨⟨y, r, ?_⟩, by decide +kernel, by decide +kernel⟩
  refine C104_no_leak cap ident feature demoKernel3 demoKernel3_good (fun _ _ => 0) _ hS hC hT (demoTrio sg) demoShared hD (fun i => ?_) d [] sched y r
    fun i hi => ?_
  · match i with
    | 0 => exact Nat.zero_le _
    | 1 => exact Nat.zero_le _
    | 2 =>
      change 96 ≤ (sg 2).length % 65536
      rw [h2]
      decide
  · obtain ⟨o, p⟩ := C101_wait_free _ _ _ _ _ _ _ _ _ r i (hn i)
    exact hi.2 o p

/-- The hypothesis on the allocation length is necessary: an INQUIRY with allocation length 96 and a list of 36 bytes ends with result 40h,
and a page of the kernel is never given back. -/
theorem C104_needed : ∃ (c : Fin 3 → Command) (y : Host (Fin 3) Unit) (o : Module.Outcome), Disjoint c demoShared ∧
    (Host.start () demoShared []).run demoKernel3 (fun _ _ => 0) lazyDevice c [2, 2, 2] = .ok y ∧
    y.phase 2 = .done o ∧ o.result = 0x40 ∧ (∀ i, ¬ y.busy i) ∧ demoShared 0x200000 = none ∧ (y.world.mem 0x200000).isSome := by
  let sg : Fin 3 → List Byte := fun i => if i = 2 then List.replicate 36 0 else List.replicate 8192 0
  have hk : (match (Host.start () demoShared []).run demoKernel3 (fun _ _ => 0) lazyDevice (demoTrio sg) [2, 2, 2] with
      | .error _ => false
      | .ok y => (match y.phase 2 with | .done o => o.result == 0x40 | _ => false) && (y.world.mem 0x200000).isSome) = true := by decide +kernel
  split at hk
  · cases hk
  · rename_i y e
    rw [Bool.and_eq_true] at hk
    obtain ⟨k1, k2⟩ := hk
    cases hp : y.phase 2 with
    | queued => rw [hp] at k1; cases k1
    | engine b ph => rw [hp] at k1; cases k1
    | done o =>
      rw [hp] at k1
      refine ⟨demoTrio sg, y, o, demoTrio_disjoint sg ?_, e, hp, by simpa using k1, fun i hi => ?_, by decide +kernel, k2⟩
      · intro i
        rw [show (sg i).length = if i = 2 then 36 else 8192 by
          change (if i = 2 then List.replicate 36 (0 : Byte) else List.replicate 8192 0).length = _
          split <;> exact List.length_replicate]
        split
        · exact ⟨fun h => absurd ‹i = 2› h, by omega⟩
        · exact ⟨fun _ => by omega, by omega⟩
      · by_cases h2 : i = 2
        · subst h2
          exact hi.2 o hp
        · refine hi.1 ?_
          have same : ∀ (sched : List (Fin 3)) (x : Host (Fin 3) Unit), i ∉ sched →
              x.run demoKernel3 (fun _ _ => 0) lazyDevice (demoTrio sg) sched = .ok y → y.phase i = x.phase i := by
            intro sched
            induction sched with
            | nil => intro x _ h; cases h; rfl
            | cons j js ih =>
              intro x hn h
              unfold Host.run at h
              split at h
              · cases h
              · rename_i x1 e1
                rw [ih x1 (fun h => hn (List.mem_cons_of_mem _ h)) h]
                unfold Host.step at e1
                split at e1
                · cases e1
                · cases e1
                  exact if_neg fun e => hn (by rw [e]; exact List.mem_cons_self)
          exact same _ _ (by simp; exact h2) e

end Scsi2Nvme
