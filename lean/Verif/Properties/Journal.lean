import Verif.Properties.Restart
/-!
# C126: write-ahead logging
-/

namespace Scsi2Nvme
open Spec Engine Driver

variable {ι σ : Type}

/-- What no call that takes a step writes stays as it was. -/
theorem Holds.idle [DecidableEq ι] {E : Env} {D : Device σ} {disks stable : σ → Disk} (hD : Cached D disks stable) (hg : GoodAllocator E)
    {q : ι → Request} {m : Mem} (hq : Separate q m) {l lba n : Nat} {bs : List Byte} {s : σ}
    (tr : List Event) (sched : List ι) (hl : ∀ i ∈ sched, (q i).leaves l lba n) {y : Sys ι σ} (hs : Holds disks stable l lba n bs s)
    (h : (Sys.start s m tr).run E D q sched = .ok y) : Holds disks stable l lba n bs y.dev := by
  obtain ⟨L, -, resp, c0, -, t0, -⟩ := C108_trusted E D disks hg hD.toHonest q m hq s tr sched [] y y h rfl
  have hin : ∀ i ∈ L, i ∈ sched := by
    intro i hi
    refine Classical.byContradiction fun hn => c0.begun i hi ?_
    rw [run_unscheduled E D q i sched _ _ h hn]
    rfl
  have h1 := (t0.keeps l lba n fun i hi => hl i (hin i hi)).trans
    (show Disk.read (fun l a => disks s (l + 1) a) l (4096 * lba) (4096 * n) = bs from hs.1)
  have h1' : Disk.read (disks y.dev) (l + 1) (4096 * lba) (4096 * n) = bs := h1
  refine ⟨h1', ?_⟩
  rw [← h1']
  refine Disk.read_same ?_
  have key : ∀ (is : List ι) {own} {x x' : Sys ι σ}, Inv E q own x → Stored disks stable l lba n x.dev → x.run E D q is = .ok x' →
      (∀ i ∈ is, (q i).leaves l lba n) → Stored disks stable l lba n x'.dev := by
    intro is
    induction is with
    | nil => intro own x x' _ hst hr _; cases hr; exact hst
    | cons i is ih =>
      intro own x x' hI hst hr hlv
      unfold Sys.run at hr
      split at hr
      · cases hr
      · rename_i x1 e
        have hstep := stepped_of hI (hq.fair i).short e
        obtain ⟨own1, hI1, -⟩ := hI.move (hD.toLossy.tame hg) hg hq hstep
        exact ih hI1 (Stored.step hD (hq.fair i) hI (.inr (hlv i (List.mem_cons_self ..))) hst hstep) hr
          fun j hj => hlv j (List.mem_cons_of_mem _ hj)
  exact key sched (Inv.start hq s tr) hs.stored h hl

theorem split_first [DecidableEq ι] (i : ι) : ∀ (l : List ι), i ∈ l → ∃ a b, l = a ++ i :: b ∧ i ∉ a := by
  intro l
  induction l with
  | nil => intro h; cases h
  | cons x xs ih =>
    intro h
    by_cases e : x = i
    · subst e
      exact ⟨[], xs, rfl, by simp⟩
    · rcases List.mem_cons.mp h with h | h
      · exact absurd h.symm e
      · obtain ⟨a, b, h1, h2⟩ := ih h
        refine ⟨x :: a, b, by rw [h1]; rfl, fun h3 => ?_⟩
        rcases List.mem_cons.mp h3 with h3 | h3
        · exact e h3.symm
        · exact h2 h3

/-- **C126.** A device with a volatile write cache, which may fail any command.  A caller writes a record to a log (`W`), synchronizes
the cache (`S`), and only then writes over the data (`C`): it does not begin `S` before `W`, and not `C` before `S`, has returned GOOD.  Other
calls, in any number and interleaved in any way, write neither the record nor the data.  The power fails at any moment, also in the midst of
any call, and any number of times more.  Then either the data are what they were before, or the record is complete: a READ of the one
delivers the old data, or a READ of the other the record (if they are answered with GOOD). -/
theorem C126_logged [DecidableEq ι] (E : Env) (D : Device σ) (disks stable : σ → Disk) (hg : GoodAllocator E)
    (hD : Cached D disks stable) (q : ι → Request) (m : Mem) (hq : Separate q m) (s : σ) (tr : List Event)
    (sched : List ι) (y : Sys ι σ) (h : (Sys.start s m tr).run E D q sched = .ok y) (W S C : ι)
    (orderS : ∀ pre post x, sched = pre ++ S :: post → (Sys.start s m tr).run E D q pre = .ok x → x.phase S = .called →
      ∃ r, x.phase W = .returned r ∧ r.return_code = 0)
    (orderC : ∀ pre post x, sched = pre ++ C :: post → (Sys.start s m tr).run E D q pre = .ok x → x.phase C = .called →
      ∃ r, x.phase S = .returned r ∧ r.return_code = 0)
    (lba n : Nat) (hW : isWrite (byte (q W).cdb 0)) (hWa : (q W).asks (lba + n) lba n)
    (hS : byte (q S).cdb 0 = 0x35) (hlun : (q S).lun = (q W).lun)
    (l' lba' n' : Nat) (old : List Byte) (hold : Disk.read (disks s) (l' + 1) (4096 * lba') (4096 * n') = old)
    (hst : Disk.read (stable s) (l' + 1) (4096 * lba') (4096 * n') = old)
    (hlog : ∀ j, j ≠ W → (q j).leaves (q W).lun.toNat lba n) (hdata : ∀ j, j ≠ C → (q j).leaves l' lba' n')
    (s₁ s₂ : σ) (hf : Outage disks stable y.dev s₁)
    (hf₁ : s₂ = s₁ ∨ Outages ι E D disks stable (q W).lun.toNat lba n s₁ s₂ ∧ Outages ι E D disks stable l' lba' n' s₁ s₂)
    (q' : ι → Request) (m' : Mem) (hq' : Separate q' m') (hl₁ : ∀ i, (q' i).leaves (q W).lun.toNat lba n) (hl₂ : ∀ i, (q' i).leaves l' lba' n')
    (tr' : List Event) (sched' : List ι) (y' : Sys ι σ) (h' : (Sys.start s₂ m' tr').run E D q' sched' = .ok y')
    (R T : ι) (rR rT : ScsiToNvmeResponse) (hRr : y'.phase R = .returned rR) (goodR : rR.return_code = 0)
    (hTr : y'.phase T = .returned rT) (goodT : rT.return_code = 0)
    (hR : isRead (byte (q' R).cdb 0)) (hRa : (q' R).asks (lba' + n') lba' n') (hRl : (q' R).lun.toNat = l')
    (hT : isRead (byte (q' T).cdb 0)) (hTa : (q' T).asks (lba + n) lba n) (hTl : (q' T).lun = (q W).lun) :
    y'.world.mem.read (q' R).data (4096 * n') = some old ∨
      ∃ bs, m.read (q W).data (4096 * n) = some bs ∧ y'.world.mem.read (q' T).data (4096 * n) = some bs := by
  by_cases hC : C ∈ sched
  · right
    obtain ⟨pre, post, rfl, hn⟩ := split_first C sched hC
    have hrun := h
    rw [Sys_run_append] at hrun
    split at hrun
    · cases hrun
    · rename_i x2 e2
      obtain ⟨rS, hSr, goodS⟩ := orderC pre post x2 rfl e2 (by rw [run_unscheduled E D q C pre _ _ e2 hn]; rfl)
      have hSin : S ∈ pre := by
        refine Classical.byContradiction fun hn' => ?_
        rw [run_unscheduled E D q S pre _ _ e2 hn'] at hSr
        cases hSr
      obtain ⟨a, b, rfl, hna⟩ := split_first S pre hSin
      have e2' := e2
      rw [Sys_run_append] at e2'
      split at e2'
      · cases e2'
      · rename_i x1 e1
        have hSc : x1.phase S = .called := by rw [run_unscheduled E D q S a _ _ e1 hna]; rfl
        obtain ⟨rW, hWr, goodW⟩ := orderS a (b ++ C :: post) x1 (by simp) e1 hSc
        have hst' := C121_synchronized E D disks stable hg hD q m hq s tr [] a (S :: b) (C :: post) _ x1 x2 y rfl e1 e2' hrun W S rW rS rfl hWr goodW
          hSc hSr goodS lba n hW hWa hS hlun fun j hj => .inr (hlog j hj)
        have hdk := C108_durable E D disks hg hD.toHonest q m hq s tr [] _ _ y rfl h W rW rfl
          (returned_run _ (returned_run _ hWr e2') hrun) goodW lba n hW hWa fun j hj => .inr (hlog j hj)
        rw [hdk] at hst'
        have hs : Holds disks stable (q W).lun.toNat lba n (Disk.read (disks y.dev) ((q W).lun.toNat + 1) (4096 * lba) (4096 * n)) y.dev := ⟨rfl, (Option.some.inj hst').symm⟩
        have hs2 : Holds disks stable (q W).lun.toNat lba n (Disk.read (disks y.dev) ((q W).lun.toNat + 1) (4096 * lba) (4096 * n)) s₂ := by
          rcases hf₁ with rfl | ⟨hf₁, -⟩
          · exact hs.outage hf
          · exact (hs.outage hf).outages hD hg hf₁
        exact ⟨_, hdk, (Holds.read hD hg hq' hl₁ tr' sched' hs2 h' hTr goodT hT hTa (by rw [hTl])).2⟩
  · left
    have hs : Holds disks stable l' lba' n' old y.dev := Holds.idle hD hg hq tr sched (fun i hi => hdata i fun e => hC (e ▸ hi)) ⟨hold, hst⟩ h
    have hs2 : Holds disks stable l' lba' n' old s₂ := by
      rcases hf₁ with rfl | ⟨-, hf₁⟩
      · exact hs.outage hf
      · exact (hs.outage hf).outages hD hg hf₁
    exact (Holds.read hD hg hq' hl₂ tr' sched' hs2 h' hRr goodR hR hRa hRl).2

/-! ## The kernel module -/

theorem Holds.hidle [DecidableEq ι] {K : Module.Kernel} (hK : GoodKernel K) {junk : World → Nat → Byte} {D : Device σ}
    {disks stable : σ → Disk} (hD : Cached D disks stable) {c : ι → Command} {m : Mem} (hc : Disjoint c m) {l lba n : Nat} {bs : List Byte} {s : σ}
    (tr : List Event) (sched : List ι) (hl : ∀ i ∈ sched, (c i).leaves l lba n) {y : Host ι σ} (hs : Holds disks stable l lba n bs s)
    (h : (Host.start s m tr).run K junk D c sched = .ok y) : Holds disks stable l lba n bs y.dev := by
  obtain ⟨L, -, out, c0, -, t0, -⟩ := C109_trusted K hK junk D disks hD.toHonest c m hc s tr sched [] y y h rfl
  have hin : ∀ i ∈ L, i ∈ sched := by
    intro i hi
    refine Classical.byContradiction fun hn => (c0.begun i hi).1 ?_
    rw [host_unscheduled K junk D c i sched _ _ h hn]
    rfl
  have h1 := (t0.keeps l lba n fun i hi => hl i (hin i hi)).trans
    (show Disk.read (fun l a => disks s (l + 1) a) l (4096 * lba) (4096 * n) = bs from hs.1)
  have h1' : Disk.read (disks y.dev) (l + 1) (4096 * lba) (4096 * n) = bs := h1
  refine ⟨h1', ?_⟩
  rw [← h1']
  refine Disk.read_same ?_
  have key : ∀ (is : List ι) {own} {x x' : Host ι σ}, HInv K junk c own x → Stored disks stable l lba n x.dev → x.run K junk D c is = .ok x' →
      (∀ i ∈ is, (c i).leaves l lba n) → Stored disks stable l lba n x'.dev := by
    intro is
    induction is with
    | nil => intro own x x' _ hst hr _; cases hr; exact hst
    | cons i is ih =>
      intro own x x' hI hst hr hlv
      unfold Host.run at hr
      split at hr
      · cases hr
      · rename_i x1 e
        have hstep := hstepped_of hI (hc.fair i) e
        obtain ⟨own1, hI1, -⟩ := hI.step hK (hD.toLossy.tame (C72_util K hK junk).1) (hc.fair i) hstep
        exact ih hI1 (Stored.hstep hD (hc.fair i) hI (.inr (hlv i (List.mem_cons_self ..))) hst hstep) hr
          fun j hj => hlv j (List.mem_cons_of_mem _ hj)
  exact key sched (HInv.start hc s tr) hs.stored h hl

/-- **C126 (module).** The same for commands handed to the kernel module. -/
theorem C126_module_logged [DecidableEq ι] (K : Module.Kernel) (hK : GoodKernel K) (junk : World → Nat → Byte) (D : Device σ)
    (disks stable : σ → Disk) (hD : Cached D disks stable) (c : ι → Command) (m : Mem) (hc : Disjoint c m) (s : σ) (tr : List Event)
    (sched : List ι) (y : Host ι σ) (h : (Host.start s m tr).run K junk D c sched = .ok y) (W S C : ι)
    (orderS : ∀ pre post x, sched = pre ++ S :: post → (Host.start s m tr).run K junk D c pre = .ok x → x.phase S = .queued →
      ∃ o, x.phase W = .done o ∧ o.result = 0)
    (orderC : ∀ pre post x, sched = pre ++ C :: post → (Host.start s m tr).run K junk D c pre = .ok x → x.phase C = .queued →
      ∃ o, x.phase S = .done o ∧ o.result = 0)
    (lba n : Nat) (hW : isWrite (byte (c W).cdb 0)) (hWa : (c W).asks (lba + n) lba n)
    (hS : byte (c S).cdb 0 = 0x35) (hlun : (c S).cmd.lun = (c W).cmd.lun)
    (l' lba' n' : Nat) (old : List Byte) (hold : Disk.read (disks s) (l' + 1) (4096 * lba') (4096 * n') = old)
    (hst : Disk.read (stable s) (l' + 1) (4096 * lba') (4096 * n') = old)
    (hlog : ∀ j, j ≠ W → (c j).leaves (c W).cmd.lun.toNat lba n) (hdata : ∀ j, j ≠ C → (c j).leaves l' lba' n')
    (s₁ s₂ : σ) (hf : Outage disks stable y.dev s₁)
    (hf₁ : s₂ = s₁ ∨ ModuleOutages ι K junk D disks stable (c W).cmd.lun.toNat lba n s₁ s₂ ∧
      ModuleOutages ι K junk D disks stable l' lba' n' s₁ s₂)
    (c' : ι → Command) (m' : Mem) (hc' : Disjoint c' m') (hl₁ : ∀ i, (c' i).leaves (c W).cmd.lun.toNat lba n) (hl₂ : ∀ i, (c' i).leaves l' lba' n')
    (tr' : List Event) (sched' : List ι) (y' : Host ι σ) (h' : (Host.start s₂ m' tr').run K junk D c' sched' = .ok y')
    (R T : ι) (oR oT : Module.Outcome) (hRd : y'.phase R = .done oR) (goodR : oR.result = 0)
    (hTd : y'.phase T = .done oT) (goodT : oT.result = 0)
    (hR : isRead (byte (c' R).cdb 0)) (hRa : (c' R).asks (lba' + n') lba' n') (hRl : (c' R).cmd.lun.toNat = l')
    (hT : isRead (byte (c' T).cdb 0)) (hTa : (c' T).asks (lba + n) lba n) (hTl : (c' T).cmd.lun = (c W).cmd.lun) :
    oR.sg = old ++ (c' R).cmd.sg.drop (4096 * n') ∨ oT.sg = (c W).cmd.sg.take (4096 * n) ++ (c' T).cmd.sg.drop (4096 * n) := by
  by_cases hC : C ∈ sched
  · right
    obtain ⟨pre, post, rfl, hn⟩ := split_first C sched hC
    have hrun := h
    rw [Host_run_append] at hrun
    split at hrun
    · cases hrun
    · rename_i x2 e2
      obtain ⟨oS, hSd, goodS⟩ := orderC pre post x2 rfl e2 (by rw [host_unscheduled K junk D c C pre _ _ e2 hn]; rfl)
      have hSin : S ∈ pre := by
        refine Classical.byContradiction fun hn' => ?_
        rw [host_unscheduled K junk D c S pre _ _ e2 hn'] at hSd
        cases hSd
      obtain ⟨a, b, rfl, hna⟩ := split_first S pre hSin
      have e2' := e2
      rw [Host_run_append] at e2'
      split at e2'
      · cases e2'
      · rename_i x1 e1
        have hSc : x1.phase S = .queued := by rw [host_unscheduled K junk D c S a _ _ e1 hna]; rfl
        obtain ⟨oW, hWd, goodW⟩ := orderS a (b ++ C :: post) x1 (by simp) e1 hSc
        have hst' := C122_synchronized K hK junk D disks stable hD c m hc s tr [] a (S :: b) (C :: post) _ x1 x2 y rfl e1 e2' hrun W S oW oS
          (.inl rfl) hWd goodW (.inl hSc) hSd goodS lba n hW hWa hS hlun fun j hj => .inr (hlog j hj)
        have hdk := C109_durable K hK junk D disks hD.toHonest c m hc s tr [] _ _ y rfl h W oW (.inl rfl)
          (done_run _ (done_run _ hWd e2') hrun) goodW lba n hW hWa fun j hj => .inr (hlog j hj)
        have hs : Holds disks stable (c W).cmd.lun.toNat lba n ((c W).cmd.sg.take (4096 * n)) y.dev := ⟨hdk, hst'⟩
        have hs2 : Holds disks stable (c W).cmd.lun.toNat lba n ((c W).cmd.sg.take (4096 * n)) s₂ := by
          rcases hf₁ with rfl | ⟨hf₁, -⟩
          · exact hs.outage hf
          · exact (hs.outage hf).houtages hK hD hf₁
        exact (Holds.hread hK hD hc' hl₁ tr' sched' hs2 h' hTd goodT hT hTa (by rw [hTl])).1
  · left
    have hs : Holds disks stable l' lba' n' old y.dev := Holds.hidle hK hD hc tr sched (fun i hi => hdata i fun e => hC (e ▸ hi)) ⟨hold, hst⟩ h
    have hs2 : Holds disks stable l' lba' n' old s₂ := by
      rcases hf₁ with rfl | ⟨-, hf₁⟩
      · exact hs.outage hf
      · exact (hs.outage hf).houtages hK hD hf₁
    exact (Holds.hread hK hD hc' hl₂ tr' sched' hs2 h' hRd goodR hR hRa hRl).1

/-! ## Calls -/

theorem split_after {α : Type} {x : α} {a b l r : List α} (h : a ++ x :: b = l ++ r) (hx : x ∉ l) : ∃ c, a = l ++ c := by
  rcases List.append_eq_append_iff.mp h with ⟨c, h1, h2⟩ | ⟨c, h1, -⟩
  · cases c with
    | nil => exact ⟨[], by simpa using h1.symm⟩
    | cons z zs =>
      simp only [List.cons_append, List.cons.injEq] at h2
      exact absurd (by rw [h1, ← h2.1]; simp) hx
  · exact ⟨c, h1⟩

/-- The hypotheses are met: WRITE(10) of blocks 9 and 10, SYNCHRONIZE CACHE, WRITE of blocks 20 and 21; a power failure at any time after
the SYNCHRONIZE CACHE has returned; READs of both ranges.  If the first WRITE and the SYNCHRONIZE CACHE are answered with GOOD, the READs deliver
what the theorem says.  The device fails commands in any pattern and stores at a power failure any of the bytes in its cache. -/
example (cap : Nat → Nat) (works : Nat → Bool) (part : Nat) (d : Disk) (sched₁ sched₂ sched₃ sched₄ : List (Fin 3)) (h1 : 1 ∉ sched₁)
    (h2 : 2 ∉ sched₁ ++ sched₂) (h0 : 5 ≤ sched₁.count 0) (h3 : 5 ≤ sched₂.count 1) (h4 : 5 ≤ sched₄.count 0) (h5 : 5 ≤ sched₄.count 1)
    (lost : Nat → Nat → Bool) :
    ∃ y₁ y₂ y₃ y₄ rW rS rR rT,
      let off := fun (s : (Nat × Disk) × Disk) => let d : Disk := fun k a => if lost k a then s.2 k a else s.1.2 k a; (((0, d), d) : (Nat × Disk) × Disk)
      (Sys.start ((0, d), d) storeShared []).run boundedEnv (cachedDevice cap works part) storeCalls sched₁ = .ok y₁ ∧
      y₁.run boundedEnv (cachedDevice cap works part) storeCalls sched₂ = .ok y₂ ∧
      y₂.run boundedEnv (cachedDevice cap works part) storeCalls sched₃ = .ok y₃ ∧
      (Sys.start (off y₃.dev) loadShared []).run boundedEnv (cachedDevice cap works part) loadCalls sched₄ = .ok y₄ ∧
      y₁.phase 0 = .returned rW ∧ y₂.phase 1 = .returned rS ∧ y₄.phase 0 = .returned rT ∧ y₄.phase 1 = .returned rR ∧
      (rW.return_code = 0 → rS.return_code = 0 → rT.return_code = 0 → rR.return_code = 0 →
        y₄.world.mem.read 0x28000 8192 = some (Disk.read d 4 (4096 * 20) 8192) ∨
          y₄.world.mem.read 0x18000 8192 = storeShared.read 0x18000 8192) := by
  have hH := cached_device cap works part
  have hop : ∀ i page, steady (storeCalls i).cdb page := fun i => steady_of (by revert i; decide)
  have hop' : ∀ i page, steady (loadCalls i).cdb page := fun i => steady_of (by revert i; decide)
  have run := fun sched => C108_defined boundedEnv _ _ boundedEnv_good hH.toHonest storeCalls storeShared storeCalls_separate hop ((0, d), d) [] sched
  have run' := fun s sched => C108_defined boundedEnv _ _ boundedEnv_good hH.toHonest loadCalls loadShared loadCalls_separate hop' s [] sched
  obtain ⟨y1, e1⟩ := run sched₁
  obtain ⟨y2, e2⟩ := run (sched₁ ++ sched₂)
  obtain ⟨y3, e3⟩ := run (sched₁ ++ sched₂ ++ sched₃)
  let off := fun (s : (Nat × Disk) × Disk) => let d : Disk := fun k a => if lost k a then s.2 k a else s.1.2 k a; (((0, d), d) : (Nat × Disk) × Disk)
  have hoff : ∀ s, Outage (fun s : (Nat × Disk) × Disk => s.1.2) (fun s => s.2) s (off s) := by
    intro s
    refine ⟨fun k a => ?_, rfl⟩
    change (if lost k a then s.2 k a else s.1.2 k a) = _ ∨ (if lost k a then s.2 k a else s.1.2 k a) = _
    split
    · exact .inl rfl
    · exact .inr rfl
  obtain ⟨y4, e4⟩ := run' (off y3.dev) sched₄
  obtain ⟨rW, p1⟩ := C96_wait_free _ _ _ _ _ _ _ _ e1 0 h0
  obtain ⟨rS, p2⟩ := C96_wait_free _ _ _ _ _ _ _ _ e2 1 (by rw [List.count_append]; omega)
  obtain ⟨rT, p4⟩ := C96_wait_free _ _ _ _ _ _ _ _ e4 0 h4
  obtain ⟨rR, p5⟩ := C96_wait_free _ _ _ _ _ _ _ _ e4 1 h5
  have e3' := e3
  rw [Sys_run_append, e2] at e3'
  have e2' := e2
  rw [Sys_run_append, e1] at e2'
  refine ⟨y1, y2, y3, y4, rW, rS, rR, rT, e1, e2', e3', e4, p1, p2, p4, p5, fun g1 g2 g4 g5 => ?_⟩
  have := C126_logged boundedEnv _ _ _ boundedEnv_good hH storeCalls storeShared storeCalls_separate ((0, d), d) [] _ y3 e3 0 1 2
    (fun pre post x hx hr _ => by
      obtain ⟨c, rfl⟩ := split_after (hx.symm.trans (List.append_assoc _ _ _)) h1
      rw [Sys_run_append, e1] at hr
      exact ⟨rW, returned_run _ p1 hr, g1⟩)
    (fun pre post x hx hr _ => by
      obtain ⟨c, rfl⟩ := split_after hx.symm h2
      rw [Sys_run_append, e2] at hr
      exact ⟨rS, returned_run _ p2 hr, g2⟩)
    9 2 (by decide) storeCalls_asks.1 (by decide) rfl 3 20 2 (Disk.read d 4 (4096 * 20) 8192) rfl rfl
    (fun j hj => (storeCalls_leave j).1 hj) (fun j hj => (storeCalls_leave j).2 hj) (off y3.dev) _ (hoff y3.dev) (.inl rfl)
    loadCalls loadShared loadCalls_separate (fun i => (loadCalls_leave i).1) (fun i => (loadCalls_leave i).2) [] sched₄ y4 e4 1 0 rR rT
    p5 g5 p4 g4 (by decide) loadCalls_asks.2.1 rfl (by decide) loadCalls_asks.1 rfl
  exact this.imp_right fun ⟨bs, k1, k2⟩ => k2.trans k1.symm

/-- The hypotheses are met: the same commands through the kernel module. -/
example (cap : Nat → Nat) (works : Nat → Bool) (part : Nat) (d : Disk) (sg sg' : Fin 3 → List Byte) (l0 : (sg 0).length = 8192)
    (l1 : (sg 1).length = 0) (l2 : (sg 2).length = 8192) (l' : ∀ i, (sg' i).length = 8192) (sched₁ sched₂ sched₃ sched₄ : List (Fin 3))
    (h1 : 1 ∉ sched₁) (h2 : 2 ∉ sched₁ ++ sched₂) (h0 : 7 ≤ sched₁.count 0) (h3 : 7 ≤ sched₂.count 1) (h4 : 7 ≤ sched₄.count 0)
    (h5 : 7 ≤ sched₄.count 1) (lost : Nat → Nat → Bool) :
    ∃ y₁ y₂ y₃ y₄ oW oS oR oT,
      let off := fun (s : (Nat × Disk) × Disk) => let d : Disk := fun k a => if lost k a then s.2 k a else s.1.2 k a; (((0, d), d) : (Nat × Disk) × Disk)
      (Host.start ((0, d), d) storeShared []).run demoKernel3 (fun _ _ => 0) (cachedDevice cap works part) (storeTrio sg) sched₁ = .ok y₁ ∧
      y₁.run demoKernel3 (fun _ _ => 0) (cachedDevice cap works part) (storeTrio sg) sched₂ = .ok y₂ ∧
      y₂.run demoKernel3 (fun _ _ => 0) (cachedDevice cap works part) (storeTrio sg) sched₃ = .ok y₃ ∧
      (Host.start (off y₃.dev) loadShared []).run demoKernel3 (fun _ _ => 0) (cachedDevice cap works part) (loadTrio sg') sched₄ = .ok y₄ ∧
      y₁.phase 0 = .done oW ∧ y₂.phase 1 = .done oS ∧ y₄.phase 0 = .done oT ∧ y₄.phase 1 = .done oR ∧
      (oW.result = 0 → oS.result = 0 → oT.result = 0 → oR.result = 0 → oR.sg = Disk.read d 4 (4096 * 20) 8192 ∨ oT.sg = sg 0) := by
  have hD : Disjoint (storeTrio sg) storeShared := storeTrio_disjoint sg (by
    intro i
    match i with
    | 0 => exact ⟨fun _ => by omega, by omega⟩
    | 1 => exact ⟨fun h => absurd rfl h, by omega⟩
    | 2 => exact ⟨fun _ => by omega, by omega⟩)
  have hD' := loadTrio_disjoint sg' l'
  have hH := cached_device cap works part
  have hop : ∀ i page, steady (storeTrio sg i).cdb page := fun i => steady_of (storeBlocks_plain i).2
  have hop' : ∀ i page, steady (loadTrio sg' i).cdb page := fun i => steady_of (loadBlocks_plain i).2
  have run := fun sched => C106_defined demoKernel3 demoKernel3_good (fun _ _ => 0) _ _ hH.toLossy (storeTrio sg) storeShared hD hop
    ((0, d), d) [] sched
  have run' := fun s sched => C106_defined demoKernel3 demoKernel3_good (fun _ _ => 0) _ _ hH.toLossy (loadTrio sg') loadShared hD' hop' s [] sched
  obtain ⟨y1, e1⟩ := run sched₁
  obtain ⟨y2, e2⟩ := run (sched₁ ++ sched₂)
  obtain ⟨y3, e3⟩ := run (sched₁ ++ sched₂ ++ sched₃)
  let off := fun (s : (Nat × Disk) × Disk) => let d : Disk := fun k a => if lost k a then s.2 k a else s.1.2 k a; (((0, d), d) : (Nat × Disk) × Disk)
  have hoff : ∀ s, Outage (fun s : (Nat × Disk) × Disk => s.1.2) (fun s => s.2) s (off s) := by
    intro s
    refine ⟨fun k a => ?_, rfl⟩
    change (if lost k a then s.2 k a else s.1.2 k a) = _ ∨ (if lost k a then s.2 k a else s.1.2 k a) = _
    split
    · exact .inl rfl
    · exact .inr rfl
  obtain ⟨y4, e4⟩ := run' (off y3.dev) sched₄
  obtain ⟨oW, p1⟩ := C101_wait_free _ _ _ _ _ _ _ _ _ e1 0 h0
  obtain ⟨oS, p2⟩ := C101_wait_free _ _ _ _ _ _ _ _ _ e2 1 (by rw [List.count_append]; omega)
  obtain ⟨oT, p4⟩ := C101_wait_free _ _ _ _ _ _ _ _ _ e4 0 h4
  obtain ⟨oR, p5⟩ := C101_wait_free _ _ _ _ _ _ _ _ _ e4 1 h5
  have e3' := e3
  rw [Host_run_append, e2] at e3'
  have e2' := e2
  rw [Host_run_append, e1] at e2'
  obtain ⟨aW, aF⟩ := storeTrio_asks sg (by omega) (by omega)
  obtain ⟨aT, aR, -⟩ := loadTrio_asks sg' l'
  have lv := storeTrio_leave sg (by omega) (by omega)
  have lv' := loadTrio_leave sg' l'
  have tail : ∀ i, (loadTrio sg' i).cmd.sg.drop (4096 * 2) = [] := by
    intro i
    exact List.drop_of_length_le (by have := l' i; change (sg' i).length ≤ _; omega)
  refine ⟨y1, y2, y3, y4, oW, oS, oR, oT, e1, e2', e3', e4, p1, p2, p4, p5, fun g1 g2 g4 g5 => ?_⟩
  have := C126_module_logged demoKernel3 demoKernel3_good (fun _ _ => 0) _ _ _ hH (storeTrio sg) storeShared hD ((0, d), d) [] _ y3 e3 0 1 2
    (fun pre post x hx hr _ => by
      obtain ⟨c, rfl⟩ := split_after (hx.symm.trans (List.append_assoc _ _ _)) h1
      rw [Host_run_append, e1] at hr
      exact ⟨oW, done_run _ p1 hr, g1⟩)
    (fun pre post x hx hr _ => by
      obtain ⟨c, rfl⟩ := split_after hx.symm h2
      rw [Host_run_append, e2] at hr
      exact ⟨oS, done_run _ p2 hr, g2⟩)
    9 2 (by decide : isWrite (byte (storeBlocks 0) 0)) aW (by decide : byte (storeBlocks 1) 0 = 0x35) rfl 3 20 2
    (Disk.read d 4 (4096 * 20) 8192) rfl rfl (fun j hj => (lv j).1 hj) (fun j hj => (lv j).2 hj) (off y3.dev) _ (hoff y3.dev) (.inl rfl)
    (loadTrio sg') loadShared hD' (fun i => (lv' i).1) (fun i => (lv' i).2) [] sched₄ y4 e4 1 0 oR oT p5 g5 p4 g4
    (by decide : isRead (byte (loadBlocks 1) 0)) aR rfl (by decide : isRead (byte (loadBlocks 0) 0)) aT rfl
  rw [tail 0, tail 1, List.append_nil, List.append_nil] at this
  exact this.imp_right fun h => h.trans (List.take_of_length_le (by change (sg 0).length ≤ _; omega))

/-! ## The SYNCHRONIZE CACHE is needed -/

/-- What matters of a state: the answers of the two WRITEs, and the first byte of the record and the eighth of the data as stored after a power failure
that loses all that is in the cache. -/
def lostGlance (x : Except UB (Sys (Fin 3) ((Nat × Disk) × Disk))) : Option (Option Nat × Option Nat × Byte × Byte) :=
  match x with
  | .error _ => none
  | .ok y =>
    let code := fun i => match y.phase i with | .returned r => some r.return_code | _ => none
    some (code 0, code 2, y.dev.2 4 (4096 * 9), y.dev.2 4 (4096 * 20 + 7))

set_option maxRecDepth 100000 in
theorem lost_glance : lostGlance ((Sys.start ((0, fun _ _ => 0), fun _ _ => 0) storeShared []).run boundedEnv
    (cachedDevice (fun _ => 100) (fun _ => true) 0) storeCalls [0, 0, 0, 0, 0, 2, 2, 2, 2, 2]) =
    some (some 0, some 0, 0, (storeShared 0x38007).getD 0) := by decide +kernel

theorem code_returned {p : Phase} (h : (match p with | .returned r => some r.return_code | _ => none) = some 0) :
    ∃ r, p = .returned r ∧ r.return_code = 0 := by
  cases p <;> simp_all

theorem Disk.read_first {d : Disk} {k pos len : Nat} : (Disk.read d k pos (len + 1)).head? = some (d k pos) := by
  simp [Disk.read, List.range_succ_eq_map]

theorem Disk.read_nth {d : Disk} {k pos len i : Nat} (h : i < len) : (Disk.read d k pos len)[i]? = some (d k (pos + i)) := by
  simp [Disk.read, h]

theorem Mem.read_first {m : Mem} {p n : Nat} {bs : List Byte} (h : m.read p (n + 1) = some bs) : bs.head? = m p := by
  unfold Mem.read at h
  rw [List.range_succ_eq_map, List.mapM_cons] at h
  simp only [Nat.add_zero, Option.pure_def, Option.bind_eq_bind, Option.bind_eq_some_iff, Option.some.injEq] at h
  obtain ⟨b, hb, l, -, rfl⟩ := h
  simp [hb]

/-- Without the SYNCHRONIZE CACHE between them the order of the two WRITEs does not matter: with the device, the record (call 0) and the
data (call 2) of the example of `C126_logged`, both WRITEs return GOOD, the one begun after the other has returned, and a power failure leaves
the data overwritten and the record lost. -/
theorem C126_sync_needed :
    let D := cachedDevice (fun _ => 100) (fun _ => true) 0
    let s : (Nat × Disk) × Disk := ((0, fun _ _ => 0), fun _ _ => 0)
    Cached D (fun s => s.1.2) (fun s => s.2) ∧
    ∃ y rW rC s', (Sys.start s storeShared []).run boundedEnv D storeCalls [0, 0, 0, 0, 0, 2, 2, 2, 2, 2] = .ok y ∧
      y.phase 0 = .returned rW ∧ rW.return_code = 0 ∧ y.phase 2 = .returned rC ∧ rC.return_code = 0 ∧
      Outage (fun s : (Nat × Disk) × Disk => s.1.2) (fun s => s.2) y.dev s' ∧
      Disk.read s'.1.2 4 (4096 * 20) 8192 ≠ Disk.read s.1.2 4 (4096 * 20) 8192 ∧
      some (Disk.read s'.1.2 4 (4096 * 9) 8192) ≠ storeShared.read 0x18000 8192 := by
  refine ⟨cached_device _ _ _, ?_⟩
  have key := lost_glance
  unfold lostGlance at key
  split at key
  · cases key
  · rename_i y e
    simp only [Option.some.injEq, Prod.mk.injEq] at key
    obtain ⟨k0, k2, k9, k20⟩ := key
    obtain ⟨rW, hW, gW⟩ := code_returned k0
    obtain ⟨rC, hC, gC⟩ := code_returned k2
    refine ⟨y, rW, rC, ((0, y.dev.2), y.dev.2), e, hW, gW, hC, gC, ⟨fun k a => .inl rfl, rfl⟩, fun h => ?_, fun h => ?_⟩
    · have := congrArg (·[7]?) h
      rw [Disk.read_nth (by omega), Disk.read_nth (by omega)] at this
      change some (y.dev.2 4 (4096 * 20 + 7)) = some 0 at this
      rw [k20] at this
      exact absurd this (by decide +kernel)
    · have := Mem.read_first h.symm
      rw [show (8192 : Nat) = 8191 + 1 from rfl, Disk.read_first] at this
      change some (y.dev.2 4 (4096 * 9)) = _ at this
      rw [k9] at this
      exact absurd this (by decide +kernel)

end Scsi2Nvme
