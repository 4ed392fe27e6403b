import Verif.Properties.Cache
import Verif.Properties.ModuleHonest
/-!
# C122: SYNCHRONIZE CACHE and FUA through the kernel module
-/

namespace Scsi2Nvme
open Spec Engine Driver

variable {ι σ β : Type}

/-- The command does not write the blocks any more. -/
def HPast (c : ι → Command) (l lba n : Nat) (y : Host ι σ) (i : ι) : Prop := (∃ o, y.phase i = .done o) ∨ (c i).leaves l lba n

/-- A command which stores the blocks: SYNCHRONIZE CACHE(10) for the LUN, or a complete and correct WRITE of the blocks with FUA. -/
def HStoring (q : Command) (l lba n : Nat) : Prop :=
  q.cmd.lun.toNat = l ∧ l + 1 < 2 ^ 32 ∧
    (byte q.cdb 0 = 0x35 ∨ (isWrite (byte q.cdb 0) ∧ q.asks (lba + n) lba n ∧ asksFua q.cdb))

/-- The NVMe command stores the blocks, if it is executed with success. -/
def HStores (K : Module.Kernel) (junk : World → Nat → Byte) (D : Device σ) (disks stable : σ → Disk) (q : Command) (l lba n : Nat) : Prop :=
  ∀ b, (viewReq q b (Module.dataLen q.cmd)).Fair → Stores (Module.env K junk) D disks stable (viewReq q b (Module.dataLen q.cmd)) l lba n

theorem HStoring.stores {K : Module.Kernel} {junk : World → Nat → Byte} {D : Device σ} {disks stable : σ → Disk}
    (hD : Cached D disks stable) {q : Command} {l lba n : Nat} (hq : q.Fair) (hX : HStoring q l lba n) :
    HStores K junk D disks stable q l lba n := fun b hf => by
  refine Storing.stores hD hf ?_
  exact ⟨hX.1, hX.2.1, hX.2.2.imp_right fun ⟨h1, h2, h3⟩ => ⟨h1, (view_asks (hq.rw (.inr h1)).2).mpr h2, h3⟩⟩

/-- Where the storing command is. -/
def HProgress (disks stable : σ → Disk) (l lba n : Nat) (s : σ) : Module.Phase → Prop
  | .queued => True
  | .engine _ ph => Progress disks stable l lba n s ph
  | .done o => o.result = 0 → Stored disks stable l lba n s

theorem Stored.progress {disks stable : σ → Disk} {l lba n : Nat} {s s' : σ} {ph : Module.Phase}
    (h : Stored disks stable l lba n s → Stored disks stable l lba n s') (hP : HProgress disks stable l lba n s ph) :
    HProgress disks stable l lba n s' ph := by
  cases ph with
  | queued => trivial
  | done o => exact fun h0 => h (hP h0)
  | engine b ph =>
    cases ph with
    | called => trivial
    | waiting r t todo cs => exact fun h1 h2 h3 => h (hP h1 h2 h3)
    | returned r => exact fun h0 => h (hP h0)

theorem HPast.step [DecidableEq ι] {K : Module.Kernel} {junk : World → Nat → Byte} {D : Device σ} {c : ι → Command} {l lba n : Nat}
    {y y' : Host ι σ} {i j : ι} (hp : HPast c l lba n y j) (h : HStepped K junk D c y i y') : HPast c l lba n y' j := by
  refine hp.imp_left fun ⟨o, ho⟩ => ⟨o, ?_⟩
  by_cases e : j = i
  · subst e
    cases h with
    | empty h | refused h | granted h | engine h | finished h | copied h | freed h => rw [ho] at h; cases h
    | done _ => exact ho
  · cases h with
    | empty h | refused h | granted h | engine h | finished h | copied h | freed h => rw [Host.to_other y e]; exact ho
    | done _ => exact ho

theorem HProgress.step [DecidableEq ι] {K : Module.Kernel} {junk : World → Nat → Byte} {D : Device σ}
    {disks stable : σ → Disk} (hD : Cached D disks stable) {c : ι → Command} {own} {l lba n : Nat} {y y' : Host ι σ} {i X : ι}
    (hq : (c i).Fair) (hI : HInv K junk c own y) (hX : HStores K junk D disks stable (c X) l lba n)
    (hp : i ≠ X → HPast c l lba n y i)
    (hP : HProgress disks stable l lba n y.dev (y.phase X)) (h : HStepped K junk D c y i y') :
    HProgress disks stable l lba n y'.dev (y'.phase X) := by
  have idle : ∀ (w : World) (ph : Module.Phase), (X = i → HProgress disks stable l lba n y.dev ph) →
      HProgress disks stable l lba n y.dev ((y.to i y.dev w ph).phase X) := by
    intro w ph h
    by_cases e : X = i
    · subst e; rw [Host.to_self]; exact h rfl
    · rw [Host.to_other y e]; exact hP
  have ret : ∀ b r, y.phase i = .engine b (.returned r) → X = i → r.return_code = 0 → Stored disks stable l lba n y.dev := by
    intro b r hp e
    subst e
    rw [hp] at hP
    exact hP
  cases h with
  | empty h => exact idle _ _ fun _ => trivial
  | refused h => exact idle _ _ fun _ h0 => absurd h0 (show ¬ (23 : Nat) = 0 by decide)
  | granted h => exact idle _ _ fun _ => trivial
  | finished h => exact idle _ _ fun e h0 => ret _ _ h e h0
  | copied h => exact idle _ _ fun e h0 => ret _ _ h e h0
  | freed h => exact idle _ _ fun e h0 => ret _ _ h e h0
  | done _ => exact hP
  | @engine b ph hph hr y1 hst =>
    have hv : y.reqs c i = viewReq (c i) b (Module.dataLen (c i).cmd) := by unfold Host.reqs; rw [hph]; rfl
    have hvp : y.view.phase i = ph := by change viewPh (y.phase i) = _; rw [hph]; rfl
    have hf : (y.reqs c i).Fair := by
      rw [hv]
      exact viewReq_fair hq (hI.buf i b ph hph).1 fun a ha => (hI.buf i b ph hph).2 a (.inl ha)
    by_cases e : X = i
    · subst e
      have hX' : Stores (Module.env K junk) D disks stable (y.reqs c X) l lba n := by
        rw [hv]
        rw [hv] at hf
        exact hX b hf
      have hP' : Progress disks stable l lba n y.view.dev (y.view.phase X) := by
        rw [hvp]
        rw [hph] at hP
        exact hP
      have := Progress.step hD hf hI.inv hX' (fun h => absurd rfl h) hP' hst
      rw [Host.to_self]
      exact this
    · rw [Host.to_other y e]
      have hpast : Past (y.reqs c) l lba n y.view i := by
        rcases hp fun h => e h.symm with ⟨o, ho⟩ | hl
        · rw [ho] at hph; cases hph
        · refine .inr ?_
          rw [hv]
          intro h1 h2 l' k h3
          exact hl h1 h2 l' k ((view_asks (hq.rw (.inr h1)).2).mp h3)
      exact Stored.progress (fun hs => Stored.step hD hf hI.inv hpast hs hst) hP

theorem HProgress.run [DecidableEq ι] {K : Module.Kernel} (hK : GoodKernel K) {junk : World → Nat → Byte} {D : Device σ}
    {disks stable : σ → Disk} (hD : Cached D disks stable) {c : ι → Command} (hc : ∀ i, (c i).Fair) {l lba n : Nat} {X : ι}
    (hX : HStores K junk D disks stable (c X) l lba n) (sched : List ι) {own} {y y' : Host ι σ} (hI : HInv K junk c own y)
    (hp : ∀ j, j ≠ X → HPast c l lba n y j) (hP : HProgress disks stable l lba n y.dev (y.phase X))
    (h : y.run K junk D c sched = .ok y') : HProgress disks stable l lba n y'.dev (y'.phase X) := by
  induction sched generalizing own y with
  | nil => cases h; exact hP
  | cons i is ih =>
    unfold Host.run at h
    split at h
    · cases h
    · rename_i y1 e
      have hs := hstepped_of hI (hc i) e
      obtain ⟨own1, hI1, -⟩ := hI.step hK (hD.toLossy.tame (C72_util K hK junk).1) (hc i) hs
      exact ih hI1 (fun j hj => (hp j hj).step hs) (HProgress.step hD (hc i) hI hX (hp i) hP hs) h

theorem done_run [DecidableEq ι] {K : Module.Kernel} {junk : World → Nat → Byte} {D : Device σ} {c : ι → Command} (sched : List ι)
    {y y' : Host ι σ} {i : ι} {o} (hr : y.phase i = .done o) (h : y.run K junk D c sched = .ok y') : y'.phase i = .done o := by
  induction sched generalizing y with
  | nil => cases h; exact hr
  | cons j js ih =>
    unfold Host.run at h
    split at h
    · cases h
    · rename_i y1 e
      refine ih ?_ h
      by_cases hj : i = j
      · subst hj
        rw [host_done K junk D c y i hr] at e
        cases e
        exact hr
      · unfold Host.step at e
        split at e
        · cases e
        · cases e
          simp only [if_neg hj]
          exact hr

/-- **C122 (SYNCHRONIZE CACHE).** A device with a volatile write cache, which may fail any command.  Let the engine begin with a WRITE
after the moment `y₀`, let it be done with result 0 at the moment `y₁`, and let the engine begin with a SYNCHRONIZE CACHE(10) for the
same LUN after `y₁` which is done with result 0 at `y₂`.  Whatever commands there are besides and however their calls are interleaved, if
those which write any of the blocks were done at `y₀` already: at every moment `y₃` from then on, what is left on the disk if the power
fails are the data of the WRITE. -/
theorem C122_synchronized [DecidableEq ι] (K : Module.Kernel) (hK : GoodKernel K) (junk : World → Nat → Byte) (D : Device σ)
    (disks stable : σ → Disk) (hD : Cached D disks stable) (c : ι → Command) (m : Mem) (hc : Disjoint c m) (s : σ) (tr : List Event)
    (sched₀ sched₁ sched₂ sched₃ : List ι) (y₀ y₁ y₂ y₃ : Host ι σ)
    (h₀ : (Host.start s m tr).run K junk D c sched₀ = .ok y₀) (h₁ : y₀.run K junk D c sched₁ = .ok y₁)
    (h₂ : y₁.run K junk D c sched₂ = .ok y₂) (h₃ : y₂.run K junk D c sched₃ = .ok y₃) (W S : ι) (oW oS : Module.Outcome)
    (hWn : y₀.phase W = .queued ∨ ∃ b, y₀.phase W = .engine b .called) (hWd : y₁.phase W = .done oW) (goodW : oW.result = 0)
    (hSn : y₁.phase S = .queued ∨ ∃ b, y₁.phase S = .engine b .called) (hSd : y₂.phase S = .done oS) (goodS : oS.result = 0)
    (lba n : Nat) (hW : isWrite (byte (c W).cdb 0)) (hWa : (c W).asks (lba + n) lba n)
    (hS : byte (c S).cdb 0 = 0x35) (hlun : (c S).cmd.lun = (c W).cmd.lun)
    (ho : ∀ j, j ≠ W → (∃ oj, y₀.phase j = .done oj) ∨ (c j).leaves (c W).cmd.lun.toNat lba n) :
    Disk.read (stable y₃.dev) ((c W).cmd.lun.toNat + 1) (4096 * lba) (4096 * n) = (c W).cmd.sg.take (4096 * n) := by
  have hv := ((hc.fair W).rw (.inr hW)).1
  have h13 : y₁.run K junk D c (sched₂ ++ sched₃) = .ok y₃ := by rw [Host_run_append, h₂]; exact h₃
  have h03 : y₀.run K junk D c (sched₁ ++ (sched₂ ++ sched₃)) = .ok y₃ := by rw [Host_run_append, h₁]; exact h13
  have h01 : (Host.start s m tr).run K junk D c (sched₀ ++ sched₁) = .ok y₁ := by rw [Host_run_append, h₀]; exact h₁
  have hdata := C109_durable K hK junk D disks hD.toHonest c m hc s tr sched₀ _ y₀ y₃ h₀ h03 W oW hWn (done_run _ hWd h13) goodW lba n hW
    hWa ho
  rw [← hdata]
  obtain ⟨L, own, hI, -⟩ := HFaith.run hD.toHonest hK hc.fair (sched₀ ++ sched₁) (HInv.start (junk := junk) hc s tr)
    (HFaith.start disks c s m tr) h01
  have hX : HStoring (c S) (c W).cmd.lun.toNat lba n := ⟨by rw [hlun], hv.lun, .inl hS⟩
  have hpast : ∀ j, j ≠ S → HPast c (c W).cmd.lun.toNat lba n y₁ j := by
    intro j _
    by_cases e : j = W
    · subst e; exact .inl ⟨oW, hWd⟩
    · exact (ho j e).imp_left fun ⟨oj, h⟩ => ⟨oj, done_run _ h h₁⟩
  have hP := HProgress.run hK hD hc.fair (hX.stores hD (hc.fair _)) (sched₂ ++ sched₃) hI hpast
    (by rcases hSn with h | ⟨b, h⟩ <;> rw [h] <;> trivial) h13
  rw [done_run _ hSd h₃] at hP
  exact Disk.read_same fun a ha => hP goodS a ha

/-- **C122 (FUA).** … and a WRITE with FUA which is done with result 0 needs no SYNCHRONIZE CACHE. -/
theorem C122_forced [DecidableEq ι] (K : Module.Kernel) (hK : GoodKernel K) (junk : World → Nat → Byte) (D : Device σ)
    (disks stable : σ → Disk) (hD : Cached D disks stable) (c : ι → Command) (m : Mem) (hc : Disjoint c m) (s : σ) (tr : List Event)
    (sched₀ sched₁ sched₂ : List ι) (y₀ y₁ y₂ : Host ι σ)
    (h₀ : (Host.start s m tr).run K junk D c sched₀ = .ok y₀) (h₁ : y₀.run K junk D c sched₁ = .ok y₁)
    (h₂ : y₁.run K junk D c sched₂ = .ok y₂) (W : ι) (oW : Module.Outcome)
    (hWn : y₀.phase W = .queued ∨ ∃ b, y₀.phase W = .engine b .called) (hWd : y₁.phase W = .done oW) (goodW : oW.result = 0)
    (lba n : Nat) (hW : isWrite (byte (c W).cdb 0)) (hWa : (c W).asks (lba + n) lba n) (hfua : asksFua (c W).cdb)
    (ho : ∀ j, j ≠ W → (∃ oj, y₀.phase j = .done oj) ∨ (c j).leaves (c W).cmd.lun.toNat lba n) :
    Disk.read (stable y₂.dev) ((c W).cmd.lun.toNat + 1) (4096 * lba) (4096 * n) = (c W).cmd.sg.take (4096 * n) := by
  have hv := ((hc.fair W).rw (.inr hW)).1
  have h02 : y₀.run K junk D c (sched₁ ++ sched₂) = .ok y₂ := by rw [Host_run_append, h₁]; exact h₂
  have hdata := C109_durable K hK junk D disks hD.toHonest c m hc s tr sched₀ _ y₀ y₂ h₀ h02 W oW hWn (done_run _ hWd h₂) goodW lba n hW
    hWa ho
  rw [← hdata]
  obtain ⟨L, own, hI, -⟩ := HFaith.run hD.toHonest hK hc.fair sched₀ (HInv.start (junk := junk) hc s tr)
    (HFaith.start disks c s m tr) h₀
  have hX : HStoring (c W) (c W).cmd.lun.toNat lba n := ⟨rfl, hv.lun, .inr ⟨hW, hWa, hfua⟩⟩
  have hP := HProgress.run hK hD hc.fair (hX.stores hD (hc.fair _)) (sched₁ ++ sched₂) hI ho (by rcases hWn with h | ⟨b, h⟩ <;> rw [h] <;> trivial) h02
  rw [done_run _ hWd h₂] at hP
  exact Disk.read_same fun a ha => hP goodW a ha

/-! ## Three commands -/

/-- WRITE(10) of blocks 9 and 10, SYNCHRONIZE CACHE(10), WRITE(16) of blocks 20 and 21 with FUA, with the scatter-gather lists `sg`. -/
def storeTrio (sg : Fin 3 → List Byte) (i : Fin 3) : Command :=
  { mem := storeShared, ws := Demo.ws, uninit := 0xdead, cdb := storeBlocks i
    cmd := ⟨3, 0x10000 * (i.val + 1), BitVec.ofNat 16 (storeBlocks i).length, 0x10000 * (i.val + 1) + 0x400, false, sg i⟩ }

theorem storeTrio_uses {sg : Fin 3 → List Byte} {i : Fin 3} {a : Nat} (h : (storeTrio sg i).uses a) :
    0x10000 * (i.val + 1) ≤ a ∧ a < 0x10000 * (i.val + 2) := by
  have hl := storeBlocks_length i
  rcases h with h | h
  · change inRange (0x10000 * (i.val + 1)) (storeBlocks i).length a at h
    unfold inRange at h; omega
  · change inRange (0x10000 * (i.val + 1) + 0x400) 96 a at h
    unfold inRange at h; omega

theorem storeBlocks_plain (i : Fin 3) : byte (storeBlocks i) 0 ≠ 0x42 ∧ ¬ byte (storeBlocks i) 0 = 0x1a ∧ ¬ byte (storeBlocks i) 0 = 0x5a := by
  revert i; decide

theorem storeTrio_disjoint (sg : Fin 3 → List Byte) (hsg : ∀ i, (i ≠ 1 → 8192 ≤ (sg i).length) ∧ (sg i).length < 65536) :
    Disjoint (storeTrio sg) storeShared where
  mem := fun _ => rfl
  sense := fun i => storeCalls_acc i 0x400 96 (by decide)
  apart := by
    intro i j hij a h1 h2
    have h1 := storeTrio_uses h1
    have h2 := storeTrio_uses h2
    exact hij (Fin.ext (by omega))
  fair := by
    intro i
    have hl := storeBlocks_length i
    refine ⟨storeCalls_stored i, by change (storeBlocks i).length < _; omega, rfl,
      fun h => absurd (show byte (storeBlocks i) 0 = 0x42 from h) (storeBlocks_plain i).1, fun hop =>
      ⟨⟨storeCalls_stored i, by change (storeBlocks i).length < _; omega, rfl, ?_, storeCalls_acc i 0x400 96 (by decide),
        by change 3 + 1 < 2 ^ 32; decide, ?_⟩, (hsg i).2⟩⟩
    · match i with
      | 0 => exact .inr ⟨(by decide : isWrite (byte (storeBlocks 0) 0)), rfl⟩
      | 1 => exact absurd (show isRead (byte (storeBlocks 1) 0) ∨ isWrite (byte (storeBlocks 1) 0) from hop) (by decide)
      | 2 => exact .inr ⟨(by decide : isWrite (byte (storeBlocks 2) 0)), rfl⟩
    · intro hw rw_ h
      change decodeRw (storeBlocks i) = some rw_ at h
      rcases storeBlocks_rw i with e | ⟨rw', e, e2, -⟩
      · subst e
        exact absurd (show isWrite (byte (storeBlocks 1) 0) from hw) (by decide)
      · rw [e] at h
        cases h
        have h2 : 8192 ≤ (storeTrio sg i).cmd.sg.length := (hsg i).1 fun e => by
          subst e
          exact absurd (show isWrite (byte (storeBlocks 1) 0) from hw) (by decide)
        omega

theorem storeTrio_asks (sg : Fin 3 → List Byte) (h0 : 8192 ≤ (sg 0).length) (h2 : 8192 ≤ (sg 2).length) :
    (storeTrio sg 0).asks (9 + 2) 9 2 ∧ (storeTrio sg 2).asks (20 + 2) 20 2 :=
  ⟨⟨⟨9, 2, some 0, false⟩, (by decide +kernel : decodeRw (storeBlocks 0) = _), by intro c h; cases h; decide, rfl, rfl, by decide,
      (by change 4096 * 2 ≤ (sg 0).length; omega), by omega⟩,
    ⟨⟨20, 2, some 0, true⟩, (by decide +kernel : decodeRw (storeBlocks 2) = _), by intro c h; cases h; decide, rfl, rfl, by decide,
      (by change 4096 * 2 ≤ (sg 2).length; omega), by omega⟩⟩

/-- Every other command leaves the blocks of the WRITEs alone. -/
theorem storeTrio_leave (sg : Fin 3 → List Byte) (h0 : 8192 ≤ (sg 0).length) (h2 : 8192 ≤ (sg 2).length) (i : Fin 3) :
    (i ≠ 0 → (storeTrio sg i).leaves 3 9 2) ∧ (i ≠ 2 → (storeTrio sg i).leaves 3 20 2) := by
  obtain ⟨a0, a2⟩ := storeTrio_asks sg h0 h2
  refine ⟨fun hi hw _ l k ha => ?_, fun hi hw _ l k ha => ?_⟩
  · match i with
    | 0 => exact absurd rfl hi
    | 1 => exact absurd (show isWrite (byte (storeBlocks 1) 0) from hw) (by decide)
    | 2 =>
      obtain ⟨rfl, rfl⟩ := Spec.Command.asks_same a2 ha
      omega
  · match i with
    | 0 =>
      obtain ⟨rfl, rfl⟩ := Spec.Command.asks_same a0 ha
      omega
    | 1 => exact absurd (show isWrite (byte (storeBlocks 1) 0) from hw) (by decide)
    | 2 => exact absurd rfl hi

/-- The hypotheses are met: in any schedule in which the SYNCHRONIZE CACHE is queued when the first WRITE is done, over a device with a
write cache which fails commands in any pattern; the power fails at any time after that. -/
example (cap : Nat → Nat) (works : Nat → Bool) (part : Nat) (d d' : Disk) (sg : Fin 3 → List Byte) (l0 : (sg 0).length = 8192)
    (l1 : (sg 1).length = 0) (l2 : (sg 2).length = 8192) (sched₁ sched₂ sched₃ : List (Fin 3)) (k1 : 1 ∉ sched₁)
    (k0 : 7 ≤ sched₁.count 0) (k2 : 7 ≤ sched₂.count 1) :
    ∃ y₁ y₂ y₃ oW oS,
      (Host.start ((0, d), d') storeShared []).run demoKernel3 (fun _ _ => 0) (cachedDevice cap works part) (storeTrio sg) sched₁ = .ok y₁ ∧
      y₁.run demoKernel3 (fun _ _ => 0) (cachedDevice cap works part) (storeTrio sg) sched₂ = .ok y₂ ∧
      y₂.run demoKernel3 (fun _ _ => 0) (cachedDevice cap works part) (storeTrio sg) sched₃ = .ok y₃ ∧
      y₁.phase 0 = .done oW ∧ y₂.phase 1 = .done oS ∧
      (oW.result = 0 → oS.result = 0 → Disk.read y₃.dev.2 4 (4096 * 9) 8192 = sg 0) ∧
      (∀ o, y₂.phase 2 = .done o → o.result = 0 → Disk.read y₃.dev.2 4 (4096 * 20) 8192 = sg 2) := by
  have hD : Disjoint (storeTrio sg) storeShared := storeTrio_disjoint sg (by
    intro i
    match i with
    | 0 => exact ⟨fun _ => by omega, by omega⟩
    | 1 => exact ⟨fun h => absurd rfl h, by omega⟩
    | 2 => exact ⟨fun _ => by omega, by omega⟩)
  have hH := cached_device cap works part
  have hop : ∀ i page, steady (storeTrio sg i).cdb page := fun i => steady_of (storeBlocks_plain i).2
  have run := fun sched => C106_defined demoKernel3 demoKernel3_good (fun _ _ => 0) _ _ hH.toLossy (storeTrio sg) storeShared hD hop
    ((0, d), d') [] sched
  obtain ⟨y1, e1⟩ := run sched₁
  obtain ⟨y2, e2⟩ := run (sched₁ ++ sched₂)
  obtain ⟨y3, e3⟩ := run (sched₁ ++ sched₂ ++ sched₃)
  obtain ⟨oW, p1⟩ := C101_wait_free _ _ _ _ _ _ _ _ _ e1 0 k0
  obtain ⟨oS, p2⟩ := C101_wait_free _ _ _ _ _ _ _ _ _ e2 1 (by rw [List.count_append]; omega)
  have e3' := e3
  rw [Host_run_append, e2] at e3'
  have e2' := e2
  rw [Host_run_append, e1] at e2'
  have hc : y1.phase 1 = .queued := host_unscheduled _ _ _ _ 1 _ _ _ e1 k1
  obtain ⟨aW, aF⟩ := storeTrio_asks sg (by omega) (by omega)
  have lv := storeTrio_leave sg (by omega) (by omega)
  refine ⟨y1, y2, y3, oW, oS, e1, e2', e3', p1, p2, fun g1 g2 => ?_, fun o p3 g3 => ?_⟩
  · have := C122_synchronized demoKernel3 demoKernel3_good (fun _ _ => 0) _ _ _ hH (storeTrio sg) storeShared hD ((0, d), d') [] [] sched₁
      sched₂ sched₃ _ y1 y2 y3 rfl e1 e2' e3' 0 1 oW oS (.inl rfl) p1 g1 (.inl hc) p2 g2 9 2
      (by decide : isWrite (byte (storeBlocks 0) 0)) aW (by decide : byte (storeBlocks 1) 0 = 0x35) rfl fun j hj => .inr ((lv j).1 hj)
    exact this.trans (List.take_of_length_le (by change (sg 0).length ≤ _; omega))
  · have := C122_forced demoKernel3 demoKernel3_good (fun _ _ => 0) _ _ _ hH (storeTrio sg) storeShared hD ((0, d), d') [] []
      (sched₁ ++ sched₂) sched₃ _ y2 y3 rfl e2 e3' 2 o (.inl rfl) p3 g3 20 2
      (by decide : isWrite (byte (storeBlocks 2) 0)) aF storeCalls_asks.2.2 fun j hj => .inr ((lv j).2 hj)
    exact this.trans (List.take_of_length_le (by change (sg 2).length ≤ _; omega))

end Scsi2Nvme
