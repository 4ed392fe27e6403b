import Verif.Spec.Restart
import Verif.Properties.ModuleCache
/-!
# C123: data survive power failures
-/

namespace Scsi2Nvme
open Spec Engine Driver

variable {ι σ : Type}

theorem Disk.read_at {d d' : Disk} {k k' pos n : Nat} (h : d.read k pos n = d'.read k' pos n) (a : Nat) (ha : inRange pos n a) :
    d k a = d' k' a := by
  unfold Disk.read at h
  have h1 := congrArg (fun l => l[a - pos]?) h
  have hlt : a - pos < n := by unfold inRange at ha; omega
  have he : pos + (a - pos) = a := by unfold inRange at ha; omega
  simp only [List.getElem?_map, List.getElem?_range hlt, Option.map_some, he] at h1
  exact Option.some.inj h1

/-! ## The engine -/

theorem Stored.run [DecidableEq ι] {E : Env} {D : Device σ} {disks stable : σ → Disk} (hD : Cached D disks stable) (hg : GoodAllocator E)
    {q : ι → Request} {m0 : Mem} (hq : Separate q m0) {l lba n : Nat} (hl : ∀ i, (q i).leaves l lba n) (sched : List ι) {own}
    {y y' : Sys ι σ} (hI : Inv E q own y) (hs : Stored disks stable l lba n y.dev) (h : y.run E D q sched = .ok y') :
    Stored disks stable l lba n y'.dev := by
  induction sched generalizing own y with
  | nil => cases h; exact hs
  | cons i is ih =>
    unfold Sys.run at h
    split at h
    · cases h
    · rename_i y1 e
      have hst := stepped_of hI (hq.fair i).short e
      obtain ⟨own1, hI1, -⟩ := hI.move (hD.toLossy.tame hg) hg hq hst
      exact ih hI1 (Stored.step hD (hq.fair i) hI (.inr (hl i)) hs hst) h

/-- What commands see, and what is left when the power fails, is `bs` in the blocks. -/
def Holds (disks stable : σ → Disk) (l lba n : Nat) (bs : List Byte) (s : σ) : Prop :=
  Disk.read (disks s) (l + 1) (4096 * lba) (4096 * n) = bs ∧ Disk.read (stable s) (l + 1) (4096 * lba) (4096 * n) = bs

theorem Holds.stored {disks stable : σ → Disk} {l lba n : Nat} {bs : List Byte} {s : σ} (h : Holds disks stable l lba n bs s) :
    Stored disks stable l lba n s := fun a ha => Disk.read_at (h.2.trans h.1.symm) a ha

theorem Holds.outage {disks stable : σ → Disk} {l lba n : Nat} {bs : List Byte} {s s' : σ} (h : Holds disks stable l lba n bs s)
    (ho : Outage disks stable s s') : Holds disks stable l lba n bs s' := by
  have h1 : Disk.read (disks s') (l + 1) (4096 * lba) (4096 * n) = bs := by
    rw [← h.1]
    refine Disk.read_same fun a ha => ?_
    rcases ho.found (l + 1) a with e | e
    · rw [e]; exact h.stored a ha
    · exact e
  exact ⟨h1, by rw [ho.stored]; exact h1⟩

theorem Holds.run [DecidableEq ι] {E : Env} {D : Device σ} {disks stable : σ → Disk} (hD : Cached D disks stable) (hg : GoodAllocator E)
    {q : ι → Request} {m : Mem} (hq : Separate q m) {l lba n : Nat} (hl : ∀ i, (q i).leaves l lba n) {bs : List Byte} {s : σ}
    (tr : List Event) (sched : List ι) {y : Sys ι σ} (hs : Holds disks stable l lba n bs s)
    (h : (Sys.start s m tr).run E D q sched = .ok y) : Holds disks stable l lba n bs y.dev := by
  obtain ⟨L, -, resp, -, -, t0, -⟩ := C108_trusted E D disks hg hD.toHonest q m hq s tr sched [] y y h rfl
  have h1 := (t0.keeps l lba n fun i _ => hl i).trans (show Disk.read (fun l a => disks s (l + 1) a) l (4096 * lba) (4096 * n) = bs from hs.1)
  have h1' : Disk.read (disks y.dev) (l + 1) (4096 * lba) (4096 * n) = bs := h1
  refine ⟨h1', ?_⟩
  rw [← h1']
  exact Disk.read_same (Stored.run hD hg hq hl sched (Inv.start hq s tr) hs.stored h)

theorem Holds.outages [DecidableEq ι] {E : Env} {D : Device σ} {disks stable : σ → Disk} (hD : Cached D disks stable) (hg : GoodAllocator E)
    {l lba n : Nat} {bs : List Byte} {s s' : σ} (hs : Holds disks stable l lba n bs s)
    (h : Outages ι E D disks stable l lba n s s') : Holds disks stable l lba n bs s' := by
  induction h with
  | one h => exact hs.outage h
  | again _ hq hl hr ho ih => exact (Holds.run hD hg hq hl _ _ ih hr).outage ho

/-- A READ of the blocks which is answered with GOOD, when no call writes them. -/
theorem Holds.read [DecidableEq ι] {E : Env} {D : Device σ} {disks stable : σ → Disk} (hD : Cached D disks stable) (hg : GoodAllocator E)
    {q : ι → Request} {m : Mem} (hq : Separate q m) {l lba n : Nat} (hl : ∀ i, (q i).leaves l lba n) {bs : List Byte} {s : σ}
    (tr : List Event) (sched : List ι) {y : Sys ι σ} (hs : Holds disks stable l lba n bs s)
    (h : (Sys.start s m tr).run E D q sched = .ok y) {R : ι} {r : ScsiToNvmeResponse} (hr : y.phase R = .returned r)
    (good : r.return_code = 0) (hR : isRead (byte (q R).cdb 0)) (hRa : (q R).asks (lba + n) lba n) (hlun : (q R).lun.toNat = l) :
    r.alloc_len = 4096 * n ∧ y.world.mem.read (q R).data (4096 * n) = some bs := by
  obtain ⟨L, -, resp, c0, -, t0, -⟩ := C108_trusted E D disks hg hD.toHonest q m hq s tr sched [] y y h rfl
  obtain ⟨hin, hresp⟩ := c0.returned R r hr
  obtain ⟨A, B, rfl⟩ := List.append_of_mem hin
  obtain ⟨d1, h1, h2⟩ := t0.split
  have h3 := (h1.keeps l lba n fun i _ => hl i).trans (show Disk.read (fun l a => disks s (l + 1) a) l (4096 * lba) (4096 * n) = bs from hs.1)
  cases h2 with
  | cons hr hz =>
    cases hr with
    | other op => exact absurd hR op.1
    | write op => exact absurd op fun h => read_not_write hR h
    | torn op => exact absurd op fun h => read_not_write hR h
    | unread op bad => rw [hresp] at bad; exact absurd good bad
    | read opR hra good len data =>
      obtain ⟨rfl, rfl⟩ := asks_same hRa hra
      rw [hlun, h3] at data
      rw [hresp] at len
      exact ⟨len, data⟩

/-- **C123 (SYNCHRONIZE CACHE).** As in C121: a WRITE answered with GOOD, and then a SYNCHRONIZE CACHE(10) for the same LUN answered with
GOOD.  Then, at any moment, in the midst of other calls, the power fails; it fails any number of times more, with calls in between which are
interleaved and cut off anywhere.  If none of them writes any of the blocks, a READ of the blocks which is answered with GOOD after that
delivers the data of the WRITE. -/
theorem C123_synchronized [DecidableEq ι] (E : Env) (D : Device σ) (disks stable : σ → Disk) (hg : GoodAllocator E)
    (hD : Cached D disks stable) (q : ι → Request) (m : Mem) (hq : Separate q m) (s : σ) (tr : List Event)
    (sched₀ sched₁ sched₂ sched₃ : List ι) (y₀ y₁ y₂ y₃ : Sys ι σ)
    (h₀ : (Sys.start s m tr).run E D q sched₀ = .ok y₀) (h₁ : y₀.run E D q sched₁ = .ok y₁) (h₂ : y₁.run E D q sched₂ = .ok y₂)
    (h₃ : y₂.run E D q sched₃ = .ok y₃) (W S : ι) (rW rS : ScsiToNvmeResponse)
    (hWc : y₀.phase W = .called) (hWr : y₁.phase W = .returned rW) (goodW : rW.return_code = 0)
    (hSc : y₁.phase S = .called) (hSr : y₂.phase S = .returned rS) (goodS : rS.return_code = 0)
    (lba n : Nat) (hW : isWrite (byte (q W).cdb 0)) (hWa : (q W).asks (lba + n) lba n)
    (hS : byte (q S).cdb 0 = 0x35) (hlun : (q S).lun = (q W).lun)
    (ho : ∀ j, j ≠ W → (∃ rj, y₀.phase j = .returned rj) ∨ (q j).leaves (q W).lun.toNat lba n)
    (s' : σ) (hf : Outages ι E D disks stable (q W).lun.toNat lba n y₃.dev s')
    (q' : ι → Request) (m' : Mem) (hq' : Separate q' m') (hl' : ∀ i, (q' i).leaves (q W).lun.toNat lba n) (tr' : List Event)
    (sched : List ι) (y : Sys ι σ) (h : (Sys.start s' m' tr').run E D q' sched = .ok y)
    (R : ι) (rR : ScsiToNvmeResponse) (hRr : y.phase R = .returned rR) (goodR : rR.return_code = 0)
    (hR : isRead (byte (q' R).cdb 0)) (hRa : (q' R).asks (lba + n) lba n) (hRl : (q' R).lun = (q W).lun) :
    rR.alloc_len = 4096 * n ∧ ∃ bs, m.read (q W).data (4096 * n) = some bs ∧ y.world.mem.read (q' R).data (4096 * n) = some bs := by
  have hst := C121_synchronized E D disks stable hg hD q m hq s tr sched₀ sched₁ sched₂ sched₃ y₀ y₁ y₂ y₃ h₀ h₁ h₂ h₃ W S rW rS hWc hWr goodW
    hSc hSr goodS lba n hW hWa hS hlun ho
  have h03 : y₀.run E D q (sched₁ ++ (sched₂ ++ sched₃)) = .ok y₃ := by
    rw [Sys_run_append, h₁]
    change y₁.run E D q (sched₂ ++ sched₃) = _
    rw [Sys_run_append, h₂]
    exact h₃
  have hWr' : y₃.phase W = .returned rW := returned_run _ (returned_run _ hWr h₂) h₃
  have hdk := C108_durable E D disks hg hD.toHonest q m hq s tr sched₀ _ y₀ y₃ h₀ h03 W rW hWc hWr' goodW lba n hW hWa ho
  rw [hdk] at hst
  have hs : Holds disks stable (q W).lun.toNat lba n _ y₃.dev := ⟨rfl, (Option.some.inj hst).symm⟩
  obtain ⟨e1, e2⟩ := Holds.read hD hg hq' hl' tr' sched (hs.outages hD hg hf) h hRr goodR hR hRa (by rw [hRl])
  exact ⟨e1, _, hdk, e2⟩

/-- **C123 (FUA).** … and so it is, without a SYNCHRONIZE CACHE, if the WRITE had the FUA bit set. -/
theorem C123_forced [DecidableEq ι] (E : Env) (D : Device σ) (disks stable : σ → Disk) (hg : GoodAllocator E)
    (hD : Cached D disks stable) (q : ι → Request) (m : Mem) (hq : Separate q m) (s : σ) (tr : List Event)
    (sched₀ sched₁ sched₂ : List ι) (y₀ y₁ y₂ : Sys ι σ)
    (h₀ : (Sys.start s m tr).run E D q sched₀ = .ok y₀) (h₁ : y₀.run E D q sched₁ = .ok y₁) (h₂ : y₁.run E D q sched₂ = .ok y₂)
    (W : ι) (rW : ScsiToNvmeResponse) (hWc : y₀.phase W = .called) (hWr : y₁.phase W = .returned rW) (goodW : rW.return_code = 0)
    (lba n : Nat) (hW : isWrite (byte (q W).cdb 0)) (hWa : (q W).asks (lba + n) lba n) (hfua : asksFua (q W).cdb)
    (ho : ∀ j, j ≠ W → (∃ rj, y₀.phase j = .returned rj) ∨ (q j).leaves (q W).lun.toNat lba n)
    (s' : σ) (hf : Outages ι E D disks stable (q W).lun.toNat lba n y₂.dev s')
    (q' : ι → Request) (m' : Mem) (hq' : Separate q' m') (hl' : ∀ i, (q' i).leaves (q W).lun.toNat lba n) (tr' : List Event)
    (sched : List ι) (y : Sys ι σ) (h : (Sys.start s' m' tr').run E D q' sched = .ok y)
    (R : ι) (rR : ScsiToNvmeResponse) (hRr : y.phase R = .returned rR) (goodR : rR.return_code = 0)
    (hR : isRead (byte (q' R).cdb 0)) (hRa : (q' R).asks (lba + n) lba n) (hRl : (q' R).lun = (q W).lun) :
    rR.alloc_len = 4096 * n ∧ ∃ bs, m.read (q W).data (4096 * n) = some bs ∧ y.world.mem.read (q' R).data (4096 * n) = some bs := by
  have hst := C121_forced E D disks stable hg hD q m hq s tr sched₀ sched₁ sched₂ y₀ y₁ y₂ h₀ h₁ h₂ W rW hWc hWr goodW lba n hW hWa hfua ho
  have h02 : y₀.run E D q (sched₁ ++ sched₂) = .ok y₂ := by rw [Sys_run_append, h₁]; exact h₂
  have hdk := C108_durable E D disks hg hD.toHonest q m hq s tr sched₀ _ y₀ y₂ h₀ h02 W rW hWc (returned_run _ hWr h₂) goodW lba n hW hWa ho
  rw [hdk] at hst
  have hs : Holds disks stable (q W).lun.toNat lba n _ y₂.dev := ⟨rfl, (Option.some.inj hst).symm⟩
  obtain ⟨e1, e2⟩ := Holds.read hD hg hq' hl' tr' sched (hs.outages hD hg hf) h hRr goodR hR hRa (by rw [hRl])
  exact ⟨e1, _, hdk, e2⟩

/-! ## The kernel module -/

theorem Stored.hstep [DecidableEq ι] {K : Module.Kernel} {junk : World → Nat → Byte} {D : Device σ}
    {disks stable : σ → Disk} (hD : Cached D disks stable) {c : ι → Command} {own} {l lba n : Nat} {y y' : Host ι σ} {i : ι}
    (hq : (c i).Fair) (hI : HInv K junk c own y) (hp : HPast c l lba n y i) (hs : Stored disks stable l lba n y.dev)
    (h : HStepped K junk D c y i y') : Stored disks stable l lba n y'.dev := by
  cases h with
  | empty | refused | granted | finished | copied | freed | done => exact hs
  | @engine b ph hph hr y1 hst =>
    have hv : y.reqs c i = viewReq (c i) b (Module.dataLen (c i).cmd) := by unfold Host.reqs; rw [hph]; rfl
    have hf : (y.reqs c i).Fair := by
      rw [hv]
      exact viewReq_fair hq (hI.buf i b ph hph).1 fun a ha => (hI.buf i b ph hph).2 a (.inl ha)
    have hpast : Past (y.reqs c) l lba n y.view i := by
      rcases hp with ⟨o, ho⟩ | hl
      · rw [ho] at hph; cases hph
      · refine .inr ?_
        rw [hv]
        intro h1 h2 l' k h3
        exact hl h1 h2 l' k ((view_asks (hq.rw (.inr h1)).2).mp h3)
    exact Stored.step hD hf hI.inv hpast hs hst

theorem Stored.hrun [DecidableEq ι] {K : Module.Kernel} (hK : GoodKernel K) {junk : World → Nat → Byte} {D : Device σ}
    {disks stable : σ → Disk} (hD : Cached D disks stable) {c : ι → Command} (hc : ∀ i, (c i).Fair) {l lba n : Nat}
    (hl : ∀ i, (c i).leaves l lba n) (sched : List ι) {own} {y y' : Host ι σ} (hI : HInv K junk c own y)
    (hs : Stored disks stable l lba n y.dev) (h : y.run K junk D c sched = .ok y') : Stored disks stable l lba n y'.dev := by
  induction sched generalizing own y with
  | nil => cases h; exact hs
  | cons i is ih =>
    unfold Host.run at h
    split at h
    · cases h
    · rename_i y1 e
      have hst := hstepped_of hI (hc i) e
      obtain ⟨own1, hI1, -⟩ := hI.step hK (hD.toLossy.tame (C72_util K hK junk).1) (hc i) hst
      exact ih hI1 (Stored.hstep hD (hc i) hI (.inr (hl i)) hs hst) h

theorem Holds.hrun [DecidableEq ι] {K : Module.Kernel} (hK : GoodKernel K) {junk : World → Nat → Byte} {D : Device σ}
    {disks stable : σ → Disk} (hD : Cached D disks stable) {c : ι → Command} {m : Mem} (hc : Disjoint c m) {l lba n : Nat}
    (hl : ∀ i, (c i).leaves l lba n) {bs : List Byte} {s : σ} (tr : List Event) (sched : List ι) {y : Host ι σ}
    (hs : Holds disks stable l lba n bs s) (h : (Host.start s m tr).run K junk D c sched = .ok y) : Holds disks stable l lba n bs y.dev := by
  obtain ⟨L, -, out, -, -, t0, -⟩ := C109_trusted K hK junk D disks hD.toHonest c m hc s tr sched [] y y h rfl
  have h1 := (t0.keeps l lba n fun i _ => hl i).trans (show Disk.read (fun l a => disks s (l + 1) a) l (4096 * lba) (4096 * n) = bs from hs.1)
  have h1' : Disk.read (disks y.dev) (l + 1) (4096 * lba) (4096 * n) = bs := h1
  refine ⟨h1', ?_⟩
  rw [← h1']
  exact Disk.read_same (Stored.hrun hK hD hc.fair hl sched (HInv.start hc s tr) hs.stored h)

theorem Holds.houtages [DecidableEq ι] {K : Module.Kernel} (hK : GoodKernel K) {junk : World → Nat → Byte} {D : Device σ}
    {disks stable : σ → Disk} (hD : Cached D disks stable) {l lba n : Nat} {bs : List Byte} {s s' : σ}
    (hs : Holds disks stable l lba n bs s) (h : ModuleOutages ι K junk D disks stable l lba n s s') :
    Holds disks stable l lba n bs s' := by
  induction h with
  | one h => exact hs.outage h
  | again _ hc hl hr ho ih => exact (Holds.hrun hK hD hc hl _ _ ih hr).outage ho

theorem Holds.hread [DecidableEq ι] {K : Module.Kernel} (hK : GoodKernel K) {junk : World → Nat → Byte} {D : Device σ}
    {disks stable : σ → Disk} (hD : Cached D disks stable) {c : ι → Command} {m : Mem} (hc : Disjoint c m) {l lba n : Nat}
    (hl : ∀ i, (c i).leaves l lba n) {bs : List Byte} {s : σ} (tr : List Event) (sched : List ι) {y : Host ι σ}
    (hs : Holds disks stable l lba n bs s) (h : (Host.start s m tr).run K junk D c sched = .ok y) {R : ι} {o : Module.Outcome}
    (hr : y.phase R = .done o) (good : o.result = 0) (hR : isRead (byte (c R).cdb 0)) (hRa : (c R).asks (lba + n) lba n)
    (hlun : (c R).cmd.lun.toNat = l) :
    o.sg = bs ++ (c R).cmd.sg.drop (4096 * n) ∧ o.resid = some (((c R).cmd.sg.length : Int) - 4096 * n) := by
  obtain ⟨L, -, out, c0, -, t0, -⟩ := C109_trusted K hK junk D disks hD.toHonest c m hc s tr sched [] y y h rfl
  obtain ⟨hin, hout⟩ := c0.done R o hr
  obtain ⟨A, B, rfl⟩ := List.append_of_mem hin
  obtain ⟨d1, h1, h2⟩ := t0.split
  have h3 := (h1.keeps l lba n fun i _ => hl i).trans (show Disk.read (fun l a => disks s (l + 1) a) l (4096 * lba) (4096 * n) = bs from hs.1)
  cases h2 with
  | cons hr hz =>
    cases hr with
    | other op => exact absurd hR op.1
    | write op => exact absurd op fun h => read_not_write hR h
    | torn op => exact absurd op fun h => read_not_write hR h
    | unread op bad => rw [hout] at bad; exact absurd good bad
    | read opR hra good data resid =>
      obtain ⟨rfl, rfl⟩ := Spec.Command.asks_same hRa hra
      rw [hlun, h3] at data
      rw [hout] at data resid
      exact ⟨data, resid⟩

/-- **C123 (module, SYNCHRONIZE CACHE).** The same for commands handed to the kernel module. -/
theorem C123_module_synchronized [DecidableEq ι] (K : Module.Kernel) (hK : GoodKernel K) (junk : World → Nat → Byte) (D : Device σ)
    (disks stable : σ → Disk) (hD : Cached D disks stable) (c : ι → Command) (m : Mem) (hc : Disjoint c m) (s : σ) (tr : List Event)
    (sched₀ sched₁ sched₂ sched₃ : List ι) (y₀ y₁ y₂ y₃ : Host ι σ)
    (h₀ : (Host.start s m tr).run K junk D c sched₀ = .ok y₀) (h₁ : y₀.run K junk D c sched₁ = .ok y₁)
    (h₂ : y₁.run K junk D c sched₂ = .ok y₂) (h₃ : y₂.run K junk D c sched₃ = .ok y₃) (W S : ι) (oW oS : Module.Outcome)
    (hWn : y₀.phase W = .queued ∨ ∃ b, y₀.phase W = .engine b .called) (hWd : y₁.phase W = .done oW) (goodW : oW.result = 0)
    (hSn : y₁.phase S = .queued ∨ ∃ b, y₁.phase S = .engine b .called) (hSd : y₂.phase S = .done oS) (goodS : oS.result = 0)
    (lba n : Nat) (hW : isWrite (byte (c W).cdb 0)) (hWa : (c W).asks (lba + n) lba n)
    (hS : byte (c S).cdb 0 = 0x35) (hlun : (c S).cmd.lun = (c W).cmd.lun)
    (ho : ∀ j, j ≠ W → (∃ oj, y₀.phase j = .done oj) ∨ (c j).leaves (c W).cmd.lun.toNat lba n)
    (s' : σ) (hf : ModuleOutages ι K junk D disks stable (c W).cmd.lun.toNat lba n y₃.dev s')
    (c' : ι → Command) (m' : Mem) (hc' : Disjoint c' m') (hl' : ∀ i, (c' i).leaves (c W).cmd.lun.toNat lba n) (tr' : List Event)
    (sched : List ι) (y : Host ι σ) (h : (Host.start s' m' tr').run K junk D c' sched = .ok y)
    (R : ι) (oR : Module.Outcome) (hRd : y.phase R = .done oR) (goodR : oR.result = 0)
    (hR : isRead (byte (c' R).cdb 0)) (hRa : (c' R).asks (lba + n) lba n) (hRl : (c' R).cmd.lun = (c W).cmd.lun) :
    oR.sg = (c W).cmd.sg.take (4096 * n) ++ (c' R).cmd.sg.drop (4096 * n) ∧
      oR.resid = some (((c' R).cmd.sg.length : Int) - 4096 * n) := by
  have hst := C122_synchronized K hK junk D disks stable hD c m hc s tr sched₀ sched₁ sched₂ sched₃ y₀ y₁ y₂ y₃ h₀ h₁ h₂ h₃ W S oW oS hWn hWd
    goodW hSn hSd goodS lba n hW hWa hS hlun ho
  have h03 : y₀.run K junk D c (sched₁ ++ (sched₂ ++ sched₃)) = .ok y₃ := by
    rw [Host_run_append, h₁]
    change y₁.run K junk D c (sched₂ ++ sched₃) = _
    rw [Host_run_append, h₂]
    exact h₃
  have hWd' : y₃.phase W = .done oW := done_run _ (done_run _ hWd h₂) h₃
  have hdk := C109_durable K hK junk D disks hD.toHonest c m hc s tr sched₀ _ y₀ y₃ h₀ h03 W oW hWn hWd' goodW lba n hW hWa ho
  have hs : Holds disks stable (c W).cmd.lun.toNat lba n _ y₃.dev := ⟨hdk, hst⟩
  exact Holds.hread hK hD hc' hl' tr' sched (hs.houtages hK hD hf) h hRd goodR hR hRa (by rw [hRl])

/-- **C123 (module, FUA).** … -/
theorem C123_module_forced [DecidableEq ι] (K : Module.Kernel) (hK : GoodKernel K) (junk : World → Nat → Byte) (D : Device σ)
    (disks stable : σ → Disk) (hD : Cached D disks stable) (c : ι → Command) (m : Mem) (hc : Disjoint c m) (s : σ) (tr : List Event)
    (sched₀ sched₁ sched₂ : List ι) (y₀ y₁ y₂ : Host ι σ)
    (h₀ : (Host.start s m tr).run K junk D c sched₀ = .ok y₀) (h₁ : y₀.run K junk D c sched₁ = .ok y₁)
    (h₂ : y₁.run K junk D c sched₂ = .ok y₂) (W : ι) (oW : Module.Outcome)
    (hWn : y₀.phase W = .queued ∨ ∃ b, y₀.phase W = .engine b .called) (hWd : y₁.phase W = .done oW) (goodW : oW.result = 0)
    (lba n : Nat) (hW : isWrite (byte (c W).cdb 0)) (hWa : (c W).asks (lba + n) lba n) (hfua : asksFua (c W).cdb)
    (ho : ∀ j, j ≠ W → (∃ oj, y₀.phase j = .done oj) ∨ (c j).leaves (c W).cmd.lun.toNat lba n)
    (s' : σ) (hf : ModuleOutages ι K junk D disks stable (c W).cmd.lun.toNat lba n y₂.dev s')
    (c' : ι → Command) (m' : Mem) (hc' : Disjoint c' m') (hl' : ∀ i, (c' i).leaves (c W).cmd.lun.toNat lba n) (tr' : List Event)
    (sched : List ι) (y : Host ι σ) (h : (Host.start s' m' tr').run K junk D c' sched = .ok y)
    (R : ι) (oR : Module.Outcome) (hRd : y.phase R = .done oR) (goodR : oR.result = 0)
    (hR : isRead (byte (c' R).cdb 0)) (hRa : (c' R).asks (lba + n) lba n) (hRl : (c' R).cmd.lun = (c W).cmd.lun) :
    oR.sg = (c W).cmd.sg.take (4096 * n) ++ (c' R).cmd.sg.drop (4096 * n) ∧
      oR.resid = some (((c' R).cmd.sg.length : Int) - 4096 * n) := by
  have hst := C122_forced K hK junk D disks stable hD c m hc s tr sched₀ sched₁ sched₂ y₀ y₁ y₂ h₀ h₁ h₂ W oW hWn hWd goodW lba n hW hWa hfua ho
  have h02 : y₀.run K junk D c (sched₁ ++ sched₂) = .ok y₂ := by rw [Host_run_append, h₁]; exact h₂
  have hdk := C109_durable K hK junk D disks hD.toHonest c m hc s tr sched₀ _ y₀ y₂ h₀ h02 W oW hWn (done_run _ hWd h₂) goodW lba n hW hWa ho
  have hs : Holds disks stable (c W).cmd.lun.toNat lba n _ y₂.dev := ⟨hdk, hst⟩
  exact Holds.hread hK hD hc' hl' tr' sched (hs.houtages hK hD hf) h hRd goodR hR hRa (by rw [hRl])

/-! ## A device and more calls -/

/-- READ(10) of blocks 9 and 10, READ(16) of blocks 20 and 21, WRITE(10) of blocks 30 and 31. -/
def loadBlocks : Fin 3 → List Byte
  | 0 => [0x28, 0, 0, 0, 0, 9, 0, 0, 2, 0]
  | 1 => [0x88, 0, 0, 0, 0, 0, 0, 0, 0, 20, 0, 0, 0, 2, 0, 0]
  | 2 => [0x2a, 0, 0, 0, 0, 30, 0, 0, 2, 0]

/-- 64 KiB for each call, beginning with the command block. -/
def loadShared : Mem := fun a =>
  if a < 0x10000 then none
  else if h : a / 0x10000 - 1 < 3 then some ((loadBlocks ⟨a / 0x10000 - 1, h⟩).getD (a % 0x10000) (BitVec.ofNat 8 (a / 7)))
  else none

/-- The three calls, for LUN 3. -/
def loadCalls (i : Fin 3) : Request :=
  { mem := loadShared, ws := Demo.ws, ptr := 0x10000 * (i.val + 1), cdb := loadBlocks i, lun := 3, sense := 0x10000 * (i.val + 1) + 0x400,
    senseLen := 32, data := 0x10000 * (i.val + 1) + 0x8000, dataLen := 8192, isIn := decide (i.val ≠ 2) }

theorem loadBlocks_length (i : Fin 3) : (loadBlocks i).length ≤ 16 := by revert i; decide

theorem loadShared_slot (i : Fin 3) (k : Nat) (hk : k < 0x10000) :
    loadShared (0x10000 * (i.val + 1) + k) = some ((loadBlocks i).getD k (BitVec.ofNat 8 ((0x10000 * (i.val + 1) + k) / 7))) := by
  have hi := i.isLt
  have e1 : (0x10000 * (i.val + 1) + k) / 0x10000 - 1 = i.val := by omega
  have e2 : (0x10000 * (i.val + 1) + k) % 0x10000 = k := by omega
  unfold loadShared
  rw [if_neg (by omega), dif_pos (by omega), e2]
  simp only [e1]

theorem loadCalls_stored (i : Fin 3) : loadShared.read (loadCalls i).ptr (loadCalls i).cdb.length = some (loadCalls i).cdb := by
  refine read_eq_some.mpr ⟨rfl, fun k hk => ?_⟩
  have hl := loadBlocks_length i
  have hk : k < (loadBlocks i).length := hk
  refine (loadShared_slot i k (by omega)).trans ?_
  change _ = (loadBlocks i)[k]?
  rw [List.getD_eq_getElem?_getD, List.getElem?_eq_getElem hk]
  rfl

theorem loadCalls_acc (i : Fin 3) (off len : Nat) (h : off + len < 0x10000) : accessible loadShared ⟨0x10000 * (i.val + 1) + off, len⟩ := by
  intro k hk
  have hk : k < len := hk
  change (loadShared (0x10000 * (i.val + 1) + off + k)).isSome
  rw [Nat.add_assoc, loadShared_slot i (off + k) (by omega)]
  rfl

theorem loadCalls_uses {i : Fin 3} {a : Nat} (h : (loadCalls i).uses a) : 0x10000 * (i.val + 1) ≤ a ∧ a < 0x10000 * (i.val + 2) := by
  have hl := loadBlocks_length i
  rcases h with h | h | h
  · change inRange (0x10000 * (i.val + 1)) (loadBlocks i).length a at h
    unfold inRange at h; omega
  · change inRange (0x10000 * (i.val + 1) + 0x400) 32 a at h
    unfold inRange at h; omega
  · change inRange (0x10000 * (i.val + 1) + 0x8000) 8192 a at h
    unfold inRange at h; omega

theorem loadBlocks_rw (i : Fin 3) : ∃ rw, decodeRw (loadBlocks i) = some rw ∧ rw.blocks = 2 ∧ (∀ c, rw.protect = some c → c ≤ 5) ∧
    rw.lba = match i with | 0 => 9 | 1 => 20 | 2 => 30 := by
  match i with
  | 0 => exact ⟨⟨9, 2, some 0, false⟩, by decide +kernel, rfl, by intro c h; cases h; decide, rfl⟩
  | 1 => exact ⟨⟨20, 2, some 0, false⟩, by decide +kernel, rfl, by intro c h; cases h; decide, rfl⟩
  | 2 => exact ⟨⟨30, 2, some 0, false⟩, by decide +kernel, rfl, by intro c h; cases h; decide, rfl⟩

theorem loadCalls_separate : Separate loadCalls loadShared where
  mem := fun _ => rfl
  sound := fun i => ⟨loadCalls_acc i 0x400 32 (by decide), loadCalls_acc i 0x8000 8192 (by decide)⟩
  apart := by
    intro i j hij a h1 h2
    have h1 := loadCalls_uses h1
    have h2 := loadCalls_uses h2
    exact hij (Fin.ext (by omega))
  fair := by
    intro i
    have hi := i.isLt
    have hl := loadBlocks_length i
    refine ⟨loadCalls_stored i, by change (loadBlocks i).length < _; omega, fun h => absurd h (by revert i; decide), fun hop => ?_⟩
    refine ⟨loadCalls_stored i, by change (loadBlocks i).length < _; omega, hop, loadCalls_acc i 0x400 32 (by decide),
      loadCalls_acc i 0x8000 8192 (by decide), ?_, ?_, by change 3 + 1 < 2 ^ 32; decide, ?_⟩
    · change 0x10000 * (i.val + 1) + 0x8000 + 8192 ≤ 2 ^ 64
      omega
    · intro a h1 h2
      change inRange (0x10000 * (i.val + 1)) (loadBlocks i).length a at h1
      change inRange (0x10000 * (i.val + 1) + 0x8000) 8192 a at h2
      unfold inRange at h1 h2
      omega
    · intro hw rw_ h
      change 4096 * rw_.blocks ≤ 8192
      obtain ⟨rw', e, e2, -⟩ := loadBlocks_rw i
      change decodeRw (loadBlocks i) = some rw_ at h
      rw [e] at h
      cases h
      omega

theorem loadCalls_asks : (loadCalls 0).asks (9 + 2) 9 2 ∧ (loadCalls 1).asks (20 + 2) 20 2 ∧ (loadCalls 2).asks (30 + 2) 30 2 := by
  have h : 4096 * 2 ≤ (8192 : U16).toNat := by decide
  exact ⟨⟨⟨9, 2, some 0, false⟩, by decide +kernel, by intro c h; cases h; decide, rfl, rfl, by decide, h, by omega⟩,
    ⟨⟨20, 2, some 0, false⟩, by decide +kernel, by intro c h; cases h; decide, rfl, rfl, by decide, h, by omega⟩,
    ⟨⟨30, 2, some 0, false⟩, by decide +kernel, by intro c h; cases h; decide, rfl, rfl, by decide, h, by omega⟩⟩

/-- No call writes any of the blocks 9, 10, 20 and 21. -/
theorem loadCalls_leave (i : Fin 3) : (loadCalls i).leaves 3 9 2 ∧ (loadCalls i).leaves 3 20 2 := by
  have key : ∀ lba, lba = 9 ∨ lba = 20 → (loadCalls i).leaves 3 lba 2 := by
    intro lba hl hw _ l k ha
    match i with
    | 0 => exact absurd hw (by decide)
    | 1 => exact absurd hw (by decide)
    | 2 =>
      obtain ⟨rfl, rfl⟩ := asks_same loadCalls_asks.2.2 ha
      omega
  exact ⟨key 9 (.inl rfl), key 20 (.inr rfl)⟩

/-- The hypotheses are met: the calls of the example for C121 in any schedule in which the SYNCHRONIZE CACHE begins when the first WRITE has
returned; a power failure at any time; READs of both ranges and a WRITE elsewhere, in any schedule, cut off by another power failure; and the same
calls again.  What the READs deliver, if they and the calls before are answered with GOOD, are the data of the WRITEs.  The device fails commands in
any pattern and stores at a power failure any of the bytes in its cache. -/
example (cap : Nat → Nat) (works : Nat → Bool) (part : Nat) (d d' : Disk) (sched₁ sched₂ sched₃ sched₄ sched₅ : List (Fin 3)) (h1 : 1 ∉ sched₁)
    (h0 : 5 ≤ sched₁.count 0) (h2 : 5 ≤ sched₂.count 1) (h5 : 5 ≤ sched₅.count 0) (lost : Nat → Nat → Bool) :
    ∃ y₁ y₂ y₃ y₄ y₅ rW rS rR,
      let off := fun (s : (Nat × Disk) × Disk) => let d : Disk := fun k a => if lost k a then s.2 k a else s.1.2 k a; (((0, d), d) : (Nat × Disk) × Disk)
      (Sys.start ((0, d), d') storeShared []).run boundedEnv (cachedDevice cap works part) storeCalls sched₁ = .ok y₁ ∧
      y₁.run boundedEnv (cachedDevice cap works part) storeCalls sched₂ = .ok y₂ ∧
      y₂.run boundedEnv (cachedDevice cap works part) storeCalls sched₃ = .ok y₃ ∧
      (Sys.start (off y₃.dev) loadShared []).run boundedEnv (cachedDevice cap works part) loadCalls sched₄ = .ok y₄ ∧
      (Sys.start (off y₄.dev) loadShared []).run boundedEnv (cachedDevice cap works part) loadCalls sched₅ = .ok y₅ ∧
      y₁.phase 0 = .returned rW ∧ y₂.phase 1 = .returned rS ∧ y₅.phase 0 = .returned rR ∧
      (rW.return_code = 0 → rS.return_code = 0 → rR.return_code = 0 → rR.alloc_len = 8192 ∧
        y₅.world.mem.read 0x18000 8192 = storeShared.read 0x18000 8192) ∧
      (∀ r r', y₂.phase 2 = .returned r → r.return_code = 0 → y₅.phase 1 = .returned r' → r'.return_code = 0 →
        y₅.world.mem.read 0x28000 8192 = storeShared.read 0x38000 8192) := by
  have hH := cached_device cap works part
  have hop : ∀ i page, steady (storeCalls i).cdb page := fun i => steady_of (by revert i; decide)
  have hop' : ∀ i page, steady (loadCalls i).cdb page := fun i => steady_of (by revert i; decide)
  have run := fun sched => C108_defined boundedEnv _ _ boundedEnv_good hH.toHonest storeCalls storeShared storeCalls_separate hop ((0, d), d') [] sched
  have run' := fun s sched => C108_defined boundedEnv _ _ boundedEnv_good hH.toHonest loadCalls loadShared loadCalls_separate hop' s [] sched
  obtain ⟨y1, e1⟩ := run sched₁
  obtain ⟨y2, e2⟩ := run (sched₁ ++ sched₂)
  obtain ⟨y3, e3⟩ := run (sched₁ ++ sched₂ ++ sched₃)
  let off := fun (s : (Nat × Disk) × Disk) => let d : Disk := fun k a => if lost k a then s.2 k a else s.1.2 k a; (((0, d), d) : (Nat × Disk) × Disk)
  have hoff : ∀ s, Outage (fun s : (Nat × Disk) × Disk => s.1.2) (fun s => s.2) s (off s) := by
    intro s
    refine ⟨fun k a => ?_, rfl⟩
    change (if lost k a then s.2 k a else s.1.2 k a) = _ ∨ (if lost k a then s.2 k a else s.1.2 k a) = _
    split
    · exact .inl rfl
    · exact .inr rfl
  obtain ⟨y4, e4⟩ := run' (off y3.dev) sched₄
  obtain ⟨y5, e5⟩ := run' (off y4.dev) sched₅
  obtain ⟨rW, p1⟩ := C96_wait_free _ _ _ _ _ _ _ _ e1 0 h0
  obtain ⟨rS, p2⟩ := C96_wait_free _ _ _ _ _ _ _ _ e2 1 (by rw [List.count_append]; omega)
  obtain ⟨rR, p5⟩ := C96_wait_free _ _ _ _ _ _ _ _ e5 0 h5
  have e3' := e3
  rw [Sys_run_append, e2] at e3'
  have e2' := e2
  rw [Sys_run_append, e1] at e2'
  have hc : y1.phase 1 = .called := run_unscheduled _ _ _ 1 _ _ _ e1 h1
  refine ⟨y1, y2, y3, y4, y5, rW, rS, rR, e1, e2', e3', e4, e5, p1, p2, p5, fun g1 g2 g5 => ?_, fun r r' p3 g3 p6 g6 => ?_⟩
  · obtain ⟨k1, bs, k2, k3⟩ := C123_synchronized boundedEnv _ _ _ boundedEnv_good hH storeCalls storeShared storeCalls_separate ((0, d), d') []
      [] sched₁ sched₂ sched₃ _ y1 y2 y3 rfl e1 e2' e3' 0 1 rW rS rfl p1 g1 hc p2 g2 9 2 (by decide) storeCalls_asks.1 (by decide) rfl
      (fun j hj => .inr ((storeCalls_leave j).1 hj)) (off y4.dev)
      (.again (.one (hoff y3.dev)) loadCalls_separate (fun i => (loadCalls_leave i).1) e4 (hoff y4.dev))
      loadCalls loadShared loadCalls_separate (fun i => (loadCalls_leave i).1) [] sched₅ y5 e5 0 rR p5 g5 (by decide) loadCalls_asks.1 rfl
    exact ⟨k1, k3.trans k2.symm⟩
  · obtain ⟨-, bs, k2, k3⟩ := C123_forced boundedEnv _ _ _ boundedEnv_good hH storeCalls storeShared storeCalls_separate ((0, d), d') []
      [] (sched₁ ++ sched₂) sched₃ _ y2 y3 rfl e2 e3' 2 r rfl p3 g3 20 2 (by decide) storeCalls_asks.2.1 storeCalls_asks.2.2
      (fun j hj => .inr ((storeCalls_leave j).2 hj)) (off y4.dev)
      (.again (.one (hoff y3.dev)) loadCalls_separate (fun i => (loadCalls_leave i).2) e4 (hoff y4.dev))
      loadCalls loadShared loadCalls_separate (fun i => (loadCalls_leave i).2) [] sched₅ y5 e5 1 r' p6 g6 (by decide) loadCalls_asks.2.1 rfl
    exact k3.trans k2.symm

/-! ## The same commands through the kernel module -/

/-- READ(10) of blocks 9 and 10, READ(16) of blocks 20 and 21, WRITE(10) of blocks 30 and 31, with the scatter-gather lists `sg`. -/
def loadTrio (sg : Fin 3 → List Byte) (i : Fin 3) : Command :=
  { mem := loadShared, ws := Demo.ws, uninit := 0xdead, cdb := loadBlocks i
    cmd := ⟨3, 0x10000 * (i.val + 1), BitVec.ofNat 16 (loadBlocks i).length, 0x10000 * (i.val + 1) + 0x400, decide (i.val ≠ 2), sg i⟩ }

theorem loadTrio_uses {sg : Fin 3 → List Byte} {i : Fin 3} {a : Nat} (h : (loadTrio sg i).uses a) :
    0x10000 * (i.val + 1) ≤ a ∧ a < 0x10000 * (i.val + 2) := by
  have hl := loadBlocks_length i
  rcases h with h | h
  · change inRange (0x10000 * (i.val + 1)) (loadBlocks i).length a at h
    unfold inRange at h; omega
  · change inRange (0x10000 * (i.val + 1) + 0x400) 96 a at h
    unfold inRange at h; omega

theorem loadBlocks_plain (i : Fin 3) : byte (loadBlocks i) 0 ≠ 0x42 ∧ ¬ byte (loadBlocks i) 0 = 0x1a ∧ ¬ byte (loadBlocks i) 0 = 0x5a := by
  revert i; decide

theorem loadTrio_disjoint (sg : Fin 3 → List Byte) (hsg : ∀ i, (sg i).length = 8192) : Disjoint (loadTrio sg) loadShared where
  mem := fun _ => rfl
  sense := fun i => loadCalls_acc i 0x400 96 (by decide)
  apart := by
    intro i j hij a h1 h2
    have h1 := loadTrio_uses h1
    have h2 := loadTrio_uses h2
    exact hij (Fin.ext (by omega))
  fair := by
    intro i
    have hl := loadBlocks_length i
    have hs := hsg i
    refine ⟨loadCalls_stored i, by change (loadBlocks i).length < _; omega, rfl,
      fun h => absurd (show byte (loadBlocks i) 0 = 0x42 from h) (loadBlocks_plain i).1, fun hop =>
      ⟨⟨loadCalls_stored i, by change (loadBlocks i).length < _; omega, rfl, ?_, loadCalls_acc i 0x400 96 (by decide),
        by change 3 + 1 < 2 ^ 32; decide, ?_⟩, by change (sg i).length < _; omega⟩⟩
    · match i with
      | 0 => exact .inl ⟨(by decide : isRead (byte (loadBlocks 0) 0)), rfl⟩
      | 1 => exact .inl ⟨(by decide : isRead (byte (loadBlocks 1) 0)), rfl⟩
      | 2 => exact .inr ⟨(by decide : isWrite (byte (loadBlocks 2) 0)), rfl⟩
    · intro hw rw_ h
      change decodeRw (loadBlocks i) = some rw_ at h
      obtain ⟨rw', e, e2, -⟩ := loadBlocks_rw i
      rw [e] at h
      cases h
      change _ ≤ (sg i).length
      omega

theorem loadTrio_asks (sg : Fin 3 → List Byte) (hsg : ∀ i, (sg i).length = 8192) :
    (loadTrio sg 0).asks (9 + 2) 9 2 ∧ (loadTrio sg 1).asks (20 + 2) 20 2 ∧ (loadTrio sg 2).asks (30 + 2) 30 2 := by
  have h : ∀ i, 4096 * 2 ≤ (sg i).length := fun i => by rw [hsg i]; decide
  exact ⟨⟨⟨9, 2, some 0, false⟩, (by decide +kernel : decodeRw (loadBlocks 0) = _), by intro c h; cases h; decide, rfl, rfl, by decide, h 0, by omega⟩,
    ⟨⟨20, 2, some 0, false⟩, (by decide +kernel : decodeRw (loadBlocks 1) = _), by intro c h; cases h; decide, rfl, rfl, by decide, h 1, by omega⟩,
    ⟨⟨30, 2, some 0, false⟩, (by decide +kernel : decodeRw (loadBlocks 2) = _), by intro c h; cases h; decide, rfl, rfl, by decide, h 2, by omega⟩⟩

theorem loadTrio_leave (sg : Fin 3 → List Byte) (hsg : ∀ i, (sg i).length = 8192) (i : Fin 3) :
    (loadTrio sg i).leaves 3 9 2 ∧ (loadTrio sg i).leaves 3 20 2 := by
  have key : ∀ lba, lba = 9 ∨ lba = 20 → (loadTrio sg i).leaves 3 lba 2 := by
    intro lba hl hw _ l k ha
    match i with
    | 0 => exact absurd (show isWrite (byte (loadBlocks 0) 0) from hw) (by decide)
    | 1 => exact absurd (show isWrite (byte (loadBlocks 1) 0) from hw) (by decide)
    | 2 =>
      obtain ⟨rfl, rfl⟩ := Spec.Command.asks_same (loadTrio_asks sg hsg).2.2 ha
      omega
  exact ⟨key 9 (.inl rfl), key 20 (.inr rfl)⟩

/-- The hypotheses are met, as in the example above. -/
example (cap : Nat → Nat) (works : Nat → Bool) (part : Nat) (d d' : Disk) (sg sg' : Fin 3 → List Byte) (l0 : (sg 0).length = 8192)
    (l1 : (sg 1).length = 0) (l2 : (sg 2).length = 8192) (l' : ∀ i, (sg' i).length = 8192) (sched₁ sched₂ sched₃ sched₄ sched₅ : List (Fin 3))
    (k1 : 1 ∉ sched₁) (k0 : 7 ≤ sched₁.count 0) (k2 : 7 ≤ sched₂.count 1) (k5 : 7 ≤ sched₅.count 0) (lost : Nat → Nat → Bool) :
    ∃ y₁ y₂ y₃ y₄ y₅ oW oS oR,
      let off := fun (s : (Nat × Disk) × Disk) => let d : Disk := fun k a => if lost k a then s.2 k a else s.1.2 k a; (((0, d), d) : (Nat × Disk) × Disk)
      (Host.start ((0, d), d') storeShared []).run demoKernel3 (fun _ _ => 0) (cachedDevice cap works part) (storeTrio sg) sched₁ = .ok y₁ ∧
      y₁.run demoKernel3 (fun _ _ => 0) (cachedDevice cap works part) (storeTrio sg) sched₂ = .ok y₂ ∧
      y₂.run demoKernel3 (fun _ _ => 0) (cachedDevice cap works part) (storeTrio sg) sched₃ = .ok y₃ ∧
      (Host.start (off y₃.dev) loadShared []).run demoKernel3 (fun _ _ => 0) (cachedDevice cap works part) (loadTrio sg') sched₄ = .ok y₄ ∧
      (Host.start (off y₄.dev) loadShared []).run demoKernel3 (fun _ _ => 0) (cachedDevice cap works part) (loadTrio sg') sched₅ = .ok y₅ ∧
      y₁.phase 0 = .done oW ∧ y₂.phase 1 = .done oS ∧ y₅.phase 0 = .done oR ∧
      (oW.result = 0 → oS.result = 0 → oR.result = 0 → oR.sg = sg 0) ∧
      (∀ o o', y₂.phase 2 = .done o → o.result = 0 → y₅.phase 1 = .done o' → o'.result = 0 → o'.sg = sg 2) := by
  have hD : Disjoint (storeTrio sg) storeShared := storeTrio_disjoint sg (by
    intro i
    match i with
    | 0 => exact ⟨fun _ => by omega, by omega⟩
    | 1 => exact ⟨fun h => absurd rfl h, by omega⟩
    | 2 => exact ⟨fun _ => by omega, by omega⟩)
  have hD' := loadTrio_disjoint sg' l'
  have hH := cached_device cap works part
  have hop : ∀ i page, steady (storeTrio sg i).cdb page := fun i => steady_of (storeBlocks_plain i).2
  have hop' : ∀ i page, steady (loadTrio sg' i).cdb page := fun i => steady_of (loadBlocks_plain i).2
  have run := fun sched => C106_defined demoKernel3 demoKernel3_good (fun _ _ => 0) _ _ hH.toLossy (storeTrio sg) storeShared hD hop
    ((0, d), d') [] sched
  have run' := fun s sched => C106_defined demoKernel3 demoKernel3_good (fun _ _ => 0) _ _ hH.toLossy (loadTrio sg') loadShared hD' hop' s [] sched
  obtain ⟨y1, e1⟩ := run sched₁
  obtain ⟨y2, e2⟩ := run (sched₁ ++ sched₂)
  obtain ⟨y3, e3⟩ := run (sched₁ ++ sched₂ ++ sched₃)
  let off := fun (s : (Nat × Disk) × Disk) => let d : Disk := fun k a => if lost k a then s.2 k a else s.1.2 k a; (((0, d), d) : (Nat × Disk) × Disk)
  have hoff : ∀ s, Outage (fun s : (Nat × Disk) × Disk => s.1.2) (fun s => s.2) s (off s) := by
    intro s
    refine ⟨fun k a => ?_, rfl⟩
    change (if lost k a then s.2 k a else s.1.2 k a) = _ ∨ (if lost k a then s.2 k a else s.1.2 k a) = _
    split
    · exact .inl rfl
    · exact .inr rfl
  obtain ⟨y4, e4⟩ := run' (off y3.dev) sched₄
  obtain ⟨y5, e5⟩ := run' (off y4.dev) sched₅
  obtain ⟨oW, p1⟩ := C101_wait_free _ _ _ _ _ _ _ _ _ e1 0 k0
  obtain ⟨oS, p2⟩ := C101_wait_free _ _ _ _ _ _ _ _ _ e2 1 (by rw [List.count_append]; omega)
  obtain ⟨oR, p5⟩ := C101_wait_free _ _ _ _ _ _ _ _ _ e5 0 k5
  have e3' := e3
  rw [Host_run_append, e2] at e3'
  have e2' := e2
  rw [Host_run_append, e1] at e2'
  have hc : y1.phase 1 = .queued := host_unscheduled _ _ _ _ 1 _ _ _ e1 k1
  obtain ⟨aW, aF⟩ := storeTrio_asks sg (by omega) (by omega)
  obtain ⟨aR, aR', -⟩ := loadTrio_asks sg' l'
  have lv := storeTrio_leave sg (by omega) (by omega)
  have lv' := loadTrio_leave sg' l'
  have tail : ∀ (bs : List Byte) i, bs.length = 8192 → bs.take (4096 * 2) ++ (loadTrio sg' i).cmd.sg.drop (4096 * 2) = bs := by
    intro bs i hb
    rw [List.take_of_length_le (by omega), List.drop_of_length_le (by have := l' i; change (sg' i).length ≤ _; omega), List.append_nil]
  refine ⟨y1, y2, y3, y4, y5, oW, oS, oR, e1, e2', e3', e4, e5, p1, p2, p5, fun g1 g2 g5 => ?_, fun o o' p3 g3 p6 g6 => ?_⟩
  · have := (C123_module_synchronized demoKernel3 demoKernel3_good (fun _ _ => 0) _ _ _ hH (storeTrio sg) storeShared hD ((0, d), d') [] []
      sched₁ sched₂ sched₃ _ y1 y2 y3 rfl e1 e2' e3' 0 1 oW oS (.inl rfl) p1 g1 (.inl hc) p2 g2 9 2
      (by decide : isWrite (byte (storeBlocks 0) 0)) aW (by decide : byte (storeBlocks 1) 0 = 0x35) rfl (fun j hj => .inr ((lv j).1 hj))
      (off y4.dev) (.again (.one (hoff y3.dev)) hD' (fun i => (lv' i).1) e4 (hoff y4.dev))
      (loadTrio sg') loadShared hD' (fun i => (lv' i).1) [] sched₅ y5 e5 0 oR p5 g5 (by decide : isRead (byte (loadBlocks 0) 0)) aR rfl).1
    exact this.trans (tail (sg 0) 0 l0)
  · have := (C123_module_forced demoKernel3 demoKernel3_good (fun _ _ => 0) _ _ _ hH (storeTrio sg) storeShared hD ((0, d), d') [] []
      (sched₁ ++ sched₂) sched₃ _ y2 y3 rfl e2 e3' 2 o (.inl rfl) p3 g3 20 2
      (by decide : isWrite (byte (storeBlocks 2) 0)) aF storeCalls_asks.2.2 (fun j hj => .inr ((lv j).2 hj))
      (off y4.dev) (.again (.one (hoff y3.dev)) hD' (fun i => (lv' i).2) e4 (hoff y4.dev))
      (loadTrio sg') loadShared hD' (fun i => (lv' i).2) [] sched₅ y5 e5 1 o' p6 g6 (by decide : isRead (byte (loadBlocks 1) 0)) aR' rfl).1
    exact this.trans (tail (sg 2) 1 l2)

end Scsi2Nvme
