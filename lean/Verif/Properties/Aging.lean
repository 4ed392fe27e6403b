import Verif.Spec.Aging
import Verif.Properties.ModuleCache
/-!
# C124: what is on the disk after a power failure is not older than the last SYNCHRONIZE CACHE
-/

namespace Scsi2Nvme
open Spec Engine Driver

variable {ι σ β : Type}

/-! ## Bytes and their origin -/

theorem Disk.write_at {d : Disk} {k pos k' a : Nat} {bs : List Byte} :
    d.write k pos bs k' a = d k' a ∨ (k' = k ∧ inRange pos bs.length a ∧ bs[a - pos]? = some (d.write k pos bs k' a)) := by
  unfold Disk.write
  split
  · rename_i h
    refine .inr ⟨h.1, ⟨h.2.1, h.2.2⟩, ?_⟩
    rw [List.getD_eq_getElem?_getD, List.getElem?_eq_getElem (by omega)]
    rfl
  · exact .inl rfl

/-- Each byte is what it was, or some call carries it. -/
theorem Spec.TrustedAll.origin {q : ι → Request} {resp : ι → ScsiToNvmeResponse} {m m0 : Mem} {L : List ι} {d d' : Disk}
    (hm : ∀ i, (q i).mem = m0) (h : TrustedAll q resp m d L d') (k a : Nat) :
    d' k a = d k a ∨ ∃ i ∈ L, (q i).carries m0 k a (d' k a) := by
  induction h with
  | nil => exact .inl rfl
  | @cons d i d1 is d2 h1 h2 ih =>
    rcases ih with e | ⟨j, hj, hc⟩
    · rw [e]
      have key : d1 k a = d k a ∨ (q i).carries m0 k a (d1 k a) := by
        cases h1 with
        | read | unread | other => exact .inl rfl
        | torn op bad h => rw [← hm i]; exact h k a
        | @write l n bs op ha good data =>
          refine Disk.write_at.imp_right ?_
          rintro ⟨e1, e2, e3⟩
          obtain ⟨g1, g2⟩ := read_eq_some.mp data
          rw [g1] at e2
          refine ⟨l, n, op, ha, e1, e2, ?_⟩
          rw [← e3, ← hm i]
          exact g2 _ (by unfold inRange at e2; omega)
      exact key.imp_right fun h => ⟨i, List.mem_cons_self .., h⟩
    · exact .inr ⟨j, List.mem_cons_of_mem _ hj, hc⟩

/-! ## What is stored -/

/-- Each byte of the blocks which is stored is what commands saw of it at some moment of `past`. -/
def Recent (disks stable : σ → Disk) (past : σ → Prop) (l lba n : Nat) (s : σ) : Prop :=
  ∀ a, inRange (4096 * lba) (4096 * n) a → ∃ x, past x ∧ stable s (l + 1) a = disks x (l + 1) a

theorem Recent.step [DecidableEq ι] {E : Env} {D : Device σ} {disks stable : σ → Disk} (hD : WriteBack D disks stable) {past : σ → Prop}
    {q : ι → Request} {l lba n : Nat} {y y' : Sys ι σ} {i : ι} (h0 : past y.dev) (h1 : past y'.dev)
    (hs : Recent disks stable past l lba n y.dev) (h : Stepped E D q y i y') : Recent disks stable past l lba n y'.dev := by
  cases h with
  | begin h => exact hs
  | complete h => exact hs
  | returned _ => exact hs
  | @submit r t wr todo cs h =>
    intro a ha
    rcases hD.ages y.dev y.world.mem (submissionOf wr) (submitted_coherent wr) (l + 1) a with e | e | e
    · obtain ⟨x, p1, p2⟩ := hs a ha
      exact ⟨x, p1, by rw [← p2]; exact e⟩
    · exact ⟨_, h0, e⟩
    · exact ⟨_, h1, e⟩

/-- Where the storing call is. -/
def Renewed (disks stable : σ → Disk) (past : σ → Prop) (l lba n : Nat) (s : σ) : Phase → Prop
  | .called => True
  | .waiting _ t todo cs => todo = [] → Accepted t → (∀ c ∈ cs, cplOk c) → Recent disks stable past l lba n s
  | .returned r => r.return_code = 0 → Recent disks stable past l lba n s

/-- The command of the call has been executed, if there is one. -/
def Executed : Phase → Prop
  | .called => False
  | .waiting _ _ todo _ => todo = []
  | .returned _ => True

theorem Renewed.step [DecidableEq ι] {E : Env} {D : Device σ} {disks stable : σ → Disk} (hD : WriteBack D disks stable) {past : σ → Prop}
    {q : ι → Request} {own} {l lba n : Nat} {y y' : Sys ι σ} {i X : ι} (h0 : Executed (y.phase X) → past y.dev)
    (h1 : Executed (y'.phase X) → past y'.dev) (hq : (q i).Fair) (hI : Inv E q own y) (hX : Storing (q X) l lba n) (hP : Renewed disks stable past l lba n y.dev (y.phase X))
    (h : Stepped E D q y i y') : Renewed disks stable past l lba n y'.dev (y'.phase X) := by
  by_cases e : X = i
  · subst e
    cases h with
    | @begin r t w1 hp hB =>
      rw [Sys.to_self]
      split
      · exact fun h => absurd h (by decide)
      · intro h1 h2
        obtain ⟨wr, hc, -⟩ := storing_command hq hX hB h2
        rw [hc] at h1; cases h1
    | returned hp => exact hP
    | @complete r t cs c t2 w3 hp hc =>
      obtain ⟨w, w1, hb⟩ := hI.waiting X r t _ cs hp
      rw [hp] at hP
      rw [Sys.to_self]
      intro h0
      obtain ⟨h1, h2⟩ := answer_good (began_wf hb.began) hc h0
      exact hP rfl h1 h2
    | @submit r t wr todo cs hp =>
      obtain ⟨w, w1, hb⟩ := hI.waiting X r t _ cs hp
      obtain ⟨done, hd1, -⟩ := hb.progress
      rw [Sys.to_self] at h1 ⊢
      intro h4 h2 h3 a ha
      refine ⟨_, h1 h4, ?_⟩
      obtain ⟨wr', hc, had, hk⟩ := storing_command hq hX hb.began h2
      have : wr = wr' := by
        have : wr ∈ t.GetNvmeWrappers := by rw [hd1]; simp
        rw [hc] at this
        exact List.mem_singleton.mp this
      subst this
      have hok := h3 (D y.dev y.world.mem (submissionOf wr)).2.2 (by simp)
      rcases hk with ⟨k1, k2⟩ | ⟨k1, k2⟩
      · have := hD.flush y.dev y.world.mem (submissionOf wr) had k1 hok a
        change stable _ (leAt wr.cmd.toBytes 4 4) a = disks _ (leAt wr.cmd.toBytes 4 4) a at this
        rw [k2] at this
        exact this
      · exact hD.fua y.dev y.world.mem (submissionOf wr) (submitted_coherent wr) had k1 hok _ a (k2 a ha)
  · have hph : y'.phase X = y.phase X := by
      cases h with
      | begin h => exact Sys.to_other y e _ _ _
      | submit h => exact Sys.to_other y e _ _ _
      | complete h => exact Sys.to_other y e _ _ _
      | returned _ => rfl
    rw [hph] at h1 ⊢
    have key := fun (he : Executed (y.phase X)) (hs : Recent disks stable past l lba n y.dev) => Recent.step hD (h0 he) (h1 he) hs h
    cases hx : y.phase X with
    | called => trivial
    | waiting r t todo cs =>
      rw [hx] at hP
      exact fun h1 h2 h3 => key (by rw [hx]; exact h1) (hP h1 h2 h3)
    | returned r =>
      rw [hx] at hP
      exact fun h => key (by rw [hx]; trivial) (hP h)

theorem Renewed.run [DecidableEq ι] {E : Env} {D : Device σ} {disks stable : σ → Disk} (hD : WriteBack D disks stable) (hg : GoodAllocator E)
    {q : ι → Request} {m0 : Mem} (hq : Separate q m0) {past : σ → Prop} {l lba n : Nat} {X : ι} (hX : Storing (q X) l lba n)
    (sched : List ι) {own} {y y' : Sys ι σ} (hI : Inv E q own y)
    (hpast : ∀ s1 s2 x, sched = s1 ++ s2 → y.run E D q s1 = .ok x → Executed (x.phase X) → past x.dev)
    (hP : Renewed disks stable past l lba n y.dev (y.phase X)) (h : y.run E D q sched = .ok y') :
    Renewed disks stable past l lba n y'.dev (y'.phase X) := by
  induction sched generalizing own y with
  | nil => cases h; exact hP
  | cons i is ih =>
    have h := h
    unfold Sys.run at h
    split at h
    · cases h
    · rename_i y1 e
      have hs := stepped_of hI (hq.fair i).short e
      obtain ⟨own1, hI1, -⟩ := hI.move (hD.toLossy.tame hg) hg hq hs
      have p0 := hpast [] (i :: is) y rfl rfl
      have step1 : ∀ s1, y.run E D q (i :: s1) = y1.run E D q s1 := fun s1 => by
        rw [Sys.run]
        simp only [e]
      have p1 := hpast [i] is y1 rfl (by rw [step1]; rfl)
      exact ih hI1 (fun s1 s2 x e1 e2 => hpast (i :: s1) s2 x (by rw [e1]; rfl) (by rw [step1]; exact e2))
        (Renewed.step hD p0 p1 (hq.fair i) hI hX hP hs) h

/-- A moment between two others. -/
theorem moments [DecidableEq ι] {E : Env} {D : Device σ} {q : ι → Request} {y y' : Sys ι σ} {sched : List ι}
    (h : y.run E D q sched = .ok y') {s1 s2 : List ι} (e : sched = s1 ++ s2) {x} (hx : y.run E D q s1 = .ok x) : x.run E D q s2 = .ok y' := by
  rw [e, Sys_run_append, hx] at h
  exact h

/-- **C124 (SYNCHRONIZE CACHE).** A device with a volatile write cache, which may fail any command.  Let a SYNCHRONIZE CACHE(10) begin after
the moment `y₁` and return GOOD.  Whatever calls there are besides (also such as write the same blocks at the same time) and however they are
interleaved: if the power fails at any moment `y₂` after that, each byte of the LUN which is left is what commands saw of it at some moment
between `y₁` and `y₂`. -/
theorem C124_recent [DecidableEq ι] (E : Env) (D : Device σ) (disks stable : σ → Disk) (hg : GoodAllocator E)
    (hD : WriteBack D disks stable) (q : ι → Request) (m : Mem) (hq : Separate q m) (s : σ) (tr : List Event)
    (sched₁ sched₂ : List ι) (y₁ y₂ : Sys ι σ) (h₁ : (Sys.start s m tr).run E D q sched₁ = .ok y₁) (h₂ : y₁.run E D q sched₂ = .ok y₂)
    (S : ι) (r : ScsiToNvmeResponse) (hSc : y₁.phase S = .called) (hSr : y₂.phase S = .returned r) (good : r.return_code = 0)
    (hS : byte (q S).cdb 0 = 0x35) (hl : (q S).lun.toNat + 1 < 2 ^ 32) (a : Nat) :
    ∃ before after y, sched₂ = before ++ after ∧ y₁.run E D q before = .ok y ∧ y.run E D q after = .ok y₂ ∧
      stable y₂.dev ((q S).lun.toNat + 1) a = disks y.dev ((q S).lun.toNat + 1) a := by
  obtain ⟨L, own, hI, -⟩ := Faith.run hD.toHonest hg hq sched₁ (Inv.start hq s tr) (Faith.start disks hq s tr) h₁
  have hX : Storing (q S) (q S).lun.toNat 0 (a + 1) := ⟨rfl, hl, .inl hS⟩
  have hP := Renewed.run hD hg hq (past := fun d => ∃ s1 s2 x, sched₂ = s1 ++ s2 ∧ y₁.run E D q s1 = .ok x ∧ x.dev = d) hX sched₂ hI
    (fun s1 s2 x e1 e2 _ => ⟨s1, s2, x, e1, e2, rfl⟩) (by rw [hSc]; trivial) h₂
  rw [hSr] at hP
  obtain ⟨d, ⟨s1, s2, x, e1, e2, rfl⟩, h⟩ := hP good a ⟨by omega, by omega⟩
  exact ⟨s1, s2, x, e1, e2, moments h₂ e1 e2, h⟩

/-- The bytes stored by a WRITE with FUA are from a moment after its command was executed. -/
theorem recent_executed [DecidableEq ι] (E : Env) (D : Device σ) (disks stable : σ → Disk) (hg : GoodAllocator E)
    (hD : WriteBack D disks stable) (q : ι → Request) (m : Mem) (hq : Separate q m) (s : σ) (tr : List Event)
    (sched₁ sched₂ : List ι) (y₁ y₂ : Sys ι σ) (h₁ : (Sys.start s m tr).run E D q sched₁ = .ok y₁) (h₂ : y₁.run E D q sched₂ = .ok y₂)
    (W : ι) (r : ScsiToNvmeResponse) (hWc : y₁.phase W = .called) (hWr : y₂.phase W = .returned r) (good : r.return_code = 0)
    (lba n : Nat) (hW : isWrite (byte (q W).cdb 0)) (hWa : (q W).asks (lba + n) lba n) (hfua : asksFua (q W).cdb)
    (a : Nat) (ha : inRange (4096 * lba) (4096 * n) a) :
    ∃ before after y, sched₂ = before ++ after ∧ y₁.run E D q before = .ok y ∧ y.run E D q after = .ok y₂ ∧
      Executed (y.phase W) ∧       stable y₂.dev ((q W).lun.toNat + 1) a = disks y.dev ((q W).lun.toNat + 1) a := by
  obtain ⟨L, own, hI, -⟩ := Faith.run hD.toHonest hg hq sched₁ (Inv.start hq s tr) (Faith.start disks hq s tr) h₁
  have hX : Storing (q W) (q W).lun.toNat lba n := ⟨rfl, ((hq.fair W).rw (.inr hW)).lun, .inr ⟨hW, hWa, hfua⟩⟩
  have hP := Renewed.run hD hg hq (past := fun d => ∃ s1 s2 x, sched₂ = s1 ++ s2 ∧ y₁.run E D q s1 = .ok x ∧ x.dev = d ∧
    Executed (x.phase W)) hX sched₂ hI
    (fun s1 s2 x e1 e2 e3 => ⟨s1, s2, x, e1, e2, rfl, e3⟩) (by rw [hWc]; trivial) h₂
  rw [hWr] at hP
  obtain ⟨d, ⟨s1, s2, x, e1, e2, rfl, e3⟩, h⟩ := hP good a ha
  exact ⟨s1, s2, x, e1, e2, moments h₂ e1 e2, e3, h⟩

/-- **C124 (FUA).** The same for the bytes written by a WRITE with FUA which returns GOOD. -/
theorem C124_recent_forced [DecidableEq ι] (E : Env) (D : Device σ) (disks stable : σ → Disk) (hg : GoodAllocator E)
    (hD : WriteBack D disks stable) (q : ι → Request) (m : Mem) (hq : Separate q m) (s : σ) (tr : List Event)
    (sched₁ sched₂ : List ι) (y₁ y₂ : Sys ι σ) (h₁ : (Sys.start s m tr).run E D q sched₁ = .ok y₁) (h₂ : y₁.run E D q sched₂ = .ok y₂)
    (W : ι) (r : ScsiToNvmeResponse) (hWc : y₁.phase W = .called) (hWr : y₂.phase W = .returned r) (good : r.return_code = 0)
    (lba n : Nat) (hW : isWrite (byte (q W).cdb 0)) (hWa : (q W).asks (lba + n) lba n) (hfua : asksFua (q W).cdb)
    (a : Nat) (ha : inRange (4096 * lba) (4096 * n) a) :
    ∃ before after y, sched₂ = before ++ after ∧ y₁.run E D q before = .ok y ∧ y.run E D q after = .ok y₂ ∧
      stable y₂.dev ((q W).lun.toNat + 1) a = disks y.dev ((q W).lun.toNat + 1) a := by
  obtain ⟨s1, s2, y, e1, e2, e3, -, e4⟩ := recent_executed E D disks stable hg hD q m hq s tr sched₁ sched₂ y₁ y₂ h₁ h₂ W r hWc hWr good lba n
    hW hWa hfua a ha
  exact ⟨s1, s2, y, e1, e2, e3, e4⟩

/-- What a byte of the blocks is after a WRITE was executed which then returns GOOD: its data, or what another WRITE carries which had not
returned when the first one began. -/
theorem written_or_later [DecidableEq ι] (E : Env) (D : Device σ) (disks : σ → Disk) (hg : GoodAllocator E) (hD : Honest D disks)
    (q : ι → Request) (m : Mem) (hq : Separate q m) (s : σ) (tr : List Event) (sched₀ sched₁ sched₂ : List ι) (y₀ y₁ y₂ : Sys ι σ)
    (h₀ : (Sys.start s m tr).run E D q sched₀ = .ok y₀) (h₁ : y₀.run E D q sched₁ = .ok y₁) (h₂ : y₁.run E D q sched₂ = .ok y₂)
    (W : ι) (r : ScsiToNvmeResponse) (hc : y₀.phase W = .called) (hx : Executed (y₁.phase W)) (hr : y₂.phase W = .returned r)
    (good : r.return_code = 0)
    (lba n : Nat) (hW : isWrite (byte (q W).cdb 0)) (hWa : (q W).asks (lba + n) lba n) (a : Nat) (ha : inRange (4096 * lba) (4096 * n) a) :
    m ((q W).data + (a - 4096 * lba)) = some (disks y₁.dev ((q W).lun.toNat + 1) a) ∨
      ∃ j, j ≠ W ∧ (∀ rj, y₀.phase j ≠ .returned rj) ∧
        (q j).carries m (q W).lun.toNat a (disks y₁.dev ((q W).lun.toNat + 1) a) := by
  obtain ⟨L0, own0, hI0, hL0, -⟩ := Faith.run hD hg hq sched₀ (Inv.start hq s tr) (Faith.start disks hq s tr) h₀
  rw [List.nil_append] at hL0
  obtain ⟨L1, own1, hI1, hL1, b1⟩ := Faith.run hD hg hq sched₁ hI0 hL0 h₁
  obtain ⟨L2, own2, hI2, hL2, b2⟩ := Faith.run hD hg hq sched₂ hI1 hL1 h₂
  have hex : ∀ i, ∃ r, agrees (q i) r (y₂.phase i) := fun i => agrees_exists _ _
  have hr2 : ∀ i, agrees (q i) ((fun i => Classical.choose (hex i)) i) (y₂.phase i) := fun i => Classical.choose_spec (hex i)
  generalize (fun i => Classical.choose (hex i)) = resp at hr2
  have t1 := hL1.seq resp (b2 _ hr2)
  have hresp : resp W = r := by
    have h := hr2 W
    rw [hr] at h
    exact h
  have hin : W ∈ L0 ++ L1 := by
    refine (hL1.mem W).mpr ?_
    cases hp : y₁.phase W with
    | called => rw [hp] at hx; exact hx
    | waiting r t todo cs => rw [hp] at hx; exact fun _ => hx
    | returned r => trivial
  have hin1 : W ∈ L1 := by
    rcases List.mem_append.mp hin with h | h
    · have := (hL0.mem W).mp h
      rw [hc] at this
      exact this.elim
    · exact h
  obtain ⟨A, B, rfl⟩ := List.append_of_mem hin1
  have hnd := hL1.nodup
  rw [show L0 ++ (A ++ W :: B) = (L0 ++ A ++ [W]) ++ B by simp] at t1 hnd
  obtain ⟨d1, t2, t3⟩ := t1.split
  rw [show L0 ++ A ++ [W] = (L0 ++ A) ++ W :: [] by simp] at t2
  have h5 := t2.written hW hWa (by rw [hresp]; exact good) (fun j hj => by cases hj)
  rw [List.nodup_append] at hnd
  rcases t3.origin hq.mem (q W).lun.toNat a with e | ⟨j, hj, hcar⟩
  · refine .inl ?_
    change disks y₁.dev ((q W).lun.toNat + 1) a = d1 (q W).lun.toNat a at e
    rw [e]
    obtain ⟨g1, g2⟩ := read_eq_some.mp h5
    rw [hq.mem W] at g2
    have hk : a - 4096 * lba < 4096 * n := by unfold inRange at ha; omega
    rw [g2 _ hk]
    unfold Disk.read
    rw [List.getElem?_map, List.getElem?_range hk, Option.map_some, show 4096 * lba + (a - 4096 * lba) = a by unfold inRange at ha; omega]
  · refine .inr ⟨j, ?_, fun rj hj0 => ?_, hcar⟩
    · intro e
      subst e
      exact hnd.2.2 j (by simp) j hj rfl
    · have := (hL0.mem j).mpr (by rw [hj0]; trivial)
      exact hnd.2.2 j (by simp [this]) j hj rfl

/-- **C124 (data).** Let a WRITE begin after the moment `y₀` and have returned GOOD at the moment `y₁`, and let a SYNCHRONIZE CACHE(10) for the
same LUN begin after `y₁` and have returned GOOD at the moment `y₂`.  If the power fails then, each byte of the blocks is a byte of the data of the WRITE, or
of another WRITE which had not returned at `y₀`, so was made at the same time or later.  (No assumption is made about the other calls.) -/
theorem C124_data [DecidableEq ι] (E : Env) (D : Device σ) (disks stable : σ → Disk) (hg : GoodAllocator E)
    (hD : WriteBack D disks stable) (q : ι → Request) (m : Mem) (hq : Separate q m) (s : σ) (tr : List Event)
    (sched₀ sched₁ sched₂ : List ι) (y₀ y₁ y₂ : Sys ι σ)
    (h₀ : (Sys.start s m tr).run E D q sched₀ = .ok y₀) (h₁ : y₀.run E D q sched₁ = .ok y₁) (h₂ : y₁.run E D q sched₂ = .ok y₂)
    (W S : ι) (rW rS : ScsiToNvmeResponse) (hWc : y₀.phase W = .called) (hWr : y₁.phase W = .returned rW) (goodW : rW.return_code = 0)
    (hSc : y₁.phase S = .called) (hSr : y₂.phase S = .returned rS) (goodS : rS.return_code = 0)
    (lba n : Nat) (hW : isWrite (byte (q W).cdb 0)) (hWa : (q W).asks (lba + n) lba n)
    (hS : byte (q S).cdb 0 = 0x35) (hlun : (q S).lun = (q W).lun) (a : Nat) (ha : inRange (4096 * lba) (4096 * n) a) :
    m ((q W).data + (a - 4096 * lba)) = some (stable y₂.dev ((q W).lun.toNat + 1) a) ∨
      ∃ j, j ≠ W ∧ (∀ rj, y₀.phase j ≠ .returned rj) ∧
        (q j).carries m (q W).lun.toNat a (stable y₂.dev ((q W).lun.toNat + 1) a) := by
  have hv := (hq.fair W).rw (.inr hW)
  have h01 : (Sys.start s m tr).run E D q (sched₀ ++ sched₁) = .ok y₁ := by rw [Sys_run_append, h₀]; exact h₁
  obtain ⟨s1, s2, y, -, e2, -, e4⟩ := C124_recent E D disks stable hg hD q m hq s tr (sched₀ ++ sched₁) sched₂ y₁ y₂ h01 h₂ S rS hSc hSr goodS hS
    (by rw [hlun]; exact hv.lun) a
  rw [hlun] at e4
  rw [e4]
  have hy := returned_run _ hWr e2
  exact written_or_later E D disks hg hD.toHonest q m hq s tr sched₀ (sched₁ ++ s1) [] y₀ y y h₀ (by rw [Sys_run_append, h₁]; exact e2) rfl W rW
    hWc (by rw [hy]; trivial) hy goodW lba n hW hWa a ha

/-- **C124 (data, FUA).** … and so it is for a WRITE with FUA as soon as it has returned GOOD, without SYNCHRONIZE CACHE. -/
theorem C124_data_forced [DecidableEq ι] (E : Env) (D : Device σ) (disks stable : σ → Disk) (hg : GoodAllocator E)
    (hD : WriteBack D disks stable) (q : ι → Request) (m : Mem) (hq : Separate q m) (s : σ) (tr : List Event)
    (sched₀ sched₁ : List ι) (y₀ y₁ : Sys ι σ) (h₀ : (Sys.start s m tr).run E D q sched₀ = .ok y₀) (h₁ : y₀.run E D q sched₁ = .ok y₁)
    (W : ι) (r : ScsiToNvmeResponse) (hWc : y₀.phase W = .called) (hWr : y₁.phase W = .returned r) (good : r.return_code = 0)
    (lba n : Nat) (hW : isWrite (byte (q W).cdb 0)) (hWa : (q W).asks (lba + n) lba n) (hfua : asksFua (q W).cdb)
    (a : Nat) (ha : inRange (4096 * lba) (4096 * n) a) :
    m ((q W).data + (a - 4096 * lba)) = some (stable y₁.dev ((q W).lun.toNat + 1) a) ∨
      ∃ j, j ≠ W ∧ (∀ rj, y₀.phase j ≠ .returned rj) ∧
        (q j).carries m (q W).lun.toNat a (stable y₁.dev ((q W).lun.toNat + 1) a) := by
  obtain ⟨s1, s2, y, -, e2, e3, e4, e5⟩ := recent_executed E D disks stable hg hD q m hq s tr sched₀ sched₁ y₀ y₁ h₀ h₁ W r hWc hWr good lba n
    hW hWa hfua a ha
  rw [e5]
  exact written_or_later E D disks hg hD.toHonest q m hq s tr sched₀ s1 s2 y₀ y y₁ h₀ e2 e3 W r hWc e4 hWr good lba n hW hWa a ha

/-! ## The kernel module -/

/-- Where the storing command is. -/
def HRenewed (disks stable : σ → Disk) (past : σ → Prop) (l lba n : Nat) (s : σ) : Module.Phase → Prop
  | .queued => True
  | .engine _ ph => Renewed disks stable past l lba n s ph
  | .done o => o.result = 0 → Recent disks stable past l lba n s

/-- The NVMe command has been executed, if there is one. -/
def HExecuted : Module.Phase → Prop
  | .queued => False
  | .engine _ ph => Executed ph
  | .done _ => True

theorem Recent.renewed {disks stable : σ → Disk} {past : σ → Prop} {l lba n : Nat} {s s' : σ} {ph : Module.Phase}
    (h : HExecuted ph → Recent disks stable past l lba n s → Recent disks stable past l lba n s') (hP : HRenewed disks stable past l lba n s ph) :
    HRenewed disks stable past l lba n s' ph := by
  cases ph with
  | queued => trivial
  | done o => exact fun h0 => h trivial (hP h0)
  | engine b ph =>
    cases ph with
    | called => trivial
    | waiting r t todo cs => exact fun h1 h2 h3 => h h1 (hP h1 h2 h3)
    | returned r => exact fun h0 => h trivial (hP h0)

theorem HRenewed.step [DecidableEq ι] {K : Module.Kernel} {junk : World → Nat → Byte} {D : Device σ}
    {disks stable : σ → Disk} (hD : WriteBack D disks stable) {past : σ → Prop} {c : ι → Command} {own} {l lba n : Nat} {y y' : Host ι σ}
    {i X : ι} (p0 : HExecuted (y.phase X) → past y.dev) (p1 : HExecuted (y'.phase X) → past y'.dev) (hq : (c i).Fair) (hI : HInv K junk c own y) (hX : HStoring (c X) l lba n)
    (hP : HRenewed disks stable past l lba n y.dev (y.phase X)) (h : HStepped K junk D c y i y') :
    HRenewed disks stable past l lba n y'.dev (y'.phase X) := by
  have idle : ∀ (w : World) (ph : Module.Phase), (X = i → HRenewed disks stable past l lba n y.dev ph) →
      HRenewed disks stable past l lba n y.dev ((y.to i y.dev w ph).phase X) := by
    intro w ph h
    by_cases e : X = i
    · subst e; rw [Host.to_self]; exact h rfl
    · rw [Host.to_other y e]; exact hP
  have ret : ∀ b r, y.phase i = .engine b (.returned r) → X = i → r.return_code = 0 → Recent disks stable past l lba n y.dev := by
    intro b r hp e
    subst e
    rw [hp] at hP
    exact hP
  cases h with
  | empty h => exact idle _ _ fun _ => trivial
  | refused h => exact idle _ _ fun _ h0 => absurd h0 (show ¬ (23 : Nat) = 0 by decide)
  | granted h => exact idle _ _ fun _ => trivial
  | finished h => exact idle _ _ fun e h0 => ret _ _ h e h0
  | copied h => exact idle _ _ fun e h0 => ret _ _ h e h0
  | freed h => exact idle _ _ fun e h0 => ret _ _ h e h0
  | done _ => exact hP
  | @engine b ph hph hr y1 hst =>
    have hv : y.reqs c i = viewReq (c i) b (Module.dataLen (c i).cmd) := by unfold Host.reqs; rw [hph]; rfl
    have hvp : y.view.phase i = ph := by change viewPh (y.phase i) = _; rw [hph]; rfl
    have hf : (y.reqs c i).Fair := by
      rw [hv]
      exact viewReq_fair hq (hI.buf i b ph hph).1 fun a ha => (hI.buf i b ph hph).2 a (.inl ha)
    by_cases e : X = i
    · subst e
      have hX' : Storing (y.reqs c X) l lba n := by
        rw [hv]
        refine ⟨hX.1, hX.2.1, hX.2.2.imp_right fun ⟨h1, h2, h3⟩ => ⟨h1, (view_asks (hq.rw (.inr h1)).2).mpr h2, h3⟩⟩
      have hP' : Renewed disks stable past l lba n y.view.dev (y.view.phase X) := by
        rw [hvp]
        rw [hph] at hP
        exact hP
      rw [Host.to_self] at p1 ⊢
      rw [hph] at p0
      exact Renewed.step hD (y := y.view) (by rw [hvp]; exact p0) p1 hf hI.inv hX' hP' hst
    · rw [Host.to_other y e] at p1 ⊢
      exact Recent.renewed (fun he hs => Recent.step (y := y.view) hD (p0 he) (p1 he) hs hst) hP

theorem HRenewed.run [DecidableEq ι] {K : Module.Kernel} (hK : GoodKernel K) {junk : World → Nat → Byte} {D : Device σ}
    {disks stable : σ → Disk} (hD : WriteBack D disks stable) {past : σ → Prop} {c : ι → Command} (hc : ∀ i, (c i).Fair) {l lba n : Nat}
    {X : ι} (hX : HStoring (c X) l lba n) (sched : List ι) {own} {y y' : Host ι σ} (hI : HInv K junk c own y)
    (hpast : ∀ s1 s2 x, sched = s1 ++ s2 → y.run K junk D c s1 = .ok x → HExecuted (x.phase X) → past x.dev)
    (hP : HRenewed disks stable past l lba n y.dev (y.phase X)) (h : y.run K junk D c sched = .ok y') :
    HRenewed disks stable past l lba n y'.dev (y'.phase X) := by
  induction sched generalizing own y with
  | nil => cases h; exact hP
  | cons i is ih =>
    have h := h
    unfold Host.run at h
    split at h
    · cases h
    · rename_i y1 e
      have hs := hstepped_of hI (hc i) e
      obtain ⟨own1, hI1, -⟩ := hI.step hK (hD.toLossy.tame (C72_util K hK junk).1) (hc i) hs
      have p0 := hpast [] (i :: is) y rfl rfl
      have step1 : ∀ s1, y.run K junk D c (i :: s1) = y1.run K junk D c s1 := fun s1 => by
        rw [Host.run]
        simp only [e]
      have p1 := hpast [i] is y1 rfl (by rw [step1]; rfl)
      exact ih hI1 (fun s1 s2 x e1 e2 => hpast (i :: s1) s2 x (by rw [e1]; rfl) (by rw [step1]; exact e2))
        (HRenewed.step hD p0 p1 (hc i) hI hX hP hs) h

theorem hmoments [DecidableEq ι] {K : Module.Kernel} {junk : World → Nat → Byte} {D : Device σ} {c : ι → Command} {y y' : Host ι σ}
    {sched : List ι} (h : y.run K junk D c sched = .ok y') {s1 s2 : List ι} (e : sched = s1 ++ s2) {x}
    (hx : y.run K junk D c s1 = .ok x) : x.run K junk D c s2 = .ok y' := by
  rw [e, Host_run_append, hx] at h
  exact h

/-- Each byte is what it was, or some command carries it. -/
theorem Spec.ReliedAll.origin {c : ι → Command} {out : ι → Module.Outcome} {L : List ι} {d d' : Disk}
    (h : ReliedAll c out d L d') (k a : Nat) : d' k a = d k a ∨ ∃ i ∈ L, (c i).carries k a (d' k a) := by
  induction h with
  | nil => exact .inl rfl
  | @cons d i d1 is d2 h1 h2 ih =>
    rcases ih with e | ⟨j, hj, hc⟩
    · rw [e]
      have key : d1 k a = d k a ∨ (c i).carries k a (d1 k a) := by
        cases h1 with
        | read | unread | other => exact .inl rfl
        | torn op bad h => exact h k a
        | @write l n op ha good data =>
          refine Disk.write_at.imp_right ?_
          rintro ⟨e1, e2, e3⟩
          obtain ⟨_, _, _, _, _, _, h4, _⟩ := id ha
          rw [List.length_take, Nat.min_eq_left h4] at e2
          refine ⟨l, n, op, ha, e1, e2, ?_⟩
          rw [← e3, List.getElem?_take, if_pos (by unfold inRange at e2; omega)]
      exact key.imp_right fun h => ⟨i, List.mem_cons_self .., h⟩
    · exact .inr ⟨j, List.mem_cons_of_mem _ hj, hc⟩

/-- **C124 (kernel module, SYNCHRONIZE CACHE).** … and so for commands through the kernel module: let the engine begin with a SYNCHRONIZE
CACHE(10) after the moment `y₁` and let it be done with result 0 at `y₂`. -/
theorem C124_module_recent [DecidableEq ι] (K : Module.Kernel) (hK : GoodKernel K) (junk : World → Nat → Byte) (D : Device σ)
    (disks stable : σ → Disk) (hD : WriteBack D disks stable) (c : ι → Command) (m : Mem) (hc : Disjoint c m) (s : σ) (tr : List Event)
    (sched₁ sched₂ : List ι) (y₁ y₂ : Host ι σ) (h₁ : (Host.start s m tr).run K junk D c sched₁ = .ok y₁)
    (h₂ : y₁.run K junk D c sched₂ = .ok y₂) (S : ι) (o : Module.Outcome)
    (hSn : y₁.phase S = .queued ∨ ∃ b, y₁.phase S = .engine b .called) (hSd : y₂.phase S = .done o) (good : o.result = 0)
    (hS : byte (c S).cdb 0 = 0x35) (hl : (c S).cmd.lun.toNat + 1 < 2 ^ 32) (a : Nat) :
    ∃ before after y, sched₂ = before ++ after ∧ y₁.run K junk D c before = .ok y ∧ y.run K junk D c after = .ok y₂ ∧
      stable y₂.dev ((c S).cmd.lun.toNat + 1) a = disks y.dev ((c S).cmd.lun.toNat + 1) a := by
  obtain ⟨L, own, hI, -⟩ := HFaith.run hD.toHonest hK hc.fair sched₁ (HInv.start (junk := junk) hc s tr) (HFaith.start disks c s m tr) h₁
  have hX : HStoring (c S) (c S).cmd.lun.toNat 0 (a + 1) := ⟨rfl, hl, .inl hS⟩
  have hP := HRenewed.run hK hD (past := fun d => ∃ s1 s2 x, sched₂ = s1 ++ s2 ∧ y₁.run K junk D c s1 = .ok x ∧ x.dev = d) hc.fair hX
    sched₂ hI (fun s1 s2 x e1 e2 _ => ⟨s1, s2, x, e1, e2, rfl⟩) (by rcases hSn with h | ⟨b, h⟩ <;> rw [h] <;> trivial) h₂
  rw [hSd] at hP
  obtain ⟨d, ⟨s1, s2, x, e1, e2, rfl⟩, h⟩ := hP good a ⟨by omega, by omega⟩
  exact ⟨s1, s2, x, e1, e2, hmoments h₂ e1 e2, h⟩

/-- The bytes stored by a WRITE with FUA are from a moment after its command was executed. -/
theorem hrecent_executed [DecidableEq ι] (K : Module.Kernel) (hK : GoodKernel K) (junk : World → Nat → Byte) (D : Device σ)
    (disks stable : σ → Disk) (hD : WriteBack D disks stable) (c : ι → Command) (m : Mem) (hc : Disjoint c m) (s : σ) (tr : List Event)
    (sched₁ sched₂ : List ι) (y₁ y₂ : Host ι σ) (h₁ : (Host.start s m tr).run K junk D c sched₁ = .ok y₁)
    (h₂ : y₁.run K junk D c sched₂ = .ok y₂) (W : ι) (o : Module.Outcome)
    (hWn : y₁.phase W = .queued ∨ ∃ b, y₁.phase W = .engine b .called) (hWd : y₂.phase W = .done o) (good : o.result = 0)
    (lba n : Nat) (hW : isWrite (byte (c W).cdb 0)) (hWa : (c W).asks (lba + n) lba n) (hfua : asksFua (c W).cdb)
    (a : Nat) (ha : inRange (4096 * lba) (4096 * n) a) :
    ∃ before after y, sched₂ = before ++ after ∧ y₁.run K junk D c before = .ok y ∧ y.run K junk D c after = .ok y₂ ∧
      HExecuted (y.phase W) ∧       stable y₂.dev ((c W).cmd.lun.toNat + 1) a = disks y.dev ((c W).cmd.lun.toNat + 1) a := by
  obtain ⟨L, own, hI, -⟩ := HFaith.run hD.toHonest hK hc.fair sched₁ (HInv.start (junk := junk) hc s tr) (HFaith.start disks c s m tr) h₁
  have hX : HStoring (c W) (c W).cmd.lun.toNat lba n := ⟨rfl, ((hc.fair W).rw (.inr hW)).1.lun, .inr ⟨hW, hWa, hfua⟩⟩
  have hP := HRenewed.run hK hD (past := fun d => ∃ s1 s2 x, sched₂ = s1 ++ s2 ∧ y₁.run K junk D c s1 = .ok x ∧ x.dev = d ∧
    HExecuted (x.phase W)) hc.fair hX
    sched₂ hI (fun s1 s2 x e1 e2 e3 => ⟨s1, s2, x, e1, e2, rfl, e3⟩) (by rcases hWn with h | ⟨b, h⟩ <;> rw [h] <;> trivial) h₂
  rw [hWd] at hP
  obtain ⟨d, ⟨s1, s2, x, e1, e2, rfl, e3⟩, h⟩ := hP good a ha
  exact ⟨s1, s2, x, e1, e2, hmoments h₂ e1 e2, e3, h⟩

/-- **C124 (kernel module, FUA).** The same for the bytes written by a WRITE with FUA which is done with result 0. -/
theorem C124_module_recent_forced [DecidableEq ι] (K : Module.Kernel) (hK : GoodKernel K) (junk : World → Nat → Byte) (D : Device σ)
    (disks stable : σ → Disk) (hD : WriteBack D disks stable) (c : ι → Command) (m : Mem) (hc : Disjoint c m) (s : σ) (tr : List Event)
    (sched₁ sched₂ : List ι) (y₁ y₂ : Host ι σ) (h₁ : (Host.start s m tr).run K junk D c sched₁ = .ok y₁)
    (h₂ : y₁.run K junk D c sched₂ = .ok y₂) (W : ι) (o : Module.Outcome)
    (hWn : y₁.phase W = .queued ∨ ∃ b, y₁.phase W = .engine b .called) (hWd : y₂.phase W = .done o) (good : o.result = 0)
    (lba n : Nat) (hW : isWrite (byte (c W).cdb 0)) (hWa : (c W).asks (lba + n) lba n) (hfua : asksFua (c W).cdb)
    (a : Nat) (ha : inRange (4096 * lba) (4096 * n) a) :
    ∃ before after y, sched₂ = before ++ after ∧ y₁.run K junk D c before = .ok y ∧ y.run K junk D c after = .ok y₂ ∧
      stable y₂.dev ((c W).cmd.lun.toNat + 1) a = disks y.dev ((c W).cmd.lun.toNat + 1) a := by
  obtain ⟨s1, s2, y, e1, e2, e3, -, e4⟩ := hrecent_executed K hK junk D disks stable hD c m hc s tr sched₁ sched₂ y₁ y₂ h₁ h₂ W o hWn hWd good
    lba n hW hWa hfua a ha
  exact ⟨s1, s2, y, e1, e2, e3, e4⟩

/-- What a byte of the blocks is after a WRITE was executed which then ends with result 0: its data, or what another WRITE carries which
was not done when the engine began with the first one. -/
theorem stored_or_later [DecidableEq ι] (K : Module.Kernel) (hK : GoodKernel K) (junk : World → Nat → Byte) (D : Device σ)
    (disks : σ → Disk) (hD : Honest D disks) (c : ι → Command) (m : Mem) (hc : Disjoint c m) (s : σ) (tr : List Event)
    (sched₀ sched₁ sched₂ : List ι) (y₀ y₁ y₂ : Host ι σ) (h₀ : (Host.start s m tr).run K junk D c sched₀ = .ok y₀)
    (h₁ : y₀.run K junk D c sched₁ = .ok y₁) (h₂ : y₁.run K junk D c sched₂ = .ok y₂) (W : ι) (o : Module.Outcome)
    (hWn : y₀.phase W = .queued ∨ ∃ b, y₀.phase W = .engine b .called) (hx : HExecuted (y₁.phase W)) (hWd : y₂.phase W = .done o)
    (good : o.result = 0)
    (lba n : Nat) (hW : isWrite (byte (c W).cdb 0)) (hWa : (c W).asks (lba + n) lba n) (a : Nat) (ha : inRange (4096 * lba) (4096 * n) a) :
    (c W).cmd.sg[a - 4096 * lba]? = some (disks y₁.dev ((c W).cmd.lun.toNat + 1) a) ∨
      ∃ j, j ≠ W ∧ (∀ oj, y₀.phase j ≠ .done oj) ∧
        (c j).carries (c W).cmd.lun.toNat a (disks y₁.dev ((c W).cmd.lun.toNat + 1) a) := by
  obtain ⟨L0, own0, hI0, hL0, -⟩ := HFaith.run hD hK hc.fair sched₀ (HInv.start (junk := junk) hc s tr) (HFaith.start disks c s m tr) h₀
  rw [List.nil_append] at hL0
  obtain ⟨L1, own1, hI1, hL1, b1⟩ := HFaith.run hD hK hc.fair sched₁ hI0 hL0 h₁
  obtain ⟨L2, own2, hI2, hL2, b2⟩ := HFaith.run hD hK hc.fair sched₂ hI1 hL1 h₂
  have hex := foresees_exists hI2
  have hr2 : ∀ i, foresees (c i) y₂.world.mem ((fun i => Classical.choose (hex i)) i) (y₂.phase i) := fun i => Classical.choose_spec (hex i)
  generalize (fun i => Classical.choose (hex i)) = out at hr2
  have t1 := hL1.seq out (b2 _ hr2)
  have hout : out W = o := by
    have h := hr2 W
    rw [hWd] at h
    exact h
  have hin : W ∈ L0 ++ L1 := by
    refine (hL1.mem W).mpr ?_
    cases hp : y₁.phase W with
    | queued => rw [hp] at hx; exact hx
    | done o => trivial
    | engine b ph =>
      rw [hp] at hx
      cases ph with
      | called => exact hx
      | waiting r t todo cs => exact fun _ => hx
      | returned r => trivial
  have hin1 : W ∈ L1 := by
    rcases List.mem_append.mp hin with h | h
    · have := (hL0.mem W).mp h
      rcases hWn with hq | ⟨b, hb⟩
      · rw [hq] at this
        exact this.elim
      · rw [hb] at this
        exact this.elim
    · exact h
  obtain ⟨A, B, rfl⟩ := List.append_of_mem hin1
  have hnd := hL1.nodup
  rw [show L0 ++ (A ++ W :: B) = (L0 ++ A ++ [W]) ++ B by simp] at t1 hnd
  obtain ⟨d1, t2, t3⟩ := t1.split
  rw [show L0 ++ A ++ [W] = (L0 ++ A) ++ W :: [] by simp] at t2
  have h5 := t2.written hW hWa (by rw [hout]; exact good) (fun j hj => by cases hj)
  rw [List.nodup_append] at hnd
  have hk : a - 4096 * lba < 4096 * n := by unfold inRange at ha; omega
  rcases t3.origin (c W).cmd.lun.toNat a with e | ⟨j, hj, hcar⟩
  · refine .inl ?_
    change disks y₁.dev ((c W).cmd.lun.toNat + 1) a = d1 (c W).cmd.lun.toNat a at e
    rw [e]
    have h6 := congrArg (fun l => l[a - 4096 * lba]?) h5
    rw [List.getElem?_take, if_pos hk] at h6
    rw [← h6]
    unfold Disk.read
    rw [List.getElem?_map, List.getElem?_range hk, Option.map_some, show 4096 * lba + (a - 4096 * lba) = a by unfold inRange at ha; omega]
  · refine .inr ⟨j, ?_, fun oj hj0 => ?_, hcar⟩
    · intro e
      subst e
      exact hnd.2.2 j (by simp) j hj rfl
    · have := (hL0.mem j).mpr (by rw [hj0]; trivial)
      exact hnd.2.2 j (by simp [this]) j hj rfl

/-- **C124 (kernel module, data).** Let the engine begin with a WRITE after the moment `y₀`, let it be done with result 0 at the moment `y₁`,
and let the engine begin with a SYNCHRONIZE CACHE(10) for the same LUN after `y₁` which is done with result 0 at `y₂`.  If the power
fails then, each byte of the blocks is a byte of the data of the WRITE, or of another WRITE which was not done at `y₀`. -/
theorem C124_module_data [DecidableEq ι] (K : Module.Kernel) (hK : GoodKernel K) (junk : World → Nat → Byte) (D : Device σ)
    (disks stable : σ → Disk) (hD : WriteBack D disks stable) (c : ι → Command) (m : Mem) (hc : Disjoint c m) (s : σ) (tr : List Event)
    (sched₀ sched₁ sched₂ : List ι) (y₀ y₁ y₂ : Host ι σ) (h₀ : (Host.start s m tr).run K junk D c sched₀ = .ok y₀)
    (h₁ : y₀.run K junk D c sched₁ = .ok y₁) (h₂ : y₁.run K junk D c sched₂ = .ok y₂) (W S : ι) (oW oS : Module.Outcome)
    (hWn : y₀.phase W = .queued ∨ ∃ b, y₀.phase W = .engine b .called) (hWd : y₁.phase W = .done oW) (goodW : oW.result = 0)
    (hSn : y₁.phase S = .queued ∨ ∃ b, y₁.phase S = .engine b .called) (hSd : y₂.phase S = .done oS) (goodS : oS.result = 0)
    (lba n : Nat) (hW : isWrite (byte (c W).cdb 0)) (hWa : (c W).asks (lba + n) lba n)
    (hS : byte (c S).cdb 0 = 0x35) (hlun : (c S).cmd.lun = (c W).cmd.lun) (a : Nat) (ha : inRange (4096 * lba) (4096 * n) a) :
    (c W).cmd.sg[a - 4096 * lba]? = some (stable y₂.dev ((c W).cmd.lun.toNat + 1) a) ∨
      ∃ j, j ≠ W ∧ (∀ oj, y₀.phase j ≠ .done oj) ∧
        (c j).carries (c W).cmd.lun.toNat a (stable y₂.dev ((c W).cmd.lun.toNat + 1) a) := by
  have hv := ((hc.fair W).rw (.inr hW)).1
  have h01 : (Host.start s m tr).run K junk D c (sched₀ ++ sched₁) = .ok y₁ := by rw [Host_run_append, h₀]; exact h₁
  obtain ⟨s1, s2, y, -, e2, -, e4⟩ := C124_module_recent K hK junk D disks stable hD c m hc s tr (sched₀ ++ sched₁) sched₂ y₁ y₂ h01 h₂ S oS
    hSn hSd goodS hS (by rw [hlun]; exact hv.lun) a
  rw [hlun] at e4
  rw [e4]
  have hy := done_run _ hWd e2
  exact stored_or_later K hK junk D disks hD.toHonest c m hc s tr sched₀ (sched₁ ++ s1) [] y₀ y y h₀ (by rw [Host_run_append, h₁]; exact e2)
    rfl W oW hWn (by rw [hy]; trivial) hy goodW lba n hW hWa a ha

/-- **C124 (kernel module, data, FUA).** … and so it is for a WRITE with FUA as soon as it is done with result 0. -/
theorem C124_module_data_forced [DecidableEq ι] (K : Module.Kernel) (hK : GoodKernel K) (junk : World → Nat → Byte) (D : Device σ)
    (disks stable : σ → Disk) (hD : WriteBack D disks stable) (c : ι → Command) (m : Mem) (hc : Disjoint c m) (s : σ) (tr : List Event)
    (sched₀ sched₁ : List ι) (y₀ y₁ : Host ι σ) (h₀ : (Host.start s m tr).run K junk D c sched₀ = .ok y₀)
    (h₁ : y₀.run K junk D c sched₁ = .ok y₁) (W : ι) (o : Module.Outcome)
    (hWn : y₀.phase W = .queued ∨ ∃ b, y₀.phase W = .engine b .called) (hWd : y₁.phase W = .done o) (good : o.result = 0)
    (lba n : Nat) (hW : isWrite (byte (c W).cdb 0)) (hWa : (c W).asks (lba + n) lba n) (hfua : asksFua (c W).cdb)
    (a : Nat) (ha : inRange (4096 * lba) (4096 * n) a) :
    (c W).cmd.sg[a - 4096 * lba]? = some (stable y₁.dev ((c W).cmd.lun.toNat + 1) a) ∨
      ∃ j, j ≠ W ∧ (∀ oj, y₀.phase j ≠ .done oj) ∧
        (c j).carries (c W).cmd.lun.toNat a (stable y₁.dev ((c W).cmd.lun.toNat + 1) a) := by
  obtain ⟨s1, s2, y, -, e2, e3, e4, e5⟩ := hrecent_executed K hK junk D disks stable hD c m hc s tr sched₀ sched₁ y₀ y₁ h₀ h₁ W o hWn hWd good
    lba n hW hWa hfua a ha
  rw [e5]
  exact stored_or_later K hK junk D disks hD.toHonest c m hc s tr sched₀ s1 s2 y₀ y y₁ h₀ e2 e3 W o hWn e4 hWd good lba n hW hWa a ha

/-! ## The driver of the kernel, and examples -/

/-- **C124 (driver).** The driver of the kernel, over a block layer which can always give the command to the hardware, is such a device
if the hardware is one. -/
theorem C124_driver (B : BlockLayer β) (disks stable : β → Disk) (hB : WriteBack B.execute disks stable) (hR : Reliable B)
    (hr : ∀ b sub b', B.allocRequest b sub = .ok b' → disks b' = disks b ∧ stable b' = stable b)
    (hm : ∀ b a n, disks (B.mapKern b a n).2 = disks b ∧ stable (B.mapKern b a n).2 = stable b)
    (hf : ∀ b, disks (B.freeRequest b) = disks b ∧ stable (B.freeRequest b) = stable b) :
    WriteBack (device B) (fun st : State β => disks st.blk) (fun st : State β => stable st.blk) where
  toCached := C121_driver B disks stable hB.toCached hR hr hm hf
  ages := fun st m sub h9 k a => by
    obtain ⟨b, h1, h2, -, h4, h5⟩ := driver_execute B disks stable hR hr hm hf st m sub
    simp only [h4, h5]
    rw [← h1, ← h2]
    exact hB.ages b m sub h9 k a

theorem cached_writeback (cap : Nat → Nat) (works : Nat → Bool) (part : Nat) :
    WriteBack (cachedDevice cap works part) (fun s => s.1.2) (fun s => s.2) where
  toCached := cached_device cap works part
  ages := fun s m sub _ k a => by
    change (if _ then (failingDevice cap works part s.1 m sub).1.2 k a else s.2 k a) = _ ∨ _ ∨
      (if _ then (failingDevice cap works part s.1 m sub).1.2 k a else s.2 k a) = (failingDevice cap works part s.1 m sub).1.2 k a
    split
    · exact .inr (.inr rfl)
    · exact .inl rfl

/-- The hypotheses are met, also if the WRITE with FUA runs at the same time: by the calls of C121 over a device which fails commands in
any pattern, in any schedule in which the SYNCHRONIZE CACHE begins when the first WRITE has returned. -/
example (cap : Nat → Nat) (works : Nat → Bool) (part : Nat) (d d' : Disk) (sched₁ sched₂ : List (Fin 3)) (h1 : 1 ∉ sched₁)
    (h0 : 5 ≤ sched₁.count 0) (h2 : 5 ≤ sched₂.count 1) (a : Nat) :
    ∃ y₁ y₂ rW rS, (Sys.start ((0, d), d') storeShared []).run boundedEnv (cachedDevice cap works part) storeCalls sched₁ = .ok y₁ ∧
      y₁.run boundedEnv (cachedDevice cap works part) storeCalls sched₂ = .ok y₂ ∧
      y₁.phase 0 = .returned rW ∧ y₂.phase 1 = .returned rS ∧
      (rS.return_code = 0 → ∃ before after y, sched₂ = before ++ after ∧
        y₁.run boundedEnv (cachedDevice cap works part) storeCalls before = .ok y ∧
        y.run boundedEnv (cachedDevice cap works part) storeCalls after = .ok y₂ ∧ y₂.dev.2 4 a = y.dev.1.2 4 a) ∧
      (rW.return_code = 0 → rS.return_code = 0 → inRange (4096 * 9) 8192 a →
        storeShared (0x18000 + (a - 4096 * 9)) = some (y₂.dev.2 4 a) ∨
          ∃ j, j ≠ 0 ∧ (storeCalls j).carries storeShared 3 a (y₂.dev.2 4 a)) ∧
      (∀ r, y₂.phase 2 = .returned r → r.return_code = 0 → inRange (4096 * 20) 8192 a →
        storeShared (0x38000 + (a - 4096 * 20)) = some (y₂.dev.2 4 a) ∨
          ∃ j, j ≠ 2 ∧ (storeCalls j).carries storeShared 3 a (y₂.dev.2 4 a)) := by
  have hH := cached_writeback cap works part
  have hop : ∀ i page, steady (storeCalls i).cdb page := fun i => steady_of (by revert i; decide)
  have run := fun sched => C108_defined boundedEnv _ _ boundedEnv_good hH.toHonest storeCalls storeShared storeCalls_separate hop ((0, d), d') [] sched
  obtain ⟨y1, e1⟩ := run sched₁
  obtain ⟨y2, e2⟩ := run (sched₁ ++ sched₂)
  obtain ⟨rW, p1⟩ := C96_wait_free _ _ _ _ _ _ _ _ e1 0 h0
  obtain ⟨rS, p2⟩ := C96_wait_free _ _ _ _ _ _ _ _ e2 1 (by rw [List.count_append]; omega)
  have e2' := e2
  rw [Sys_run_append, e1] at e2'
  have hc : y1.phase 1 = .called := run_unscheduled _ _ _ 1 _ _ _ e1 h1
  refine ⟨y1, y2, rW, rS, e1, e2', p1, p2, fun g2 => ?_, fun g1 g2 ha => ?_, fun r p3 g3 ha => ?_⟩
  · exact C124_recent boundedEnv _ _ _ boundedEnv_good hH storeCalls storeShared storeCalls_separate ((0, d), d') [] sched₁ sched₂
      y1 y2 e1 e2' 1 rS hc p2 g2 (by decide) (by decide) a
  · rcases C124_data boundedEnv _ _ _ boundedEnv_good hH storeCalls storeShared storeCalls_separate ((0, d), d') [] [] sched₁ sched₂
      _ y1 y2 rfl e1 e2' 0 1 rW rS rfl p1 g1 hc p2 g2 9 2 (by decide) storeCalls_asks.1 (by decide) rfl a ha with h | ⟨j, h1, -, h3⟩
    · exact .inl h
    · exact .inr ⟨j, h1, h3⟩
  · rcases C124_data_forced boundedEnv _ _ _ boundedEnv_good hH storeCalls storeShared storeCalls_separate ((0, d), d') [] []
      (sched₁ ++ sched₂) _ y2 rfl e2 2 r rfl p3 g3 20 2 (by decide) storeCalls_asks.2.1 storeCalls_asks.2.2 a ha with h | ⟨j, h1, -, h3⟩
    · exact .inl h
    · exact .inr ⟨j, h1, h3⟩

/-- The hypotheses are met through the kernel module. -/
example (cap : Nat → Nat) (works : Nat → Bool) (part : Nat) (d d' : Disk) (sg : Fin 3 → List Byte) (l0 : (sg 0).length = 8192)
    (l1 : (sg 1).length = 0) (l2 : (sg 2).length = 8192) (sched₁ sched₂ : List (Fin 3)) (k1 : 1 ∉ sched₁)
    (k0 : 7 ≤ sched₁.count 0) (k2 : 7 ≤ sched₂.count 1) (a : Nat) :
    ∃ y₁ y₂ oW oS,
      (Host.start ((0, d), d') storeShared []).run demoKernel3 (fun _ _ => 0) (cachedDevice cap works part) (storeTrio sg) sched₁ = .ok y₁ ∧
      y₁.run demoKernel3 (fun _ _ => 0) (cachedDevice cap works part) (storeTrio sg) sched₂ = .ok y₂ ∧
      y₁.phase 0 = .done oW ∧ y₂.phase 1 = .done oS ∧
      (oW.result = 0 → oS.result = 0 → inRange (4096 * 9) 8192 a → (sg 0)[a - 4096 * 9]? = some (y₂.dev.2 4 a) ∨
          ∃ j, j ≠ 0 ∧ (storeTrio sg j).carries 3 a (y₂.dev.2 4 a)) ∧
      (∀ o, y₂.phase 2 = .done o → o.result = 0 → inRange (4096 * 20) 8192 a → (sg 2)[a - 4096 * 20]? = some (y₂.dev.2 4 a) ∨
          ∃ j, j ≠ 2 ∧ (storeTrio sg j).carries 3 a (y₂.dev.2 4 a)) := by
  have hD : Disjoint (storeTrio sg) storeShared := storeTrio_disjoint sg (by
    intro i
    match i with
    | 0 => exact ⟨fun _ => by omega, by omega⟩
    | 1 => exact ⟨fun h => absurd rfl h, by omega⟩
    | 2 => exact ⟨fun _ => by omega, by omega⟩)
  have hH := cached_writeback cap works part
  have hop : ∀ i page, steady (storeTrio sg i).cdb page := fun i => steady_of (storeBlocks_plain i).2
  have run := fun sched => C106_defined demoKernel3 demoKernel3_good (fun _ _ => 0) _ _ hH.toLossy (storeTrio sg) storeShared hD hop
    ((0, d), d') [] sched
  obtain ⟨y1, e1⟩ := run sched₁
  obtain ⟨y2, e2⟩ := run (sched₁ ++ sched₂)
  obtain ⟨oW, p1⟩ := C101_wait_free _ _ _ _ _ _ _ _ _ e1 0 k0
  obtain ⟨oS, p2⟩ := C101_wait_free _ _ _ _ _ _ _ _ _ e2 1 (by rw [List.count_append]; omega)
  have e2' := e2
  rw [Host_run_append, e1] at e2'
  have hc : y1.phase 1 = .queued := host_unscheduled _ _ _ _ 1 _ _ _ e1 k1
  obtain ⟨aW, aF⟩ := storeTrio_asks sg (by omega) (by omega)
  refine ⟨y1, y2, oW, oS, e1, e2', p1, p2, fun g1 g2 ha => ?_, fun o p3 g3 ha => ?_⟩
  · rcases C124_module_data demoKernel3 demoKernel3_good (fun _ _ => 0) _ _ _ hH (storeTrio sg) storeShared hD ((0, d), d') [] [] sched₁
      sched₂ _ y1 y2 rfl e1 e2' 0 1 oW oS (.inl rfl) p1 g1 (.inl hc) p2 g2 9 2
      (by decide : isWrite (byte (storeBlocks 0) 0)) aW (by decide : byte (storeBlocks 1) 0 = 0x35) rfl a ha with h | ⟨j, h1, -, h3⟩
    · exact .inl h
    · exact .inr ⟨j, h1, h3⟩
  · rcases C124_module_data_forced demoKernel3 demoKernel3_good (fun _ _ => 0) _ _ _ hH (storeTrio sg) storeShared hD ((0, d), d') [] []
      (sched₁ ++ sched₂) _ y2 rfl e2 2 o (.inl rfl) p3 g3 20 2 (by decide : isWrite (byte (storeBlocks 2) 0)) aF storeCalls_asks.2.2 a ha
      with h | ⟨j, h1, -, h3⟩
    · exact .inl h
    · exact .inr ⟨j, h1, h3⟩

end Scsi2Nvme
