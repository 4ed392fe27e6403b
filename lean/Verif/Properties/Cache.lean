import Verif.Spec.Cache
import Verif.Properties.Honest
/-!
# C121: what SYNCHRONIZE CACHE and FUA mean for data in a volatile write cache
-/

namespace Scsi2Nvme
open Spec Engine Driver

variable {ι σ β : Type}

/-! ## The commands -/

theorem sqe_fua (op nsid prp lba blocks prchk : Nat) (pract fua : Bool) (hb : blocks - 1 < 65536) (hp : prchk < 8) :
    bit (sqe op nsid prp (lba % 2 ^ 32) (lba / 2 ^ 32) (ioCdw12 blocks prchk pract fua)) 51 6 = fua := by
  have h : byte (sqe op nsid prp (lba % 2 ^ 32) (lba / 2 ^ 32) (ioCdw12 blocks prchk pract fua)) 51 =
      ioCdw12 blocks prchk pract fua / 256 ^ 3 % 256 := by
    unfold sqe le zeros byte
    simp [List.range, List.range.loop]
  unfold bit
  rw [h]
  unfold ioCdw12
  have hlt : pract.toNat ≤ 1 := by cases pract <;> decide
  cases fua with
  | true => simp only [Bool.toNat_true]; exact decide_eq_true (by omega)
  | false => simp only [Bool.toNat_false]; exact decide_eq_false (by omega)

/-- The NVMe Write of a WRITE has the FUA bit of the command block. -/
theorem write_fua {E w r t1 w1} {q : Request} (hq : q.Valid) (hop : isWrite (byte q.cdb 0))
    (hB : Began E (Translation.init q.ws) w q.ptr q.cdb ⟨q.data, q.dataLen.toNat⟩ q.lun r t1 w1)
    (wr : NvmeCmdWrapper) (hwr : wr ∈ t1.GetNvmeWrappers) {rw_} (hd : decodeRw q.cdb = some rw_) : bit wr.cmd.toBytes 51 6 = rw_.fua := by
  have hlt : q.dataLen.toNat < 65536 := q.dataLen.isLt
  have ha : Accepted t1 := (hB.accepted_of_mem hwr).1
  obtain ⟨rw', pract, prchk, wr', hd', hp, hb1, hcmds, hb, -⟩ := C21_write_all _ _ _ _ _ _ _ _ _ _ hB hop ha
  rw [hd] at hd'
  cases hd'
  rw [hcmds] at hwr
  simp only [List.mem_cons, List.not_mem_nil, or_false] at hwr
  subst hwr
  have hb3 : 4096 * rw_.blocks ≤ q.dataLen.toNat := hq.matching hop rw_ hd
  rw [if_neg (by omega), Nat.mod_eq_of_lt (by omega)] at hb
  rw [hb]
  exact sqe_fua _ _ _ _ _ _ _ _ (by omega) (wrProtect_lt hp)

/-- GOOD means that the command was accepted and all completions are successful. -/
theorem answer_good {E : Env} {t : Translation} (hwf : Wf t) {w cs din sense c t2 w3} {r : BeginResponse}
    (hc : t.Complete E cs din sense w = .ok ((c, t2), w3)) (h0 : (answerOf r c).return_code = 0) : Accepted t ∧ ∀ c ∈ cs, cplOk c := by
  unfold answerOf at h0
  rcases Complete_inv E t hwf _ _ _ _ _ _ _ hc with ⟨-, e, -⟩ | ⟨-, -, w2, -, hh⟩
  · rw [e] at h0; exact absurd h0 (show ¬ (0x40 : Nat) = 0 by decide)
  · rcases hh with ⟨-, e, -⟩ | ⟨-, hp, e, -⟩ | ⟨-, hp, s, hf, e, -⟩ | ⟨-, hp, hf, e, -⟩
    · rw [e] at h0; exact absurd h0 (show ¬ (0x40 : Nat) = 0 by decide)
    · rw [e] at h0; exact absurd h0 (show ¬ (2 : Nat) = 0 by decide)
    · obtain ⟨pre, d, post, h4, -, h6, h7⟩ := firstError_some _ _ hf
      rw [e, h7] at h0
      exact absurd ((good_iff d.sct d.sc).mp (BitVec.eq_of_toNat_eq h0)) h6
    · exact ⟨hp, (firstError_none _).mp hf⟩

/-! ## What is stored stays stored -/

/-- The blocks are stored. -/
def Stored (disks stable : σ → Disk) (l lba n : Nat) (s : σ) : Prop :=
  ∀ a, inRange (4096 * lba) (4096 * n) a → stable s (l + 1) a = disks s (l + 1) a

/-- The call does not write the blocks any more. -/
def Past (q : ι → Request) (l lba n : Nat) (y : Sys ι σ) (i : ι) : Prop := (∃ r, y.phase i = .returned r) ∨ (q i).leaves l lba n

theorem Past.step [DecidableEq ι] {E : Env} {D : Device σ} {q : ι → Request} {l lba n : Nat} {y y' : Sys ι σ} {i j : ι}
    (hp : Past q l lba n y j) (h : Stepped E D q y i y') : Past q l lba n y' j := by
  refine hp.imp_left fun ⟨r, hr⟩ => ?_
  by_cases e : j = i
  · subst e
    cases h with
    | begin h => rw [hr] at h; cases h
    | submit h => rw [hr] at h; cases h
    | complete h => rw [hr] at h; cases h
    | returned _ => exact ⟨r, hr⟩
  · refine ⟨r, ?_⟩
    cases h with
    | begin h => rw [Sys.to_other y e]; exact hr
    | submit h => rw [Sys.to_other y e]; exact hr
    | complete h => rw [Sys.to_other y e]; exact hr
    | returned _ => exact hr

theorem Stored.step [DecidableEq ι] {E : Env} {D : Device σ} {disks stable : σ → Disk} (hD : Cached D disks stable)
    {q : ι → Request} {own} {l lba n : Nat} {y y' : Sys ι σ} {i : ι} (hq : (q i).Fair) (hI : Inv E q own y)
    (hp : Past q l lba n y i) (hs : Stored disks stable l lba n y.dev) (h : Stepped E D q y i y') : Stored disks stable l lba n y'.dev := by
  cases h with
  | begin h => exact hs
  | complete h => exact hs
  | returned _ => exact hs
  | @submit r t wr todo cs h =>
    obtain ⟨w, w1, hb⟩ := hI.waiting i r t _ cs h
    obtain ⟨done, hd1, hd2⟩ := hb.progress
    have hwr : wr ∈ t.GetNvmeWrappers := by rw [hd1]; simp
    obtain ⟨-, hn9, hn1⟩ := dataset_never hq hb.began wr hwr
    intro a ha
    refine hD.kept y.dev y.world.mem _ (submitted_coherent wr) hn9 _ a ?_ (hs a ha)
    rintro ⟨-, h1, h2, h3⟩
    have hw := hn1 h1
    obtain ⟨-, lba', n', hasks, f1, -, f3, f4⟩ := write_fields (hq.rw (.inr hw)) hw hb.began wr hwr
    change l + 1 = leAt wr.cmd.toBytes 4 4 at h2
    change inRange (4096 * leAt wr.cmd.toBytes 40 8) (4096 * (leAt wr.cmd.toBytes 48 2 + 1)) a at h3
    rw [f3, f4] at h3
    rcases hp with ⟨r', hr⟩ | hl
    · rw [hr] at h; cases h
    · have := hl hw (by omega) _ _ hasks
      unfold inRange at ha h3
      omega

/-- A call which stores the blocks: SYNCHRONIZE CACHE(10) for the LUN, or a complete and correct WRITE of the blocks with FUA. -/
def Storing (q : Request) (l lba n : Nat) : Prop :=
  q.lun.toNat = l ∧ l + 1 < 2 ^ 32 ∧
    (byte q.cdb 0 = 0x35 ∨ (isWrite (byte q.cdb 0) ∧ q.asks (lba + n) lba n ∧ asksFua q.cdb))

/-- Where the storing call is. -/
def Progress (disks stable : σ → Disk) (l lba n : Nat) (s : σ) : Phase → Prop
  | .called => True
  | .waiting _ t todo cs => todo = [] → Accepted t → (∀ c ∈ cs, cplOk c) → Stored disks stable l lba n s
  | .returned r => r.return_code = 0 → Stored disks stable l lba n s

theorem storing_command {E w r t1 w1} {q : Request} {l lba n : Nat} (hq : q.Fair) (hX : Storing q l lba n)
    (hB : Began E (Translation.init q.ws) w q.ptr q.cdb ⟨q.data, q.dataLen.toNat⟩ q.lun r t1 w1) (ha : Accepted t1) :
    ∃ wr, t1.GetNvmeWrappers = [wr] ∧ wr.is_admin = false ∧
      ((byte wr.cmd.toBytes 0 = 0 ∧ leAt wr.cmd.toBytes 4 4 = l + 1) ∨
       (bit wr.cmd.toBytes 51 6 = true ∧ ∀ a, inRange (4096 * lba) (4096 * n) a → covers wr.cmd.toBytes (l + 1) a)) := by
  obtain ⟨hl, hlt, hop | ⟨hop, hasks, rw_, hd, hf⟩⟩ := hX
  · obtain ⟨-, -, -, wr, hc, hb, had⟩ := C24_sync _ _ _ _ _ _ _ _ _ _ hB hop
    refine ⟨wr, hc, had, .inl ?_⟩
    have hns : nsidOfLun q.lun = l + 1 := by rw [← hl]; exact Nat.mod_eq_of_lt (by omega)
    have h := sqe_fields 0 (nsidOfLun q.lun) 0 0 0 (by decide) (nsidOfLun_lt _) (by decide) (by decide)
    change byte (flushSqe _) 0 = _ ∧ leAt (flushSqe _) 4 4 = _ ∧ _ at h
    rw [hb]
    exact ⟨h.1, by rw [h.2.1, hns]⟩
  · have hv := hq.rw (.inr hop)
    obtain ⟨_, _, _, wr, _, _, _, hc, -⟩ := C21_write_all _ _ _ _ _ _ _ _ _ _ hB hop ha
    have hwr : wr ∈ t1.GetNvmeWrappers := by rw [hc]; simp
    obtain ⟨-, lba', n', hasks', f1, -, f3, f4⟩ := write_fields hv hop hB wr hwr
    obtain ⟨rfl, rfl⟩ := asks_same hasks hasks'
    refine ⟨wr, hc, write_io hop hB wr hwr, .inr ⟨by rw [write_fua hv hop hB wr hwr hd, hf], fun a h => ?_⟩⟩
    exact ⟨write_opcode hB hop wr hwr, by rw [f1, hl], by rw [f3, f4]; exact h⟩

/-- The command of the call stores the blocks, if it is executed with success. -/
def Stores (E : Env) (D : Device σ) (disks stable : σ → Disk) (q : Request) (l lba n : Nat) : Prop :=
  ∀ w r t1 w1, Began E (Translation.init q.ws) w q.ptr q.cdb ⟨q.data, q.dataLen.toNat⟩ q.lun r t1 w1 → Accepted t1 →
    ∃ wr, t1.GetNvmeWrappers = [wr] ∧ ∀ s m, cplOk (D s m (submissionOf wr)).2.2 → Stored disks stable l lba n (D s m (submissionOf wr)).1

theorem Storing.stores {E : Env} {D : Device σ} {disks stable : σ → Disk} (hD : Cached D disks stable) {q : Request} {l lba n : Nat}
    (hq : q.Fair) (hX : Storing q l lba n) : Stores E D disks stable q l lba n := by
  intro w r t1 w1 hB ha
  obtain ⟨wr, hc, had, hk⟩ := storing_command hq hX hB ha
  refine ⟨wr, hc, fun s m hok a ha => ?_⟩
  rcases hk with ⟨k1, k2⟩ | ⟨k1, k2⟩
  · have := hD.flush s m (submissionOf wr) had k1 hok a
    change stable _ (leAt wr.cmd.toBytes 4 4) a = disks _ (leAt wr.cmd.toBytes 4 4) a at this
    rw [k2] at this
    exact this
  · exact hD.fua s m (submissionOf wr) (submitted_coherent wr) had k1 hok _ a (k2 a ha)

theorem Progress.step [DecidableEq ι] {E : Env} {D : Device σ} {disks stable : σ → Disk} (hD : Cached D disks stable)
    {q : ι → Request} {own} {l lba n : Nat} {y y' : Sys ι σ} {i X : ι} (hq : (q i).Fair) (hI : Inv E q own y)
    (hX : Stores E D disks stable (q X) l lba n) (hp : i ≠ X → Past q l lba n y i) (hP : Progress disks stable l lba n y.dev (y.phase X))
    (h : Stepped E D q y i y') : Progress disks stable l lba n y'.dev (y'.phase X) := by
  by_cases e : X = i
  · subst e
    cases h with
    | @begin r t w1 hp hB =>
      rw [Sys.to_self]
      split
      · exact fun h => absurd h (by decide)
      · intro h1 h2
        obtain ⟨wr, hc, -⟩ := hX _ _ _ _ hB h2
        rw [hc] at h1; cases h1
    | returned hp => exact hP
    | @complete r t cs c t2 w3 hp hc =>
      obtain ⟨w, w1, hb⟩ := hI.waiting X r t _ cs hp
      rw [hp] at hP
      rw [Sys.to_self]
      intro h0
      obtain ⟨h1, h2⟩ := answer_good (began_wf hb.began) hc h0
      exact hP rfl h1 h2
    | @submit r t wr todo cs hp =>
      obtain ⟨w, w1, hb⟩ := hI.waiting X r t _ cs hp
      obtain ⟨done, hd1, -⟩ := hb.progress
      rw [Sys.to_self]
      intro h1 h2 h3
      obtain ⟨wr', hc, hk⟩ := hX _ _ _ _ hb.began h2
      have : wr = wr' := by
        have : wr ∈ t.GetNvmeWrappers := by rw [hd1]; simp
        rw [hc] at this
        exact List.mem_singleton.mp this
      subst this
      exact hk _ _ (h3 (D y.dev y.world.mem (submissionOf wr)).2.2 (by simp))
  · have hph : y'.phase X = y.phase X := by
      cases h with
      | begin h => exact Sys.to_other y e _ _ _
      | submit h => exact Sys.to_other y e _ _ _
      | complete h => exact Sys.to_other y e _ _ _
      | returned _ => rfl
    rw [hph]
    have key := fun hs => Stored.step hD hq hI (hp fun h => e h.symm) hs h
    cases hx : y.phase X with
    | called => trivial
    | waiting r t todo cs =>
      rw [hx] at hP
      exact fun h1 h2 h3 => key (hP h1 h2 h3)
    | returned r =>
      rw [hx] at hP
      exact fun h => key (hP h)

theorem Progress.run [DecidableEq ι] {E : Env} {D : Device σ} {disks stable : σ → Disk} (hD : Cached D disks stable) (hg : GoodAllocator E)
    {q : ι → Request} {m0 : Mem} (hq : Separate q m0) {l lba n : Nat} {X : ι} (hX : Stores E D disks stable (q X) l lba n)
    (sched : List ι) {own}
    {y y' : Sys ι σ} (hI : Inv E q own y) (hp : ∀ j, j ≠ X → Past q l lba n y j)
    (hP : Progress disks stable l lba n y.dev (y.phase X)) (h : y.run E D q sched = .ok y') :
    Progress disks stable l lba n y'.dev (y'.phase X) := by
  induction sched generalizing own y with
  | nil => cases h; exact hP
  | cons i is ih =>
    unfold Sys.run at h
    split at h
    · cases h
    · rename_i y1 e
      have hs := stepped_of hI (hq.fair i).short e
      obtain ⟨own1, hI1, -⟩ := hI.move (hD.toLossy.tame hg) hg hq hs
      exact ih hI1 (fun j hj => (hp j hj).step hs) (Progress.step hD (hq.fair i) hI hX (hp i) hP hs) h

theorem returned_run [DecidableEq ι] {E : Env} {D : Device σ} {q : ι → Request} (sched : List ι) {y y' : Sys ι σ} {i : ι} {r}
    (hr : y.phase i = .returned r) (h : y.run E D q sched = .ok y') : y'.phase i = .returned r := by
  induction sched generalizing y with
  | nil => cases h; exact hr
  | cons j js ih =>
    unfold Sys.run at h
    split at h
    · cases h
    · rename_i y1 e
      refine ih ?_ h
      by_cases hj : i = j
      · subst hj
        rw [step_returned E D q y i hr] at e
        cases e
        exact hr
      · unfold Sys.step at e
        split at e
        · cases e
        · cases e
          simp only [if_neg hj]
          exact hr

/-! ## C121 -/

/-- **C121 (SYNCHRONIZE CACHE).** A device with a volatile write cache, which may fail any command.  Let a WRITE begin after the moment
`y₀` and have returned GOOD at the moment `y₁`, and let a SYNCHRONIZE CACHE(10) for the same LUN begin after `y₁` and have returned GOOD at
`y₂`.  Whatever calls there are besides and however they are interleaved, if those which write any of the blocks had returned at `y₀`
already: at every moment `y₃` from then on, what is left on the disk if the power fails are the data of the WRITE. -/
theorem C121_synchronized [DecidableEq ι] (E : Env) (D : Device σ) (disks stable : σ → Disk) (hg : GoodAllocator E)
    (hD : Cached D disks stable) (q : ι → Request) (m : Mem) (hq : Separate q m) (s : σ) (tr : List Event)
    (sched₀ sched₁ sched₂ sched₃ : List ι) (y₀ y₁ y₂ y₃ : Sys ι σ)
    (h₀ : (Sys.start s m tr).run E D q sched₀ = .ok y₀) (h₁ : y₀.run E D q sched₁ = .ok y₁) (h₂ : y₁.run E D q sched₂ = .ok y₂)
    (h₃ : y₂.run E D q sched₃ = .ok y₃) (W S : ι) (rW rS : ScsiToNvmeResponse)
    (hWc : y₀.phase W = .called) (hWr : y₁.phase W = .returned rW) (goodW : rW.return_code = 0)
    (hSc : y₁.phase S = .called) (hSr : y₂.phase S = .returned rS) (goodS : rS.return_code = 0)
    (lba n : Nat) (hW : isWrite (byte (q W).cdb 0)) (hWa : (q W).asks (lba + n) lba n)
    (hS : byte (q S).cdb 0 = 0x35) (hlun : (q S).lun = (q W).lun)
    (ho : ∀ j, j ≠ W → (∃ rj, y₀.phase j = .returned rj) ∨ (q j).leaves (q W).lun.toNat lba n) :
    m.read (q W).data (4096 * n) = some (Disk.read (stable y₃.dev) ((q W).lun.toNat + 1) (4096 * lba) (4096 * n)) := by
  have hv := (hq.fair W).rw (.inr hW)
  have h13 : y₁.run E D q (sched₂ ++ sched₃) = .ok y₃ := by rw [Sys_run_append, h₂]; exact h₃
  have h03 : y₀.run E D q (sched₁ ++ (sched₂ ++ sched₃)) = .ok y₃ := by rw [Sys_run_append, h₁]; exact h13
  have h01 : (Sys.start s m tr).run E D q (sched₀ ++ sched₁) = .ok y₁ := by rw [Sys_run_append, h₀]; exact h₁
  have hdata := C108_durable E D disks hg hD.toHonest q m hq s tr sched₀ _ y₀ y₃ h₀ h03 W rW hWc (returned_run _ hWr h13) goodW lba n hW hWa ho
  rw [hdata]
  obtain ⟨L, own, hI, -⟩ := Faith.run hD.toHonest hg hq (sched₀ ++ sched₁) (Inv.start hq s tr) (Faith.start disks hq s tr) h01
  have hX : Storing (q S) (q W).lun.toNat lba n := ⟨by rw [hlun], hv.lun, .inl hS⟩
  have hpast : ∀ j, j ≠ S → Past q (q W).lun.toNat lba n y₁ j := by
    intro j _
    by_cases e : j = W
    · subst e; exact .inl ⟨rW, hWr⟩
    · exact (ho j e).imp_left fun ⟨rj, h⟩ => ⟨rj, returned_run _ h h₁⟩
  have hP := Progress.run hD hg hq (hX.stores hD (hq.fair _)) (sched₂ ++ sched₃) hI hpast (by rw [hSc]; trivial) h13
  rw [returned_run _ hSr h₃] at hP
  congr 1
  exact Disk.read_same fun a ha => (hP goodS a ha).symm

/-- **C121 (FUA).** … and a WRITE with FUA which was answered with GOOD needs no SYNCHRONIZE CACHE. -/
theorem C121_forced [DecidableEq ι] (E : Env) (D : Device σ) (disks stable : σ → Disk) (hg : GoodAllocator E)
    (hD : Cached D disks stable) (q : ι → Request) (m : Mem) (hq : Separate q m) (s : σ) (tr : List Event)
    (sched₀ sched₁ sched₂ : List ι) (y₀ y₁ y₂ : Sys ι σ)
    (h₀ : (Sys.start s m tr).run E D q sched₀ = .ok y₀) (h₁ : y₀.run E D q sched₁ = .ok y₁) (h₂ : y₁.run E D q sched₂ = .ok y₂)
    (W : ι) (rW : ScsiToNvmeResponse) (hWc : y₀.phase W = .called) (hWr : y₁.phase W = .returned rW) (goodW : rW.return_code = 0)
    (lba n : Nat) (hW : isWrite (byte (q W).cdb 0)) (hWa : (q W).asks (lba + n) lba n) (hfua : asksFua (q W).cdb)
    (ho : ∀ j, j ≠ W → (∃ rj, y₀.phase j = .returned rj) ∨ (q j).leaves (q W).lun.toNat lba n) :
    m.read (q W).data (4096 * n) = some (Disk.read (stable y₂.dev) ((q W).lun.toNat + 1) (4096 * lba) (4096 * n)) := by
  have hv := (hq.fair W).rw (.inr hW)
  have h02 : y₀.run E D q (sched₁ ++ sched₂) = .ok y₂ := by rw [Sys_run_append, h₁]; exact h₂
  have hdata := C108_durable E D disks hg hD.toHonest q m hq s tr sched₀ _ y₀ y₂ h₀ h02 W rW hWc (returned_run _ hWr h₂) goodW lba n hW hWa ho
  rw [hdata]
  obtain ⟨L, own, hI, -⟩ := Faith.run hD.toHonest hg hq sched₀ (Inv.start hq s tr) (Faith.start disks hq s tr) h₀
  have hX : Storing (q W) (q W).lun.toNat lba n := ⟨rfl, hv.lun, .inr ⟨hW, hWa, hfua⟩⟩
  have hP := Progress.run hD hg hq (hX.stores hD (hq.fair _)) (sched₁ ++ sched₂) hI ho (by rw [hWc]; trivial) h02
  rw [returned_run _ hWr h₂] at hP
  congr 1
  exact Disk.read_same fun a ha => (hP goodW a ha).symm

/-- What the driver of the kernel does to the disks is what the hardware does. -/
theorem driver_execute (B : BlockLayer β) (disks stable : β → Disk) (hR : Reliable B)
    (hr : ∀ b sub b', B.allocRequest b sub = .ok b' → disks b' = disks b ∧ stable b' = stable b)
    (hm : ∀ b a n, disks (B.mapKern b a n).2 = disks b ∧ stable (B.mapKern b a n).2 = stable b)
    (hf : ∀ b, disks (B.freeRequest b) = disks b ∧ stable (B.freeRequest b) = stable b) (st : State β) (m : Mem) (sub : Submission) :
    ∃ b, disks b = disks st.blk ∧ stable b = stable st.blk ∧
      (device B st m sub).2 = (B.execute b m sub).2 ∧ disks (device B st m sub).1.blk = disks (B.execute b m sub).1 ∧
      stable (device B st m sub).1.blk = stable (B.execute b m sub).1 := by
  have main : let r := nvme_submit_user_cmd B true st m sub {}
      ∃ b, disks b = disks st.blk ∧ stable b = stable st.blk ∧ (r.mem, r.cpl) = (B.execute b m sub).2 ∧
        disks r.state.blk = disks (B.execute b m sub).1 ∧ stable r.state.blk = stable (B.execute b m sub).1 := by
    simp only
    unfold nvme_submit_user_cmd submit_req_done
    rw [if_neg (by decide)]
    cases hb : B.allocRequest st.blk sub with
    | error e => obtain ⟨b', h⟩ := hR.request st.blk sub; rw [hb] at h; cases h
    | ok b =>
      simp only
      by_cases h1 : sub.buffer ≠ 0 ∧ sub.bufflen ≠ 0
      · rw [if_pos h1, if_neg (by rw [hR.mapping]; decide), if_neg (by rw [hR.disk]; decide)]
        exact ⟨_, by rw [(hm _ _ _).1, (hr _ _ _ hb).1], by rw [(hm _ _ _).2, (hr _ _ _ hb).2], rfl, by rw [(hf _).1], by rw [(hf _).2]⟩
      · rw [if_neg h1]
        exact ⟨_, by rw [(hr _ _ _ hb).1], by rw [(hr _ _ _ hb).2], rfl, by rw [(hf _).1], by rw [(hf _).2]⟩
  unfold device submit_admin_command submit_io_command
  simp only [hR.adminQueue, hR.ioQueue]
  split
  · exact main
  · exact main

/-- **C121.** The driver of the kernel is such a device over a block layer which can always give the command to the hardware, if the
hardware is such a device. -/
theorem C121_driver (B : BlockLayer β) (disks stable : β → Disk) (hB : Cached B.execute disks stable) (hR : Reliable B)
    (hr : ∀ b sub b', B.allocRequest b sub = .ok b' → disks b' = disks b ∧ stable b' = stable b)
    (hm : ∀ b a n, disks (B.mapKern b a n).2 = disks b ∧ stable (B.mapKern b a n).2 = stable b)
    (hf : ∀ b, disks (B.freeRequest b) = disks b ∧ stable (B.freeRequest b) = stable b) :
    Cached (device B) (fun st : State β => disks st.blk) (fun st : State β => stable st.blk) := by
  have key := driver_execute B disks stable hR hr hm hf
  refine ⟨C108_driver B disks hB.toHonest hR (fun b sub b' h => (hr b sub b' h).1) (fun b a n => (hm b a n).1) (fun b => (hf b).1),
    fun st m sub hc h9 k a hcov hst => ?_, fun st m sub had h0 hok a => ?_, fun st m sub hc had hfua hok k a hcov => ?_⟩
  · obtain ⟨b, h1, h2, -, h4, h5⟩ := key st m sub
    simp only [h4, h5]
    exact hB.kept b m sub hc h9 k a hcov (by rw [h1, h2]; exact hst)
  · obtain ⟨b, -, -, h3, h4, h5⟩ := key st m sub
    rw [h3] at hok
    simp only [h4, h5]
    exact hB.flush b m sub had h0 hok a
  · obtain ⟨b, -, -, h3, h4, h5⟩ := key st m sub
    rw [h3] at hok
    simp only [h4, h5]
    exact hB.fua b m sub hc had hfua hok k a hcov

/-! ## A device and three calls -/

/-- The device of C108 (it executes only the commands chosen by `works`, and answers the others with Internal Error after storing
some of the data of a Write) with a write cache: the second disk is what is left when the power fails. -/
def cachedDevice (cap : Nat → Nat) (works : Nat → Bool) (part : Nat) : Device ((Nat × Disk) × Disk) := fun s m sub =>
  let r := failingDevice cap works part s.1 m sub
  ((r.1, fun k a => if sub.is_admin = false ∧ ((byte sub.cmd 0 = 0 ∧ k = leAt sub.cmd 4 4 ∧ works s.1.1 = true) ∨
      (bit sub.cmd 51 6 = true ∧ byte sub.cmd 0 = 0x01 ∧ k = leAt sub.cmd 4 4 ∧
        4096 * leAt sub.cmd 40 8 ≤ a ∧ a < 4096 * leAt sub.cmd 40 8 + 4096 * (leAt sub.cmd 48 2 + 1))) then r.1.2 k a else s.2 k a), r.2)

theorem cached_device (cap : Nat → Nat) (works : Nat → Bool) (part : Nat) :
    Cached (cachedDevice cap works part) (fun s => s.1.2) (fun s => s.2) := by
  have h := failing_honest cap works part
  refine ⟨⟨⟨fun s => h.memory s.1, fun s => h.maps s.1, fun s => h.disk s.1⟩, fun s => h.read s.1, fun s => h.write s.1⟩,
    fun s m sub hc h9 k a hcov hst => ?_, fun s m sub had h0 hok a => ?_, fun s m sub hc had hfua hok k a hcov => ?_⟩
  · change s.2 k a = s.1.2 k a at hst
    change (if _ then (failingDevice cap works part s.1 m sub).1.2 k a else s.2 k a) = (failingDevice cap works part s.1 m sub).1.2 k a
    split
    · rfl
    · rw [hst]
      rcases h.disk s.1 m sub hc h9 k a with e | ⟨e1, e2, e3, e4, -⟩
      · exact e.symm
      · exact absurd ⟨e1, e2, e3, e4⟩ hcov
  · change cplOk (failingDevice cap works part s.1 m sub).2.2 at hok
    change (if _ then (failingDevice cap works part s.1 m sub).1.2 _ a else s.2 _ a) = (failingDevice cap works part s.1 m sub).1.2 _ a
    by_cases hw : works s.1.1 = true
    · exact if_pos ⟨had, .inl ⟨h0, rfl, hw⟩⟩
    · unfold failingDevice at hok
      rw [if_neg hw] at hok
      exact absurd hok.2 (show ¬ (generic 6).sc.toNat = 0 by decide)
  · change (if _ then (failingDevice cap works part s.1 m sub).1.2 k a else s.2 k a) = (failingDevice cap works part s.1 m sub).1.2 k a
    exact if_pos ⟨had, .inr ⟨hfua, hcov.1, hcov.2.1, hcov.2.2.1, hcov.2.2.2⟩⟩

/-- WRITE(10) of blocks 9 and 10, SYNCHRONIZE CACHE(10), WRITE(16) of blocks 20 and 21 with FUA. -/
def storeBlocks : Fin 3 → List Byte
  | 0 => [0x2a, 0, 0, 0, 0, 9, 0, 0, 2, 0]
  | 1 => [0x35, 0, 0, 0, 0, 0, 0, 0, 0, 0]
  | 2 => [0x8a, 8, 0, 0, 0, 0, 0, 0, 0, 20, 0, 0, 0, 2, 0, 0]

/-- 64 KiB for each call, beginning with the command block. -/
def storeShared : Mem := fun a =>
  if a < 0x10000 then none
  else if h : a / 0x10000 - 1 < 3 then some ((storeBlocks ⟨a / 0x10000 - 1, h⟩).getD (a % 0x10000) (BitVec.ofNat 8 (a / 7)))
  else none

/-- The three calls, for LUN 3. -/
def storeCalls (i : Fin 3) : Request :=
  { mem := storeShared, ws := Demo.ws, ptr := 0x10000 * (i.val + 1), cdb := storeBlocks i, lun := 3, sense := 0x10000 * (i.val + 1) + 0x400,
    senseLen := 32, data := 0x10000 * (i.val + 1) + 0x8000, dataLen := 8192, isIn := false }

theorem storeBlocks_length (i : Fin 3) : (storeBlocks i).length ≤ 16 := by revert i; decide

theorem storeShared_slot (i : Fin 3) (k : Nat) (hk : k < 0x10000) :
    storeShared (0x10000 * (i.val + 1) + k) = some ((storeBlocks i).getD k (BitVec.ofNat 8 ((0x10000 * (i.val + 1) + k) / 7))) := by
  have hi := i.isLt
  have e1 : (0x10000 * (i.val + 1) + k) / 0x10000 - 1 = i.val := by omega
  have e2 : (0x10000 * (i.val + 1) + k) % 0x10000 = k := by omega
  unfold storeShared
  rw [if_neg (by omega), dif_pos (by omega), e2]
  simp only [e1]

theorem storeCalls_stored (i : Fin 3) : storeShared.read (storeCalls i).ptr (storeCalls i).cdb.length = some (storeCalls i).cdb := by
  refine read_eq_some.mpr ⟨rfl, fun k hk => ?_⟩
  have hl := storeBlocks_length i
  have hk : k < (storeBlocks i).length := hk
  refine (storeShared_slot i k (by omega)).trans ?_
  change _ = (storeBlocks i)[k]?
  rw [List.getD_eq_getElem?_getD, List.getElem?_eq_getElem hk]
  rfl

theorem storeCalls_acc (i : Fin 3) (off len : Nat) (h : off + len < 0x10000) : accessible storeShared ⟨0x10000 * (i.val + 1) + off, len⟩ := by
  intro k hk
  have hk : k < len := hk
  change (storeShared (0x10000 * (i.val + 1) + off + k)).isSome
  rw [Nat.add_assoc, storeShared_slot i (off + k) (by omega)]
  rfl

theorem storeCalls_uses {i : Fin 3} {a : Nat} (h : (storeCalls i).uses a) : 0x10000 * (i.val + 1) ≤ a ∧ a < 0x10000 * (i.val + 2) := by
  have hl := storeBlocks_length i
  rcases h with h | h | h
  · change inRange (0x10000 * (i.val + 1)) (storeBlocks i).length a at h
    unfold inRange at h; omega
  · change inRange (0x10000 * (i.val + 1) + 0x400) 32 a at h
    unfold inRange at h; omega
  · change inRange (0x10000 * (i.val + 1) + 0x8000) 8192 a at h
    unfold inRange at h; omega

theorem storeBlocks_rw (i : Fin 3) : i = 1 ∨ ∃ rw, decodeRw (storeBlocks i) = some rw ∧ rw.blocks = 2 ∧ (∀ c, rw.protect = some c → c ≤ 5) ∧
    (i = 0 → rw.lba = 9) ∧ (i = 2 → rw.lba = 20 ∧ rw.fua = true) := by
  match i with
  | 0 => exact .inr ⟨⟨9, 2, some 0, false⟩, by decide +kernel, rfl, by intro c h; cases h; decide, fun _ => rfl, fun h => absurd h (by decide)⟩
  | 1 => exact .inl rfl
  | 2 => exact .inr ⟨⟨20, 2, some 0, true⟩, by decide +kernel, rfl, by intro c h; cases h; decide, fun h => absurd h (by decide), fun _ => ⟨rfl, rfl⟩⟩

theorem storeCalls_separate : Separate storeCalls storeShared where
  mem := fun _ => rfl
  sound := fun i => ⟨storeCalls_acc i 0x400 32 (by decide), storeCalls_acc i 0x8000 8192 (by decide)⟩
  apart := by
    intro i j hij a h1 h2
    have h1 := storeCalls_uses h1
    have h2 := storeCalls_uses h2
    exact hij (Fin.ext (by omega))
  fair := by
    intro i
    have hi := i.isLt
    have hl := storeBlocks_length i
    refine ⟨storeCalls_stored i, by change (storeBlocks i).length < _; omega, fun h => absurd h (by revert i; decide), fun hop => ?_⟩
    refine ⟨storeCalls_stored i, by change (storeBlocks i).length < _; omega, hop, storeCalls_acc i 0x400 32 (by decide),
      storeCalls_acc i 0x8000 8192 (by decide), ?_, ?_, by change 3 + 1 < 2 ^ 32; decide, ?_⟩
    · change 0x10000 * (i.val + 1) + 0x8000 + 8192 ≤ 2 ^ 64
      omega
    · intro a h1 h2
      change inRange (0x10000 * (i.val + 1)) (storeBlocks i).length a at h1
      change inRange (0x10000 * (i.val + 1) + 0x8000) 8192 a at h2
      unfold inRange at h1 h2
      omega
    · intro hw rw_ h
      change 4096 * rw_.blocks ≤ 8192
      rcases storeBlocks_rw i with rfl | ⟨rw', e, e2, -⟩
      · exact absurd hw (by decide)
      · change decodeRw (storeBlocks i) = some rw_ at h
        rw [e] at h
        cases h
        omega

theorem storeCalls_asks : (storeCalls 0).asks (9 + 2) 9 2 ∧ (storeCalls 2).asks (20 + 2) 20 2 ∧ asksFua (storeCalls 2).cdb := by
  refine ⟨⟨⟨9, 2, some 0, false⟩, by decide +kernel, by intro c h; cases h; decide, rfl, rfl, by decide, (by decide : 4096 * 2 ≤ (8192 : U16).toNat), by omega⟩,
    ⟨⟨20, 2, some 0, true⟩, by decide +kernel, by intro c h; cases h; decide, rfl, rfl, by decide, (by decide : 4096 * 2 ≤ (8192 : U16).toNat), by omega⟩,
    ⟨⟨20, 2, some 0, true⟩, by decide +kernel, rfl⟩⟩

/-- Every other call leaves the blocks of the WRITEs alone. -/
theorem storeCalls_leave (i : Fin 3) : (i ≠ 0 → (storeCalls i).leaves 3 9 2) ∧ (i ≠ 2 → (storeCalls i).leaves 3 20 2) := by
  refine ⟨fun hi hw _ l k ha => ?_, fun hi hw _ l k ha => ?_⟩
  · match i with
    | 0 => exact absurd rfl hi
    | 1 => exact absurd hw (by decide)
    | 2 =>
      obtain ⟨rfl, rfl⟩ := asks_same storeCalls_asks.2.1 ha
      omega
  · match i with
    | 0 =>
      obtain ⟨rfl, rfl⟩ := asks_same storeCalls_asks.1 ha
      omega
    | 1 => exact absurd hw (by decide)
    | 2 => exact absurd rfl hi

/-- The hypotheses are met: in any schedule in which the SYNCHRONIZE CACHE begins when the first WRITE has returned, over a device with
a write cache which fails commands in any pattern; the power fails at any time after that. -/
example (cap : Nat → Nat) (works : Nat → Bool) (part : Nat) (d d' : Disk) (sched₁ sched₂ sched₃ : List (Fin 3)) (h1 : 1 ∉ sched₁)
    (h0 : 5 ≤ sched₁.count 0) (h2 : 5 ≤ sched₂.count 1) :
    ∃ y₁ y₂ y₃ rW rS, (Sys.start ((0, d), d') storeShared []).run boundedEnv (cachedDevice cap works part) storeCalls sched₁ = .ok y₁ ∧
      y₁.run boundedEnv (cachedDevice cap works part) storeCalls sched₂ = .ok y₂ ∧
      y₂.run boundedEnv (cachedDevice cap works part) storeCalls sched₃ = .ok y₃ ∧
      y₁.phase 0 = .returned rW ∧ y₂.phase 1 = .returned rS ∧
      (rW.return_code = 0 → rS.return_code = 0 → storeShared.read 0x18000 8192 = some (Disk.read y₃.dev.2 4 (4096 * 9) 8192)) ∧
      (∀ r, y₂.phase 2 = .returned r → r.return_code = 0 → storeShared.read 0x38000 8192 = some (Disk.read y₃.dev.2 4 (4096 * 20) 8192)) := by
  have hH := cached_device cap works part
  have hop : ∀ i page, steady (storeCalls i).cdb page := fun i => steady_of (by revert i; decide)
  have run := fun sched => C108_defined boundedEnv _ _ boundedEnv_good hH.toHonest storeCalls storeShared storeCalls_separate hop ((0, d), d') [] sched
  obtain ⟨y1, e1⟩ := run sched₁
  obtain ⟨y2, e2⟩ := run (sched₁ ++ sched₂)
  obtain ⟨y3, e3⟩ := run (sched₁ ++ sched₂ ++ sched₃)
  obtain ⟨rW, p1⟩ := C96_wait_free _ _ _ _ _ _ _ _ e1 0 h0
  obtain ⟨rS, p2⟩ := C96_wait_free _ _ _ _ _ _ _ _ e2 1 (by rw [List.count_append]; omega)
  have e3' := e3
  rw [Sys_run_append, e2] at e3'
  have e2' := e2
  rw [Sys_run_append, e1] at e2'
  have hc : y1.phase 1 = .called := run_unscheduled _ _ _ 1 _ _ _ e1 h1
  refine ⟨y1, y2, y3, rW, rS, e1, e2', e3', p1, p2, fun g1 g2 => ?_, fun r p3 g3 => ?_⟩
  · exact C121_synchronized boundedEnv _ _ _ boundedEnv_good hH storeCalls storeShared storeCalls_separate ((0, d), d') [] [] sched₁ sched₂
      sched₃ _ y1 y2 y3 rfl e1 e2' e3' 0 1 rW rS rfl p1 g1 hc p2 g2 9 2 (by decide) storeCalls_asks.1 (by decide) rfl
      fun j hj => .inr ((storeCalls_leave j).1 hj)
  · exact C121_forced boundedEnv _ _ _ boundedEnv_good hH storeCalls storeShared storeCalls_separate ((0, d), d') [] [] (sched₁ ++ sched₂)
      sched₃ _ y2 y3 rfl e2 e3' 2 r rfl p3 g3 20 2 (by decide) storeCalls_asks.2.1 storeCalls_asks.2.2
      fun j hj => .inr ((storeCalls_leave j).2 hj)

/-- What the calls returned, and what byte 0 of block 9 of the namespace of LUN 3 holds: as commands see it, and after a power failure. -/
def storeOutcome (sched : List (Fin 3)) (works : Nat → Bool) : Option (List (Option Nat) × Byte × Byte) :=
  match (Sys.start ((0, fun _ _ => 0), fun _ _ => 0) storeShared []).run boundedEnv (cachedDevice (fun _ => 100) works 0) storeCalls sched with
  | .error _ => none
  | .ok y => some (([0, 1, 2] : List (Fin 3)).map fun i => match y.phase i with
      | .returned r => some r.return_code
      | _ => none, y.dev.1.2 4 36864, y.dev.2 4 36864)

/-- The calls can be answered with GOOD although the device fails another command: here the second of three. -/
theorem store_good : storeOutcome [0, 2, 0, 2, 0, 2, 1, 1, 1] (fun k => k ≠ 1) = some ([some 0, some 0, some 2], 0xdb, 0xdb) := by
  decide +kernel

/-- … and without SYNCHRONIZE CACHE the data of the WRITE, although it was answered with GOOD, are lost when the power fails. -/
theorem store_lost : storeOutcome [0, 0, 0] (fun _ => true) = some ([some 0, none, none], 0xdb, 0) := by decide +kernel

/-- … as they may be if the SYNCHRONIZE CACHE is not answered with GOOD. -/
theorem store_failed : storeOutcome [0, 0, 0, 1, 1, 1] (fun k => k ≠ 1) = some ([some 0, some 2, none], 0xdb, 0) := by decide +kernel

end Scsi2Nvme
