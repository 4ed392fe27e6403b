import Verif.Spec.Lossy
import Verif.Spec.Stack
import Verif.Proofs.Linear
import Verif.Properties.Concurrent
/-!
# C99: what is left when the device fails
-/

namespace Scsi2Nvme
open Spec Engine Driver

variable {ι σ β : Type}

/-- The NVMe command of a WRITE. -/
theorem write_fields {E w r t1 w1} {q : Request} (hq : q.Valid) (hop : isWrite (byte q.cdb 0))
    (hB : Began E (Translation.init q.ws) w q.ptr q.cdb ⟨q.data, q.dataLen.toNat⟩ q.lun r t1 w1)
    (wr : NvmeCmdWrapper) (hwr : wr ∈ t1.GetNvmeWrappers) :
    t1.GetNvmeWrappers = [wr] ∧ ∃ lba n, q.asks (lba + n) lba n ∧ leAt wr.cmd.toBytes 4 4 = q.lun.toNat + 1 ∧
      leAt wr.cmd.toBytes 24 8 = q.data ∧ leAt wr.cmd.toBytes 40 8 = lba ∧ leAt wr.cmd.toBytes 48 2 + 1 = n := by
  have hns : nsidOfLun q.lun = q.lun.toNat + 1 := Nat.mod_eq_of_lt hq.lun
  have hlt : q.dataLen.toNat < 65536 := q.dataLen.isLt
  have ha : Accepted t1 := (hB.accepted_of_mem hwr).1
  obtain ⟨rw_, pract, prchk, wr', hd, hp, hb1, hcmds, hb, had, hbl, hr, -⟩ := C21_write_all _ _ _ _ _ _ _ _ _ _ hB hop ha
  obtain ⟨rw', hd', h5, -⟩ := (C22_write_accepted _ _ _ _ _ _ _ _ _ _ hB hop).mp ha
  rw [hd] at hd'
  cases hd'
  have hwr' := hwr
  rw [hcmds] at hwr'
  simp only [List.mem_cons, List.not_mem_nil, or_false] at hwr'
  subst hwr'
  have hb3 : 4096 * rw_.blocks ≤ q.dataLen.toNat := hq.matching hop rw_ hd
  have hprp : prpOf ⟨q.data, q.dataLen.toNat⟩ = q.data := by
    have := hq.space
    exact Nat.mod_eq_of_lt (show q.data < 2 ^ 64 by omega)
  rw [if_neg (by omega), Nat.mod_eq_of_lt (by omega)] at hb
  have hf := sqe_fields 1 (nsidOfLun q.lun) (prpOf ⟨q.data, q.dataLen.toNat⟩) rw_.lba
    (ioCdw12 rw_.blocks prchk pract rw_.fua) (by decide) (nsidOfLun_lt _) (Nat.mod_lt _ (by decide)) (decodeRw_lba hd)
  change byte (writeSqe _ _ _ _ _ _ _) 0 = _ ∧ leAt (writeSqe _ _ _ _ _ _ _) 4 4 = _ ∧ leAt (writeSqe _ _ _ _ _ _ _) 24 8 = _ ∧
    leAt (writeSqe _ _ _ _ _ _ _) 40 8 = _ ∧ leAt (writeSqe _ _ _ _ _ _ _) 48 2 = _ at hf
  rw [← hb] at hf
  obtain ⟨f0, f1, f2, f3, f4⟩ := hf
  have f4' : leAt wr.cmd.toBytes 48 2 + 1 = rw_.blocks := by
    rw [f4]; unfold ioCdw12; omega
  exact ⟨hcmds, rw_.lba, rw_.blocks, ⟨rw_, hd, h5, rfl, rfl, hb1, hb3, Nat.le_refl _⟩, by rw [f1, hns], by rw [f2, hprp], f3, f4'⟩

theorem submitted_coherent (wr : NvmeCmdWrapper) : (submissionOf wr).buffer.toNat = leAt (submissionOf wr).cmd 24 8 := (prp1_bytes _).symm

theorem dataset_never {E w r t1 w1} {q : Request} (hq : q.Fair)
    (hB : Began E (Translation.init q.ws) w q.ptr q.cdb ⟨q.data, q.dataLen.toNat⟩ q.lun r t1 w1)
    (wr : NvmeCmdWrapper) (hwr : wr ∈ t1.GetNvmeWrappers) :
    byte q.cdb 0 ≠ 0x42 ∧ byte wr.cmd.toBytes 0 ≠ 0x09 ∧ (byte wr.cmd.toBytes 0 = 0x01 → isWrite (byte q.cdb 0)) := by
  have h42 : byte q.cdb 0 ≠ 0x42 := by
    intro h
    rw [(C28_conforming_rejected _ _ _ _ _ _ _ _ _ _ hB h (hq.unmap h)).2] at hwr
    cases hwr
  have hm := C65_modifies_partial _ _ _ _ _ _ _ _ _ _ hB h42 wr hwr
  refine ⟨h42, fun h => ?_, fun h => hm (.inl h)⟩
  have := write_opcode hB (hm (.inr h)) wr hwr
  omega

/-- A device which may fail does to the memory what calls tolerate. -/
theorem Spec.Lossy.tame {D : Device σ} {disks : σ → Disk} (hL : Lossy D disks) {E : Env} (hg : GoodAllocator E) : Tame E D := by
  intro q hq w r t1 w1 hB wr hwr s m
  have hco := submitted_coherent wr
  refine ⟨fun a h1 h2 => hL.memory s m _ hco a fun hf => ?_, hL.maps s m _ hco⟩
  obtain ⟨h42, -, -⟩ := dataset_never hq hB wr hwr
  rcases hf with ⟨h3, h4, h5⟩ | ⟨h3, h4, h5⟩
  · have hr : isRead (byte q.cdb 0) := by
      by_cases hop : isRead (byte q.cdb 0) ∨ isWrite (byte q.cdb 0)
      · rcases hop with h | h
        · exact h
        · have := write_opcode hB h wr hwr
          change byte wr.cmd.toBytes 0 = 2 at h4
          omega
      · exact (harmless_all hB hg h42 wr hwr).2 h4
    obtain ⟨e1, e2, e3⟩ := C20_read_fits _ _ _ _ _ _ _ _ _ _ hB hr wr hwr
    have hsp := (hq.rw (.inl hr)).space
    have e2' : wr.buffer_len.toNat ≤ q.dataLen.toNat := e2
    have e4 : prpOf ⟨q.data, q.dataLen.toNat⟩ = q.data := by
      by_cases h0 : q.data = 2 ^ 64
      · exfalso
        unfold inRange at h5
        change _ ≤ a ∧ a < leAt wr.cmd.toBytes 24 8 + 4096 * (leAt wr.cmd.toBytes 48 2 + 1) at h5
        omega
      · exact Nat.mod_eq_of_lt (show q.data < 2 ^ 64 by omega)
    refine h1 ⟨hr, ?_⟩
    rw [← e4, ← e3]
    refine ⟨h5.1, Nat.lt_of_lt_of_le h5.2 ?_⟩
    change leAt wr.cmd.toBytes 24 8 + 4096 * (leAt wr.cmd.toBytes 48 2 + 1) ≤ leAt wr.cmd.toBytes 24 8 + _
    omega
  · refine h2 ⟨(harmless_all hB hg h42 wr hwr).1 h4 a h5, ?_⟩
    have hacc := granted_pages hB hg h42 wr hwr h4 (a - leAt wr.cmd.toBytes 24 8) (by
      have := h5.1
      have := h5.2
      change a < leAt wr.cmd.toBytes 24 8 + 4096 at this
      simp only; omega)
    rwa [show leAt wr.cmd.toBytes 24 8 + (a - leAt wr.cmd.toBytes 24 8) = a by
      have := h5.1
      change leAt wr.cmd.toBytes 24 8 ≤ a at this
      omega] at hacc

/-- What holds at every moment, whatever the device does. -/
structure Calm (q : ι → Request) (own : ι → Nat → Prop) (m0 : Mem) (d0 : Disk) (disks : σ → Disk) (y : Sys ι σ) : Prop where
  fresh : ∀ i, y.phase i = .called ∨ (isWrite (byte (q i).cdb 0) ∧ ∃ r t wr todo cs, y.phase i = .waiting r t (wr :: todo) cs) →
    ∀ a, (q i).uses a → y.world.mem a = m0 a
  outside : ∀ a, (m0 a).isSome → (∀ i, ¬ (q i).uses a) → y.world.mem a = m0 a ∧ ∀ i, ¬ own i a
  disk : ∀ k a, disks y.dev k a = d0 k a ∨
    ∃ i l, y.phase i ≠ .called ∧ k = l + 1 ∧ (q i).carries m0 l a (disks y.dev k a)

theorem Calm.step [DecidableEq ι] {D : Device σ} {disks : σ → Disk} (hL : Lossy D disks) {E : Env} (hg : GoodAllocator E)
    {q : ι → Request} {m0 : Mem} (hq : Separate q m0) {d0 : Disk} {own : ι → Nat → Prop} {y y' : Sys ι σ} {i : ι} (hI : Inv E q own y)
    (hK : Calm q own m0 d0 disks y) (h : Stepped E D q y i y') :
    ∃ own', Inv E q own' y' ∧ Calm q own' m0 d0 disks y' := by
  obtain ⟨own', hI', hc, hP⟩ := hI.move (hL.tame hg) hg hq h
  refine ⟨own', hI', ?_⟩
  have hout : ∀ a, (m0 a).isSome → (∀ i, ¬ (q i).uses a) → y'.world.mem a = m0 a ∧ ∀ i, ¬ own' i a := by
    intro a h0 hu
    obtain ⟨k1, k2⟩ := hK.outside a h0 hu
    have hs : (y.world.mem a).isSome := by rw [k1]; exact h0
    refine ⟨by rw [hc a hs (hu i) (k2 i)]; exact k1, fun j hj => ?_⟩
    by_cases e : j = i
    · subst e
      cases hp' : y'.phase j with
      | called => exact (hI'.called j hp').2 a hj
      | returned r => exact hI'.returned j r hp' a hj
      | waiting r t todo cs =>
        cases hp : y.phase j with
        | called =>
          have := (hP.fresh hp r t todo cs hp' a).mp hj
          rw [this.1] at hs; cases hs
        | waiting r' t' todo' cs' =>
          rw [hP.kept _ _ _ _ _ _ _ _ hp hp'] at hj
          exact k2 j hj
        | returned r' =>
          cases h with
          | begin h => rw [hp] at h; cases h
          | submit h => rw [hp] at h; cases h
          | complete h => rw [hp] at h; cases h
          | returned _ => rw [hp] at hp'; cases hp'
    · rw [hP.others j e] at hj
      exact k2 j hj
  have oth : ∀ j, j ≠ i → ∀ a, (q j).uses a → y'.world.mem a = y.world.mem a := fun j hj => (hI.others hc hq.apart j hj).1
  cases h with
  | @begin r t w1 hp hB =>
    have keeps : ∀ a, (y.world.mem a).isSome → w1.mem a = y.world.mem a := fun a ha => Begin_keeps hg hB.idle.idle hB.call a ha
    refine ⟨fun j hj a ha => ?_, hout, fun k a => ?_⟩
    · change w1.mem a = _
      rw [keeps a (hI.used j a ha)]
      by_cases e : j = i
      · subst e; exact hK.fresh j (.inl hp) a ha
      · refine hK.fresh j ?_ a ha
        simpa only [Sys.to, if_neg e] using hj
    · refine (hK.disk k a).imp_right ?_
      rintro ⟨j, l, k1, k2, k3⟩
      refine ⟨j, l, ?_, k2, k3⟩
      simp only [Sys.to]
      split
      · split <;> (intro h; cases h)
      · exact k1
  | @submit r t wr todo cs hp =>
    obtain ⟨w, w1, hb⟩ := hI.waiting i r t _ cs hp
    obtain ⟨done, hd1, hd2⟩ := hb.progress
    have hwr : wr ∈ t.GetNvmeWrappers := by rw [hd1]; simp
    obtain ⟨-, hn9, hn1⟩ := dataset_never (hq.fair i) hb.began wr hwr
    refine ⟨fun j hj a ha => ?_, hout, fun k a => ?_⟩
    · by_cases e : j = i
      · subst e
        simp only [Sys.to, if_true] at hj
        rcases hj with hj | ⟨hw, r', t', wr', todo', cs', hj⟩
        · cases hj
        · cases hj
          obtain ⟨h1, -⟩ := write_fields ((hq.fair j).rw (.inr hw)) hw hb.began wr hwr
          rw [hd1] at h1
          have := congrArg List.length h1
          simp at this
          omega
      · rw [oth j e a ha]
        refine hK.fresh j ?_ a ha
        simpa only [Sys.to, if_neg e] using hj
    · change disks (D y.dev y.world.mem (submissionOf wr)).1 k a = _ ∨ _
      rcases hL.disk y.dev y.world.mem _ (submitted_coherent wr) hn9 k a with h1 | ⟨h1, h2, h3, h4, h5⟩
      · rcases hK.disk k a with h2 | ⟨j, l, k1, k2, k3⟩
        · exact .inl (h1.trans h2)
        · refine .inr ⟨j, l, ?_, k2, ?_⟩
          · simp only [Sys.to]
            split
            · intro h; cases h
            · exact k1
          · change (q j).carries m0 l a (disks (D y.dev y.world.mem (submissionOf wr)).1 k a)
            rw [h1]; exact k3
      · have hw := hn1 h2
        have hv := (hq.fair i).rw (.inr hw)
        obtain ⟨-, lba, n, ha, f1, f2, f3, f4⟩ := write_fields hv hw hb.began wr hwr
        change k = leAt wr.cmd.toBytes 4 4 at h3
        change inRange (4096 * leAt wr.cmd.toBytes 40 8) (4096 * (leAt wr.cmd.toBytes 48 2 + 1)) a at h4
        change y.world.mem (leAt wr.cmd.toBytes 24 8 + (a - 4096 * leAt wr.cmd.toBytes 40 8)) = some _ at h5
        rw [f3, f4] at h4
        rw [f2, f3] at h5
        refine .inr ⟨i, (q i).lun.toNat, ?_, by rw [h3, f1], lba, n, hw, ha, rfl, h4, ?_⟩
        · simp only [Sys.to, if_true]
          intro h; cases h
        · rw [← hK.fresh i (.inr ⟨hw, r, t, wr, todo, cs, hp⟩) _ ?_]
          · exact h5
          · obtain ⟨rw', e, -, rfl, rfl, -, e2, -⟩ := ha
            have := h4.1
            have := h4.2
            exact .inr (.inr ⟨Nat.le_add_right _ _, Nat.add_lt_add_left (by omega) _⟩)
  | @complete r t cs c t2 w3 hp hcall =>
    refine ⟨fun j hj a ha => ?_, hout, fun k a => ?_⟩
    · by_cases e : j = i
      · subst e
        simp only [Sys.to, if_true] at hj
        rcases hj with hj | ⟨hw, r', t', wr', todo', cs', hj⟩ <;> cases hj
      · rw [oth j e a ha]
        refine hK.fresh j ?_ a ha
        simpa only [Sys.to, if_neg e] using hj
    · refine (hK.disk k a).imp_right ?_
      rintro ⟨j, l, k1, k2, k3⟩
      refine ⟨j, l, ?_, k2, k3⟩
      simp only [Sys.to]
      split
      · intro h; cases h
      · exact k1
  | returned hp =>
    exact ⟨hK.fresh, hout, hK.disk⟩

theorem Calm.run [DecidableEq ι] {D : Device σ} {disks : σ → Disk} (hL : Lossy D disks) {E : Env} (hg : GoodAllocator E)
    {q : ι → Request} {m0 : Mem} (hq : Separate q m0) {d0 : Disk} (sched : List ι) {own : ι → Nat → Prop} {x y : Sys ι σ}
    (hI : Inv E q own x) (hK : Calm q own m0 d0 disks x) (h : x.run E D q sched = .ok y) :
    ∃ own', Inv E q own' y ∧ Calm q own' m0 d0 disks y := by
  induction sched generalizing own x with
  | nil => cases h; exact ⟨own, hI, hK⟩
  | cons i is ih =>
    unfold Sys.run at h
    split at h
    · cases h
    · rename_i x1 e
      obtain ⟨own1, hI1, hK1⟩ := hK.step hL hg hq hI (stepped_of hI (hq.fair i).short e)
      exact ih hI1 hK1 h

theorem Calm.start {q : ι → Request} {m0 : Mem} (disks : σ → Disk) (s : σ) (tr : List Event) :
    Calm q (fun _ _ => False) m0 (disks s) disks (Sys.start s m0 tr : Sys ι σ) where
  fresh := fun _ _ _ _ => rfl
  outside := fun _ _ _ => ⟨rfl, fun _ h => h⟩
  disk := fun _ _ => .inl rfl

/-- **C99.** The device may fail in any way, at any time, while any number of calls are under way: at every moment every byte of every
disk is the one it held at first, or the one which a complete and correct WRITE among the calls which have begun puts there. -/
theorem C99_disks [DecidableEq ι] (E : Env) (D : Device σ) (disks : σ → Disk) (hg : GoodAllocator E) (hL : Lossy D disks)
    (q : ι → Request) (m : Mem) (hq : Separate q m) (s : σ) (tr : List Event) (sched : List ι) (y : Sys ι σ)
    (h : (Sys.start s m tr).run E D q sched = .ok y) (k a : Nat) :
    disks y.dev k a = disks s k a ∨
      ∃ i l, y.phase i ≠ .called ∧ k = l + 1 ∧ (q i).carries m l a (disks y.dev k a) := by
  obtain ⟨own, -, hK⟩ := (Calm.start disks s tr).run hL hg hq sched (Inv.start hq s tr) h
  exact hK.disk k a

/-- **C99.** … memory which was accessible and belongs to no call is not touched; nor is the memory of a call which has not begun. -/
theorem C99_memory [DecidableEq ι] (E : Env) (D : Device σ) (disks : σ → Disk) (hg : GoodAllocator E) (hL : Lossy D disks)
    (q : ι → Request) (m : Mem) (hq : Separate q m) (s : σ) (tr : List Event) (sched : List ι) (y : Sys ι σ)
    (h : (Sys.start s m tr).run E D q sched = .ok y) (a : Nat) :
    ((m a).isSome → (∀ i, ¬ (q i).uses a) → y.world.mem a = m a) ∧
    (∀ i, y.phase i = .called → (q i).uses a → y.world.mem a = m a) := by
  obtain ⟨own, -, hK⟩ := (Calm.start disks s tr).run hL hg hq sched (Inv.start hq s tr) h
  exact ⟨fun h1 h2 => (hK.outside a h1 h2).1, fun i h1 h2 => hK.fresh i (.inl h1) a h2⟩

/-- **C99.** … and no interleaving has undefined behaviour (some MODE SENSE commands
aside, see C81). -/
theorem C99_defined [DecidableEq ι] (E : Env) (D : Device σ) (disks : σ → Disk) (hg : GoodAllocator E) (hL : Lossy D disks)
    (q : ι → Request) (m : Mem) (hq : Separate q m) (hop : ∀ i page, steady (q i).cdb page)
    (s : σ) (tr : List Event) (sched : List ι) : ∃ y, (Sys.start s m tr).run E D q sched = .ok y := by
  have key : ∀ (sched : List ι) (own : ι → Nat → Prop) (x : Sys ι σ), Inv E q own x → ∃ y, x.run E D q sched = .ok y := by
    intro sched
    induction sched with
    | nil => exact fun own x _ => ⟨x, rfl⟩
    | cons i is ih =>
      intro own x hI
      obtain ⟨y1, h1⟩ := hI.steady D hg hq (i := i) (hop i)
      obtain ⟨own1, hI1, -⟩ := hI.move (hL.tame hg) hg hq (stepped_of hI (hq.fair i).short h1)
      obtain ⟨y, h⟩ := ih own1 y1 hI1
      refine ⟨y, ?_⟩
      unfold Sys.run
      rw [h1]
      exact h
  exact key sched _ _ (Inv.start hq s tr)

/-- **C99.** The driver of the kernel is such a device over any block layer, however unreliable, whose hardware is such a device: a
submission which fails has no effect. -/
theorem C99_driver (B : BlockLayer β) (disks : β → Disk) (hB : Lossy B.execute disks)
    (hr : ∀ b sub b', B.allocRequest b sub = .ok b' → disks b' = disks b) (hm : ∀ b a n, disks (B.mapKern b a n).2 = disks b)
    (hf : ∀ b, disks (B.freeRequest b) = disks b) : Lossy (device B) (fun st : State β => disks st.blk) := by
  have key : ∀ (st : State β) (m : Mem) (sub : Submission), ((device B st m sub).2.1 = m ∧ disks (device B st m sub).1.blk = disks st.blk) ∨
      ∃ b, disks b = disks st.blk ∧ (device B st m sub).2.1 = (B.execute b m sub).2.1 ∧
        disks (device B st m sub).1.blk = disks (B.execute b m sub).1 := by
    intro st m sub
    have main : ∀ queue, let r := nvme_submit_user_cmd B queue st m sub {}
        (r.mem = m ∧ disks r.state.blk = disks st.blk) ∨
        ∃ b, disks b = disks st.blk ∧ r.mem = (B.execute b m sub).2.1 ∧ disks r.state.blk = disks (B.execute b m sub).1 := by
      intro queue
      simp only
      unfold nvme_submit_user_cmd submit_req_done
      split
      · exact .inl ⟨rfl, rfl⟩
      · cases hb : B.allocRequest st.blk sub with
        | error e => exact .inl ⟨rfl, rfl⟩
        | ok b =>
          simp only
          split
          · split
            · exact .inl ⟨rfl, by rw [hf, hm, hr _ _ _ hb]⟩
            · split
              · exact .inl ⟨rfl, by rw [hf, hm, hr _ _ _ hb]⟩
              · exact .inr ⟨_, by rw [hm, hr _ _ _ hb], rfl, by rw [hf]⟩
          · exact .inr ⟨_, by rw [hr _ _ _ hb], rfl, by rw [hf]⟩
    unfold device submit_admin_command submit_io_command
    simp only
    split
    · exact main _
    · exact main _
  constructor
  · intro st m sub hc a ha
    rcases key st m sub with ⟨h1, -⟩ | ⟨b, -, h1, -⟩
    · rw [h1]
    · rw [h1]; exact hB.memory b m sub hc a ha
  · intro st m sub hc a ha
    rcases key st m sub with ⟨h1, -⟩ | ⟨b, -, h1, -⟩
    · rw [h1]; exact ha
    · rw [h1]; exact hB.maps b m sub hc a ha
  · intro st m sub hc h9 k a
    rcases key st m sub with ⟨-, h1⟩ | ⟨b, h0, -, h1⟩
    · exact .inl (by rw [h1])
    · rw [h1, ← h0]
      exact hB.disk b m sub hc h9 k a

/-! ## Devices -/

/-- The ideal device is such a device. -/
theorem ideal_lossy (cap : Nat → Nat) : Lossy (idealDevice cap) id := by
  have key : ∀ (d : Disk) (m : Mem) (sub : Submission), ((idealDevice cap d m sub).1 = d ∧ (idealDevice cap d m sub).2.1 = m) ∨
      (sub.is_admin = false ∧ byte sub.cmd 0 = 0x02 ∧ (idealDevice cap d m sub).1 = d ∧
        m.mapped (leAt sub.cmd 24 8) (4096 * (leAt sub.cmd 48 2 + 1)) = true ∧
        ∃ bs, bs.length = 4096 * (leAt sub.cmd 48 2 + 1) ∧ (idealDevice cap d m sub).2.1 = m.put (leAt sub.cmd 24 8) bs) ∨
      (sub.is_admin = false ∧ byte sub.cmd 0 = 0x01 ∧ (idealDevice cap d m sub).2.1 = m ∧
        ∃ bs, m.read (leAt sub.cmd 24 8) (4096 * (leAt sub.cmd 48 2 + 1)) = some bs ∧
          (idealDevice cap d m sub).1 = d.write (leAt sub.cmd 4 4) (4096 * leAt sub.cmd 40 8) bs) := by
    intro d m sub
    unfold idealDevice
    simp only
    split
    · exact .inl ⟨rfl, rfl⟩
    · rename_i h0
      have h0' : sub.is_admin = false := by
        cases hx : sub.is_admin with
        | false => rfl
        | true => exact absurd (.inl hx) h0
      split
      · exact .inl ⟨rfl, rfl⟩
      · split
        · rename_i h2
          split
          · rename_i h3
            exact .inr (.inl ⟨h0', h2, rfl, h3, _, Disk.read_length .., rfl⟩)
          · exact .inl ⟨rfl, rfl⟩
        · rename_i h2
          split
          · rename_i bs h3
            refine .inr (.inr ⟨h0', ?_, rfl, bs, h3, rfl⟩)
            have := fun h => h0 (.inr h)
            omega
          · exact .inl ⟨rfl, rfl⟩
  constructor
  · intro d m sub _ a ha
    rcases key d m sub with ⟨-, h⟩ | ⟨h1, h2, -, -, bs, h3, h4⟩ | ⟨-, -, h, -⟩
    · rw [h]
    · rw [h4]
      refine put_outside ?_
      have : ¬ inRange (leAt sub.cmd 24 8) (4096 * (leAt sub.cmd 48 2 + 1)) a := fun h => ha (.inl ⟨h1, h2, h⟩)
      unfold inRange at this
      omega
    · rw [h]
  · intro d m sub _ a ha
    rcases key d m sub with ⟨-, h⟩ | ⟨h1, h2, -, h5, bs, h3, h4⟩ | ⟨-, -, h, -⟩
    · rw [h]; exact ha
    · rw [h4, put_isSome (by rw [h3]; exact h5)]; exact ha
    · rw [h]; exact ha
  · intro d m sub _ _ k a
    simp only [id]
    rcases key d m sub with ⟨h, -⟩ | ⟨-, -, h, -⟩ | ⟨h1, h2, -, bs, h3, h4⟩
    · rw [h]; exact .inl rfl
    · rw [h]; exact .inl rfl
    · rw [h4]
      unfold Disk.write
      split
      · rename_i h
        obtain ⟨h5, h6, h7⟩ := h
        obtain ⟨h8, h9⟩ := read_eq_some.mp h3
        refine .inr ⟨h1, h2, h5, ⟨h6, by omega⟩, ?_⟩
        have hlt : a - 4096 * leAt sub.cmd 40 8 < bs.length := by omega
        rw [h9 _ (by omega)]
        rw [List.getD_eq_getElem?_getD, List.getElem?_eq_getElem hlt]
        rfl
      · exact .inl rfl

/-- So is the device which transfers data through the buffer handed over. -/
theorem mapped_lossy (cap : Nat → Nat) : Lossy (mappedDevice cap) id := by
  have key : ∀ (d : Disk) (m : Mem) (sub : Submission), sub.buffer.toNat = leAt sub.cmd 24 8 →
      mappedDevice cap d m sub = idealDevice cap d m sub ∨ mappedDevice cap d m sub = (d, m, generic 0x04) := by
    intro d m sub hc
    unfold mappedDevice idealDevice
    simp only [hc]
    by_cases h1 : sub.is_admin = true ∨ (byte sub.cmd 0 ≠ 0x01 ∧ byte sub.cmd 0 ≠ 0x02)
    · left; rw [if_pos h1, if_pos h1]
    · by_cases h2 : cap (leAt sub.cmd 4 4) < leAt sub.cmd 40 8 + (leAt sub.cmd 48 2 + 1)
      · left; rw [if_neg h1, if_neg h1, if_pos h2, if_pos h2]
      · by_cases h3 : sub.bufflen.toNat < 4096 * (leAt sub.cmd 48 2 + 1)
        · right; rw [if_neg h1, if_neg h2, if_pos h3]
        · left; rw [if_neg h1, if_neg h1, if_neg h2, if_neg h2, if_neg h3]
          by_cases h4 : byte sub.cmd 0 = 0x02
          · rw [if_pos h4, if_pos h4]
          · rw [if_neg h4, if_neg h4]
            generalize m.read (leAt sub.cmd 24 8) (4096 * (leAt sub.cmd 48 2 + 1)) = o
            cases o with
            | none => rfl
            | some bs => rfl
  have h := ideal_lossy cap
  constructor <;> intro s m sub hc
  · intro a ha
    rcases key s m sub hc with e | e <;> rw [e]
    exact h.memory s m sub hc a ha
  · intro a ha
    rcases key s m sub hc with e | e <;> rw [e]
    · exact h.maps s m sub hc a ha
    · exact ha
  · intro h9 k a
    rcases key s m sub hc with e | e <;> rw [e]
    · exact h.disk s m sub hc h9 k a
    · exact .inl rfl

/-- A device which executes only the commands chosen by `works` (given the number of commands before), and always answers with success. -/
def flakyDevice (cap : Nat → Nat) (works : Nat → Bool) : Device (Nat × Disk) := fun s m sub =>
  if works s.1 then ((s.1 + 1, (idealDevice cap s.2 m sub).1), (idealDevice cap s.2 m sub).2.1, generic 0)
  else ((s.1 + 1, s.2), m, generic 0)

theorem flaky_lossy (cap : Nat → Nat) (works : Nat → Bool) : Lossy (flakyDevice cap works) Prod.snd := by
  have h := ideal_lossy cap
  constructor <;> intro s m sub hc <;> unfold flakyDevice
  · intro a ha
    split
    · exact h.memory s.2 m sub hc a ha
    · rfl
  · intro a ha
    split
    · exact h.maps s.2 m sub hc a ha
    · exact ha
  · intro h9 k a
    split
    · exact h.disk s.2 m sub hc h9 k a
    · exact .inl rfl

/-- The hypotheses are met by the WRITE, the READ and the INQUIRY of C96 over a device which loses commands in any pattern and reports
success: every schedule runs, and every block other than blocks 9 and 10 of the namespace of LUN 3 is as it was. -/
example (cap : Nat → Nat) (works : Nat → Bool) (d : Disk) (sched : List (Fin 3)) :
    ∃ y, (Sys.start (0, d) demoShared []).run boundedEnv (flakyDevice cap works) demoCalls sched = .ok y ∧
      ∀ k a, (k ≠ 4 ∨ a < 36864 ∨ 45056 ≤ a) → y.dev.2 k a = d k a := by
  obtain ⟨y, h⟩ := C99_defined boundedEnv _ _ boundedEnv_good (flaky_lossy cap works) demoCalls demoShared demoCalls_separate
    (fun i => steady_of (demoCalls_blocks i).2.1) (0, d) [] sched
  refine ⟨y, h, fun k a hk => ?_⟩
  rcases C99_disks boundedEnv _ _ boundedEnv_good (flaky_lossy cap works) demoCalls demoShared demoCalls_separate (0, d) [] sched y h k a
    with h1 | ⟨i, l, -, h2, lba, n, hw, ⟨rw_, hd, -, h3, h4, -⟩, h5, h6, -⟩
  · exact h1
  · exfalso
    have hl : l = 3 := by
      rw [h5]
      match i with
      | 0 => rfl
      | 1 => rfl
      | 2 => rfl
    have key : ∀ o : Option Rw, (o = none ∨ o = some ⟨9, 2, some 0, false⟩) → o = some rw_ → rw_.blocks = 2 ∧ rw_.lba = 9 := by
      rintro o (rfl | rfl) h
      · cases h
      · cases h; exact ⟨rfl, rfl⟩
    have := key _ (by
      match i with
      | 0 => exact .inr (by decide +kernel)
      | 1 => exact .inr (by decide +kernel)
      | 2 => exact absurd hw (by decide)) hd
    unfold inRange at h6
    omega

end Scsi2Nvme
