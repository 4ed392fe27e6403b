import Verif.Proofs.Honest
import Verif.Spec.Driver
/-!
# C108: GOOD can be trusted although the device fails
-/

namespace Scsi2Nvme
open Spec Engine Driver

variable {ι σ β : Type}

theorem asks_same {q : Request} {c c' lba n lba' n' : Nat} (h : q.asks c lba n) (h' : q.asks c' lba' n') : lba' = lba ∧ n' = n := by
  obtain ⟨rw1, e1, -, rfl, rfl, -⟩ := h
  obtain ⟨rw2, e2, -, rfl, rfl, -⟩ := h'
  rw [e1] at e2
  cases e2
  exact ⟨rfl, rfl⟩

theorem Disk.read_same {d d' : Disk} {k pos n : Nat} (h : ∀ a, inRange pos n a → d' k a = d k a) : d'.read k pos n = d.read k pos n := by
  unfold Disk.read
  apply List.map_congr_left
  intro i hi
  rw [List.mem_range] at hi
  exact h _ ⟨Nat.le_add_right _ _, Nat.add_lt_add_left hi _⟩

/-- Calls which leave the blocks alone leave them alone. -/
theorem Spec.TrustedAll.keeps {q : ι → Request} {resp : ι → ScsiToNvmeResponse} {m : Mem} {L : List ι} {d d' : Disk}
    (h : TrustedAll q resp m d L d') (lun lba n : Nat) (hL : ∀ i ∈ L, (q i).leaves lun lba n) :
    d'.read lun (4096 * lba) (4096 * n) = d.read lun (4096 * lba) (4096 * n) := by
  induction h with
  | nil => rfl
  | @cons d i d1 is d2 h1 h2 ih =>
    rw [ih fun j hj => hL j (List.mem_cons_of_mem _ hj)]
    have hi := hL i (List.mem_cons_self ..)
    cases h1 with
    | other | unread | read => rfl
    | @write l k bs op ha good data =>
      refine Disk.read_write_other _ _ _ _ _ _ _ ?_
      by_cases e : lun = (q i).lun.toNat
      · have := hi op e.symm l k ha
        rw [read_length data]
        omega
      · exact .inl e
    | torn op bad h =>
      refine Disk.read_same fun a ha => ?_
      rcases h lun a with h | ⟨l, k, -, h1, h2, h3, -⟩
      · exact h
      · have := hi op h2.symm l k h1
        unfold inRange at ha h3
        omega

/-- A WRITE answered with GOOD, followed by calls which leave its blocks alone. -/
theorem Spec.TrustedAll.written {q : ι → Request} {resp : ι → ScsiToNvmeResponse} {m : Mem} {A B : List ι} {W : ι} {d d' : Disk}
    (h : TrustedAll q resp m d (A ++ W :: B) d') {lba n : Nat} (hW : isWrite (byte (q W).cdb 0)) (ha : (q W).asks (lba + n) lba n)
    (hg : (resp W).return_code = 0) (hB : ∀ j ∈ B, (q j).leaves (q W).lun.toNat lba n) :
    (q W).mem.read (q W).data (4096 * n) = some (d'.read (q W).lun.toNat (4096 * lba) (4096 * n)) := by
  obtain ⟨d1, -, h2⟩ := h.split
  cases h2 with
  | cons h1 h2 =>
    rw [h2.keeps _ _ _ hB]
    cases h1 with
    | read op => exact absurd hW fun h => read_not_write op h
    | unread op bad => exact absurd hg bad
    | torn op bad => exact absurd hg bad
    | other op => exact absurd hW op.2
    | write op ha' good data =>
      obtain ⟨rfl, rfl⟩ := asks_same ha ha'
      have hlen := read_length data
      rw [data, ← hlen, Disk.read_write_self]

/-- Three moments of one execution. -/
theorem trusted_moments [DecidableEq ι] (E : Env) (D : Device σ) (disks : σ → Disk) (hg : GoodAllocator E) (hD : Honest D disks)
    (q : ι → Request) (m : Mem) (hq : Separate q m) (s : σ) (tr : List Event) (sched₀ sched₁ sched₂ : List ι) (y₀ y₁ y₂ : Sys ι σ)
    (h₀ : (Sys.start s m tr).run E D q sched₀ = .ok y₀) (h₁ : y₀.run E D q sched₁ = .ok y₁) (h₂ : y₁.run E D q sched₂ = .ok y₂) :
    ∃ L0 L1 L2 resp, Covers y₀ L0 resp ∧ Covers y₁ (L0 ++ L1) resp ∧ Covers y₂ (L0 ++ L1 ++ L2) resp ∧
      TrustedAll q resp y₀.world.mem (luns (disks s)) L0 (luns (disks y₀.dev)) ∧
      TrustedAll q resp y₁.world.mem (luns (disks s)) (L0 ++ L1) (luns (disks y₁.dev)) ∧
      TrustedAll q resp y₂.world.mem (luns (disks s)) (L0 ++ L1 ++ L2) (luns (disks y₂.dev)) := by
  obtain ⟨L0, own0, hI0, hL0, -⟩ := Faith.run hD hg hq sched₀ (Inv.start hq s tr) (Faith.start disks hq s tr) h₀
  rw [List.nil_append] at hL0
  obtain ⟨L1, own1, hI1, hL1, b1⟩ := Faith.run hD hg hq sched₁ hI0 hL0 h₁
  obtain ⟨L2, own2, hI2, hL2, b2⟩ := Faith.run hD hg hq sched₂ hI1 hL1 h₂
  have hex : ∀ i, ∃ r, agrees (q i) r (y₂.phase i) := fun i => agrees_exists _ _
  have cov : ∀ (y : Sys ι σ) (L : List ι) (resp : ι → ScsiToNvmeResponse), Faith disks q (disks s) y L →
      (∀ i, agrees (q i) (resp i) (y.phase i)) → Covers y L resp := by
    intro y L resp hL hr
    refine ⟨hL.nodup, fun i hi => ?_, fun i r hp => ?_⟩
    · have := (hL.mem i).mp hi
      intro hp
      rw [hp] at this
      exact this
    · have h1 := hr i
      rw [hp] at h1
      exact ⟨(hL.mem i).mpr (by rw [hp]; trivial), h1⟩
  have hr2 : ∀ i, agrees (q i) ((fun i => Classical.choose (hex i)) i) (y₂.phase i) := fun i => Classical.choose_spec (hex i)
  have hr1 := b2 _ hr2
  have hr0 := b1 _ hr1
  exact ⟨L0, L1, L2, _, cov _ _ _ hL0 hr0, cov _ _ _ hL1 hr1, cov _ _ _ hL2 hr2, hL0.seq _ hr0, hL1.seq _ hr1, hL2.seq _ hr2⟩

/-- **C108.** The device may fail any command but does not report success for a Read or Write it did not execute.  Any number of calls
for different memory, made concurrently and interleaved in any way: there is an order in which the calls took effect one after the
other, each as `Trusted` says - in particular a READ or WRITE answered with GOOD was executed completely and correctly.  The order
contains the calls which have returned, it respects their order in time (the order at a later moment prolongs the one at the
earlier moment), and at either moment it explains the disks and the data buffers. -/
theorem C108_trusted [DecidableEq ι] (E : Env) (D : Device σ) (disks : σ → Disk) (hg : GoodAllocator E) (hD : Honest D disks)
    (q : ι → Request) (m : Mem) (hq : Separate q m) (s : σ) (tr : List Event) (sched₁ sched₂ : List ι) (y₁ y₂ : Sys ι σ)
    (h₁ : (Sys.start s m tr).run E D q sched₁ = .ok y₁) (h₂ : y₁.run E D q sched₂ = .ok y₂) :
    ∃ order₁ order₂ resp, Covers y₁ order₁ resp ∧ Covers y₂ (order₁ ++ order₂) resp ∧
      TrustedAll q resp y₁.world.mem (fun l a => disks s (l + 1) a) order₁ (fun l a => disks y₁.dev (l + 1) a) ∧
      TrustedAll q resp y₂.world.mem (fun l a => disks s (l + 1) a) (order₁ ++ order₂) (fun l a => disks y₂.dev (l + 1) a) := by
  obtain ⟨L0, L1, -, resp, c0, c1, -, t0, t1, -⟩ := trusted_moments E D disks hg hD q m hq s tr sched₁ sched₂ [] y₁ y₂ y₂ h₁ h₂ rfl
  exact ⟨L0, L1, resp, c0, c1, t0, t1⟩

/-- **C108 (GOOD means stored).** Let a WRITE begin after the moment `y₀` and have returned GOOD at the moment `y₁`.  If every other call
which writes any of the blocks had returned at `y₀` already (for instance failed attempts at the same WRITE), the blocks hold its data. -/
theorem C108_durable [DecidableEq ι] (E : Env) (D : Device σ) (disks : σ → Disk) (hg : GoodAllocator E) (hD : Honest D disks)
    (q : ι → Request) (m : Mem) (hq : Separate q m) (s : σ) (tr : List Event) (sched₀ sched₁ : List ι) (y₀ y₁ : Sys ι σ)
    (h₀ : (Sys.start s m tr).run E D q sched₀ = .ok y₀) (h₁ : y₀.run E D q sched₁ = .ok y₁)
    (W : ι) (r : ScsiToNvmeResponse) (hc : y₀.phase W = .called) (hr : y₁.phase W = .returned r) (good : r.return_code = 0)
    (lba n : Nat) (hW : isWrite (byte (q W).cdb 0)) (hWa : (q W).asks (lba + n) lba n)
    (ho : ∀ j, j ≠ W → (∃ rj, y₀.phase j = .returned rj) ∨ (q j).leaves (q W).lun.toNat lba n) :
    m.read (q W).data (4096 * n) = some (Disk.read (disks y₁.dev) ((q W).lun.toNat + 1) (4096 * lba) (4096 * n)) := by
  obtain ⟨L0, L1, -, resp, c0, c1, -, -, t1, -⟩ := trusted_moments E D disks hg hD q m hq s tr sched₀ sched₁ [] y₀ y₁ y₁ h₀ h₁ rfl
  obtain ⟨hin, hresp⟩ := c1.returned W r hr
  have hin1 : W ∈ L1 := by
    rcases List.mem_append.mp hin with h | h
    · exact absurd hc (c0.begun W h)
    · exact h
  obtain ⟨A, B, rfl⟩ := List.append_of_mem hin1
  have hnd := c1.once
  rw [← List.append_assoc] at t1 hnd
  have h5 := t1.written hW hWa (by rw [hresp]; exact good) fun j hj => by
    have hjW : j ≠ W := fun e => by
      subst e
      rw [List.nodup_append] at hnd
      exact (List.nodup_cons.mp hnd.2.1).1 hj
    refine (ho j hjW).resolve_left ?_
    rintro ⟨rj, hj0⟩
    rw [List.nodup_append] at hnd
    exact hnd.2.2 j (List.mem_append_left _ (c0.returned j rj hj0).1) j (List.mem_cons_of_mem _ hj) rfl
  rw [hq.mem W] at h5
  exact h5

/-- **C108 (GOOD means read).** … and if then a READ of the same blocks begins and returns GOOD, its data buffer holds what the WRITE
wrote: if every other call which writes any of the blocks had returned when the WRITE began. -/
theorem C108_read_after_write [DecidableEq ι] (E : Env) (D : Device σ) (disks : σ → Disk) (hg : GoodAllocator E) (hD : Honest D disks)
    (q : ι → Request) (m : Mem) (hq : Separate q m) (s : σ) (tr : List Event) (sched₀ sched₁ sched₂ : List ι) (y₀ y₁ y₂ : Sys ι σ)
    (h₀ : (Sys.start s m tr).run E D q sched₀ = .ok y₀) (h₁ : y₀.run E D q sched₁ = .ok y₁) (h₂ : y₁.run E D q sched₂ = .ok y₂)
    (W R : ι) (rW rR : ScsiToNvmeResponse) (hWc : y₀.phase W = .called) (hWr : y₁.phase W = .returned rW) (goodW : rW.return_code = 0)
    (hRc : y₁.phase R = .called) (hRr : y₂.phase R = .returned rR) (goodR : rR.return_code = 0) (lba n : Nat)
    (hW : isWrite (byte (q W).cdb 0)) (hWa : (q W).asks (lba + n) lba n)
    (hR : isRead (byte (q R).cdb 0)) (hRa : (q R).asks (lba + n) lba n) (hlun : (q R).lun = (q W).lun)
    (ho : ∀ j, j ≠ W → (∃ rj, y₀.phase j = .returned rj) ∨ (q j).leaves (q W).lun.toNat lba n) :
    rR.alloc_len = 4096 * n ∧
      ∃ bs, m.read (q W).data (4096 * n) = some bs ∧ y₂.world.mem.read (q R).data (4096 * n) = some bs := by
  obtain ⟨L0, L1, L2, resp, c0, c1, c2, -, -, t2⟩ :=
    trusted_moments E D disks hg hD q m hq s tr sched₀ sched₁ sched₂ y₀ y₁ y₂ h₀ h₁ h₂
  obtain ⟨hinW, hrespW⟩ := c1.returned W rW hWr
  obtain ⟨hinR, hrespR⟩ := c2.returned R rR hRr
  have hinW1 : W ∈ L1 := by
    rcases List.mem_append.mp hinW with h | h
    · exact absurd hWc (c0.begun W h)
    · exact h
  have hinR2 : R ∈ L2 := by
    rcases List.mem_append.mp hinR with h | h
    · exact absurd hRc (c1.begun R h)
    · exact h
  obtain ⟨A, B, rfl⟩ := List.append_of_mem hinW1
  obtain ⟨C, Z, rfl⟩ := List.append_of_mem hinR2
  have hnd := c2.once
  rw [show L0 ++ (A ++ W :: B) ++ (C ++ R :: Z) = ((L0 ++ A) ++ W :: (B ++ C)) ++ (R :: Z) by simp] at t2 hnd
  obtain ⟨d2, h3, h4⟩ := t2.split
  rw [List.nodup_append] at hnd
  have hnd1 := hnd.1
  rw [List.nodup_append] at hnd1
  have h5 := h3.written hW hWa (by rw [hrespW]; exact goodW) fun j hj => by
    have hjW : j ≠ W := fun e => by
      subst e
      exact (List.nodup_cons.mp hnd1.2.1).1 hj
    refine (ho j hjW).resolve_left ?_
    rintro ⟨rj, hj0⟩
    exact hnd1.2.2 j (List.mem_append_left _ (c0.returned j rj hj0).1) j (List.mem_cons_of_mem _ hj) rfl
  cases h4 with
  | cons hr hz =>
    cases hr with
    | other op => exact absurd hR op.1
    | write op => exact absurd op fun h => read_not_write hR h
    | torn op => exact absurd op fun h => read_not_write hR h
    | unread op bad => rw [hrespR] at bad; exact absurd goodR bad
    | read opR hra good len data =>
      obtain ⟨rfl, rfl⟩ := asks_same hRa hra
      rw [hlun] at data
      rw [hq.mem W] at h5
      rw [hrespR] at len
      exact ⟨len, _, h5, data⟩

/-- **C108 (safety).** … and no interleaving has undefined behaviour (some MODE SENSE commands aside, see C81). -/
theorem C108_defined [DecidableEq ι] (E : Env) (D : Device σ) (disks : σ → Disk) (hg : GoodAllocator E) (hD : Honest D disks)
    (q : ι → Request) (m : Mem) (hq : Separate q m) (hop : ∀ i page, steady (q i).cdb page)
    (s : σ) (tr : List Event) (sched : List ι) : ∃ y, (Sys.start s m tr).run E D q sched = .ok y :=
  C99_defined E D disks hg hD.toLossy q m hq hop s tr sched

/-- **C108.** The driver of the kernel is such a device over a block layer which can always give the command to the hardware, if the
hardware is such a device.  (Otherwise it reports success for commands it did not submit: C71.) -/
theorem C108_driver (B : BlockLayer β) (disks : β → Disk) (hB : Honest B.execute disks) (hR : Reliable B)
    (hr : ∀ b sub b', B.allocRequest b sub = .ok b' → disks b' = disks b) (hm : ∀ b a n, disks (B.mapKern b a n).2 = disks b)
    (hf : ∀ b, disks (B.freeRequest b) = disks b) : Honest (device B) (fun st : State β => disks st.blk) := by
  have key : ∀ (st : State β) (m : Mem) (sub : Submission), ∃ b, disks b = disks st.blk ∧
      (device B st m sub).2 = (B.execute b m sub).2 ∧ disks (device B st m sub).1.blk = disks (B.execute b m sub).1 := by
    intro st m sub
    have main : let r := nvme_submit_user_cmd B true st m sub {}
        ∃ b, disks b = disks st.blk ∧ (r.mem, r.cpl) = (B.execute b m sub).2 ∧ disks r.state.blk = disks (B.execute b m sub).1 := by
      simp only
      unfold nvme_submit_user_cmd submit_req_done
      rw [if_neg (by decide)]
      cases hb : B.allocRequest st.blk sub with
      | error e => obtain ⟨b', h⟩ := hR.request st.blk sub; rw [hb] at h; cases h
      | ok b =>
        simp only
        by_cases h1 : sub.buffer ≠ 0 ∧ sub.bufflen ≠ 0
        · rw [if_pos h1, if_neg (by rw [hR.mapping]; decide), if_neg (by rw [hR.disk]; decide)]
          exact ⟨_, by rw [hm, hr _ _ _ hb], rfl, by rw [hf]⟩
        · rw [if_neg h1]
          exact ⟨_, by rw [hr _ _ _ hb], rfl, by rw [hf]⟩
    unfold device submit_admin_command submit_io_command
    simp only [hR.adminQueue, hR.ioQueue]
    split
    · exact main
    · exact main
  refine ⟨C99_driver B disks hB.toLossy hr hm hf, fun st m sub hc had h0 hok => ?_, fun st m sub hc had h0 hok => ?_⟩
  · obtain ⟨b, h1, h2, -⟩ := key st m sub
    rw [h2] at hok ⊢
    simp only [← h1]
    exact hB.read b m sub hc had h0 hok
  · obtain ⟨b, h1, h2, h3⟩ := key st m sub
    rw [h2] at hok
    simp only [h3, ← h1]
    exact hB.write b m sub hc had h0 hok

/-! ## A device -/

/-- A device which executes only the commands chosen by `works` (given the number of commands before), and answers the others with
Internal Error (06h) after storing the first `part` bytes of the data of a Write. -/
def failingDevice (cap : Nat → Nat) (works : Nat → Bool) (part : Nat) : Device (Nat × Disk) := fun s m sub =>
  if works s.1 then ((s.1 + 1, (idealDevice cap s.2 m sub).1), (idealDevice cap s.2 m sub).2.1, (idealDevice cap s.2 m sub).2.2)
  else ((s.1 + 1, fun k a => if a < 4096 * leAt sub.cmd 40 8 + part then (idealDevice cap s.2 m sub).1 k a else s.2 k a), m, generic 0x06)

theorem failing_honest (cap : Nat → Nat) (works : Nat → Bool) (part : Nat) : Honest (failingDevice cap works part) Prod.snd := by
  have h := ideal_lossy cap
  refine ⟨⟨?_, ?_, ?_⟩, ?_, ?_⟩ <;> intro s m sub hc <;> unfold failingDevice
  · intro a ha
    split
    · exact h.memory s.2 m sub hc a ha
    · rfl
  · intro a ha
    split
    · exact h.maps s.2 m sub hc a ha
    · exact ha
  · intro h9 k a
    split
    · exact h.disk s.2 m sub hc h9 k a
    · simp only
      split
      · exact h.disk s.2 m sub hc h9 k a
      · exact .inl rfl
  · intro had h0 hok
    split at hok
    · rename_i hw
      simp only at hok
      simp only [hw, if_true]
      unfold idealDevice at hok ⊢
      simp only [had, h0] at hok ⊢
      by_cases h1 : cap (leAt sub.cmd 4 4) < leAt sub.cmd 40 8 + (leAt sub.cmd 48 2 + 1)
      · simp [h1, cplOk, generic] at hok
      · by_cases h2 : m.mapped (leAt sub.cmd 24 8) (4096 * (leAt sub.cmd 48 2 + 1)) = true
        · simp only [h1, h2, if_true, if_false, ne_eq, Bool.false_eq_true, false_or, not_true, and_false]
          have := @read_put_self m (leAt sub.cmd 24 8) (s.2.read (leAt sub.cmd 4 4) (4096 * leAt sub.cmd 40 8) (4096 * (leAt sub.cmd 48 2 + 1)))
          rwa [Disk.read_length] at this
        · simp [h1, h2, cplOk, generic] at hok
    · exact absurd hok.2 (show ¬ (generic 6).sc.toNat = 0 by decide)
  · intro had h0 hok
    split at hok
    · rename_i hw
      simp only at hok
      simp only [hw, if_true]
      unfold idealDevice at hok ⊢
      simp only [had, h0] at hok ⊢
      by_cases h1 : cap (leAt sub.cmd 4 4) < leAt sub.cmd 40 8 + (leAt sub.cmd 48 2 + 1)
      · simp [h1, cplOk, generic] at hok
      · cases h2 : m.read (leAt sub.cmd 24 8) (4096 * (leAt sub.cmd 48 2 + 1)) with
        | none => simp [h1, h2, cplOk, generic] at hok
        | some bs => exact ⟨bs, rfl, by simp [h1]⟩
    · exact absurd hok.2 (show ¬ (generic 6).sc.toNat = 0 by decide)

/-- The WRITE, the READ and the INQUIRY of C96 over this device, which fails commands in any pattern, in any schedule in which the READ
begins when the WRITE has returned: if both are answered with GOOD, the READ returns what the WRITE wrote. -/
example (cap : Nat → Nat) (works : Nat → Bool) (part : Nat) (d : Disk) (sched₁ sched₂ : List (Fin 3)) (h1 : 1 ∉ sched₁)
    (h0 : 5 ≤ sched₁.count 0) (h2 : 5 ≤ sched₂.count 1) :
    ∃ y₁ y₂ rW rR, (Sys.start (0, d) demoShared []).run boundedEnv (failingDevice cap works part) demoCalls sched₁ = .ok y₁ ∧
      y₁.run boundedEnv (failingDevice cap works part) demoCalls sched₂ = .ok y₂ ∧
      y₁.phase 0 = .returned rW ∧ y₂.phase 1 = .returned rR ∧
      (rW.return_code = 0 → demoShared.read 0x18000 8192 = some (Disk.read y₁.dev.2 4 (4096 * 9) 8192)) ∧
      (rW.return_code = 0 → rR.return_code = 0 → y₂.world.mem.read 0x28000 8192 = demoShared.read 0x18000 8192) := by
  have hH := failing_honest cap works part
  have hop : ∀ i page, steady (demoCalls i).cdb page := fun i => steady_of (demoCalls_blocks i).2.1
  obtain ⟨y1, e1⟩ := C108_defined boundedEnv _ _ boundedEnv_good hH demoCalls demoShared demoCalls_separate hop (0, d) [] sched₁
  obtain ⟨y2, e2⟩ := C108_defined boundedEnv _ _ boundedEnv_good hH demoCalls demoShared demoCalls_separate hop (0, d) [] (sched₁ ++ sched₂)
  obtain ⟨rW, p1⟩ := C96_wait_free _ _ _ _ _ _ _ _ e1 0 h0
  obtain ⟨rR, p2⟩ := C96_wait_free _ _ _ _ _ _ _ _ e2 1 (by rw [List.count_append]; omega)
  have e3 := e2
  rw [Sys_run_append, e1] at e3
  have hc : y1.phase 1 = .called := run_unscheduled _ _ _ 1 _ _ _ e1 h1
  have aW : (demoCalls 0).asks (9 + 2) 9 2 :=
    ⟨⟨9, 2, some 0, false⟩, by decide +kernel, by intro c h; cases h; decide, rfl, rfl, by decide, (by decide : 4096 * 2 ≤ (8192 : U16).toNat), by omega⟩
  have aR : (demoCalls 1).asks (9 + 2) 9 2 :=
    ⟨⟨9, 2, some 0, false⟩, by decide +kernel, by intro c h; cases h; decide, rfl, rfl, by decide, (by decide : 4096 * 2 ≤ (8192 : U16).toNat), by omega⟩
  have ho : ∀ j : Fin 3, j ≠ 0 → (∃ rj, (Sys.start (0, d) demoShared [] : Sys (Fin 3) (Nat × Disk)).phase j = .returned rj) ∨
      (demoCalls j).leaves (demoCalls 0).lun.toNat 9 2 := by
    intro j hj
    refine .inr fun hw => ?_
    match j with
    | 0 => exact absurd rfl hj
    | 1 => exact absurd hw (by decide)
    | 2 => exact absurd hw (by decide)
  refine ⟨y1, y2, rW, rR, e1, e3, p1, p2, fun g1 => ?_, fun g1 g2 => ?_⟩
  · exact C108_durable boundedEnv _ _ boundedEnv_good hH demoCalls demoShared demoCalls_separate (0, d) [] [] sched₁ _ y1 rfl e1
      0 rW rfl p1 g1 9 2 (by decide) aW ho
  · obtain ⟨-, bs, k1, k2⟩ := C108_read_after_write boundedEnv _ _ boundedEnv_good hH demoCalls demoShared demoCalls_separate (0, d) []
      [] sched₁ sched₂ _ y1 y2 rfl e1 e3 0 1 rW rR rfl p1 g1 hc p2 g2 9 2 (by decide) aW (by decide) aR rfl ho
    exact k2.trans k1.symm

end Scsi2Nvme
