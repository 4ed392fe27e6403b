import Verif.Proofs.ModuleHonest
import Verif.Properties.Honest
import Verif.Properties.ModuleLossy
/-!
# C109: the result 0 of the kernel module can be trusted although the device fails
-/

namespace Scsi2Nvme
open Spec Engine Driver

variable {ι σ β : Type}

theorem Spec.Command.asks_same {q : Command} {c c' lba n lba' n' : Nat} (h : q.asks c lba n) (h' : q.asks c' lba' n') :
    lba' = lba ∧ n' = n := by
  obtain ⟨rw1, e1, -, rfl, rfl, -⟩ := h
  obtain ⟨rw2, e2, -, rfl, rfl, -⟩ := h'
  rw [e1] at e2
  cases e2
  exact ⟨rfl, rfl⟩

/-- Commands which leave the blocks alone leave them alone. -/
theorem Spec.ReliedAll.keeps {c : ι → Command} {out : ι → Module.Outcome} {L : List ι} {d d' : Disk}
    (h : ReliedAll c out d L d') (lun lba n : Nat) (hL : ∀ i ∈ L, (c i).leaves lun lba n) :
    d'.read lun (4096 * lba) (4096 * n) = d.read lun (4096 * lba) (4096 * n) := by
  induction h with
  | nil => rfl
  | @cons d i d1 is d2 h1 h2 ih =>
    rw [ih fun j hj => hL j (List.mem_cons_of_mem _ hj)]
    have hi := hL i (List.mem_cons_self ..)
    cases h1 with
    | other | unread | read => rfl
    | @write l k op ha good data =>
      refine Disk.read_write_other _ _ _ _ _ _ _ ?_
      by_cases e : lun = (c i).cmd.lun.toNat
      · have := hi op e.symm l k ha
        rw [List.length_take]
        omega
      · exact .inl e
    | torn op bad h =>
      refine Disk.read_same fun a ha => ?_
      rcases h lun a with h | ⟨l, k, -, h1, h2, h3, -⟩
      · exact h
      · have := hi op h2.symm l k h1
        unfold inRange at ha h3
        omega

/-- A WRITE with result 0, followed by commands which leave its blocks alone. -/
theorem Spec.ReliedAll.written {c : ι → Command} {out : ι → Module.Outcome} {A B : List ι} {W : ι} {d d' : Disk}
    (h : ReliedAll c out d (A ++ W :: B) d') {lba n : Nat} (hW : isWrite (byte (c W).cdb 0)) (ha : (c W).asks (lba + n) lba n)
    (hg : (out W).result = 0) (hB : ∀ j ∈ B, (c j).leaves (c W).cmd.lun.toNat lba n) :
    d'.read (c W).cmd.lun.toNat (4096 * lba) (4096 * n) = (c W).cmd.sg.take (4096 * n) := by
  obtain ⟨d1, -, h2⟩ := h.split
  cases h2 with
  | cons h1 h2 =>
    rw [h2.keeps _ _ _ hB]
    cases h1 with
    | read op => exact absurd hW fun h => read_not_write op h
    | unread op bad => exact absurd hg bad
    | torn op bad => exact absurd hg bad
    | other op => exact absurd hW op.2
    | @write lba' n' op ha' good data =>
      obtain ⟨rfl, rfl⟩ := Spec.Command.asks_same ha ha'
      obtain ⟨_, _, _, _, _, _, h4, _⟩ := ha
      have := Disk.read_write_self d1 (c W).cmd.lun.toNat (4096 * lba') ((c W).cmd.sg.take (4096 * n'))
      rwa [List.length_take, Nat.min_eq_left h4] at this

/-- Three moments of one execution. -/
theorem relied_moments [DecidableEq ι] (K : Module.Kernel) (hK : GoodKernel K) (junk : World → Nat → Byte) (D : Device σ) (disks : σ → Disk)
    (hD : Honest D disks) (c : ι → Command) (m : Mem) (hc : Disjoint c m) (s : σ) (tr : List Event) (sched₀ sched₁ sched₂ : List ι)
    (y₀ y₁ y₂ : Host ι σ) (h₀ : (Host.start s m tr).run K junk D c sched₀ = .ok y₀) (h₁ : y₀.run K junk D c sched₁ = .ok y₁)
    (h₂ : y₁.run K junk D c sched₂ = .ok y₂) :
    ∃ L0 L1 L2 out, Accounts y₀ L0 out ∧ Accounts y₁ (L0 ++ L1) out ∧ Accounts y₂ (L0 ++ L1 ++ L2) out ∧
      ReliedAll c out (luns (disks s)) L0 (luns (disks y₀.dev)) ∧
      ReliedAll c out (luns (disks s)) (L0 ++ L1) (luns (disks y₁.dev)) ∧
      ReliedAll c out (luns (disks s)) (L0 ++ L1 ++ L2) (luns (disks y₂.dev)) := by
  obtain ⟨L0, own0, hI0, hL0, -⟩ := HFaith.run hD hK hc.fair sched₀ (HInv.start (junk := junk) hc s tr) (HFaith.start disks c s m tr) h₀
  rw [List.nil_append] at hL0
  obtain ⟨L1, own1, hI1, hL1, b1⟩ := HFaith.run hD hK hc.fair sched₁ hI0 hL0 h₁
  obtain ⟨L2, own2, hI2, hL2, b2⟩ := HFaith.run hD hK hc.fair sched₂ hI1 hL1 h₂
  have hex := foresees_exists hI2
  have cov : ∀ (y : Host ι σ) (L : List ι) (out : ι → Module.Outcome), HFaith disks c (disks s) y L →
      (∀ i, foresees (c i) y.world.mem (out i) (y.phase i)) → Accounts y L out := by
    intro y L out hL hr
    refine ⟨hL.nodup, fun i hi => ?_, fun i r hp => ?_⟩
    · have := (hL.mem i).mp hi
      constructor
      · intro hp
        rw [hp] at this
        exact this
      · intro b hp
        rw [hp] at this
        exact this
    · have h1 := hr i
      rw [hp] at h1
      exact ⟨(hL.mem i).mpr (by rw [hp]; trivial), h1⟩
  have hr2 : ∀ i, foresees (c i) y₂.world.mem ((fun i => Classical.choose (hex i)) i) (y₂.phase i) := fun i => Classical.choose_spec (hex i)
  have hr1 := b2 _ hr2
  have hr0 := b1 _ hr1
  exact ⟨L0, L1, L2, _, cov _ _ _ hL0 hr0, cov _ _ _ hL1 hr1, cov _ _ _ hL2 hr2, hL0.seq _ hr0, hL1.seq _ hr1, hL2.seq _ hr2⟩

/-- **C109.** The device may fail any command but does not report success for a Read or Write it did not execute.  Any number of commands
with different command blocks and sense buffers, handed to the kernel module concurrently, their calls interleaved in any way: there is an
order in which the commands took effect one after the other, each as `Relied` says - in particular a READ or WRITE with result 0 was
executed completely and correctly.  The order contains the commands which are done, it respects their order in time, and at either moment
it explains the disks. -/
theorem C109_trusted [DecidableEq ι] (K : Module.Kernel) (hK : GoodKernel K) (junk : World → Nat → Byte) (D : Device σ) (disks : σ → Disk)
    (hD : Honest D disks) (c : ι → Command) (m : Mem) (hc : Disjoint c m) (s : σ) (tr : List Event) (sched₁ sched₂ : List ι)
    (y₁ y₂ : Host ι σ) (h₁ : (Host.start s m tr).run K junk D c sched₁ = .ok y₁) (h₂ : y₁.run K junk D c sched₂ = .ok y₂) :
    ∃ order₁ order₂ out, Accounts y₁ order₁ out ∧ Accounts y₂ (order₁ ++ order₂) out ∧
      ReliedAll c out (fun l a => disks s (l + 1) a) order₁ (fun l a => disks y₁.dev (l + 1) a) ∧
      ReliedAll c out (fun l a => disks s (l + 1) a) (order₁ ++ order₂) (fun l a => disks y₂.dev (l + 1) a) := by
  obtain ⟨L0, L1, -, out, c0, c1, -, t0, t1, -⟩ := relied_moments K hK junk D disks hD c m hc s tr sched₁ sched₂ [] y₁ y₂ y₂ h₁ h₂ rfl
  exact ⟨L0, L1, out, c0, c1, t0, t1⟩

/-- **C109 (result 0 means stored).** Let the engine begin with a WRITE after the moment `y₀`, and let it be done with result 0 at the
moment `y₁`.  If every other command which writes any of the blocks was done at `y₀` already (for instance failed attempts at the same
WRITE), the blocks hold its data. -/
theorem C109_durable [DecidableEq ι] (K : Module.Kernel) (hK : GoodKernel K) (junk : World → Nat → Byte) (D : Device σ) (disks : σ → Disk)
    (hD : Honest D disks) (c : ι → Command) (m : Mem) (hc : Disjoint c m) (s : σ) (tr : List Event) (sched₀ sched₁ : List ι)
    (y₀ y₁ : Host ι σ) (h₀ : (Host.start s m tr).run K junk D c sched₀ = .ok y₀) (h₁ : y₀.run K junk D c sched₁ = .ok y₁)
    (W : ι) (o : Module.Outcome) (hWn : y₀.phase W = .queued ∨ ∃ b, y₀.phase W = .engine b .called) (hWd : y₁.phase W = .done o)
    (good : o.result = 0) (lba n : Nat) (hW : isWrite (byte (c W).cdb 0)) (hWa : (c W).asks (lba + n) lba n)
    (ho : ∀ j, j ≠ W → (∃ oj, y₀.phase j = .done oj) ∨ (c j).leaves (c W).cmd.lun.toNat lba n) :
    Disk.read (disks y₁.dev) ((c W).cmd.lun.toNat + 1) (4096 * lba) (4096 * n) = (c W).cmd.sg.take (4096 * n) := by
  obtain ⟨L0, L1, -, out, c0, c1, -, -, t1, -⟩ := relied_moments K hK junk D disks hD c m hc s tr sched₀ sched₁ [] y₀ y₁ y₁ h₀ h₁ rfl
  obtain ⟨hin, hout⟩ := c1.done W o hWd
  have hin1 : W ∈ L1 := by
    rcases List.mem_append.mp hin with h | h
    · rcases hWn with hq | ⟨b, hb⟩
      · exact absurd hq (c0.begun W h).1
      · exact absurd hb ((c0.begun W h).2 b)
    · exact h
  obtain ⟨A, B, rfl⟩ := List.append_of_mem hin1
  have hnd := c1.once
  rw [← List.append_assoc] at t1 hnd
  rw [List.nodup_append] at hnd
  exact t1.written hW hWa (by rw [hout]; exact good) fun j hj => by
    have hjW : j ≠ W := fun e => by
      subst e
      exact (List.nodup_cons.mp hnd.2.1).1 hj
    refine (ho j hjW).resolve_left ?_
    rintro ⟨oj, hj0⟩
    exact hnd.2.2 j (List.mem_append_left _ (c0.done j oj hj0).1) j (List.mem_cons_of_mem _ hj) rfl

/-- **C109 (result 0 means read).** … and if the engine begins with a READ of the same blocks then, and it ends with result 0, its
scatter-gather list begins with what the WRITE wrote: if every other command which writes any of the blocks was done when the
WRITE began. -/
theorem C109_read_after_write [DecidableEq ι] (K : Module.Kernel) (hK : GoodKernel K) (junk : World → Nat → Byte) (D : Device σ)
    (disks : σ → Disk) (hD : Honest D disks) (c : ι → Command) (m : Mem) (hc : Disjoint c m) (s : σ) (tr : List Event)
    (sched₀ sched₁ sched₂ : List ι) (y₀ y₁ y₂ : Host ι σ) (h₀ : (Host.start s m tr).run K junk D c sched₀ = .ok y₀)
    (h₁ : y₀.run K junk D c sched₁ = .ok y₁) (h₂ : y₁.run K junk D c sched₂ = .ok y₂)
    (W R : ι) (oW oR : Module.Outcome) (hWn : y₀.phase W = .queued ∨ ∃ b, y₀.phase W = .engine b .called) (hWd : y₁.phase W = .done oW)
    (goodW : oW.result = 0) (hRn : y₁.phase R = .queued ∨ ∃ b, y₁.phase R = .engine b .called) (hRd : y₂.phase R = .done oR)
    (goodR : oR.result = 0) (lba n : Nat)
    (hW : isWrite (byte (c W).cdb 0)) (hWa : (c W).asks (lba + n) lba n)
    (hR : isRead (byte (c R).cdb 0)) (hRa : (c R).asks (lba + n) lba n) (hlun : (c R).cmd.lun = (c W).cmd.lun)
    (ho : ∀ j, j ≠ W → (∃ oj, y₀.phase j = .done oj) ∨ (c j).leaves (c W).cmd.lun.toNat lba n) :
    oR.sg = (c W).cmd.sg.take (4096 * n) ++ (c R).cmd.sg.drop (4096 * n) ∧
      oR.resid = some (((c R).cmd.sg.length : Int) - 4096 * n) := by
  obtain ⟨L0, L1, L2, out, c0, c1, c2, -, -, t2⟩ :=
    relied_moments K hK junk D disks hD c m hc s tr sched₀ sched₁ sched₂ y₀ y₁ y₂ h₀ h₁ h₂
  obtain ⟨hinW, houtW⟩ := c1.done W oW hWd
  obtain ⟨hinR, houtR⟩ := c2.done R oR hRd
  have hinW1 : W ∈ L1 := by
    rcases List.mem_append.mp hinW with h | h
    · rcases hWn with hq | ⟨b, hb⟩
      · exact absurd hq (c0.begun W h).1
      · exact absurd hb ((c0.begun W h).2 b)
    · exact h
  have hinR2 : R ∈ L2 := by
    rcases List.mem_append.mp hinR with h | h
    · rcases hRn with hq | ⟨b, hb⟩
      · exact absurd hq (c1.begun R h).1
      · exact absurd hb ((c1.begun R h).2 b)
    · exact h
  obtain ⟨A, B, rfl⟩ := List.append_of_mem hinW1
  obtain ⟨C, Z, rfl⟩ := List.append_of_mem hinR2
  have hnd := c2.once
  rw [show L0 ++ (A ++ W :: B) ++ (C ++ R :: Z) = ((L0 ++ A) ++ W :: (B ++ C)) ++ (R :: Z) by simp] at t2 hnd
  obtain ⟨d2, h3, h4⟩ := t2.split
  rw [List.nodup_append] at hnd
  have hnd1 := hnd.1
  rw [List.nodup_append] at hnd1
  have h5 := h3.written hW hWa (by rw [houtW]; exact goodW) fun j hj => by
    have hjW : j ≠ W := fun e => by
      subst e
      exact (List.nodup_cons.mp hnd1.2.1).1 hj
    refine (ho j hjW).resolve_left ?_
    rintro ⟨oj, hj0⟩
    exact hnd1.2.2 j (List.mem_append_left _ (c0.done j oj hj0).1) j (List.mem_cons_of_mem _ hj) rfl
  cases h4 with
  | cons hr hz =>
    cases hr with
    | other op => exact absurd hR op.1
    | write op => exact absurd op fun h => read_not_write hR h
    | torn op => exact absurd op fun h => read_not_write hR h
    | unread op bad => rw [houtR] at bad; exact absurd goodR bad
    | read opR hra good data resid =>
      obtain ⟨rfl, rfl⟩ := Spec.Command.asks_same hRa hra
      rw [hlun, h5] at data
      rw [houtR] at data resid
      exact ⟨data, resid⟩

/-- **C109 (stack).** The same through the driver of the kernel, over any block layer which can always give the command to the
hardware: no interleaving has undefined behaviour (some MODE SENSE commands aside), and there is an order as in `C109_trusted`.
(Without the assumption on the block layer, see C71.) -/
theorem C109_stack [DecidableEq ι] (K : Module.Kernel) (hK : GoodKernel K) (junk : World → Nat → Byte) (B : BlockLayer β) (disks : β → Disk)
    (hB : Honest B.execute disks) (hR : Reliable B)
    (hr : ∀ b sub b', B.allocRequest b sub = .ok b' → disks b' = disks b) (hm : ∀ b a n, disks (B.mapKern b a n).2 = disks b)
    (hf : ∀ b, disks (B.freeRequest b) = disks b)
    (c : ι → Command) (m : Mem) (hc : Disjoint c m) (hop : ∀ i page, steady (c i).cdb page) (s : State β) (tr : List Event)
    (sched₁ sched₂ : List ι) :
    ∃ y₁ y₂, (Host.start s m tr).run K junk (device B) c sched₁ = .ok y₁ ∧ y₁.run K junk (device B) c sched₂ = .ok y₂ ∧
      ∃ order₁ order₂ out, Accounts y₁ order₁ out ∧ Accounts y₂ (order₁ ++ order₂) out ∧
        ReliedAll c out (fun l a => disks s.blk (l + 1) a) order₁ (fun l a => disks y₁.dev.blk (l + 1) a) ∧
        ReliedAll c out (fun l a => disks s.blk (l + 1) a) (order₁ ++ order₂) (fun l a => disks y₂.dev.blk (l + 1) a) := by
  have hD := C108_driver B disks hB hR hr hm hf
  obtain ⟨y1, h1⟩ := C106_defined K hK junk _ _ hD.toLossy c m hc hop s tr sched₁
  obtain ⟨y2, h2⟩ := C106_defined K hK junk _ _ hD.toLossy c m hc hop s tr (sched₁ ++ sched₂)
  rw [Host_run_append, h1] at h2
  exact ⟨y1, y2, h1, h2, C109_trusted K hK junk _ _ hD c m hc s tr sched₁ sched₂ y1 y2 h1 h2⟩

/-- The hypotheses are met: WRITE, READ and INQUIRY through the kernel module over a device which fails commands in any pattern, in any
schedule in which the READ is queued when the WRITE is done: if both end with result 0, the READ returns what the WRITE wrote. -/
example (cap : Nat → Nat) (works : Nat → Bool) (part : Nat) (d : Disk) (sg : Fin 3 → List Byte) (h0 : (sg 0).length = 8192)
    (h1 : (sg 1).length = 12288) (h2 : (sg 2).length = 200) (sched₁ sched₂ : List (Fin 3)) (k1 : 1 ∉ sched₁)
    (k0 : 7 ≤ sched₁.count 0) (k2 : 7 ≤ sched₂.count 1) :
    ∃ y₁ y₂ oW oR,
      (Host.start (0, d) demoShared []).run demoKernel3 (fun _ _ => 0) (failingDevice cap works part) (demoTrio sg) sched₁ = .ok y₁ ∧
      y₁.run demoKernel3 (fun _ _ => 0) (failingDevice cap works part) (demoTrio sg) sched₂ = .ok y₂ ∧
      y₁.phase 0 = .done oW ∧ y₂.phase 1 = .done oR ∧
      (oW.result = 0 → Disk.read y₁.dev.2 4 (4096 * 9) 8192 = sg 0) ∧
      (oW.result = 0 → oR.result = 0 → oR.sg = sg 0 ++ (sg 1).drop 8192 ∧ oR.resid = some 4096) := by
  have hD : Disjoint (demoTrio sg) demoShared := demoTrio_disjoint sg (by
    intro i
    match i with
    | 0 => exact ⟨fun _ => by omega, by omega⟩
    | 1 => exact ⟨fun _ => by omega, by omega⟩
    | 2 => exact ⟨fun h => absurd rfl h, by omega⟩)
  have hH := failing_honest cap works part
  have hop : ∀ i page, steady (demoTrio sg i).cdb page := fun i => steady_of (demoCalls_blocks i).2.1
  obtain ⟨y1, e1⟩ := C106_defined demoKernel3 demoKernel3_good (fun _ _ => 0) _ _ hH.toLossy (demoTrio sg) demoShared hD hop (0, d) [] sched₁
  obtain ⟨y2, e2⟩ := C106_defined demoKernel3 demoKernel3_good (fun _ _ => 0) _ _ hH.toLossy (demoTrio sg) demoShared hD hop (0, d) []
    (sched₁ ++ sched₂)
  obtain ⟨oW, p1⟩ := C101_wait_free _ _ _ _ _ _ _ _ _ e1 0 k0
  obtain ⟨oR, p2⟩ := C101_wait_free _ _ _ _ _ _ _ _ _ e2 1 (by rw [List.count_append]; omega)
  have e3 := e2
  rw [Host_run_append, e1] at e3
  have hc : y1.phase 1 = .queued := host_unscheduled _ _ _ _ 1 _ _ _ e1 k1
  have aW : (demoTrio sg 0).asks (9 + 2) 9 2 :=
    ⟨⟨9, 2, some 0, false⟩, (by decide +kernel : decodeRw (demoBlocks 0) = _), by intro c h; cases h; decide, rfl, rfl, by decide,
      (by change 4096 * 2 ≤ (sg 0).length; omega), by omega⟩
  have aR : (demoTrio sg 1).asks (9 + 2) 9 2 :=
    ⟨⟨9, 2, some 0, false⟩, (by decide +kernel : decodeRw (demoBlocks 1) = _), by intro c h; cases h; decide, rfl, rfl, by decide,
      (by change 4096 * 2 ≤ (sg 1).length; omega), by omega⟩
  have ho : ∀ j : Fin 3, j ≠ 0 → (∃ oj, (Host.start (0, d) demoShared [] : Host (Fin 3) (Nat × Disk)).phase j = .done oj) ∨
      (demoTrio sg j).leaves (demoTrio sg 0).cmd.lun.toNat 9 2 := by
    intro j hj
    refine .inr fun hw => ?_
    match j with
    | 0 => exact absurd rfl hj
    | 1 => exact absurd (show isWrite (byte (demoBlocks 1) 0) from hw) (by decide)
    | 2 => exact absurd (show isWrite (byte (demoBlocks 2) 0) from hw) (by decide)
  have wW : isWrite (byte (demoTrio sg 0).cdb 0) := (by decide : isWrite (byte (demoBlocks 0) 0))
  have tk : (sg 0).take (4096 * 2) = sg 0 := List.take_of_length_le (by omega)
  refine ⟨y1, y2, oW, oR, e1, e3, p1, p2, fun g1 => ?_, fun g1 g2 => ?_⟩
  · have := C109_durable demoKernel3 demoKernel3_good (fun _ _ => 0) _ _ hH (demoTrio sg) demoShared hD (0, d) [] [] sched₁ _ y1 rfl e1
      0 oW (.inl rfl) p1 g1 9 2 wW aW ho
    exact this.trans tk
  · obtain ⟨g3, g4⟩ := C109_read_after_write demoKernel3 demoKernel3_good (fun _ _ => 0) _ _ hH (demoTrio sg) demoShared hD (0, d) []
      [] sched₁ sched₂ _ y1 y2 rfl e1 e3 0 1 oW oR (.inl rfl) p1 g1 (.inl hc) p2 g2 9 2 wW aW
      (by decide : isRead (byte (demoBlocks 1) 0)) aR rfl ho
    constructor
    · rw [g3]
      change (sg 0).take (4096 * 2) ++ _ = _
      rw [tk]
      rfl
    · rw [g4]
      change some (((sg 1).length : Int) - _) = _
      rw [h1]
      rfl

end Scsi2Nvme
