import Verif.Properties.ModuleConcurrent
/-!
# C102: commands through the kernel module, under concurrency and at every crash point
-/

namespace Scsi2Nvme
open Spec Engine

variable {ι σ : Type}

theorem Spec.InTurn.split {cap : Nat → Nat} {P : ι → Prop} {c : ι → Command} {out : ι → Module.Outcome} {d d' : Disk} {L M : List ι}
    (h : InTurn cap P c out d (L ++ M) d') : ∃ d1, InTurn cap P c out d L d1 ∧ InTurn cap P c out d1 M d' := by
  induction L generalizing d with
  | nil => exact ⟨d, .nil, h⟩
  | cons i L ih =>
    cases h with
    | cons h1 h2 =>
      obtain ⟨d1, h3, h4⟩ := ih h2
      exact ⟨d1, .cons h1 h3, h4⟩

theorem Spec.InTurn.keeps {cap : Nat → Nat} {P : ι → Prop} {c : ι → Command} {out : ι → Module.Outcome} {d d' : Disk} {L : List ι}
    (h : InTurn cap P c out d L d') (lun lba n : Nat) (hs : ∀ i ∈ L, Command.sparing (c i) cap lun lba n) :
    Disk.read d' lun (4096 * lba) (4096 * n) = Disk.read d lun (4096 * lba) (4096 * n) := by
  induction h with
  | nil => rfl
  | @cons d i d1 is d2 h t ih =>
    rw [ih fun i hi => hs i (List.mem_cons_of_mem _ hi)]
    have : ManagedAll cap (fun _ => P i) d [c i] [out i] d1 := .cons h .nil
    exact this.keeps lun lba n fun q hq => by
      rw [List.mem_singleton.mp hq]
      exact hs i (List.mem_cons_self ..)

/-- A WRITE that got its memory is on the disk, if no later command writes the same blocks. -/
theorem Spec.InTurn.written {cap : Nat → Nat} {P : ι → Prop} {c : ι → Command} {out : ι → Module.Outcome} {d d' : Disk}
    {A B : List ι} {W : ι} (h : InTurn cap P c out d (A ++ W :: B) d') (lba n : Nat)
    (hW : isWrite (byte (c W).cdb 0)) (hWa : (c W).asks (cap (c W).cmd.lun.toNat) lba n)
    (hB : ∀ j ∈ B, Command.sparing (c j) cap (c W).cmd.lun.toNat lba n) :
    (P W ∧ (out W).result = 23 ∧ (out W).sg = (c W).cmd.sg ∧
      ∃ d1, InTurn cap P c out d A d1 ∧ InTurn cap P c out d1 B d') ∨
    ((out W).result = 0 ∧ (out W).sg = (c W).cmd.sg ∧
      d'.read (c W).cmd.lun.toNat (4096 * lba) (4096 * n) = (c W).cmd.sg.take (4096 * n)) := by
  obtain ⟨d1, h1, h2⟩ := h.split
  cases h2 with
  | cons hw hb =>
    cases hw with
    | other op => exact absurd hW op.2
    | rw _ hw =>
      cases hw with
      | read op => exact absurd hW fun h => read_not_write op h
      | failed h => exact absurd hWa (h lba n)
      | noMemory h bad data => exact .inl ⟨h, bad, data, d1, h1, hb⟩
      | @write lbaW nW op hwa good data =>
        obtain ⟨rfl, rfl⟩ := Command.asks_unique hWa hwa
        refine .inr ⟨good, data, ?_⟩
        rw [hb.keeps (c W).cmd.lun.toNat lbaW nW hB]
        obtain ⟨-, -, -, -, -, -, h6, -⟩ := hwa
        have hlen : ((c W).cmd.sg.take (4096 * nW)).length = 4096 * nW := by rw [List.length_take]; omega
        have := Disk.read_write_self d1 (c W).cmd.lun.toNat (4096 * lbaW) ((c W).cmd.sg.take (4096 * nW))
        rw [hlen] at this
        exact this

theorem others_sparing {cap : Nat → Nat} {c : ι → Command} {W : ι} {lba n : Nat}
    (ho : ∀ j, j ≠ W → Command.sparing (c j) cap (c W).cmd.lun.toNat lba n) {A B : List ι} (hnd : (A ++ W :: B).Nodup) :
    (∀ j ∈ A, Command.sparing (c j) cap (c W).cmd.lun.toNat lba n) ∧ ∀ j ∈ B, Command.sparing (c j) cap (c W).cmd.lun.toNat lba n := by
  rw [List.nodup_append] at hnd
  refine ⟨fun j hj => ho j fun e => ?_, fun j hj => ho j fun e => ?_⟩
  · exact hnd.2.2 j hj W (List.mem_cons_self ..) e
  · subst e
    exact (List.nodup_cons.mp hnd.2.1).1 hj

/-- **C102 (durability).** At any moment, in any interleaving: if a correct WRITE is done then it was refused memory and answered
with 23, or it was answered with result 0, and if no other command writes the blocks then they hold its data. -/
theorem C102_durable [DecidableEq ι] (cap : Nat → Nat) (ident feature) (K : Module.Kernel) (hK : GoodKernel K)
    (junk : World → Nat → Byte) (D : Device Disk) (hS : Storage D cap) (hC : Controller D ident feature) (hT : tidy D)
    (c : ι → Command) (m : Mem) (hc : Disjoint c m) (d : Disk) (tr : List Event) (sched : List ι) (y : Host ι Disk)
    (h : (Host.start d m tr).run K junk D c sched = .ok y) (W : ι) (o : Module.Outcome) (hW : y.phase W = .done o) (lba n : Nat)
    (op : isWrite (byte (c W).cdb 0)) (hWa : (c W).asks (cap ((c W).cmd.lun.toNat + 1)) lba n)
    (ho : ∀ j, j ≠ W → Command.sparing (c j) (fun l => cap (l + 1)) (c W).cmd.lun.toNat lba n) :
    o.sg = (c W).cmd.sg ∧
    ((Refused K junk D c (Host.start d m tr) sched W ∧ o.result = 23 ∧
        Disk.read y.dev ((c W).cmd.lun.toNat + 1) (4096 * lba) (4096 * n) = Disk.read d ((c W).cmd.lun.toNat + 1) (4096 * lba) (4096 * n)) ∨
      (o.result = 0 ∧ Disk.read y.dev ((c W).cmd.lun.toNat + 1) (4096 * lba) (4096 * n) = (c W).cmd.sg.take (4096 * n))) := by
  obtain ⟨L1, L2, out, ha, -, hs, -⟩ := C101_linearizable cap ident feature K hK junk D hS hC hT c m hc d tr sched [] y y h
    (by rw [List.append_nil]; exact h)
  obtain ⟨hin, hout⟩ := ha.done W o hW
  obtain ⟨A, B, rfl⟩ := List.append_of_mem hin
  obtain ⟨hA, hB⟩ := others_sparing ho ha.once
  rcases hs.written lba n op hWa hB with ⟨h1, h2, h3, d1, h4, h5⟩ | ⟨h1, h2, h3⟩
  · rw [hout] at h2 h3
    refine ⟨h3, .inl ⟨h1, h2, ?_⟩⟩
    exact (h5.keeps _ _ _ hB).trans (h4.keeps _ _ _ hA)
  · rw [hout] at h1 h2
    exact ⟨h2, .inr ⟨h1, h3⟩⟩

/-- **C102 (atomicity).** At any moment, in any interleaving - in particular if the machine stops there: a correct WRITE whose
blocks no other command writes has been carried out entirely or not at all. -/
theorem C102_atomic [DecidableEq ι] (cap : Nat → Nat) (ident feature) (K : Module.Kernel) (hK : GoodKernel K)
    (junk : World → Nat → Byte) (D : Device Disk) (hS : Storage D cap) (hC : Controller D ident feature) (hT : tidy D)
    (c : ι → Command) (m : Mem) (hc : Disjoint c m) (d : Disk) (tr : List Event) (sched : List ι) (y : Host ι Disk)
    (h : (Host.start d m tr).run K junk D c sched = .ok y) (W : ι) (lba n : Nat)
    (op : isWrite (byte (c W).cdb 0)) (hWa : (c W).asks (cap ((c W).cmd.lun.toNat + 1)) lba n)
    (ho : ∀ j, j ≠ W → Command.sparing (c j) (fun l => cap (l + 1)) (c W).cmd.lun.toNat lba n) :
    Disk.read y.dev ((c W).cmd.lun.toNat + 1) (4096 * lba) (4096 * n) = Disk.read d ((c W).cmd.lun.toNat + 1) (4096 * lba) (4096 * n) ∨
      Disk.read y.dev ((c W).cmd.lun.toNat + 1) (4096 * lba) (4096 * n) = (c W).cmd.sg.take (4096 * n) := by
  obtain ⟨L1, L2, out, ha, -, hs, -⟩ := C101_linearizable cap ident feature K hK junk D hS hC hT c m hc d tr sched [] y y h
    (by rw [List.append_nil]; exact h)
  by_cases hin : W ∈ L1
  · obtain ⟨A, B, rfl⟩ := List.append_of_mem hin
    obtain ⟨hA, hB⟩ := others_sparing ho ha.once
    rcases hs.written lba n op hWa hB with ⟨-, -, -, d1, h4, h5⟩ | ⟨-, -, h3⟩
    · exact .inl ((h5.keeps _ _ _ hB).trans (h4.keeps _ _ _ hA))
    · exact .inr h3
  · left
    exact hs.keeps _ _ _ fun i hi => ho i fun e => hin (e ▸ hi)

/-- **C102 (untouched blocks).** At any moment, in any interleaving: blocks no command writes are as before. -/
theorem C102_untouched [DecidableEq ι] (cap : Nat → Nat) (ident feature) (K : Module.Kernel) (hK : GoodKernel K)
    (junk : World → Nat → Byte) (D : Device Disk) (hS : Storage D cap) (hC : Controller D ident feature) (hT : tidy D)
    (c : ι → Command) (m : Mem) (hc : Disjoint c m) (d : Disk) (tr : List Event) (sched : List ι) (y : Host ι Disk)
    (h : (Host.start d m tr).run K junk D c sched = .ok y) (lun lba n : Nat)
    (ho : ∀ j, Command.sparing (c j) (fun l => cap (l + 1)) lun lba n) :
    Disk.read y.dev (lun + 1) (4096 * lba) (4096 * n) = Disk.read d (lun + 1) (4096 * lba) (4096 * n) := by
  obtain ⟨L1, L2, out, ha, -, hs, -⟩ := C101_linearizable cap ident feature K hK junk D hS hC hT c m hc d tr sched [] y y h
    (by rw [List.append_nil]; exact h)
  exact hs.keeps lun lba n fun i _ => ho i

/-- **C102 (the last write is read).** Let a correct WRITE be done at some moment at which the engine has not begun with a correct
READ of the same blocks; let no other command write the blocks, and let both get their memory.  When the READ is done, the beginning
of its scatter-gather list holds what the WRITE wrote, the rest of it is unchanged, and the residual count is right, whatever else
went on before, between and meanwhile. -/
theorem C102_read_after_write [DecidableEq ι] (cap : Nat → Nat) (ident feature) (K : Module.Kernel) (hK : GoodKernel K)
    (junk : World → Nat → Byte) (D : Device Disk) (hS : Storage D cap) (hC : Controller D ident feature) (hT : tidy D)
    (c : ι → Command) (m : Mem) (hc : Disjoint c m) (d : Disk) (tr : List Event) (sched₁ sched₂ : List ι) (y₁ y₂ : Host ι Disk)
    (h₁ : (Host.start d m tr).run K junk D c sched₁ = .ok y₁) (h₂ : (Host.start d m tr).run K junk D c (sched₁ ++ sched₂) = .ok y₂)
    (W R : ι) (oW oR : Module.Outcome) (hWd : y₁.phase W = .done oW) (hRn : y₁.phase R = .queued ∨ ∃ b, y₁.phase R = .engine b .called)
    (hRd : y₂.phase R = .done oR) (lba n : Nat)
    (hW : isWrite (byte (c W).cdb 0)) (hWa : (c W).asks (cap ((c W).cmd.lun.toNat + 1)) lba n)
    (hR : isRead (byte (c R).cdb 0)) (hRa : (c R).asks (cap ((c W).cmd.lun.toNat + 1)) lba n) (hlun : (c R).cmd.lun = (c W).cmd.lun)
    (ho : ∀ j, j ≠ W → Command.sparing (c j) (fun l => cap (l + 1)) (c W).cmd.lun.toNat lba n)
    (hWm : ¬ Refused K junk D c (Host.start d m tr) (sched₁ ++ sched₂) W)
    (hRm : ¬ Refused K junk D c (Host.start d m tr) (sched₁ ++ sched₂) R) :
    oW.result = 0 ∧ oR.result = 0 ∧ oR.sg = (c W).cmd.sg.take (4096 * n) ++ (c R).cmd.sg.drop (4096 * n) ∧
      oR.resid = some (((c R).cmd.sg.length : Int) - 4096 * n) := by
  obtain ⟨L1, L2, out, c1, c2, -, hs⟩ := C101_linearizable cap ident feature K hK junk D hS hC hT c m hc d tr sched₁ sched₂ y₁ y₂ h₁ h₂
  obtain ⟨hinW, hoW⟩ := c1.done W oW hWd
  obtain ⟨hinR, hoR⟩ := c2.done R oR hRd
  have hinR2 : R ∈ L2 := by
    rcases List.mem_append.mp hinR with h | h
    · rcases hRn with hq | ⟨b, hb⟩
      · exact absurd hq (c1.begun R h).1
      · exact absurd hb ((c1.begun R h).2 b)
    · exact h
  obtain ⟨A, B, rfl⟩ := List.append_of_mem hinW
  obtain ⟨C, Z, rfl⟩ := List.append_of_mem hinR2
  have hnd := c2.once
  rw [show (A ++ W :: B) ++ (C ++ R :: Z) = (A ++ W :: (B ++ C)) ++ (R :: Z) by simp] at hs hnd
  obtain ⟨d2, h3, h4⟩ := hs.split
  rw [List.nodup_append] at hnd
  obtain ⟨-, hB⟩ := others_sparing ho hnd.1
  rcases h3.written lba n hW hWa hB with ⟨h5, -⟩ | ⟨h5, -, h6⟩
  · exact absurd h5 hWm
  cases h4 with
  | cons hr hz =>
    cases hr with
    | other op => exact absurd hR op.1
    | rw _ hr =>
      cases hr with
      | write op => exact absurd op fun h => read_not_write hR h
      | failed h => rw [hlun] at h; exact absurd hRa (h _ _)
      | noMemory h => exact absurd h hRm
      | @read lbaR nR opR hra good data resid =>
        rw [hlun] at hra data
        obtain ⟨rfl, rfl⟩ := Command.asks_unique hRa hra
        rw [hoW] at h5
        rw [hoR] at good data resid
        rw [h6] at data
        exact ⟨h5, good, data, resid⟩

/-! ## Three commands -/

/-- A kernel with a place for each size. -/
def roomyKernel : Module.Kernel :=
  { kzalloc := fun w n =>
      if n < 0x10000000 ∧ (List.range n).all (fun i => (w.mem (2 ^ 32 * (n + 1) + i)).isNone) then
        (2 ^ 32 * (n + 1), fun x => if 2 ^ 32 * (n + 1) ≤ x ∧ x < 2 ^ 32 * (n + 1) + n then some 0 else w.mem x)
      else (0, w.mem)
    kfree := fun w a n x => if a ≤ x ∧ x < a + n then none else w.mem x }

theorem roomyKernel_good : GoodKernel roomyKernel where
  alloc := by
    intro w n
    simp only [roomyKernel]
    split
    · rename_i h
      right
      refine ⟨by simp only; omega, by simp only; omega, by simp only; omega, ?_, ?_⟩
      · intro x hx
        simp only [inRange] at hx ⊢
        refine ⟨?_, if_pos hx⟩
        have := List.all_eq_true.mp h.2 (x - 2 ^ 32 * (n + 1)) (List.mem_range.mpr (by omega))
        rw [Nat.add_sub_cancel' hx.1] at this
        simpa using this
      · intro x hx
        exact if_neg hx
    · exact .inl ⟨rfl, rfl⟩
  free := fun _ _ _ _ => rfl

theorem roomyKernel_grants (w : World) (n : Nat) (hn : n < 0x10000000) (h : ∀ i, i < n → w.mem (2 ^ 32 * (n + 1) + i) = none) :
    roomyKernel.kzalloc w n =
      (2 ^ 32 * (n + 1), fun x => if 2 ^ 32 * (n + 1) ≤ x ∧ x < 2 ^ 32 * (n + 1) + n then some 0 else w.mem x) :=
  if_pos ⟨hn, List.all_eq_true.mpr fun i hi => by rw [h i (List.mem_range.mp hi)]; rfl⟩

theorem never_queued [DecidableEq ι] (K : Module.Kernel) (junk : World → Nat → Byte) (D : Device σ) (c : ι → Command) (i : ι)
    (sched : List ι) (x y : Host ι σ) (h : x.run K junk D c sched = .ok y) (hq : y.phase i = .queued) :
    i ∉ sched ∧ x.phase i = .queued := by
  induction sched generalizing x with
  | nil => cases h; exact ⟨List.not_mem_nil, hq⟩
  | cons j js ih =>
    unfold Host.run at h
    split at h
    · cases h
    · rename_i x1 e
      obtain ⟨h1, h2⟩ := ih x1 h
      unfold Host.step at e
      split at e
      · cases e
      · rename_i ph s w ha
        cases e
        by_cases hij : i = j
        · subst hij
          simp only [if_true] at h2
          subst h2
          have := module_less K junk D _ _ _ _ _ _ ha
          simp only [stepsToGo] at this
          cases hx : x.phase i with
          | queued => rw [hx] at this; simp only [stepsToGo] at this; omega
          | engine b ph =>
            rw [hx] at this
            rw [hx] at ha
            cases ph with
            | called => simp only [stepsToGo, stepsLeft] at this; omega
            | returned r =>
              obtain ⟨o, ho⟩ := module_finish K junk D _ _ _ _ b r _ ha
              cases ho
            | waiting r t todo cs =>
              simp only [Module.advance, M.bind_run] at ha
              split at ha
              · cases ha
              · cases ha
          | done o => rw [hx] at ha; cases ha
        · simp only [if_neg hij] at h2
          exact ⟨fun hc => (List.mem_cons.mp hc).elim hij h1, h2⟩

theorem first_unique [DecidableEq ι] {i : ι} {A B C E : List ι} (h : A ++ i :: B = C ++ i :: E) (hA : i ∉ A) (hC : i ∉ C) : A = C := by
  induction A generalizing C with
  | nil =>
    cases C with
    | nil => rfl
    | cons x C => simp only [List.nil_append, List.cons_append, List.cons.injEq] at h; exact absurd (by rw [h.1]; simp) hC
  | cons a A ih =>
    cases C with
    | nil => simp only [List.nil_append, List.cons_append, List.cons.injEq] at h; exact absurd (by rw [h.1]; simp) hA
    | cons x C =>
      simp only [List.cons_append, List.cons.injEq] at h
      rw [h.1, ih h.2 (fun hc => hA (List.mem_cons_of_mem _ hc)) (fun hc => hC (List.mem_cons_of_mem _ hc))]

/-- A command is not refused memory if the kernel has it when its turn comes. -/
theorem not_refused [DecidableEq ι] {K : Module.Kernel} {junk : World → Nat → Byte} {D : Device σ} {c : ι → Command} {y y1 : Host ι σ}
    {pre post : List ι} {i : ι} (h : y.run K junk D c pre = .ok y1) (hp : i ∉ pre)
    (hk : (K.kzalloc y1.world ((c i).cmd.sg.length % 65536)).1 ≠ 0) : ¬ Refused K junk D c y (pre ++ i :: post) i := by
  rintro ⟨b, a, y', h1, h2, h3, h4⟩
  have := first_unique h1 hp (never_queued K junk D c i b y y' h2 h3).1
  subst this
  rw [h] at h2
  cases h2
  exact hk h4

/-- The three commands for LUN 3: WRITE(10) of blocks 9 and 10, READ(16) of the same blocks, INQUIRY, with the lists `sg`. -/
def demoTrio (sg : Fin 3 → List Byte) (i : Fin 3) : Command :=
  { mem := demoShared, ws := Demo.ws, uninit := 0xdead, cdb := demoBlocks i
    cmd := ⟨3, 0x10000 * (i.val + 1), BitVec.ofNat 16 (demoBlocks i).length, 0x10000 * (i.val + 1) + 0x400, decide (i.val ≠ 0), sg i⟩ }

theorem demoTrio_uses {sg : Fin 3 → List Byte} {i : Fin 3} {a : Nat} (h : (demoTrio sg i).uses a) :
    0x10000 * (i.val + 1) ≤ a ∧ a < 0x10000 * (i.val + 2) := by
  have hl := demoBlocks_length i
  rcases h with h | h
  · change inRange (0x10000 * (i.val + 1)) (demoBlocks i).length a at h
    unfold inRange at h; omega
  · change inRange (0x10000 * (i.val + 1) + 0x400) 96 a at h
    unfold inRange at h; omega

theorem demoTrio_disjoint (sg : Fin 3 → List Byte) (hsg : ∀ i, (i ≠ 2 → 8192 ≤ (sg i).length) ∧ (sg i).length < 65536) :
    Disjoint (demoTrio sg) demoShared where
  mem := fun _ => rfl
  sense := fun i => demoCalls_acc i 0x400 96 (by decide)
  apart := by
    intro i j hij a h1 h2
    have h1 := demoTrio_uses h1
    have h2 := demoTrio_uses h2
    exact hij (Fin.ext (by omega))
  fair := by
    intro i
    have hl := demoBlocks_length i
    refine ⟨demoCalls_stored i, by change (demoBlocks i).length < _; omega, rfl, fun h => absurd h (demoCalls_blocks i).1, fun hop =>
      ⟨⟨demoCalls_stored i, by change (demoBlocks i).length < _; omega, rfl, ?_, demoCalls_acc i 0x400 96 (by decide),
        by change 3 + 1 < 2 ^ 32; decide, ?_⟩, (hsg i).2⟩⟩
    · match i with
      | 0 => exact .inr ⟨(by decide : isWrite (byte (demoBlocks 0) 0)), rfl⟩
      | 1 => exact .inl ⟨(by decide : isRead (byte (demoBlocks 1) 0)), rfl⟩
      | 2 => exact absurd (show isRead (byte (demoBlocks 2) 0) ∨ isWrite (byte (demoBlocks 2) 0) from hop) (by decide)
    · intro hw rw_ h
      have h1 := (demoCalls_blocks i).2.2 hw rw_ h
      have h2 : 8192 ≤ (demoTrio sg i).cmd.sg.length := (hsg i).1 fun e => by
        subst e
        exact absurd (show isWrite (byte (demoBlocks 2) 0) from hw) (by decide)
      omega

theorem demoShared_none (a : Nat) (h : 0x40000 ≤ a) : demoShared a = none := by
  unfold demoShared
  rw [if_neg (by omega), dif_neg (by omega)]

/-- The first step of the WRITE. -/
theorem trio_step {sg : Fin 3 → List Byte} {d : Disk} (hD : Disjoint (demoTrio sg) demoShared) {K : Module.Kernel} (hK : GoodKernel K)
    {junk : World → Nat → Byte} {D : Device Disk} {z : Host (Fin 3) Disk}
    (h : (Host.start d demoShared []).run K junk D (demoTrio sg) [0] = .ok z) {n : Nat}
    (hl : (Module.dataLen (demoTrio sg 0).cmd).toNat = n) (h0 : (K.kzalloc ⟨demoShared, []⟩ n).1 ≠ 0) (hn : n ≠ 0) (P : Nat → Prop)
    (hf : ∀ a, P a → (K.kzalloc ⟨demoShared, []⟩ n).2 a = none ∧ ¬ inRange (K.kzalloc ⟨demoShared, []⟩ n).1 n a) :
    ∀ a, P a → z.world.mem a = none := by
  unfold Host.run at h
  split at h
  · cases h
  · rename_i y e
    cases h
    intro a ha
    obtain ⟨f1, f2⟩ := hf a ha
    have hst := hstepped_of (HInv.start hD d []) (hD.fair 0) e
    cases hst with
    | empty hp hz => exact absurd (hl.symm.trans hz) hn
    | refused hp hz hk => rw [hl] at hk; exact absurd hk h0
    | granted hp hz hk m hm =>
      rw [hl] at hm
      change m a = none
      rw [hm]
      split
      · exact f1
      · rw [put_outside]
        · exact f1
        · unfold inRange at f2
          rw [List.length_take]
          change a < (K.kzalloc ⟨demoShared, []⟩ n).1 ∨ (K.kzalloc ⟨demoShared, []⟩ n).1 + _ ≤ a
          omega
    | engine hp => cases hp
    | finished hp => cases hp
    | copied hp => cases hp
    | freed hp => cases hp
    | done hp => cases hp

theorem host_unscheduled [DecidableEq ι] (K : Module.Kernel) (junk : World → Nat → Byte) (D : Device σ) (c : ι → Command) (i : ι)
    (sched : List ι) (x y : Host ι σ) (h : x.run K junk D c sched = .ok y) (hi : i ∉ sched) : y.phase i = x.phase i := by
  induction sched generalizing x with
  | nil => cases h; rfl
  | cons j js ih =>
    unfold Host.run at h
    split at h
    · cases h
    · rename_i x1 e
      rw [ih x1 h fun hc => hi (List.mem_cons_of_mem _ hc)]
      unfold Host.step at e
      split at e
      · cases e
      · cases e
        exact if_neg fun e => hi (by simp [e])

/-- The first step of a command which gets its memory. -/
theorem first_step [DecidableEq ι] {K : Module.Kernel} {junk : World → Nat → Byte} {D : Device σ} {c : ι → Command} {x y : Host ι σ} {i : ι}
    (h : x.step K junk D c i = .ok y) (hq : x.phase i = .queued) (h0 : (K.kzalloc x.world (Module.dataLen (c i).cmd).toNat).1 ≠ 0) :
    ∃ b, y.phase i = .engine b .called := by
  unfold Host.step at h
  rw [hq] at h
  simp only [Module.advance] at h
  by_cases hz : Module.dataLen (c i).cmd = 0
  · simp only [if_pos hz, M.pure_run] at h
    cases h
    exact ⟨_, if_pos rfl⟩
  · simp only [if_neg hz, M.bind_run, Module.kzalloc, if_neg h0] at h
    split at h
    · cases h
    · rename_i ph s w e
      cases h
      simp only [if_true]
      split at e
      · simp only [M.pure_run] at e
        cases e
        exact ⟨_, rfl⟩
      · simp only [M.bind_run] at e
        split at e
        · cases e
        · simp only [M.pure_run] at e
          cases e
          exact ⟨_, rfl⟩

/-- The WRITE, interleaved with the INQUIRY and the beginning of the READ, and then the READ, in a kernel that has the memory: the
hypotheses of all theorems are met, and the READ returns what the WRITE wrote. -/
example (cap : Nat → Nat) (hcap : 100 ≤ cap 4) (ident : Nat → Nat → List Byte) (feature : Nat → Nat → Nat → Nat)
    (hs : ∀ n c, (ident n c).length = 4096) (d : Disk) (sg : Fin 3 → List Byte) (h0 : (sg 0).length = 8192) (h1 : (sg 1).length = 12288)
    (h2 : (sg 2).length = 20000) :
    ∃ y oW oR, (Host.start d demoShared []).run roomyKernel (fun _ _ => 0) (demoTarget cap ident feature) (demoTrio sg)
        ([0, 1, 2, 0, 2, 0, 2, 2, 0, 0, 0, 0] ++ [1, 2, 1, 1, 2, 1, 1, 1, 2]) = .ok y ∧
      y.phase 0 = .done oW ∧ y.phase 1 = .done oR ∧ oW.result = 0 ∧ oR.result = 0 ∧
      oR.sg = sg 0 ++ (sg 1).drop 8192 ∧ oR.resid = some 4096 ∧ Disk.read y.dev 4 (4096 * 9) 8192 = sg 0 := by
  have hS := demoTarget_storage cap ident feature
  have hC := demoTarget_controller cap ident feature hs
  have hT := demoTarget_tidy cap ident feature
  have hD : Disjoint (demoTrio sg) demoShared := demoTrio_disjoint sg (by
    intro i
    match i with
    | 0 => exact ⟨fun _ => by omega, by omega⟩
    | 1 => exact ⟨fun _ => by omega, by omega⟩
    | 2 => exact ⟨fun _ => by omega, by omega⟩)
  have hop : ∀ i page, steady (demoTrio sg i).cdb page := fun i => steady_of (demoCalls_blocks i).2.1
  obtain ⟨y1, r1⟩ := C101_defined cap ident feature roomyKernel roomyKernel_good (fun _ _ => 0) _ hS hC hT (demoTrio sg) demoShared hD hop d []
    [0, 1, 2, 0, 2, 0, 2, 2, 0, 0, 0, 0]
  obtain ⟨y2, r2⟩ := C101_defined cap ident feature roomyKernel roomyKernel_good (fun _ _ => 0) _ hS hC hT (demoTrio sg) demoShared hD hop d []
    ([0, 1, 2, 0, 2, 0, 2, 2, 0, 0, 0, 0] ++ [1, 2, 1, 1, 2, 1, 1, 1, 2])
  obtain ⟨z0, r0⟩ := C101_defined cap ident feature roomyKernel roomyKernel_good (fun _ _ => 0) _ hS hC hT (demoTrio sg) demoShared hD hop d []
    [0]
  obtain ⟨oW, p1⟩ := C101_wait_free _ _ _ _ _ _ _ _ _ r1 0 (by decide)
  obtain ⟨oR, p2⟩ := C101_wait_free _ _ _ _ _ _ _ _ _ r2 1 (by decide)
  obtain ⟨oW', p3⟩ := C101_wait_free _ _ _ _ _ _ _ _ _ r2 0 (by decide)
  have l0 : (Module.dataLen (demoTrio sg 0).cmd).toNat = 8192 := by
    rw [dataLen_toNat]
    change (sg 0).length % 65536 = _
    rw [h0]
  have l1 : (Module.dataLen (demoTrio sg 1).cmd).toNat = 12288 := by
    rw [dataLen_toNat]
    change (sg 1).length % 65536 = _
    rw [h1]
  have e0 := roomyKernel_grants ⟨demoShared, []⟩ 8192 (by decide) fun i _ => demoShared_none _ (by omega)
  have free0 : (roomyKernel.kzalloc ⟨demoShared, []⟩ 8192).1 ≠ 0 := by
    rw [e0]
    simp only
    omega
  have free1 := trio_step (d := d) hD roomyKernel_good r0 l0 free0 (by decide) (fun a => 2 ^ 32 * 12289 ≤ a) (fun a ha => by
    rw [e0]
    simp only
    rw [if_neg (by omega)]
    exact ⟨demoShared_none _ (by omega), fun h => by unfold inRange at h; omega⟩)
  have m0 : (demoTrio sg 0).cmd.sg.length % 65536 = 8192 := by rw [← dataLen_toNat]; exact l0
  have m1 : (demoTrio sg 1).cmd.sg.length % 65536 = 12288 := by rw [← dataLen_toNat]; exact l1
  have e1 := roomyKernel_grants z0.world 12288 (by decide) fun i _ => free1 _ (by omega)
  have free1 : (roomyKernel.kzalloc z0.world 12288).1 ≠ 0 := by
    rw [e1]
    simp only
    omega
  have hWm : ¬ Refused roomyKernel (fun _ _ => 0) (demoTarget cap ident feature) (demoTrio sg) (Host.start d demoShared [])
      ([0, 1, 2, 0, 2, 0, 2, 2, 0, 0, 0, 0] ++ [1, 2, 1, 1, 2, 1, 1, 1, 2]) 0 :=
    not_refused (pre := []) (post := [1, 2, 0, 2, 0, 2, 2, 0, 0, 0, 0] ++ [1, 2, 1, 1, 2, 1, 1, 1, 2]) rfl (by decide) (by
      rw [m0]; exact free0)
  have hRm : ¬ Refused roomyKernel (fun _ _ => 0) (demoTarget cap ident feature) (demoTrio sg) (Host.start d demoShared [])
      ([0, 1, 2, 0, 2, 0, 2, 2, 0, 0, 0, 0] ++ [1, 2, 1, 1, 2, 1, 1, 1, 2]) 1 := by
    rw [show ([0, 1, 2, 0, 2, 0, 2, 2, 0, 0, 0, 0] ++ [1, 2, 1, 1, 2, 1, 1, 1, 2] : List (Fin 3)) =
      [0] ++ 1 :: ([2, 0, 2, 0, 2, 2, 0, 0, 0, 0] ++ [1, 2, 1, 1, 2, 1, 1, 1, 2]) from rfl]
    exact not_refused (i := 1) (pre := [0]) (post := [2, 0, 2, 0, 2, 2, 0, 0, 0, 0] ++ [1, 2, 1, 1, 2, 1, 1, 1, 2]) r0 (by decide) (by
      rw [m1]; exact free1)
  have hRn : ∃ b, y1.phase 1 = .engine b .called := by
    have r1' := r1
    rw [show ([0, 1, 2, 0, 2, 0, 2, 2, 0, 0, 0, 0] : List (Fin 3)) = [0] ++ 1 :: [2, 0, 2, 0, 2, 2, 0, 0, 0, 0] from rfl,
      Host_run_append, r0] at r1'
    change Host.run _ _ _ _ z0 _ = _ at r1'
    unfold Host.run at r1'
    split at r1'
    · cases r1'
    · rename_i z1 e
      obtain ⟨b, hb⟩ := first_step e (host_unscheduled _ _ _ _ 1 _ _ _ r0 (by decide)) (by rw [l1]; exact free1)
      exact ⟨b, by rw [host_unscheduled _ _ _ _ 1 _ _ _ r1' (by decide)]; exact hb⟩
  have aW : (demoTrio sg 0).asks (cap 4) 9 2 :=
    ⟨⟨9, 2, some 0, false⟩, (by decide +kernel : decodeRw (demoBlocks 0) = _), by intro c h; cases h; decide, rfl, rfl, by decide,
      (by change 4096 * 2 ≤ (sg 0).length; omega), by omega⟩
  have aR : (demoTrio sg 1).asks (cap 4) 9 2 :=
    ⟨⟨9, 2, some 0, false⟩, (by decide +kernel : decodeRw (demoBlocks 1) = _), by intro c h; cases h; decide, rfl, rfl, by decide,
      (by change 4096 * 2 ≤ (sg 1).length; omega), by omega⟩
  have ho : ∀ j : Fin 3, j ≠ 0 → Command.sparing (demoTrio sg j) (fun l => cap (l + 1)) (demoTrio sg 0).cmd.lun.toNat 9 2 := by
    intro j hj hw
    match j with
    | 0 => exact absurd rfl hj
    | 1 => exact absurd (show isWrite (byte (demoBlocks 1) 0) from hw) (by decide)
    | 2 => exact absurd (show isWrite (byte (demoBlocks 2) 0) from hw) (by decide)
  have wW : isWrite (byte (demoTrio sg 0).cdb 0) := (by decide : isWrite (byte (demoBlocks 0) 0))
  obtain ⟨g1, g2, g3, g4⟩ := C102_read_after_write cap ident feature roomyKernel roomyKernel_good (fun _ _ => 0) _ hS hC hT (demoTrio sg)
    demoShared hD d [] _ _ y1 y2 r1 r2 0 1 oW oR p1 (.inr hRn) p2 9 2 wW aW
    (by decide : isRead (byte (demoBlocks 1) 0)) aR rfl ho hWm hRm
  obtain ⟨-, ⟨h, -⟩ | ⟨g5, g6⟩⟩ := C102_durable cap ident feature roomyKernel roomyKernel_good (fun _ _ => 0) _ hS hC hT (demoTrio sg)
    demoShared hD d [] _ y2 r2 0 oW' p3 9 2 wW aW ho
  · exact absurd h hWm
  have tk : (sg 0).take (4096 * 2) = sg 0 := List.take_of_length_le (by omega)
  refine ⟨y2, oW', oR, r2, p3, p2, g5, g2, ?_, ?_, ?_⟩
  · rw [g3]
    change (sg 0).take (4096 * 2) ++ _ = _
    rw [tk]
    rfl
  · rw [g4]
    change some (((sg 1).length : Int) - _) = _
    rw [h1]
    rfl
  · refine g6.trans ?_
    exact tk

end Scsi2Nvme
