import Verif.Proofs.Linear
/-!
# C96, C97: calls of the engine made concurrently
-/

namespace Scsi2Nvme
open Spec Engine

variable {ι σ : Type}

/-- **C96 (the steps).** A call which makes its steps undisturbed is a call of `ScsiToNvme`; it returns after at most five steps. -/
theorem C96_alone (E : Env) (D : Device σ) (q : Request) (s : σ) (w : World) :
    advanceN E D q.args 5 s .called w =
      match ScsiToNvme E D s q.ws q.ptr (BitVec.ofNat 16 q.cdb.length) q.lun q.sense q.senseLen q.data q.dataLen q.isIn w with
      | .error e => .error e
      | .ok ((r, s'), w') => .ok ((.returned r, s'), w') :=
  advance_alone E D q.args s w

/-- **C96.** Any number of calls for different memory, made concurrently and interleaved in any way: there is an order in
which the calls could have been executed one after the other with the same answers and the same effect on the disks.  It contains
every call that has returned and no call that has not begun.  This holds at any moment (`y₁`), and later (`y₂`) the order is the
same, with further calls after it: so a call that returned before another began comes before it. -/
theorem C96_linearizable [DecidableEq ι] (cap : Nat → Nat) (ident feature) (E : Env) (D : Device Disk) (hg : GoodAllocator E)
    (hS : Storage D cap) (hC : Controller D ident feature) (hT : tidy D) (q : ι → Request) (m : Mem) (hq : Separate q m)
    (d : Disk) (tr : List Event) (sched₁ sched₂ : List ι) (y₁ y₂ : Sys ι Disk)
    (h₁ : (Sys.start d m tr).run E D q sched₁ = .ok y₁) (h₂ : (Sys.start d m tr).run E D q (sched₁ ++ sched₂) = .ok y₂) :
    ∃ order₁ order₂ resp, Covers y₁ order₁ resp ∧ Covers y₂ (order₁ ++ order₂) resp ∧
      Sequential (fun l => cap (l + 1)) q resp y₁.world.mem (fun l a => d (l + 1) a) order₁ (fun l a => y₁.dev (l + 1) a) ∧
      Sequential (fun l => cap (l + 1)) q resp y₂.world.mem (fun l a => d (l + 1) a) (order₁ ++ order₂) (fun l a => y₂.dev (l + 1) a) := by
  have hT' : Target D cap ident feature := ⟨hS, hC, hT⟩
  obtain ⟨L1, own1, hI1, hL1, -⟩ := Lin.run hT' hg hq sched₁ (Inv.start hq d tr) (Lin.start cap hq d tr) h₁
  rw [List.nil_append] at hL1
  rw [Sys_run_append, h₁] at h₂
  obtain ⟨L2, own2, hI2, hL2, back⟩ := Lin.run hT' hg hq sched₂ hI1 hL1 h₂
  have hex : ∀ i, ∃ r, agrees (q i) r (y₂.phase i) := fun i => agrees_exists _ _
  have cov : ∀ (y : Sys ι Disk) (L : List ι) (resp : ι → ScsiToNvmeResponse), Lin cap q d y L →
      (∀ i, agrees (q i) (resp i) (y.phase i)) → Covers y L resp := by
    intro y L resp hL hr
    refine ⟨hL.nodup, fun i hi => ?_, fun i r hp => ?_⟩
    · have := (hL.mem i).mp hi
      intro hp
      rw [hp] at this
      exact this
    · have h1 := hr i
      rw [hp] at h1
      exact ⟨(hL.mem i).mpr (by rw [hp]; trivial), h1⟩
  have hr2 : ∀ i, agrees (q i) ((fun i => Classical.choose (hex i)) i) (y₂.phase i) := fun i => Classical.choose_spec (hex i)
  have hr1 := back _ hr2
  exact ⟨L1, L2, _, cov _ _ _ hL1 hr1, cov _ _ _ hL2 hr2, hL1.seq _ hr1, hL2.seq _ hr2⟩

/-- **C96 (safety).** No interleaving of calls which are `steady`, whatever the Identify data (all commands but some MODE SENSE commands, see
C81), has undefined behaviour.  (`C98_defined` is sharper: it takes the Identify data of the namespace into account.) -/
theorem C96_defined [DecidableEq ι] (cap : Nat → Nat) (ident feature) (E : Env) (D : Device Disk) (hg : GoodAllocator E)
    (hS : Storage D cap) (hC : Controller D ident feature) (hT : tidy D) (q : ι → Request) (m : Mem) (hq : Separate q m)
    (hop : ∀ i page, steady (q i).cdb page)
    (d : Disk) (tr : List Event) (sched : List ι) : ∃ y, (Sys.start d m tr).run E D q sched = .ok y := by
  have key : ∀ (own : ι → Nat → Prop) (y : Sys ι Disk), Inv E q own y → ∃ y', y.run E D q sched = .ok y' := by
    induction sched with
    | nil => exact fun _ y _ => ⟨y, rfl⟩
    | cons i is ih =>
      intro own y hI
      obtain ⟨y1, h1⟩ := hI.steady D hg hq (i := i) (hop i)
      obtain ⟨own1, hI1, -⟩ := hI.step ⟨hS, hC, hT⟩ hg hq (stepped_of hI (hq.fair i).short h1)
      obtain ⟨y2, h2⟩ := ih own1 y1 hI1
      exact ⟨y2, by simp only [Sys.run, h1, h2]⟩
  exact key _ _ (Inv.start hq d tr)

/-- Steps left, at most. -/
def stepsLeft : Phase → Nat
  | .called => 5
  | .waiting _ _ todo _ => todo.length + 1
  | .returned _ => 0

theorem advance_less (E : Env) (D : Device σ) (g : Args) (s : σ) (ph : Phase) (w : World) {ph' s' w'}
    (h : advance E D g s ph w = .ok ((ph', s'), w')) : stepsLeft ph' ≤ stepsLeft ph - 1 := by
  cases ph with
  | called =>
    unfold advance at h
    simp only [M.bind_run] at h
    split at h
    · cases h
    · rename_i a w1 _
      obtain ⟨r, t⟩ := a
      by_cases hf : r.status = .kFailure
      · simp only [if_pos hf] at h
        cases h
        exact Nat.zero_le _
      · simp only [if_neg hf] at h
        by_cases hl : r.alloc_len.toNat > g.data_len.toNat
        · simp only [if_pos hl] at h
          cases h
          exact Nat.zero_le _
        · simp only [if_neg hl] at h
          cases h
          have hl : t.GetNvmeWrappers.length ≤ 3 := by
            unfold Translation.GetNvmeWrappers
            rw [List.length_take]
            simp only [Arr3.toList, List.length_cons, List.length_nil]
            omega
          simp only [stepsLeft]
          omega
  | waiting r t todo cs =>
    cases todo with
    | cons wr todo =>
      cases h
      simp only [stepsLeft, List.length_cons]
      omega
    | nil =>
      unfold advance at h
      simp only [M.bind_run] at h
      split at h
      · cases h
      · rename_i a w1 _
        obtain ⟨c, t2⟩ := a
        by_cases hf : c.status = .kFailure
        · simp only [if_pos hf] at h
          cases h
          exact Nat.zero_le _
        · simp only [if_neg hf] at h
          cases h
          exact Nat.zero_le _
  | returned r =>
    cases h
    exact Nat.zero_le _

/-- **C96 (progress).** A call which was given five turns has returned, whatever the other calls did. -/
theorem C96_wait_free [DecidableEq ι] (E : Env) (D : Device σ) (q : ι → Request) (s : σ) (m : Mem) (tr : List Event)
    (sched : List ι) (y : Sys ι σ) (h : (Sys.start s m tr).run E D q sched = .ok y) (i : ι) (hi : 5 ≤ sched.count i) :
    ∃ r, y.phase i = .returned r := by
  have key : ∀ (sched : List ι) (x : Sys ι σ), x.run E D q sched = .ok y → stepsLeft (y.phase i) ≤ stepsLeft (x.phase i) - sched.count i := by
    intro sched
    induction sched with
    | nil =>
      intro x hx
      cases hx
      simp
    | cons j js ih =>
      intro x hx
      unfold Sys.run at hx
      split at hx
      · cases hx
      · rename_i x1 e
        have h1 := ih x1 hx
        unfold Sys.step at e
        split at e
        · cases e
        · rename_i ph s' w' ha
          cases e
          have h2 := advance_less E D _ _ _ _ ha
          by_cases hij : i = j
          · subst hij
            simp only [if_true] at h1
            rw [List.count_cons_self]
            omega
          · simp only [if_neg hij] at h1
            rw [List.count_cons_of_ne (fun e => hij e.symm)]
            exact h1
  have := key sched _ h
  have h0 : stepsLeft (y.phase i) = 0 := by
    have : stepsLeft ((Sys.start s m tr : Sys ι σ).phase i) = 5 := rfl
    omega
  cases hp : y.phase i with
  | called => rw [hp] at h0; cases h0
  | waiting r t todo cs => rw [hp] at h0; cases h0
  | returned r => exact ⟨r, rfl⟩

/-! ## Consequences -/

theorem Sequential.split {cap : Nat → Nat} {q : ι → Request} {resp : ι → ScsiToNvmeResponse} {m : Mem} {d d' : Disk} {A B : List ι}
    (h : Sequential cap q resp m d (A ++ B) d') : ∃ d1, Sequential cap q resp m d A d1 ∧ Sequential cap q resp m d1 B d' := by
  unfold Sequential at h ⊢
  rw [List.map_append] at h
  obtain ⟨rs1, rs2, d1, e, h1, h2⟩ := h.append
  rw [List.map_append] at e
  have hl : (A.map fun i => (resp i, m)).length = rs1.length := by
    rw [h1.length]; simp
  obtain ⟨e1, e2⟩ := List.append_inj e hl
  rw [e1, e2]
  exact ⟨d1, h1, h2⟩

/-- A WRITE that has returned is on the disk, if no other call writes the same blocks. -/
theorem Sequential.written {cap : Nat → Nat} {q : ι → Request} {resp : ι → ScsiToNvmeResponse} {m : Mem} {d d' : Disk}
    {A B : List ι} {W : ι} (h : Sequential cap q resp m d (A ++ W :: B) d') (lba n : Nat)
    (hW : isWrite (byte (q W).cdb 0)) (hWa : (q W).asks (cap (q W).lun.toNat) lba n)
    (hB : ∀ j ∈ B, Request.sparing (q j) cap (q W).lun.toNat lba n) :
    (resp W).return_code = 0 ∧
      (q W).mem.read (q W).data (4096 * n) = some (d'.read (q W).lun.toNat (4096 * lba) (4096 * n)) := by
  obtain ⟨d1, -, h2⟩ := Sequential.split h
  unfold Sequential at h2
  rw [List.map_cons, List.map_cons] at h2
  cases h2 with
  | cons hw hb =>
    cases hw with
    | other op => exact absurd hW op.2
    | rw _ hw =>
      cases hw with
      | read op => exact absurd hW fun h => read_not_write op h
      | failed h => exact absurd hWa (h lba n)
      | @write lbaW nW bs op hwa good data =>
        obtain ⟨rfl, rfl⟩ := asks_unique hWa hwa
        refine ⟨good, ?_⟩
        rw [hb.keeps (q W).lun.toNat lbaW nW (by
          intro x hx
          obtain ⟨j, hj, rfl⟩ := List.mem_map.mp hx
          exact hB j hj)]
        have hlen := read_length data
        rw [data, ← hlen, Disk.read_write_self]

/-- **C97 (durability).** At any moment, in any interleaving: if a correct WRITE has returned then it returned GOOD, and if no
other call writes the blocks then they hold its data. -/
theorem C97_durable [DecidableEq ι] (cap : Nat → Nat) (ident feature) (E : Env) (D : Device Disk) (hg : GoodAllocator E)
    (hS : Storage D cap) (hC : Controller D ident feature) (hT : tidy D) (q : ι → Request) (m : Mem) (hq : Separate q m)
    (d : Disk) (tr : List Event) (sched : List ι) (y : Sys ι Disk) (h : (Sys.start d m tr).run E D q sched = .ok y)
    (W : ι) (r : ScsiToNvmeResponse) (hr : y.phase W = .returned r) (lba n : Nat) (hW : isWrite (byte (q W).cdb 0))
    (hWa : (q W).asks (cap ((q W).lun.toNat + 1)) lba n)
    (ho : ∀ j, j ≠ W → Request.sparing (q j) (fun l => cap (l + 1)) (q W).lun.toNat lba n) :
    r.return_code = 0 ∧
      m.read (q W).data (4096 * n) = some (Disk.read y.dev ((q W).lun.toNat + 1) (4096 * lba) (4096 * n)) := by
  obtain ⟨L1, L2, resp, hc, -, hs, -⟩ := C96_linearizable cap ident feature E D hg hS hC hT q m hq d tr sched [] y y h
    (by rw [List.append_nil]; exact h)
  obtain ⟨hin, hresp⟩ := hc.returned W r hr
  obtain ⟨A, B, rfl⟩ := List.append_of_mem hin
  have hnd := hc.once
  have h1 := Sequential.written hs lba n hW hWa fun j hj => ho j fun e => by
    subst e
    rw [List.nodup_append] at hnd
    exact (List.nodup_cons.mp hnd.2.1).1 hj
  rw [hresp, hq.mem W] at h1
  exact h1

/-- **C97 (atomicity).** At any moment, in any interleaving - in particular if the machine stops there: a correct WRITE whose
blocks no other call writes has been carried out entirely or not at all. -/
theorem C97_atomic [DecidableEq ι] (cap : Nat → Nat) (ident feature) (E : Env) (D : Device Disk) (hg : GoodAllocator E)
    (hS : Storage D cap) (hC : Controller D ident feature) (hT : tidy D) (q : ι → Request) (m : Mem) (hq : Separate q m)
    (d : Disk) (tr : List Event) (sched : List ι) (y : Sys ι Disk) (h : (Sys.start d m tr).run E D q sched = .ok y)
    (W : ι) (lba n : Nat) (hW : isWrite (byte (q W).cdb 0)) (hWa : (q W).asks (cap ((q W).lun.toNat + 1)) lba n)
    (ho : ∀ j, j ≠ W → Request.sparing (q j) (fun l => cap (l + 1)) (q W).lun.toNat lba n) :
    Disk.read y.dev ((q W).lun.toNat + 1) (4096 * lba) (4096 * n) = Disk.read d ((q W).lun.toNat + 1) (4096 * lba) (4096 * n) ∨
      m.read (q W).data (4096 * n) = some (Disk.read y.dev ((q W).lun.toNat + 1) (4096 * lba) (4096 * n)) := by
  obtain ⟨L1, L2, resp, hc, -, hs, -⟩ := C96_linearizable cap ident feature E D hg hS hC hT q m hq d tr sched [] y y h
    (by rw [List.append_nil]; exact h)
  by_cases hin : W ∈ L1
  · obtain ⟨A, B, rfl⟩ := List.append_of_mem hin
    have hnd := hc.once
    have h1 := Sequential.written hs lba n hW hWa fun j hj => ho j fun e => by
      subst e
      rw [List.nodup_append] at hnd
      exact (List.nodup_cons.mp hnd.2.1).1 hj
    rw [hq.mem W] at h1
    exact .inr h1.2
  · left
    exact TreatedAll.keeps hs (q W).lun.toNat lba n (by
      intro x hx
      obtain ⟨j, hj, rfl⟩ := List.mem_map.mp hx
      exact ho j fun e => hin (e ▸ hj))

/-- **C97 (untouched blocks).** At any moment, in any interleaving: blocks no call writes are as before. -/
theorem C97_untouched [DecidableEq ι] (cap : Nat → Nat) (ident feature) (E : Env) (D : Device Disk) (hg : GoodAllocator E)
    (hS : Storage D cap) (hC : Controller D ident feature) (hT : tidy D) (q : ι → Request) (m : Mem) (hq : Separate q m)
    (d : Disk) (tr : List Event) (sched : List ι) (y : Sys ι Disk) (h : (Sys.start d m tr).run E D q sched = .ok y)
    (lun lba n : Nat) (ho : ∀ j, Request.sparing (q j) (fun l => cap (l + 1)) lun lba n) :
    Disk.read y.dev (lun + 1) (4096 * lba) (4096 * n) = Disk.read d (lun + 1) (4096 * lba) (4096 * n) := by
  obtain ⟨L1, L2, resp, hc, -, hs, -⟩ := C96_linearizable cap ident feature E D hg hS hC hT q m hq d tr sched [] y y h
    (by rw [List.append_nil]; exact h)
  exact TreatedAll.keeps hs lun lba n (by
    intro x hx
    obtain ⟨j, hj, rfl⟩ := List.mem_map.mp hx
    exact ho j)

/-- **C97 (the last write is read).** Let a correct WRITE have returned at some moment at which a correct READ of the same blocks
had not begun; let no other call write the blocks.  When the READ has returned, its data buffer holds what the WRITE wrote,
whatever else went on before, between and meanwhile. -/
theorem C97_read_after_write [DecidableEq ι] (cap : Nat → Nat) (ident feature) (E : Env) (D : Device Disk) (hg : GoodAllocator E)
    (hS : Storage D cap) (hC : Controller D ident feature) (hT : tidy D) (q : ι → Request) (m : Mem) (hq : Separate q m)
    (d : Disk) (tr : List Event) (sched₁ sched₂ : List ι) (y₁ y₂ : Sys ι Disk)
    (h₁ : (Sys.start d m tr).run E D q sched₁ = .ok y₁) (h₂ : (Sys.start d m tr).run E D q (sched₁ ++ sched₂) = .ok y₂)
    (W R : ι) (rW rR : ScsiToNvmeResponse) (hWr : y₁.phase W = .returned rW) (hRc : y₁.phase R = .called)
    (hRr : y₂.phase R = .returned rR) (lba n : Nat)
    (hW : isWrite (byte (q W).cdb 0)) (hWa : (q W).asks (cap ((q W).lun.toNat + 1)) lba n)
    (hR : isRead (byte (q R).cdb 0)) (hRa : (q R).asks (cap ((q W).lun.toNat + 1)) lba n) (hlun : (q R).lun = (q W).lun)
    (ho : ∀ j, j ≠ W → Request.sparing (q j) (fun l => cap (l + 1)) (q W).lun.toNat lba n) :
    rW.return_code = 0 ∧ rR.return_code = 0 ∧ rR.alloc_len = 4096 * n ∧
      ∃ bs, m.read (q W).data (4096 * n) = some bs ∧ y₂.world.mem.read (q R).data (4096 * n) = some bs := by
  obtain ⟨L1, L2, resp, c1, c2, -, hs⟩ := C96_linearizable cap ident feature E D hg hS hC hT q m hq d tr sched₁ sched₂ y₁ y₂ h₁ h₂
  obtain ⟨hinW, hrespW⟩ := c1.returned W rW hWr
  obtain ⟨hinR, hrespR⟩ := c2.returned R rR hRr
  have hinR2 : R ∈ L2 := by
    rcases List.mem_append.mp hinR with h | h
    · exact absurd hRc (c1.begun R h)
    · exact h
  obtain ⟨A, B, rfl⟩ := List.append_of_mem hinW
  obtain ⟨C, Z, rfl⟩ := List.append_of_mem hinR2
  have hnd := c2.once
  rw [show (A ++ W :: B) ++ (C ++ R :: Z) = (A ++ W :: (B ++ C)) ++ (R :: Z) by simp] at hs hnd
  obtain ⟨d2, h3, h4⟩ := Sequential.split hs
  have h5 := Sequential.written h3 lba n hW hWa fun j hj => ho j fun e => by
    subst e
    rw [List.nodup_append] at hnd
    have := hnd.1
    rw [List.nodup_append] at this
    exact (List.nodup_cons.mp this.2.1).1 hj
  unfold Sequential at h4
  rw [List.map_cons, List.map_cons] at h4
  cases h4 with
  | cons hr hz =>
    cases hr with
    | other op => exact absurd hR op.1
    | rw _ hr =>
      cases hr with
      | write op => exact absurd op fun h => read_not_write hR h
      | failed h => rw [hlun] at h; exact absurd hRa (h _ _)
      | @read lbaR nR opR hra good len data =>
        rw [hlun] at hra data
        obtain ⟨rfl, rfl⟩ := asks_unique hRa hra
        rw [hrespW, hq.mem W] at h5
        rw [hrespR] at good len
        exact ⟨h5.1, good, len, _, h5.2, data⟩

/-! ## Three calls -/

/-- WRITE(10) of blocks 9 and 10, READ(16) of the same blocks, INQUIRY. -/
def demoBlocks : Fin 3 → List Byte
  | 0 => [0x2a, 0, 0, 0, 0, 9, 0, 0, 2, 0]
  | 1 => [0x88, 0, 0, 0, 0, 0, 0, 0, 0, 9, 0, 0, 0, 2, 0, 0]
  | 2 => Demo.inquiry

/-- 64 KiB for each call, beginning with the command block. -/
def demoShared : Mem := fun a =>
  if a < 0x10000 then none
  else if h : a / 0x10000 - 1 < 3 then some ((demoBlocks ⟨a / 0x10000 - 1, h⟩).getD (a % 0x10000) (BitVec.ofNat 8 (a / 7)))
  else none

/-- The three calls, for LUN 3. -/
def demoCalls (i : Fin 3) : Request :=
  { mem := demoShared, ws := Demo.ws, ptr := 0x10000 * (i.val + 1), cdb := demoBlocks i, lun := 3, sense := 0x10000 * (i.val + 1) + 0x400,
    senseLen := 32, data := 0x10000 * (i.val + 1) + 0x8000, dataLen := 8192, isIn := true }

theorem demoBlocks_length (i : Fin 3) : (demoBlocks i).length ≤ 16 := by revert i; decide

theorem demoShared_slot (i : Fin 3) (k : Nat) (hk : k < 0x10000) :
    demoShared (0x10000 * (i.val + 1) + k) = some ((demoBlocks i).getD k (BitVec.ofNat 8 ((0x10000 * (i.val + 1) + k) / 7))) := by
  have hi := i.isLt
  have e1 : (0x10000 * (i.val + 1) + k) / 0x10000 - 1 = i.val := by omega
  have e2 : (0x10000 * (i.val + 1) + k) % 0x10000 = k := by omega
  unfold demoShared
  rw [if_neg (by omega), dif_pos (by omega), e2]
  simp only [e1]

theorem demoShared_some (i : Fin 3) (a : Nat) (h1 : 0x10000 * (i.val + 1) ≤ a) (h2 : a < 0x10000 * (i.val + 2)) : (demoShared a).isSome := by
  have := demoShared_slot i (a - 0x10000 * (i.val + 1)) (by omega)
  rw [show 0x10000 * (i.val + 1) + (a - 0x10000 * (i.val + 1)) = a by omega] at this
  rw [this]; rfl

theorem demoCalls_uses {i : Fin 3} {a : Nat} (h : (demoCalls i).uses a) : 0x10000 * (i.val + 1) ≤ a ∧ a < 0x10000 * (i.val + 2) := by
  have hl := demoBlocks_length i
  rcases h with h | h | h
  · change inRange (0x10000 * (i.val + 1)) (demoBlocks i).length a at h
    unfold inRange at h; omega
  · change inRange (0x10000 * (i.val + 1) + 0x400) 32 a at h
    unfold inRange at h; omega
  · change inRange (0x10000 * (i.val + 1) + 0x8000) 8192 a at h
    unfold inRange at h; omega

theorem demoCalls_stored (i : Fin 3) : demoShared.read (demoCalls i).ptr (demoCalls i).cdb.length = some (demoCalls i).cdb := by
  refine read_eq_some.mpr ⟨rfl, fun k hk => ?_⟩
  have hl := demoBlocks_length i
  have hk : k < (demoBlocks i).length := hk
  refine (demoShared_slot i k (by omega)).trans ?_
  change _ = (demoBlocks i)[k]?
  rw [List.getD_eq_getElem?_getD, List.getElem?_eq_getElem hk]
  rfl

theorem demoCalls_acc (i : Fin 3) (off len : Nat) (h : off + len < 0x10000) : accessible demoShared ⟨0x10000 * (i.val + 1) + off, len⟩ := by
  intro k hk
  have hk : k < len := hk
  exact demoShared_some i _ (show _ ≤ 0x10000 * (i.val + 1) + off + k by omega) (show 0x10000 * (i.val + 1) + off + k < _ by omega)

theorem demoCalls_blocks (i : Fin 3) : byte (demoBlocks i) 0 ≠ 0x42 ∧ (byte (demoBlocks i) 0 ≠ 0x1a ∧ byte (demoBlocks i) 0 ≠ 0x5a) ∧
    (isWrite (byte (demoBlocks i) 0) → ∀ rw, decodeRw (demoBlocks i) = some rw → rw.blocks ≤ 2) := by
  refine ⟨by revert i; decide, by revert i; decide, ?_⟩
  intro hw rw_ h
  have key : ∀ o : Option Rw, (o = none ∨ o = some ⟨9, 2, some 0, false⟩) → o = some rw_ → rw_.blocks ≤ 2 := by
    rintro o (rfl | rfl) h
    · cases h
    · cases h; decide
  refine key _ ?_ h
  match i with
  | 0 => exact .inr (by decide +kernel)
  | 1 => exact .inr (by decide +kernel)
  | 2 => exact absurd hw (by decide)

theorem demoCalls_separate : Separate demoCalls demoShared where
  mem := fun _ => rfl
  sound := fun i => ⟨demoCalls_acc i 0x400 32 (by decide), demoCalls_acc i 0x8000 8192 (by decide)⟩
  apart := by
    intro i j hij a h1 h2
    have h1 := demoCalls_uses h1
    have h2 := demoCalls_uses h2
    exact hij (Fin.ext (by omega))
  fair := by
    intro i
    have hi := i.isLt
    have hl := demoBlocks_length i
    refine ⟨demoCalls_stored i, by change (demoBlocks i).length < _; omega, fun h => absurd h (demoCalls_blocks i).1, fun hop => ?_⟩
    refine ⟨demoCalls_stored i, by change (demoBlocks i).length < _; omega, hop, demoCalls_acc i 0x400 32 (by decide),
      demoCalls_acc i 0x8000 8192 (by decide), ?_, ?_, by change 3 + 1 < 2 ^ 32; decide, ?_⟩
    · change 0x10000 * (i.val + 1) + 0x8000 + 8192 ≤ 2 ^ 64
      omega
    · intro a h1 h2
      change inRange (0x10000 * (i.val + 1)) (demoBlocks i).length a at h1
      change inRange (0x10000 * (i.val + 1) + 0x8000) 8192 a at h2
      unfold inRange at h1 h2
      omega
    · intro hw rw_ h
      have := (demoCalls_blocks i).2.2 hw rw_ h
      change _ ≤ 8192
      omega

theorem run_unscheduled [DecidableEq ι] (E : Env) (D : Device σ) (q : ι → Request) (i : ι) (sched : List ι) (x y : Sys ι σ)
    (h : x.run E D q sched = .ok y) (hi : i ∉ sched) : y.phase i = x.phase i := by
  induction sched generalizing x with
  | nil => cases h; rfl
  | cons j js ih =>
    unfold Sys.run at h
    split at h
    · cases h
    · rename_i x1 e
      rw [ih x1 h fun hc => hi (List.mem_cons_of_mem _ hc)]
      unfold Sys.step at e
      split at e
      · cases e
      · cases e
        exact if_neg fun e => hi (by simp [e])

/-- The WRITE, interleaved with the INQUIRY, and then the READ: the hypotheses of all theorems are met, and the READ returns
what the WRITE wrote. -/
example (cap : Nat → Nat) (hcap : 100 ≤ cap 4) (ident : Nat → Nat → List Byte) (feature : Nat → Nat → Nat → Nat)
    (hs : ∀ n c, (ident n c).length = 4096) (d : Disk) :
    ∃ y rW rR, (Sys.start d demoShared []).run boundedEnv (demoTarget cap ident feature) demoCalls
        ([0, 2, 0, 2, 2, 0, 2, 0, 0] ++ [1, 2, 1, 1, 1, 1]) = .ok y ∧
      y.phase 0 = .returned rW ∧ y.phase 1 = .returned rR ∧ rW.return_code = 0 ∧ rR.return_code = 0 ∧
      y.world.mem.read 0x28000 8192 = demoShared.read 0x18000 8192 ∧
      demoShared.read 0x18000 8192 = some (Disk.read y.dev 4 (4096 * 9) 8192) := by
  have hS := demoTarget_storage cap ident feature
  have hC := demoTarget_controller cap ident feature hs
  have hT := demoTarget_tidy cap ident feature
  have hop : ∀ i page, steady (demoCalls i).cdb page := fun i => steady_of (demoCalls_blocks i).2.1
  obtain ⟨y1, h1⟩ := C96_defined cap ident feature boundedEnv _ boundedEnv_good hS hC hT demoCalls demoShared demoCalls_separate hop d []
    [0, 2, 0, 2, 2, 0, 2, 0, 0]
  obtain ⟨y2, h2⟩ := C96_defined cap ident feature boundedEnv _ boundedEnv_good hS hC hT demoCalls demoShared demoCalls_separate hop d []
    ([0, 2, 0, 2, 2, 0, 2, 0, 0] ++ [1, 2, 1, 1, 1, 1])
  obtain ⟨rW, p1⟩ := C96_wait_free _ _ _ _ _ _ _ _ h1 0 (by decide)
  obtain ⟨rR, p2⟩ := C96_wait_free _ _ _ _ _ _ _ _ h2 1 (by decide)
  obtain ⟨rW', p3⟩ := C96_wait_free _ _ _ _ _ _ _ _ h2 0 (by decide)
  have hc : y1.phase 1 = .called := run_unscheduled _ _ _ 1 _ _ _ h1 (by decide)
  have aW : (demoCalls 0).asks (cap 4) 9 2 :=
    ⟨⟨9, 2, some 0, false⟩, by decide +kernel, by intro c h; cases h; decide, rfl, rfl, by decide, (by decide : 4096 * 2 ≤ (8192 : U16).toNat), by omega⟩
  have aR : (demoCalls 1).asks (cap 4) 9 2 :=
    ⟨⟨9, 2, some 0, false⟩, by decide +kernel, by intro c h; cases h; decide, rfl, rfl, by decide, (by decide : 4096 * 2 ≤ (8192 : U16).toNat), by omega⟩
  have ho : ∀ j : Fin 3, j ≠ 0 → Request.sparing (demoCalls j) (fun l => cap (l + 1)) (demoCalls 0).lun.toNat 9 2 := by
    intro j hj hw
    match j with
    | 0 => exact absurd rfl hj
    | 1 => exact absurd hw (by decide)
    | 2 => exact absurd hw (by decide)
  obtain ⟨g1, g2, -, bs, e1, e2⟩ := C97_read_after_write cap ident feature boundedEnv _ boundedEnv_good hS hC hT demoCalls demoShared
    demoCalls_separate d [] _ _ y1 y2 h1 h2 0 1 rW rR p1 hc p2 9 2 (by decide) aW (by decide) aR rfl ho
  obtain ⟨g3, e3⟩ := C97_durable cap ident feature boundedEnv _ boundedEnv_good hS hC hT demoCalls demoShared
    demoCalls_separate d [] _ y2 h2 0 rW' p3 9 2 (by decide) aW ho
  exact ⟨y2, rW', rR, h2, p3, p2, g3, g2, e2.trans e1.symm, e3⟩

end Scsi2Nvme
