import Verif.Properties.Safety
import Verif.Proofs.Vpd
/-!
# Reading back what was written; concrete runs
-/

namespace Scsi2Nvme
open Spec

/-! ## Memory of the caller is not among the pages handed back -/

/-- Only the given pages are handed back. -/
theorem deallocAll_events (E : Env) (ps : List (U64 × U16)) (w : World) :
    ∃ evs, (deallocAll E ps w).trace = evs ++ w.trace ∧ ∀ q n, Event.dealloc q n ∈ evs → (q, n) ∈ ps := by
  induction ps generalizing w with
  | nil => exact ⟨[], rfl, fun _ _ h => by cases h⟩
  | cons p ps ih =>
    change ∃ evs, (deallocAll E ps (deallocW E p.1 p.2 w)).trace = evs ++ w.trace ∧ _
    obtain ⟨evs, h1, h2⟩ := ih (deallocW E p.1 p.2 w)
    cases hd : E.deallocCb with
    | none =>
      have e : deallocW E p.1 p.2 w = w := by unfold deallocW; rw [hd]
      rw [e] at h1
      exact ⟨evs, by rw [e]; exact h1, fun q n h => List.mem_cons_of_mem _ (h2 q n h)⟩
    | some f =>
      have e : deallocW E p.1 p.2 w = { mem := f w p.1 p.2, trace := .dealloc p.1 p.2 :: w.trace } := by
        unfold deallocW; rw [hd]
      refine ⟨evs ++ [.dealloc p.1 p.2], by rw [h1, e]; simp, fun q n h => ?_⟩
      rcases List.mem_append.mp h with h | h
      · exact List.mem_cons_of_mem _ (h2 q n h)
      · simp only [List.mem_cons, Event.dealloc.injEq, List.not_mem_nil, or_false] at h
        rw [h.1, h.2]
        exact List.mem_cons_self ..

/-- The pages of a pending command avoid everything that was accessible when `Begin` was called. -/
theorem began_avoids {E t w ptr cdb buf lun r t' w'} (hg : GoodAllocator E) (h : Began E t w ptr cdb buf lun r t' w')
    (a : Nat) (ha : (w.mem a).isSome) : avoids (livePages t'.nvme_cmd_count t'.allocations) a := by
  have hi := h.idle.idle
  rcases Begin_inv _ _ hi _ _ _ _ _ _ _ h.call with ⟨-, -, h, -⟩ | ⟨-, bs, p, w1, -, -, hs, hc, he, -, h, -⟩
  · rw [h]
    simp only [hi.count]
    intro p hp
    cases hp
  · rw [h]
    unfold finishT
    split
    · exact he.avoids hg hi.clean a ha
    · intro p hp
      cases hp

/-- Reading back: in memory which was accessible to the caller when `Begin` was called, the effect of `Complete` is
exactly that the bytes `bs` are placed at `p`. -/
theorem Spec.Ran.wrote_at (x : Ran) (hg : GoodAllocator x.E) {p : Nat} {bs : List Byte} (h : x.wrote p bs) (a : Nat)
    (ha : (x.w.mem a).isSome) : x.w3.mem a = x.w2.mem.put p bs a := by
  obtain ⟨evs, h1, h2⟩ := h
  apply h2
  intro q n hq
  obtain ⟨wm, hw, -, hc⟩ := x.inv
  have ht : wm.trace = x.w2.trace := by
    rcases hc with ⟨-, -, h⟩ | ⟨-, -, -, ok, hf⟩ | ⟨-, -, s, -, -, ok, hf⟩ | ⟨-, -, -, -, st, hf⟩
    · rw [h]
    · exact (FillSenseBuffer_framed _ _ _ _ _ _ hf).1
    · exact (FillSenseBuffer_framed _ _ _ _ _ _ hf).1
    · exact (completeSwitch_framed _ _ _ _ _ _ _ _ _ hf).1
  obtain ⟨evs', h3, h4⟩ := deallocAll_events x.E (livePages x.t1.nvme_cmd_count x.t1.allocations) wm
  rw [hw] at h1
  change (deallocAll _ _ _).trace = _ at h1
  rw [h3, ht] at h1
  have : evs' = evs := List.append_cancel_right h1
  rw [this] at h4
  exact began_avoids hg x.began a ha _ (h4 q n hq)

theorem Spec.Ran.wrote_read (x : Ran) (hg : GoodAllocator x.E) {p : Nat} {bs : List Byte} (h : x.wrote p bs)
    (ha : accessible x.w.mem ⟨p, bs.length⟩) : x.w3.mem.read p bs.length = some bs := by
  rw [← read_put_self (m := x.w2.mem) (p := p) (bs := bs)]
  apply read_congr
  intro i hi
  exact x.wrote_at hg h _ (ha i hi)

/-- Byte `i` of what was written. -/
theorem Spec.Ran.wrote_get (x : Ran) (hg : GoodAllocator x.E) {p : Nat} {bs : List Byte} (h : x.wrote p bs) (i : Nat)
    (hi : i < bs.length) (ha : (x.w.mem (p + i)).isSome) : x.w3.mem (p + i) = bs[i]? := by
  rw [x.wrote_at hg h _ ha, put_inside hi]

theorem byte_of_get {bs : List Byte} {i : Nat} {b : Byte} (h : bs[i]? = some b) : byte bs i = b.toNat := by
  unfold byte
  rw [List.getD_eq_getElem?_getD, h]; rfl

namespace Demo

/-! ## The environment -/

/-- The allocator of `boundedEnv` with the given stack contents. -/
def stack (j : World → Nat → Byte) : Env := { boundedEnv with junk := j }

theorem stack_good (j : World → Nat → Byte) : GoodAllocator (stack j) := ⟨boundedEnv_good.alloc, boundedEnv_good.dealloc⟩

/-- What `SetPages(…, 1, 0)` does with unused address space. -/
theorem set_stack (j : World → Nat → Byte) (w : World) (A : Nat) (hA : 0x100000 + 0x10000 * allocs w.trace = A)
    (hb : A < 2 ^ 32) (hm : ∀ a, A ≤ a → w.mem a = none) :
    setA (stack j) w = BitVec.ofNat 64 A ∧ allocs (setW (stack j) w).trace = allocs w.trace + 2 ∧
      ∀ a, A + 4096 ≤ a → (setW (stack j) w).mem a = none := by
  have hps : (4096 : U32).toNat * (1 : U16).toNat = 4096 := by decide
  have hany : ((List.range 4096).any fun i => (w.mem (A + i)).isSome) = false := by
    rw [List.any_eq_false]
    intro i _
    rw [hm _ (by omega)]
    simp
  have h1 : allocRes (stack j) 4096 1 w = BitVec.ofNat 64 A ∧
      allocW (stack j) 4096 1 w = ⟨fun x => if A ≤ x ∧ x < A + 4096 then some 0 else w.mem x,
        .alloc 4096 1 (BitVec.ofNat 64 A) :: w.trace⟩ := by
    unfold allocRes allocW stack boundedEnv
    simp only [hps, hA, hany, Bool.false_eq_true, or_false]
    rw [if_neg (by rintro (h | h); exact absurd h (by decide); omega)]
    exact ⟨rfl, rfl⟩
  have h2 : (allocW (stack j) 4096 0 (allocW (stack j) 4096 1 w)).mem = (allocW (stack j) 4096 1 w).mem ∧
      allocs (allocW (stack j) 4096 0 (allocW (stack j) 4096 1 w)).trace = allocs w.trace + 2 := by
    rw [h1.2]
    refine ⟨alloc0_good (stack_good j) _, ?_⟩
    unfold allocW stack boundedEnv
    simp only [allocs]
  refine ⟨h1.1, h2.2, fun a ha => ?_⟩
  unfold setW
  rw [h2.1, h1.2]
  simp only
  rw [if_neg (by omega), hm a (by omega)]

theorem mem_high (cdb : List Byte) (a : Nat) (ha : 0x100000 ≤ a) (hc : cdb.length ≤ 0x300) : mem cdb [] a = none := by
  unfold mem
  rw [if_neg (by omega), if_neg (by omega), if_neg (by omega), if_neg (by omega), if_neg (by omega),
    if_neg (by simp; omega), if_neg (by omega)]

/-- The two pages the commands use. -/
theorem pages_stack (j : World → Nat → Byte) (cdb : List Byte) (hc : cdb.length ≤ 0x300) :
    setA (stack j) ⟨mem cdb [], []⟩ = 0x100000#64 ∧
      setA (stack j) (setW (stack j) ⟨mem cdb [], []⟩) = 0x120000#64 := by
  have h1 := set_stack j ⟨mem cdb [], []⟩ 0x100000 (by simp [allocs]) (by decide) fun a ha => mem_high cdb a ha hc
  exact ⟨h1.1, (set_stack j _ 0x120000 (by rw [h1.2.1]; simp [allocs]) (by decide) fun a ha => h1.2.2 a (by omega)).1⟩

/-! ## Memory -/

/-- A page beginning with the given bytes. -/
def pad (bs : List Byte) : List Byte := bs ++ zeros (4096 - bs.length)

theorem pad_length (bs : List Byte) (h : bs.length ≤ 4096) : (pad bs).length = 4096 := by
  unfold pad zeros; rw [List.length_append, List.length_replicate]; omega

theorem pad_get (bs : List Byte) (i : Nat) (h : i < 4096) (hl : bs.length ≤ 4096) : (pad bs)[i]? = some (bs.getD i 0) := by
  unfold pad zeros
  rw [List.getElem?_append]
  split
  · rename_i h'
    rw [List.getElem?_eq_getElem h', List.getD_eq_getElem?_getD, List.getElem?_eq_getElem h']; rfl
  · rename_i h'
    rw [List.getElem?_replicate, if_pos (by omega), List.getD_eq_getElem?_getD, List.getElem?_eq_none (by omega)]; rfl

theorem read_page0 (cdb p0 p1 : List Byte) (h : p0.length ≤ 4096) :
    (mem2 cdb p0 p1 : Mem).read 0x100000 4096 = some (pad p0) := by
  refine read_eq_some.mpr ⟨pad_length p0 h, fun i hi => ?_⟩
  rw [pad_get p0 i hi h]
  unfold mem2
  rw [if_neg (by omega), if_pos (by omega)]
  rw [Nat.add_sub_cancel_left]

theorem read_page1 (cdb p0 p1 : List Byte) (h : p1.length ≤ 4096) :
    (mem2 cdb p0 p1 : Mem).read 0x120000 4096 = some (pad p1) := by
  refine read_eq_some.mpr ⟨pad_length p1 h, fun i hi => ?_⟩
  rw [pad_get p1 i hi h]
  unfold mem2
  rw [if_neg (by omega), if_neg (by omega), if_neg (by omega), if_pos (by omega)]
  rw [Nat.add_sub_cancel_left]

theorem acc_page0 (cdb p0 p1 : List Byte) : accessible (mem2 cdb p0 p1) ⟨0x100000, 4096⟩ := by
  intro i hi
  have hi : i < 4096 := hi
  simp only
  unfold mem2
  rw [if_neg (by omega), if_pos (by omega)]
  rfl

theorem acc_page1 (cdb p0 p1 : List Byte) : accessible (mem2 cdb p0 p1) ⟨0x120000, 4096⟩ := by
  intro i hi
  have hi : i < 4096 := hi
  simp only
  unfold mem2
  rw [if_neg (by omega), if_neg (by omega), if_neg (by omega), if_pos (by omega)]
  rfl

theorem mem_data (cdb : List Byte) (hc : cdb.length ≤ 0x300) (a : Nat) (h1 : 0x8000 ≤ a) (h2 : a < 0x10000) :
    mem cdb [] a = some 0 := by
  unfold mem
  rw [if_neg (by omega), if_neg (by omega), if_neg (by omega), if_neg (by omega), if_neg (by omega),
    if_neg (by simp; omega), if_pos (by omega)]

theorem mem2_data (cdb p0 p1 : List Byte) (hc : cdb.length ≤ 0x300) (a : Nat) (h1 : 0x8000 ≤ a) (h2 : a < 0x10000) :
    mem2 cdb p0 p1 a = some 0 := by
  unfold mem2
  rw [if_pos (by omega)]
  exact mem_data cdb hc a h1 h2

theorem mem2_sense (cdb p0 p1 : List Byte) (hc : cdb.length ≤ 0x300) : accessible (mem2 cdb p0 p1) sense := by
  intro i hi
  have hi : i < 32 := hi
  have e : sense.ptr = 0x400 := rfl
  rw [e]
  unfold mem2 mem
  rw [if_pos (by omega), if_neg (by omega), if_neg (by omega), if_neg (by omega), if_pos (by omega)]
  rfl

theorem read_cdb (cdb : List Byte) : (mem cdb [] : Mem).read 0x100 cdb.length = some cdb := by
  refine read_eq_some.mpr ⟨rfl, fun i hi => ?_⟩
  unfold mem
  rw [if_neg (by omega), if_pos (by omega)]
  rw [Nat.add_sub_cancel_left]

theorem read_cdb2 (cdb p0 p1 : List Byte) (hc : cdb.length ≤ 0x300) :
    (mem2 cdb p0 p1 : Mem).read 0x100 cdb.length = some cdb := by
  rw [← read_cdb cdb]
  apply read_congr
  intro i hi
  unfold mem2
  rw [if_pos (by omega)]

/-! ## Runs -/

/-- `Begin` of the demo. -/
theorem demo_began (j : World → Nat → Byte) (cdb : List Byte) (hc : cdb.length ≤ 0x300) (lun : U64) :
    ∃ r t1 w1, Began (stack j) (Translation.init ws) ⟨mem cdb [], []⟩ 0x100 cdb data lun r t1 w1 := by
  obtain ⟨r, t1, w1, e⟩ := Begin_defined (stack_good j) (IdleObject_init ws).idle ⟨mem cdb [], []⟩ ⟨0x100, cdb.length⟩
    data lun (by
      intro i hi
      exact (read_isSome (m := mem cdb [])).mp (by rw [read_cdb cdb]; rfl) i hi)
    (by
      intro i hi
      have hi : i < 0x2000 := hi
      have : data.ptr = 0x8000 := rfl
      rw [this]
      simp only
      rw [mem_data cdb hc _ (by omega) (by omega)]
      rfl)
  exact ⟨r, t1, w1, IdleObject_init ws, read_cdb cdb, e⟩

/-- A command, from `Begin` to `Complete`, in the memory of the demo. -/
theorem demo_run (j : World → Nat → Byte) (cdb : List Byte) (hc : cdb.length ≤ 0x300) (lun : U64) (p0 p1 : List Byte)
    (cpl : List Nvme.GenericQueueEntryCpl) (len : Nat) (hl : len ≤ 0x8000) (P : Translation → Prop)
    (hP : ∀ r t1 w1, Began (stack j) (Translation.init ws) ⟨mem cdb [], []⟩ 0x100 cdb data lun r t1 w1 →
      P t1 ∧ pagesAccessible t1 (mem2 cdb p0 p1) ∧ Benign cdb t1 ⟨mem2 cdb p0 p1, []⟩ ⟨0x8000, len⟩) :
    ∃ x : Ran, x.E = stack j ∧ x.cdb = cdb ∧ x.lun = lun ∧ x.w = ⟨mem cdb [], []⟩ ∧ x.w2 = ⟨mem2 cdb p0 p1, []⟩ ∧
      x.cpl = cpl ∧ x.din = ⟨0x8000, len⟩ ∧ x.sense = sense ∧ P x.t1 := by
  obtain ⟨r, t1, w1, hb⟩ := demo_began j cdb hc lun
  obtain ⟨h1, h2, h3⟩ := hP r t1 w1 hb
  have hp : Pending (stack j) (Translation.init ws) ⟨mem cdb [], []⟩ 0x100 cdb data lun r t1 w1
      ⟨mem2 cdb p0 p1, []⟩ ⟨0x8000, len⟩ sense := by
    refine ⟨hb, read_cdb2 cdb p0 p1 hc, fun i hi => ?_, fun i hi => ?_, mem2_sense cdb p0 p1 hc, h2⟩
    · have hi : i < len := hi
      simp only
      rw [mem_data cdb hc _ (by omega) (by omega)]; rfl
    · have hi : i < len := hi
      simp only
      rw [mem2_data cdb p0 p1 hc _ (by omega) (by omega)]; rfl
  obtain ⟨c, t2, w3, e⟩ := C10_complete_safe_partial _ _ _ _ _ _ _ _ _ _ _ _ _ cpl (stack_good j) hp h3
  exact ⟨⟨stack j, Translation.init ws, ⟨mem cdb [], []⟩, 0x100, cdb, data, lun, r, t1, w1, hb, ⟨mem2 cdb p0 p1, []⟩,
    read_cdb2 cdb p0 p1 hc, cpl, ⟨0x8000, len⟩, sense, c, t2, w3, e⟩, rfl, rfl, rfl, rfl, rfl, rfl, rfl, rfl, h1⟩

/-- Bytes of the data buffer are readable all the time. -/
theorem demo_data {x : Ran} {cdb : List Byte} (hc : cdb.length ≤ 0x300) (hw : x.w = ⟨mem cdb [], []⟩) (a : Nat)
    (h1 : 0x8000 ≤ a) (h2 : a < 0x10000) : (x.w.mem a).isSome := by
  rw [hw]
  simp only
  rw [mem_data cdb hc a h1 h2]
  rfl

/-- An INQUIRY command block. -/
def inq (evpd page : Byte) : List Byte := [0x12, evpd, page, 0, 96, 0]

/-- An INQUIRY with the given Identify pages and data buffer size. -/
theorem inq_demo (j : World → Nat → Byte) (evpd page : Byte) (p0 p1 : List Byte) (h0 : p0.length ≤ 4096)
    (h1 : p1.length ≤ 4096) (len : Nat) (hl : len ≤ 0x8000) :
    ∃ x : Ran, x.E = stack j ∧ GoodAllocator x.E ∧ Inquired x (Spec.bit (inq evpd page) 1 0) page.toNat (pad p0) (pad p1) ∧
      x.din = ⟨0x8000, len⟩ ∧ x.lun = 1 ∧ x.w = ⟨mem (inq evpd page) [], []⟩ ∧
      x.w2 = ⟨mem2 (inq evpd page) p0 p1, []⟩ := by
  have hc : (inq evpd page).length ≤ 0x300 := by unfold inq; simp
  obtain ⟨x, e1, e2, e3, e4, e5, e6, e7, -, a, b⟩ := demo_run j (inq evpd page) hc 1 p0 p1 [cpl 0 0, cpl 0 0] len hl
    (fun t1 => Accepted t1 ∧ t1.GetNvmeWrappers = [identifyWr (nsidOf 1) 0 0x100000#64, identifyWr 0 1 0x120000#64]) (by
      intro r t1 w1 hb
      obtain ⟨p, w1', e, hcn, hcase⟩ := inquiry_cases hb rfl
      obtain ⟨q0, q1⟩ := pages_stack j (inq evpd page) hc
      rw [q1, q0] at hcase
      rcases hcase with ⟨hh, -⟩ | ⟨-, hh, -⟩ | ⟨-, -, hh, -⟩ | ⟨-, -, -, hs, -, e0, e1, -, -⟩
      · exact absurd hh (show ¬ (6 < 6) by decide)
      · exact absurd hh (by decide)
      · exact absurd hh (by decide)
      have hm : t1.GetNvmeWrappers = [identifyWr (nsidOf 1) 0 0x100000#64, identifyWr 0 1 0x120000#64] := by
        rw [e.cmds hs, hcn, take_two, e0, e1]
      refine ⟨⟨e.acc.mpr hs, hm⟩, ?_, ⟨fun hh => absurd hh (show ¬ (0x12 = 0x5a) by decide),
        fun hh => absurd hh (show ¬ (0x12 = 0x1a) by decide), fun hh => absurd hh (show ¬ (0x12 = 0x1a) by decide)⟩⟩
      intro wr hwr _
      rw [hm] at hwr
      simp only [List.mem_cons, List.not_mem_nil, or_false] at hwr
      rw [prp1_bytes]
      rcases hwr with rfl | rfl
      · exact acc_page0 _ _ _
      · exact acc_page1 _ _ _)
  refine ⟨x, e1, e1 ▸ stack_good j, ⟨by rw [e2]; rfl, by rw [e2], by rw [e2]; rfl, ⟨a, ?_, ?_⟩, ⟨identifyWr (nsidOf 1) 0 0x100000#64, ?_, ?_⟩,
    ⟨identifyWr 0 1 0x120000#64, ?_, ?_⟩⟩, e7, e3, e4, e5⟩
  · unfold Ran.answered Ran.cmds
    rw [e6, b]
    rfl
  · rw [e6]
    simp only [List.forall_mem_cons, List.not_mem_nil, false_implies, implies_true, and_true]
    decide
  · unfold Ran.cmds; rw [b]; rfl
  · rw [prp1_bytes, e5]; exact read_page0 _ _ _ h0
  · unfold Ran.cmds; rw [b]; rfl
  · rw [prp1_bytes, e5]; exact read_page1 _ _ _ h1

end Demo
end Scsi2Nvme
