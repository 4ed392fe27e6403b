import Verif.Properties.UnmapBegin
import Verif.Properties.Safety2
import Verif.Spec.Reply
import Verif.Proofs.Demos
/-!
# The pages of the Identify commands exist after `Begin`
-/

namespace Scsi2Nvme
open Spec

theorem set_accessible {E : Env} (hg : GoodAllocator E) {w : World} (h : setA E w ≠ 0) :
    accessible (setW E w).mem ⟨(setA E w).toNat, 4096⟩ := by
  rcases set_good hg w with ⟨h0, -⟩ | ⟨-, -, h1, -⟩
  · exact absurd h0 h
  · intro i hi
    have hi' : i < 4096 := hi
    exact (h1 _ ⟨Nat.le_add_right _ _, Nat.add_lt_add_left hi' _⟩).2

theorem identify_accessible {m : Mem} {n c : U32} {a : U64} (h : accessible m ⟨a.toNat, 4096⟩) :
    accessible m ⟨leAt (identifyWr n c a).cmd.toBytes 24 8, 4096⟩ := by
  rw [prp1_bytes]
  exact h

/-- With a well-behaved allocator the pages of all Identify commands handed out are accessible after `Begin`. -/
theorem granted_pages {E t w ptr cdb buf lun r t1 w1} (h : Began E t w ptr cdb buf lun r t1 w1) (hg : GoodAllocator E)
    (hop : byte cdb 0 ≠ 0x42) : pagesAccessible t1 w1.mem := by
  by_cases ha : Accepted t1
  case neg =>
    intro wr hwr
    rw [h.rejected ha] at hwr
    cases hwr
  have hne : cdb ≠ [] := (began_span h ha).1
  have one : ∀ {wr : NvmeCmdWrapper}, t1.GetNvmeWrappers = [wr] →
      (byte wr.cmd.toBytes 0 = 0x06 → accessible w1.mem ⟨leAt wr.cmd.toBytes 24 8, 4096⟩) → pagesAccessible t1 w1.mem := by
    intro wr h1 h2 x hx
    rw [h1] at hx
    simp only [List.mem_cons, List.not_mem_nil, or_false] at hx
    rw [hx]; exact h2
  have other : ∀ {b : List Byte} {P : Prop} {op n p x y z : Nat}, b = sqe op n p x y z → op < 256 → op ≠ 6 → (byte b 0 = 6 → P) := by
    intro b P op n p x y z e h1 h2 h3
    rw [e, byte0_sqe _ _ _ _ _ _ h1] at h3
    exact absurd h3 h2
  rcases opcode_cases (byte cdb 0) with ho | ho | ho | ho | ho | ho | ho | ho | ho | ho | ho | ho | ho | ho
  · have e := h.ends hne (by rw [switch_unknown E cdb buf _ _ ho]; rfl)
    exact absurd (e.acc.mp ha) (by simp)
  · obtain ⟨rw_, pract, prchk, wr, -, -, hc, hb, had, -⟩ := C18_read E t w ptr cdb buf lun r t1 w1 h ho ha
    exact one hc (other hb (by decide) (by decide))
  · obtain ⟨rw_, pract, prchk, wr, -, -, -, hc, hb, had, -⟩ := C21_write_all E t w ptr cdb buf lun r t1 w1 h ho ha
    refine one hc ?_
    split at hb
    · exact other hb (by decide) (by decide)
    · exact other hb (by decide) (by decide)
  · have e := h.ends hne (by rw [switch_tur E cdb buf _ _ ho]; rfl)
    intro wr hwr
    rw [e.cmds rfl] at hwr
    simp only [h.count0, List.take_zero] at hwr
    cases hwr
  · intro wr hwr
    have e := h.ends hne (by rw [switch_requestsense E cdb buf _ _ ho, rs_closed]; rfl)
    rw [e.cmds (e.acc.mp ha)] at hwr
    have : (if cdb.length < 6 ∨ Spec.bit cdb 5 2 = true then { startPipe t with status := .kInvalidInput }
        else { startPipe t with status := .kSuccess, alloc_len := BitVec.ofNat 32 (byte cdb 4) }).count = 0 := by
      split <;> exact h.count0
    rw [this] at hwr
    cases hwr
  · obtain ⟨wr0, wr1, hc, h0, h1, -⟩ := C33_inquiry_pages E t w ptr cdb buf lun r t1 w1 h hg ho ha
    intro wr hwr _
    rw [hc] at hwr
    simp only [List.mem_cons, List.not_mem_nil, or_false] at hwr
    rcases hwr with rfl | rfl
    · rw [prp1_bytes]; exact fun i hi => (h0 _ ⟨Nat.le_add_right _ _, by simp only at hi ⊢; omega⟩).2
    · rw [prp1_bytes]; exact fun i hi => (h1 _ ⟨Nat.le_add_right _ _, by simp only at hi ⊢; omega⟩).2
  · -- MODE SENSE(6)
    obtain ⟨p, w', e, hcase⟩ := ms_cases h ho
    have hs := e.acc.mp ha
    have feat : ∀ fs : List NvmeCmdWrapper, fs.map (fun wr => (wr.cmd.toBytes, wr.is_admin)) = cachingCmds (nsidOfLun lun) cdb →
        ∀ x ∈ fs, byte x.cmd.toBytes 0 ≠ 6 := by
      intro fs hf x hx
      have : (x.cmd.toBytes, x.is_admin) ∈ fs.map (fun wr => (wr.cmd.toBytes, wr.is_admin)) := List.mem_map.mpr ⟨x, hx, rfl⟩
      rw [hf] at this
      unfold cachingCmds at this
      split at this
      · simp only [List.mem_cons, List.not_mem_nil, or_false, Prod.mk.injEq] at this
        rw [this.1]
        exact fun hh => other (P := False) rfl (by decide) (by decide) hh
      · cases this
    rcases hcase with ⟨-, hn, -⟩ | ⟨-, -, hst, hw, hcn, -⟩ | ⟨-, -, -, hn, -⟩ | ⟨-, -, hA, hst, hw, hcn, -, rfl, -⟩
    · exact absurd hs hn
    · obtain ⟨fs, f1, f2⟩ := msPage_cmds cdb lun t.nvme_wrappers 0 (by omega) (by rw [← hst]; exact hs)
      intro x hx h6
      rw [e.cmds hs, hw, hcn, f1, List.take_zero, List.nil_append] at hx
      exact absurd h6 (feat fs f2 x hx)
    · exact absurd hs hn
    · obtain ⟨fs, f1, f2⟩ := msPage_cmds cdb lun (t.nvme_wrappers.put 0 (identifyWr (nsidOf lun) 0 (setA E w))) 1 (by omega)
        (by rw [← hst]; exact hs)
      intro x hx h6
      rw [e.cmds hs, hw, hcn, f1] at hx
      rcases List.mem_append.mp hx with hx | hx
      · have hx' : x = identifyWr (nsidOf lun) 0 (setA E w) := List.mem_singleton.mp hx
        rw [hx', e.world hs]
        exact identify_accessible (set_accessible hg hA)
      · exact absurd h6 (feat fs f2 x hx)
  · obtain ⟨p, w', e, hc, hcase⟩ := rc_cases h ho
    have hs := e.acc.mp ha
    rcases hcase with ⟨-, hn, -⟩ | ⟨-, -, -, hn, -⟩ | ⟨-, -, hA, -, -, e0, rfl, -⟩
    · exact absurd hs hn
    · exact absurd hs hn
    · refine one (wr := p.ws.e0) (by rw [e.cmds hs, hc]; rfl) fun _ => ?_
      rw [e0, e.world hs]
      exact identify_accessible (set_accessible hg hA)
  · obtain ⟨-, -, wr, hc, hb, had⟩ := (C25_verify E t w ptr cdb buf lun r t1 w1 h ho).2 ha
    exact one hc (other hb (by decide) (by decide))
  · obtain ⟨-, -, -, wr, hc, hb, had⟩ := C24_sync E t w ptr cdb buf lun r t1 w1 h ho
    exact one hc (other hb (by decide) (by decide))
  · exact absurd ho hop
  · obtain ⟨-, -, -, a, wr, hc, h0, hwr, w0, rfl, rfl, -⟩ := fallthrough_luns h (Or.inr ho) ha
    exact one hc fun _ => by rw [hwr]; exact identify_accessible (set_accessible hg h0)
  · obtain ⟨p, w', e, hc, hcase⟩ := rl_api_cases h ho
    have hs := e.acc.mp ha
    rcases hcase with ⟨-, hn, -⟩ | ⟨-, -, -, hn, -⟩ | ⟨-, -, hA, -, -, e0, rfl, -⟩
    · exact absurd hs hn
    · exact absurd hs hn
    · refine one (wr := p.ws.e0) (by rw [e.cmds hs, hc]; rfl) fun _ => ?_
      rw [e0, e.world hs]
      exact identify_accessible (set_accessible hg hA)
  · obtain ⟨-, -, -, a, wr, hc, h0, hwr, w0, rfl, rfl, -⟩ := fallthrough_luns h (Or.inl ho) ha
    exact one hc fun _ => by rw [hwr]; exact identify_accessible (set_accessible hg h0)

/-- The commands whose answer is made of pages. -/
theorem first_commands {E t w ptr cdb buf lun r t1 w1} (h : Began E t w ptr cdb buf lun r t1 w1) (ha : Accepted t1)
    (hr : readsPage cdb = true) : ∃ wr l, t1.GetNvmeWrappers = wr :: l ∧ byte wr.cmd.toBytes 0 = 0x06 ∧
      (byte cdb 0 = 0x12 → ∃ wr1, l = [wr1] ∧ byte wr1.cmd.toBytes 0 = 0x06) := by
  unfold readsPage at hr
  simp only [decide_eq_true_eq] at hr
  have b6 : ∀ n c a, byte (identifySqe n c a) 0 = 6 := fun n c a => byte0_sqe _ _ _ _ _ _ (by decide)
  rcases hr with ho | ho | ho | ⟨ho, hd⟩
  · obtain ⟨-, a0, a1, w0, w1, -, -, hc, b0, b1, -⟩ := C33_inquiry E t w ptr cdb buf lun r t1 w1 h ho ha
    exact ⟨w0, [w1], hc, by rw [b0]; exact b6 _ _ _, fun _ => ⟨w1, rfl, by rw [b1]; exact b6 _ _ _⟩⟩
  · obtain ⟨-, a, wr, -, hc, hb, -⟩ := (C44_read_capacity_commands E t w ptr cdb buf lun r t1 w1 h ho).2 ha
    exact ⟨wr, [], hc, by rw [hb]; exact b6 _ _ _, fun h => by omega⟩
  · obtain ⟨-, a, wr, -, hc, hb, -⟩ := (C46_report_luns_commands E t w ptr cdb buf lun r t1 w1 h ho).2 ha
    exact ⟨wr, [], hc, by rw [hb]; exact b6 _ _ _, fun h => by omega⟩
  · obtain ⟨-, a, -, hc⟩ := (C49_mode_sense6 E t w ptr cdb buf lun r t1 w1 h ho).2.1 ha
    rw [if_pos hd] at hc
    cases hl : t1.GetNvmeWrappers with
    | nil => rw [hl] at hc; cases hc
    | cons wr l =>
      rw [hl] at hc
      simp only [List.map_cons, List.cons_append, List.cons.injEq, Prod.mk.injEq] at hc
      exact ⟨wr, l, rfl, by rw [hc.1.1]; exact b6 _ _ _, fun h => by omega⟩

theorem deallocAll_listed (E : Env) (ps : List (U64 × U16)) (w : World) :
    ∃ evs, (deallocAll E ps w).trace = evs ++ w.trace ∧ ∀ q n, Event.dealloc q n ∈ evs → (q, n) ∈ ps := by
  induction ps generalizing w with
  | nil => exact ⟨[], rfl, fun _ _ h => by cases h⟩
  | cons p ps ih =>
    obtain ⟨evs, h1, h2⟩ := ih (deallocW E p.1 p.2 w)
    have hd : deallocAll E (p :: ps) w = deallocAll E ps (deallocW E p.1 p.2 w) := rfl
    rw [hd, h1]
    cases hc : E.deallocCb with
    | none =>
      refine ⟨evs, ?_, fun q n h => List.mem_cons_of_mem _ (h2 q n h)⟩
      rw [show (deallocW E p.1 p.2 w).trace = w.trace by unfold deallocW; rw [hc]]
    | some f =>
      refine ⟨evs ++ [.dealloc p.1 p.2], ?_, fun q n h => ?_⟩
      · rw [show (deallocW E p.1 p.2 w).trace = .dealloc p.1 p.2 :: w.trace by unfold deallocW; rw [hc]]
        simp
      · rcases List.mem_append.mp h with h | h
        · exact List.mem_cons_of_mem _ (h2 q n h)
        · have := List.mem_singleton.mp h
          cases this
          exact List.mem_cons_self ..

/-- `Complete` only hands back pages. -/
theorem Complete_grows {E : Env} {t : Translation} (ht : Wf t) {w cpl bin sense r t' w'}
    (h : t.Complete E cpl bin sense w = .ok ((r, t'), w')) :
    ∃ ds, w'.trace = ds ++ w.trace ∧ ∀ e ∈ ds, ∃ a n, e = Event.dealloc a n := by
  rcases Complete_inv E t ht w cpl bin sense r t' w' h with ⟨-, -, -, rfl⟩ | ⟨-, -, wm, hw, hcase⟩
  · exact ⟨[], rfl, fun e he => by cases he⟩
  have ht : wm.trace = w.trace := by
    rcases hcase with ⟨-, -, e⟩ | ⟨-, -, -, ok, hf⟩ | ⟨-, -, s, -, -, ok, hf⟩ | ⟨-, -, -, -, bs, st, -, hf⟩
    · rw [e]
    · exact (FillSenseBuffer_framed _ _ _ _ _ _ hf).1
    · exact (FillSenseBuffer_framed _ _ _ _ _ _ hf).1
    · exact (completeSwitch_framed _ _ _ _ _ _ _ _ _ hf).1
  obtain ⟨ds, e1, e2⟩ := dealloc_trace E (livePages t.nvme_cmd_count t.allocations) wm
  exact ⟨ds, by rw [hw, ← ht]; exact e1, e2⟩

theorem Spec.Ran.hands_back (x : Ran) : ∃ ds, x.w3.trace = ds ++ x.w2.trace ∧ ∀ e ∈ ds, ∃ a n, e = Event.dealloc a n :=
  Complete_grows x.wf.1 x.call

/-- What `Complete` writes, seen by the caller: pages handed back were not accessible before `Begin`. -/
theorem wrote_plain (x : Ran) (hg : GoodAllocator x.E) {p : Nat} {bs : List Byte} (h : x.wrote p bs) (a : Nat)
    (ha : (x.w.mem a).isSome) : x.w3.mem a = x.w2.mem.put p bs a := by
  obtain ⟨evs, h1, h2⟩ := h
  refine h2 a fun q n hq => ?_
  obtain ⟨wm, hw, -, hcase⟩ := x.inv
  have ht : wm.trace = x.w2.trace := by
    rcases hcase with ⟨-, -, e⟩ | ⟨-, -, -, ok, hf⟩ | ⟨-, -, s, -, -, ok, hf⟩ | ⟨-, -, -, -, st, hf⟩
    · rw [e]
    · exact (FillSenseBuffer_framed _ _ _ _ _ _ hf).1
    · exact (FillSenseBuffer_framed _ _ _ _ _ _ hf).1
    · exact (completeSwitch_framed _ _ _ _ _ _ _ _ _ hf).1
  obtain ⟨evs', e1, e2⟩ := deallocAll_listed x.E (livePages x.t1.nvme_cmd_count x.t1.allocations) wm
  have e1' : x.w3.trace = evs' ++ x.w2.trace := by rw [hw, ← ht]; exact e1
  rw [e1'] at h1
  have := List.append_cancel_right h1
  rw [← this] at hq
  exact began_avoids hg x.began a ha _ (e2 q n hq)

end Scsi2Nvme
