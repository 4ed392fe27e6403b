import Verif.Proofs.Granted
/-!
# What the commands handed out may do to memory
-/

namespace Scsi2Nvme
open Spec

theorem fallthrough_fresh {E t w ptr cdb buf lun r t' w'} (h : Began E t w ptr cdb buf lun r t' w') (hg : GoodAllocator E)
    (hop : byte cdb 0 = 0xa3 ∨ byte cdb 0 = 0x5a) (ha : Accepted t') :
    ∃ a wr, t'.GetNvmeWrappers = [wr] ∧ wr = identifyWr 0 2 a ∧ ∀ x, inRange a.toNat 4096 x → w.mem x = none := by
  have hne : cdb ≠ [] := by rcases hop with h | h <;> exact ne_nil_of_byte h (by decide)
  obtain ⟨p, w1, hs, -⟩ := h.inv hne
  have e := h.ends hne hs
  have hst := e.acc.mp ha
  have key : ∃ p0 w0, beginReportLuns E cdb.tail p0 w0 = .ok (p, w1) ∧ (w0 = w ∨ w0 = setW E w) := by
    rcases hop with hop | hop
    · rw [switch_maintenance E cdb buf _ _ hop] at hs
      obtain ⟨st, al, e1⟩ := maint_run E cdb (startPipe t)
      rw [e1] at hs
      exact ⟨_, _, hs, .inl rfl⟩
    · rw [switch_modesense10 E cdb buf _ _ hop] at hs
      obtain ⟨p1, hp1, e1⟩ := ms10_run E cdb (nsidOf lun) (startPipe t) w h.count0 (clean_e0 h.clean)
      rw [e1] at hs
      refine ⟨_, _, hs, ?_⟩
      split
      · exact .inr rfl
      · exact .inl rfl
  obtain ⟨p0, w0, hr, hk⟩ := key
  obtain ⟨hl, hb, h0, hA, hc, hw, -, hw1, hal⟩ := rl_success E cdb p0 w0 p w1 hr hst
  refine ⟨setA E w0, p.ws.e0, by rw [e.cmds hst, hc]; rfl, by rw [hw], fun x hx => ?_⟩
  rcases set_good hg w0 with ⟨h1, -⟩ | ⟨-, -, h1, -⟩
  · exact absurd h1 hA
  · have h2 := (h1 x hx).1
    rcases hk with rfl | rfl
    · exact h2
    · rcases set_good hg w with ⟨-, h3⟩ | ⟨-, -, h3, h4⟩
      · rw [← h3]; exact h2
      · by_cases hx' : inRange (setA E w).toNat 4096 x
        · exact (h3 x hx').1
        · rw [← h4 x hx']; exact h2

/-- What a command handed out may do to memory: an Identify command points to a page which was not accessible, and only
READ commands are translated to I/O Read. -/
def Harmless (w : World) (cdb : List Byte) (wr : NvmeCmdWrapper) : Prop :=
  (byte wr.cmd.toBytes 0 = 0x06 → ∀ x, inRange (leAt wr.cmd.toBytes 24 8) 4096 x → w.mem x = none) ∧
  (byte wr.cmd.toBytes 0 = 0x02 → isRead (byte cdb 0))

theorem harmless_identify {w : World} {cdb : List Byte} {n c : U32} {a : U64}
    (h : ∀ x, inRange a.toNat 4096 x → w.mem x = none) : Harmless w cdb (identifyWr n c a) := by
  refine ⟨fun _ => by rw [prp1_bytes]; exact h, fun h2 => ?_⟩
  rw [identifyWr_op] at h2
  cases h2

theorem set_fresh {E : Env} (hg : GoodAllocator E) {w : World} (h : setA E w ≠ 0) :
    ∀ x, inRange (setA E w).toNat 4096 x → w.mem x = none := by
  rcases set_good hg w with ⟨h0, -⟩ | ⟨-, -, h1, -⟩
  · exact absurd h0 h
  · exact fun x hx => (h1 x hx).1

/-- Every command handed out, UNMAP apart. -/
theorem harmless_all {E t w ptr cdb buf lun r t1 w1} (h : Began E t w ptr cdb buf lun r t1 w1) (hg : GoodAllocator E)
    (hop : byte cdb 0 ≠ 0x42) : ∀ wr ∈ t1.GetNvmeWrappers, Harmless w cdb wr := by
  by_cases ha : Accepted t1
  case neg =>
    intro wr hwr
    rw [h.rejected ha] at hwr
    cases hwr
  have hne : cdb ≠ [] := (began_span h ha).1
  have one : ∀ {wr : NvmeCmdWrapper}, t1.GetNvmeWrappers = [wr] →
      Harmless w cdb wr → ∀ wr ∈ t1.GetNvmeWrappers, Harmless w cdb wr := by
    intro wr h1 h2 x hx
    rw [h1] at hx
    simp only [List.mem_cons, List.not_mem_nil, or_false] at hx
    rw [hx]; exact h2
  have other : ∀ {wr : NvmeCmdWrapper} {op n p x y z : Nat}, wr.cmd.toBytes = sqe op n p x y z → op < 256 → op ≠ 6 →
      (op = 2 → isRead (byte cdb 0)) → Harmless w cdb wr := by
    intro wr op n p x y z e h1 h2 h3
    have h0 : byte wr.cmd.toBytes 0 = op := by rw [e, byte0_sqe _ _ _ _ _ _ h1]
    exact ⟨fun h => absurd (h0.symm.trans h) h2, fun h => h3 (h0.symm.trans h)⟩
  rcases opcode_cases (byte cdb 0) with ho | ho | ho | ho | ho | ho | ho | ho | ho | ho | ho | ho | ho | ho
  · have e := h.ends hne (by rw [switch_unknown E cdb buf _ _ ho]; rfl)
    exact absurd (e.acc.mp ha) (by simp)
  · obtain ⟨rw_, pract, prchk, wr, -, -, hc, hb, had, -⟩ := C18_read E t w ptr cdb buf lun r t1 w1 h ho ha
    exact one hc (other hb (by decide) (by decide) fun _ => ho)
  · obtain ⟨rw_, pract, prchk, wr, -, -, -, hc, hb, had, -⟩ := C21_write_all E t w ptr cdb buf lun r t1 w1 h ho ha
    refine one hc ?_
    split at hb
    · exact other hb (by decide) (by decide) (by intro h; cases h)
    · exact other hb (by decide) (by decide) (by intro h; cases h)
  · have e := h.ends hne (by rw [switch_tur E cdb buf _ _ ho]; rfl)
    intro wr hwr
    rw [e.cmds rfl] at hwr
    simp only [h.count0, List.take_zero] at hwr
    cases hwr
  · intro wr hwr
    have e := h.ends hne (by rw [switch_requestsense E cdb buf _ _ ho, rs_closed]; rfl)
    rw [e.cmds (e.acc.mp ha)] at hwr
    have : (if cdb.length < 6 ∨ Spec.bit cdb 5 2 = true then { startPipe t with status := .kInvalidInput }
        else { startPipe t with status := .kSuccess, alloc_len := BitVec.ofNat 32 (byte cdb 4) }).count = 0 := by
      split <;> exact h.count0
    rw [this] at hwr
    cases hwr
  · obtain ⟨wr0, wr1, hc, h0, h1, -⟩ := C33_inquiry_pages E t w ptr cdb buf lun r t1 w1 h hg ho ha
    intro wr hwr
    rw [hc] at hwr
    simp only [List.mem_cons, List.not_mem_nil, or_false] at hwr
    rcases hwr with rfl | rfl
    · refine ⟨fun _ => by rw [prp1_bytes]; exact fun x hx => (h0 x hx).1, fun h2 => ?_⟩
      obtain ⟨-, a0, a1, v0, v1, -, -, hc', b0, b1, -⟩ := C33_inquiry E t w ptr cdb buf lun r t1 w1 h ho ha
      rw [hc] at hc'
      cases hc'
      rw [b0] at h2
      have := (byte0_sqe 6 _ _ _ _ _ (by decide)).symm.trans h2
      cases this
    · refine ⟨fun _ => by rw [prp1_bytes]; exact fun x hx => (h1 x hx).1, fun h2 => ?_⟩
      obtain ⟨-, a0, a1, v0, v1, -, -, hc', b0, b1, -⟩ := C33_inquiry E t w ptr cdb buf lun r t1 w1 h ho ha
      rw [hc] at hc'
      cases hc'
      rw [b1] at h2
      have := (byte0_sqe 6 _ _ _ _ _ (by decide)).symm.trans h2
      cases this
  · -- MODE SENSE(6)
    obtain ⟨p, w', e, hcase⟩ := ms_cases h ho
    have hs := e.acc.mp ha
    have feat : ∀ fs : List NvmeCmdWrapper, fs.map (fun wr => (wr.cmd.toBytes, wr.is_admin)) = cachingCmds (nsidOfLun lun) cdb →
        ∀ x ∈ fs, Harmless w cdb x := by
      intro fs hf x hx
      have : (x.cmd.toBytes, x.is_admin) ∈ fs.map (fun wr => (wr.cmd.toBytes, wr.is_admin)) := List.mem_map.mpr ⟨x, hx, rfl⟩
      rw [hf] at this
      unfold cachingCmds at this
      split at this
      · simp only [List.mem_cons, List.not_mem_nil, or_false, Prod.mk.injEq] at this
        exact other this.1 (by decide) (by decide) (by intro h; cases h)
      · cases this
    rcases hcase with ⟨-, hn, -⟩ | ⟨-, -, hst, hw, hcn, -⟩ | ⟨-, -, -, hn, -⟩ | ⟨-, -, hA, hst, hw, hcn, -, rfl, -⟩
    · exact absurd hs hn
    · obtain ⟨fs, f1, f2⟩ := msPage_cmds cdb lun t.nvme_wrappers 0 (by omega) (by rw [← hst]; exact hs)
      intro x hx
      rw [e.cmds hs, hw, hcn, f1, List.take_zero, List.nil_append] at hx
      exact feat fs f2 x hx
    · exact absurd hs hn
    · obtain ⟨fs, f1, f2⟩ := msPage_cmds cdb lun (t.nvme_wrappers.put 0 (identifyWr (nsidOf lun) 0 (setA E w))) 1 (by omega)
        (by rw [← hst]; exact hs)
      intro x hx
      rw [e.cmds hs, hw, hcn, f1] at hx
      rcases List.mem_append.mp hx with hx | hx
      · have hx' : x = identifyWr (nsidOf lun) 0 (setA E w) := List.mem_singleton.mp hx
        rw [hx']
        exact harmless_identify (set_fresh hg hA)
      · exact feat fs f2 x hx
  · obtain ⟨p, w', e, hc, hcase⟩ := rc_cases h ho
    have hs := e.acc.mp ha
    rcases hcase with ⟨-, hn, -⟩ | ⟨-, -, -, hn, -⟩ | ⟨-, -, hA, -, -, e0, rfl, -⟩
    · exact absurd hs hn
    · exact absurd hs hn
    · refine one (wr := p.ws.e0) (by rw [e.cmds hs, hc]; rfl) ?_
      rw [e0]
      exact harmless_identify (set_fresh hg hA)
  · obtain ⟨-, -, wr, hc, hb, had⟩ := (C25_verify E t w ptr cdb buf lun r t1 w1 h ho).2 ha
    exact one hc (other hb (by decide) (by decide) (by intro h; cases h))
  · obtain ⟨-, -, -, wr, hc, hb, had⟩ := C24_sync E t w ptr cdb buf lun r t1 w1 h ho
    exact one hc (other hb (by decide) (by decide) (by intro h; cases h))
  · exact absurd ho hop
  · obtain ⟨a, wr, hc, hwr, hf⟩ := fallthrough_fresh h hg (Or.inr ho) ha
    exact one hc (by rw [hwr]; exact harmless_identify hf)
  · obtain ⟨p, w', e, hc, hcase⟩ := rl_api_cases h ho
    have hs := e.acc.mp ha
    rcases hcase with ⟨-, hn, -⟩ | ⟨-, -, -, hn, -⟩ | ⟨-, -, hA, -, -, e0, rfl, -⟩
    · exact absurd hs hn
    · exact absurd hs hn
    · refine one (wr := p.ws.e0) (by rw [e.cmds hs, hc]; rfl) ?_
      rw [e0]
      exact harmless_identify (set_fresh hg hA)
  · obtain ⟨a, wr, hc, hwr, hf⟩ := fallthrough_fresh h hg (Or.inl ho) ha
    exact one hc (by rw [hwr]; exact harmless_identify hf)


end Scsi2Nvme
