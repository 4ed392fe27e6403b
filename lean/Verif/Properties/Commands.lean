import Verif.Proofs.Events
/-!
# C24-C26, C33, C49 and the other single-command translations
-/

namespace Scsi2Nvme
open Spec

/-! ## SYNCHRONIZE CACHE(10), VERIFY(10) -/

/-- **C24.** SYNCHRONIZE CACHE(10) is always accepted, whatever follows the operation code; it yields exactly
one command for the I/O queue, the NVMe Flush of the LUN's namespace with every other byte zero. -/
theorem C24_sync (E t w ptr cdb buf lun r t' w') (h : Began E t w ptr cdb buf lun r t' w')
    (hop : byte cdb 0 = 0x35) :
    Accepted t' ∧ r = ⟨.kSuccess, 0⟩ ∧ w' = w ∧ ∃ wr, t'.GetNvmeWrappers = [wr] ∧
      wr.cmd.toBytes = flushSqe (nsidOfLun lun) ∧ wr.is_admin = false := by
  have e := h.ends (ne_nil_of_byte hop (by decide)) (by rw [switch_sync E cdb buf _ _ hop]; rfl)
  refine ⟨e.acc.mpr rfl, e.resp, e.world rfl, _, e.cmds rfl, ?_, rfl⟩
  simp only
  rw [← nsidOf_toNat]
  exact toBytes_sqe 0 (nsidOf lun) 0 0 0 0

/-- **C25.** VERIFY(10) is accepted exactly if the command block is complete, the length is not zero and NACA
is 0; it then yields exactly one command for the I/O queue, the NVMe Compare with the LBA and block count of
the command block and the protection checks for BYTCHK and VRPROTECT.  (The namespace id, here 0, is C26.) -/
theorem C25_verify (E t w ptr cdb buf lun r t' w') (h : Began E t w ptr cdb buf lun r t' w')
    (hop : byte cdb 0 = 0x2f) :
    (Accepted t' ↔ 10 ≤ cdb.length ∧ beAt cdb 7 2 ≠ 0 ∧ Spec.bit cdb 9 2 = false) ∧
    (Accepted t' → r = ⟨.kSuccess, 0⟩ ∧ w' = w ∧ ∃ wr, t'.GetNvmeWrappers = [wr] ∧
      wr.cmd.toBytes = compareSqe 0 (beAt cdb 2 4) (beAt cdb 7 2)
        (verifyPrchk (byte cdb 1 / 2 % 4) (byte cdb 1 / 32)) true ∧
      wr.is_admin = false) := by
  have e := h.ends (ne_nil_of_byte hop (by decide)) (by rw [switch_verify E cdb buf _ _ hop]; rfl)
  have hv := Verify_closed cdb (startPipe t).ws.e0
  split at hv
  · rename_i hc
    obtain ⟨st, hst, hv⟩ := hv
    rw [hv] at e
    have : ¬ Accepted t' := fun ha => hst (e.acc.mp ha)
    refine ⟨⟨fun ha => absurd ha this, ?_⟩, fun ha => absurd ha this⟩
    rintro ⟨h1, h2, h3⟩
    simp [h3, h2] at hc
    omega
  · rename_i hc
    obtain ⟨wr', hv, hb, -, -, had, -⟩ := hv
    rw [hv] at e
    refine ⟨⟨fun _ => ?_, fun _ => e.acc.mpr rfl⟩, fun _ => ⟨e.resp, e.world rfl, wr', e.cmds rfl, hb, had⟩⟩
    simp only [not_or] at hc
    exact ⟨by omega, hc.2.1, by simpa using hc.2.2⟩

/-- **C26**, full statement (false, see `C26_refuted`): the command produced for VERIFY(10) carries the
namespace id of the addressed LUN. -/
def C26_statement : Prop := ∀ E t w ptr cdb buf lun r t' w', Began E t w ptr cdb buf lun r t' w' →
  byte cdb 0 = 0x2f → ∀ wr ∈ t'.GetNvmeWrappers, leAt wr.cmd.toBytes 4 4 = nsidOfLun lun

/-- VERIFY(10) of 3 blocks at block 7. -/
def verify10 : List Byte := [0x2f, 0, 0, 0, 0, 7, 0, 0, 3, 0]

/-- What happens instead: every VERIFY(10) addresses namespace 0, which is correct only for the LUNs whose
namespace id is 0, i.e. never for a LUN below FFFFFFFFh. -/
theorem C26_verify_namespace_partial (E t w ptr cdb buf lun r t' w')
    (h : Began E t w ptr cdb buf lun r t' w') (hop : byte cdb 0 = 0x2f) (wr : NvmeCmdWrapper)
    (hwr : wr ∈ t'.GetNvmeWrappers) :
    leAt wr.cmd.toBytes 4 4 = 0 := by
  have e := h.ends (ne_nil_of_byte hop (by decide)) (by rw [switch_verify E cdb buf _ _ hop]; rfl)
  have ha : Accepted t' := by
    rw [e.acc]
    apply Decidable.byContradiction
    intro hn
    rw [e.none hn] at hwr
    cases hwr
  obtain ⟨-, -, wr', hc, hb, -⟩ := (C25_verify E t w ptr cdb buf lun r t' w' h hop).2 ha
  rw [hc] at hwr
  simp only [List.mem_cons, List.not_mem_nil, or_false] at hwr
  subst hwr
  rw [hb]
  unfold compareSqe sqe leAt be le zeros
  simp [List.range, List.range.loop]

/-- C26 does not hold: VERIFY(10) on LUN 4 addresses namespace 0, not 5. -/
theorem C26_refuted : ¬ C26_statement := by
  intro hall
  obtain ⟨r, t', w', hb, hf⟩ := began_of Demo.env Demo.ws ⟨Demo.mem verify10, []⟩ 0x100 verify10
    Demo.data 4 (fun _ t' => t'.GetNvmeWrappers ≠ []) (by decide +kernel) (by decide +kernel)
  have h1 := hall _ _ _ _ _ _ _ _ _ _ hb (by decide)
  have h2 := C26_verify_namespace_partial _ _ _ _ _ _ _ _ _ _ hb (by decide)
  cases hw : t'.GetNvmeWrappers with
  | nil => exact hf hw
  | cons wr l =>
    have h1 := h1 wr (by rw [hw]; simp)
    rw [h2 wr (by rw [hw]; simp)] at h1
    revert h1
    decide

/-- The hypotheses are met, and the translated command is the expected one. -/
example : ∃ r t' w', Began Demo.env (Translation.init Demo.ws) ⟨Demo.mem verify10, []⟩ 0x100 verify10
    Demo.data 3 r t' w' ∧ Accepted t' ∧
      t'.GetNvmeWrappers.map (fun wr => wr.cmd.toBytes) = [compareSqe 0 7 3 7 true] :=
  began_of _ _ _ _ _ _ _ (fun _ t' => Accepted t' ∧ _ = _) (by decide +kernel) (by decide +kernel)

/-! ## INQUIRY -/

theorem inquiry_cases {E t w ptr cdb buf lun r t' w'} (h : Began E t w ptr cdb buf lun r t' w')
    (hop : byte cdb 0 = 0x12) : ∃ p w1, Ends E t ptr cdb p w1 r t' w' ∧ p.count = 2 ∧
    ((cdb.length < 6 ∧ p.status ≠ .kSuccess ∧ p.as = t.allocations ∧ w1 = w ∧ p.alloc_len = 0) ∨
     (6 ≤ cdb.length ∧ setA E w = 0 ∧ p.status ≠ .kSuccess ∧ p.as = { t.allocations with e0 := setAl E w } ∧
       w1 = setW E w ∧ p.alloc_len = BitVec.ofNat 32 (beAt cdb 3 2)) ∨
     (6 ≤ cdb.length ∧ setA E w ≠ 0 ∧ setA E (setW E w) = 0 ∧ p.status ≠ .kSuccess ∧
       p.as = { t.allocations with e0 := setAl E w, e1 := setAl E (setW E w) } ∧
       w1 = setW E (setW E w) ∧ p.alloc_len = BitVec.ofNat 32 (beAt cdb 3 2)) ∨
     (6 ≤ cdb.length ∧ setA E w ≠ 0 ∧ setA E (setW E w) ≠ 0 ∧ p.status = .kSuccess ∧
       p.as = { t.allocations with e0 := setAl E w, e1 := setAl E (setW E w) } ∧
       p.ws.e0 = identifyWr (nsidOf lun) 0 (setA E w) ∧ p.ws.e1 = identifyWr 0 1 (setA E (setW E w)) ∧
       w1 = setW E (setW E w) ∧ p.alloc_len = BitVec.ofNat 32 (beAt cdb 3 2))) := by
  have hne := ne_nil_of_byte hop (by decide)
  have hc := h.clean
  rcases Nat.lt_or_ge cdb.length 6 with hl | hl
  · exact ⟨_, _, h.ends hne (by rw [switch_inquiry E cdb buf _ _ hop, inquiry_short E cdb _ _ w hl]), rfl,
      Or.inl ⟨hl, by simp, rfl, rfl, rfl⟩⟩
  by_cases h0 : setA E w = 0
  · exact ⟨_, _, h.ends hne (by rw [switch_inquiry E cdb buf _ _ hop, inquiry_fail0 E cdb _ _ w hl hc h0]), rfl,
      Or.inr (Or.inl ⟨hl, h0, by simp, rfl, rfl, rfl⟩)⟩
  by_cases h1 : setA E (setW E w) = 0
  · exact ⟨_, _, h.ends hne (by rw [switch_inquiry E cdb buf _ _ hop, inquiry_fail1 E cdb _ _ w hl hc h0 h1]), rfl,
      Or.inr (Or.inr (Or.inl ⟨hl, h0, h1, by simp, rfl, rfl, rfl⟩))⟩
  · exact ⟨_, _, h.ends hne (by rw [switch_inquiry E cdb buf _ _ hop, inquiry_ok E cdb _ _ w hl hc h0 h1]), rfl,
      Or.inr (Or.inr (Or.inr ⟨hl, h0, h1, rfl, rfl, rfl, rfl, rfl, rfl⟩))⟩

/-- **C33.** INQUIRY commands: an accepted INQUIRY yields Identify Namespace (CNS 0) of the LUN's namespace
into one page and Identify Controller (CNS 1) into another page, both for the admin queue, and announces the
big endian allocation length of bytes 3-4. -/
theorem C33_inquiry (E t w ptr cdb buf lun r t' w') (h : Began E t w ptr cdb buf lun r t' w')
    (hop : byte cdb 0 = 0x12) (ha : Accepted t') :
    r.alloc_len.toNat = beAt cdb 3 2 ∧ ∃ a0 a1 w0 w1, a0 ≠ 0 ∧ a1 ≠ 0 ∧ t'.GetNvmeWrappers = [w0, w1] ∧
      w0.cmd.toBytes = identifySqe (nsidOfLun lun) 0 a0 ∧ w1.cmd.toBytes = identifySqe 0 1 a1 ∧
      w0.is_admin = true ∧ w1.is_admin = true ∧ w0.buffer_len = 4096 ∧ w1.buffer_len = 4096 := by
  obtain ⟨p, w1, e, hc, hcase⟩ := inquiry_cases h hop
  have hs := e.acc.mp ha
  rcases hcase with ⟨-, hn, -⟩ | ⟨-, -, hn, -⟩ | ⟨-, -, -, hn, -⟩ | ⟨-, h0, h1, -, -, e0, e1, -, hal⟩
  · exact absurd hs hn
  · exact absurd hs hn
  · exact absurd hs hn
  · refine ⟨?_, (setA E w).toNat, (setA E (setW E w)).toNat, p.ws.e0, p.ws.e1, ?_, ?_, ?_, ?_, ?_, ?_⟩
    · rw [e.resp, hal, BitVec.toNat_ofNat, Nat.mod_eq_of_lt]
      have := beAt_lt cdb 3 2
      omega
    · intro hh; exact h0 (BitVec.eq_of_toNat_eq hh)
    · intro hh; exact h1 (BitVec.eq_of_toNat_eq hh)
    · rw [e.cmds hs, hc]; rfl
    · rw [e0, ← nsidOf_toNat]; exact identifyCmd_toBytes _ _ _
    · rw [e1]; exact identifyCmd_toBytes _ _ _
    · rw [e0, e1]; exact ⟨rfl, rfl, rfl, rfl⟩

/-- **C33**, acceptance: INQUIRY is accepted exactly if the command block is complete and both pages were
granted. -/
theorem C33_inquiry_accepted (E t w ptr cdb buf lun r t' w') (h : Began E t w ptr cdb buf lun r t' w')
    (hop : byte cdb 0 = 0x12) :
    ∃ evs, w'.trace = evs ++ w.trace ∧ (Accepted t' ↔ 6 ≤ cdb.length ∧ pagesGranted E evs) := by
  obtain ⟨p, w1, e, hc, hcase⟩ := inquiry_cases h hop
  rw [e.worldE]
  rcases hcase with ⟨hl, hn, -, rfl, -⟩ | ⟨hl, h0, hn, -, rfl, -⟩ | ⟨hl, h0, h1, hn, -, rfl, -⟩ |
    ⟨hl, h0, h1, hs, -, -, -, rfl, -⟩
  · obtain ⟨evs, h1, h2⟩ := events_none E p w1
    exact ⟨evs, h1, fun ha => absurd (e.acc.mp ha) hn, fun hh => by omega⟩
  · obtain ⟨evs, h1, h2⟩ := events_one E p w
    exact ⟨evs, h1, fun ha => absurd (e.acc.mp ha) hn, fun hh => absurd h0 (h2.mp hh.2)⟩
  · obtain ⟨evs, h3, h2⟩ := events_two E p w
    exact ⟨evs, h3, fun ha => absurd (e.acc.mp ha) hn, fun hh => absurd h1 (h2.mp hh.2).2⟩
  · obtain ⟨evs, h3, h2⟩ := events_two E p w
    exact ⟨evs, h3, fun _ => ⟨hl, h2.mpr ⟨h0, h1⟩⟩, fun _ => e.acc.mpr hs⟩

/-- **C33**, pages: with a well-behaved allocator the two pages are disjoint, were not accessible before the
call and are accessible after it. -/
theorem C33_inquiry_pages (E t w ptr cdb buf lun r t' w') (h : Began E t w ptr cdb buf lun r t' w')
    (hg : GoodAllocator E) (hop : byte cdb 0 = 0x12) (ha : Accepted t') :
    ∃ w0 w1, t'.GetNvmeWrappers = [w0, w1] ∧
      (∀ x, inRange w0.cmd.prp1.toNat 4096 x → w.mem x = none ∧ (w'.mem x).isSome) ∧
      (∀ x, inRange w1.cmd.prp1.toNat 4096 x → w.mem x = none ∧ (w'.mem x).isSome) ∧
      (∀ x, ¬ (inRange w0.cmd.prp1.toNat 4096 x ∧ inRange w1.cmd.prp1.toNat 4096 x)) := by
  obtain ⟨p, w1, e, hc, hcase⟩ := inquiry_cases h hop
  have hs := e.acc.mp ha
  rcases hcase with ⟨-, hn, -⟩ | ⟨-, -, hn, -⟩ | ⟨-, -, -, hn, -⟩ | ⟨-, h0, h1, -, -, e0, e1, rfl, hal⟩
  · exact absurd hs hn
  · exact absurd hs hn
  · exact absurd hs hn
  · refine ⟨p.ws.e0, p.ws.e1, by rw [e.cmds hs, hc]; rfl, ?_⟩
    rw [e0, e1, e.world hs]
    change (∀ x, inRange (setA E w).toNat 4096 x → _) ∧ (∀ x, inRange (setA E (setW E w)).toNat 4096 x → _) ∧
      (∀ x, ¬ (inRange (setA E w).toNat 4096 x ∧ inRange (setA E (setW E w)).toNat 4096 x))
    rcases set_good hg w with ⟨hz, -⟩ | ⟨-, -, a1, a2⟩
    · exact absurd hz h0
    rcases set_good hg (setW E w) with ⟨hz, -⟩ | ⟨-, -, b1, b2⟩
    · exact absurd hz h1
    have hdis : ∀ x, ¬ (inRange (setA E w).toNat 4096 x ∧ inRange (setA E (setW E w)).toNat 4096 x) := by
      rintro x ⟨hx, hy⟩
      have := (a1 x hx).2
      rw [(b1 x hy).1] at this
      cases this
    refine ⟨fun x hx => ⟨(a1 x hx).1, ?_⟩, fun x hx => ⟨?_, (b1 x hx).2⟩, hdis⟩
    · rw [b2 x fun hy => hdis x ⟨hx, hy⟩]; exact (a1 x hx).2
    · rw [← a2 x fun hy => hdis x ⟨hy, hx⟩]; exact (b1 x hx).1

example : ∃ r t' w', Began Demo.env (Translation.init Demo.ws) ⟨Demo.mem Demo.inquiry, []⟩ 0x100 Demo.inquiry
    Demo.data 3 r t' w' ∧ Accepted t' ∧ r.alloc_len = 96 ∧
      t'.GetNvmeWrappers.map (fun wr => wr.cmd.toBytes)
        = [identifySqe 4 0 0x100000, identifySqe 0 1 0x120000] :=
  began_of _ _ _ _ _ _ _ (fun r t' => Accepted t' ∧ r.alloc_len = 96 ∧ _ = _)
    (by decide +kernel) (by decide +kernel)

/-! ## READ CAPACITY(10) and REPORT LUNS -/

theorem rc_cases {E t w ptr cdb buf lun r t' w'} (h : Began E t w ptr cdb buf lun r t' w')
    (hop : byte cdb 0 = 0x25) : ∃ p w1, Ends E t ptr cdb p w1 r t' w' ∧ p.count = 1 ∧
    (((cdb.length < 10 ∨ Spec.bit cdb 9 2 = true) ∧ p.status ≠ .kSuccess ∧ p.as = t.allocations ∧ w1 = w ∧
        p.alloc_len = 0) ∨
     (10 ≤ cdb.length ∧ Spec.bit cdb 9 2 = false ∧ setA E w = 0 ∧ p.status ≠ .kSuccess ∧
       p.as = { t.allocations with e0 := setAl E w } ∧ w1 = setW E w ∧ p.alloc_len = 8) ∨
     (10 ≤ cdb.length ∧ Spec.bit cdb 9 2 = false ∧ setA E w ≠ 0 ∧ p.status = .kSuccess ∧
       p.as = { t.allocations with e0 := setAl E w } ∧ p.ws.e0 = identifyWr (nsidOf lun) 0 (setA E w) ∧
       w1 = setW E w ∧ p.alloc_len = 8)) := by
  have hne := ne_nil_of_byte hop (by decide)
  have hc := clean_e0 h.clean
  rcases Nat.lt_or_ge cdb.length 10 with hl | hl
  · exact ⟨_, _, h.ends hne (by rw [switch_readcapacity E cdb buf _ _ hop, rc_short E cdb _ _ w hl]), rfl,
      Or.inl ⟨Or.inl hl, by simp, rfl, rfl, rfl⟩⟩
  by_cases hb : Spec.bit cdb 9 2 = true
  · exact ⟨_, _, h.ends hne (by rw [switch_readcapacity E cdb buf _ _ hop, rc_bad E cdb _ _ w hl hb]), rfl,
      Or.inl ⟨Or.inr hb, by simp, rfl, rfl, rfl⟩⟩
  have hb' : Spec.bit cdb 9 2 = false := by simpa using hb
  by_cases h0 : setA E w = 0
  · exact ⟨_, _, h.ends hne (by rw [switch_readcapacity E cdb buf _ _ hop, rc_fail E cdb _ _ w hl hb' hc h0]), rfl,
      Or.inr (Or.inl ⟨hl, hb', h0, by simp, rfl, rfl, rfl⟩)⟩
  · exact ⟨_, _, h.ends hne (by rw [switch_readcapacity E cdb buf _ _ hop, rc_ok E cdb _ _ w hl hb' hc h0]), rfl,
      Or.inr (Or.inr ⟨hl, hb', h0, rfl, rfl, rfl, rfl, rfl⟩)⟩

theorem rl_api_cases {E t w ptr cdb buf lun r t' w'} (h : Began E t w ptr cdb buf lun r t' w')
    (hop : byte cdb 0 = 0xa0) : ∃ p w1, Ends E t ptr cdb p w1 r t' w' ∧ p.count = 1 ∧
    (((cdb.length < 12 ∨ 2 < byte cdb 2) ∧ p.status ≠ .kSuccess ∧ p.as = t.allocations ∧ w1 = w ∧
        p.alloc_len = 0) ∨
     (12 ≤ cdb.length ∧ byte cdb 2 ≤ 2 ∧ setA E w = 0 ∧ p.status ≠ .kSuccess ∧
       p.as = { t.allocations with e0 := setAl E w } ∧ w1 = setW E w ∧
       p.alloc_len = BitVec.ofNat 32 (beAt cdb 6 4)) ∨
     (12 ≤ cdb.length ∧ byte cdb 2 ≤ 2 ∧ setA E w ≠ 0 ∧ p.status = .kSuccess ∧
       p.as = { t.allocations with e0 := setAl E w } ∧ p.ws.e0 = identifyWr 0 2 (setA E w) ∧
       w1 = setW E w ∧ p.alloc_len = BitVec.ofNat 32 (beAt cdb 6 4))) := by
  have hne := ne_nil_of_byte hop (by decide)
  have hc := clean_e0 h.clean
  rcases Nat.lt_or_ge cdb.length 12 with hl | hl
  · exact ⟨_, _, h.ends hne (by rw [switch_reportluns E cdb buf _ _ hop, rl_short E cdb _ w hl]), rfl,
      Or.inl ⟨Or.inl hl, by simp, rfl, rfl, rfl⟩⟩
  rcases Nat.lt_or_ge 2 (byte cdb 2) with hb | hb
  · exact ⟨_, _, h.ends hne (by rw [switch_reportluns E cdb buf _ _ hop, rl_bad E cdb _ w hl hb]), rfl,
      Or.inl ⟨Or.inr hb, by simp, rfl, rfl, rfl⟩⟩
  by_cases h0 : setA E w = 0
  · exact ⟨_, _, h.ends hne (by rw [switch_reportluns E cdb buf _ _ hop, rl_fail E cdb _ w hl hb hc h0]), rfl,
      Or.inr (Or.inl ⟨hl, hb, h0, by simp, rfl, rfl, rfl⟩)⟩
  · exact ⟨_, _, h.ends hne (by rw [switch_reportluns E cdb buf _ _ hop, rl_ok E cdb _ w hl hb hc h0]), rfl,
      Or.inr (Or.inr ⟨hl, hb, h0, rfl, rfl, rfl, rfl, rfl⟩)⟩

/-- READ CAPACITY(10) commands (used by C44): accepted exactly if the command block is complete, NACA is 0 and
the page was granted; it then yields Identify Namespace of the LUN's namespace. -/
theorem C44_read_capacity_commands (E t w ptr cdb buf lun r t' w') (h : Began E t w ptr cdb buf lun r t' w')
    (hop : byte cdb 0 = 0x25) :
    (∃ evs, w'.trace = evs ++ w.trace ∧
      (Accepted t' ↔ 10 ≤ cdb.length ∧ Spec.bit cdb 9 2 = false ∧ pagesGranted E evs)) ∧
    (Accepted t' → r.alloc_len = 8 ∧ ∃ a wr, a ≠ 0 ∧ t'.GetNvmeWrappers = [wr] ∧
      wr.cmd.toBytes = identifySqe (nsidOfLun lun) 0 a ∧ wr.is_admin = true ∧ wr.buffer_len = 4096) := by
  obtain ⟨p, w1, e, hc, hcase⟩ := rc_cases h hop
  rw [e.worldE]
  rcases hcase with ⟨hl, hn, -, rfl, -⟩ | ⟨hl, hb, h0, hn, -, rfl, -⟩ | ⟨hl, hb, h0, hs, -, e0, rfl, hal⟩
  · obtain ⟨evs, h1, h2⟩ := events_none E p w1
    refine ⟨⟨evs, h1, fun ha => absurd (e.acc.mp ha) hn, ?_⟩, fun ha => absurd (e.acc.mp ha) hn⟩
    rintro ⟨g1, g2, -⟩
    rw [g2] at hl
    simp at hl
    omega
  · obtain ⟨evs, h1, h2⟩ := events_one E p w
    exact ⟨⟨evs, h1, fun ha => absurd (e.acc.mp ha) hn, fun hh => absurd h0 (h2.mp hh.2.2)⟩,
      fun ha => absurd (e.acc.mp ha) hn⟩
  · obtain ⟨evs, h3, h2⟩ := events_one E p w
    refine ⟨⟨evs, h3, fun _ => ⟨hl, hb, h2.mpr h0⟩, fun _ => e.acc.mpr hs⟩, fun _ => ⟨by rw [e.resp, hal],
      (setA E w).toNat, p.ws.e0, ?_, by rw [e.cmds hs, hc]; rfl, ?_, by rw [e0]; rfl, by rw [e0]; rfl⟩⟩
    · intro hh; exact h0 (BitVec.eq_of_toNat_eq hh)
    · rw [e0, ← nsidOf_toNat]; exact identifyCmd_toBytes _ _ _

/-- REPORT LUNS commands (used by C46): accepted exactly if the command block is complete, SELECT REPORT is 0,
1 or 2 and the page was granted; it then yields Identify with CNS 2 (active namespace list). -/
theorem C46_report_luns_commands (E t w ptr cdb buf lun r t' w') (h : Began E t w ptr cdb buf lun r t' w')
    (hop : byte cdb 0 = 0xa0) :
    (∃ evs, w'.trace = evs ++ w.trace ∧
      (Accepted t' ↔ 12 ≤ cdb.length ∧ byte cdb 2 ≤ 2 ∧ pagesGranted E evs)) ∧
    (Accepted t' → r.alloc_len.toNat = beAt cdb 6 4 ∧ ∃ a wr, a ≠ 0 ∧ t'.GetNvmeWrappers = [wr] ∧
      wr.cmd.toBytes = identifySqe 0 2 a ∧ wr.is_admin = true ∧ wr.buffer_len = 4096) := by
  obtain ⟨p, w1, e, hc, hcase⟩ := rl_api_cases h hop
  rw [e.worldE]
  rcases hcase with ⟨hl, hn, -, rfl, -⟩ | ⟨hl, hb, h0, hn, -, rfl, -⟩ | ⟨hl, hb, h0, hs, -, e0, rfl, hal⟩
  · obtain ⟨evs, h1, h2⟩ := events_none E p w1
    refine ⟨⟨evs, h1, fun ha => absurd (e.acc.mp ha) hn, ?_⟩, fun ha => absurd (e.acc.mp ha) hn⟩
    rintro ⟨g1, g2, -⟩
    omega
  · obtain ⟨evs, h1, h2⟩ := events_one E p w
    exact ⟨⟨evs, h1, fun ha => absurd (e.acc.mp ha) hn, fun hh => absurd h0 (h2.mp hh.2.2)⟩,
      fun ha => absurd (e.acc.mp ha) hn⟩
  · obtain ⟨evs, h3, h2⟩ := events_one E p w
    refine ⟨⟨evs, h3, fun _ => ⟨hl, hb, h2.mpr h0⟩, fun _ => e.acc.mpr hs⟩, fun _ => ⟨?_,
      (setA E w).toNat, p.ws.e0, ?_, by rw [e.cmds hs, hc]; rfl, ?_, by rw [e0]; rfl, by rw [e0]; rfl⟩⟩
    · rw [e.resp, hal, BitVec.toNat_ofNat, Nat.mod_eq_of_lt (beAt_lt cdb 6 4)]
    · intro hh; exact h0 (BitVec.eq_of_toNat_eq hh)
    · rw [e0]; exact identifyCmd_toBytes _ _ _

/-! ## MODE SENSE(6) -/

/-- What the `switch` makes of MODE SENSE(6). -/
theorem ms_cases {E t w ptr cdb buf lun r t' w'} (h : Began E t w ptr cdb buf lun r t' w')
    (hop : byte cdb 0 = 0x1a) : ∃ p w1, Ends E t ptr cdb p w1 r t' w' ∧
    ((cdb.length < 6 ∧ p.status ≠ .kSuccess ∧ p.count = 0 ∧ p.as = t.allocations ∧ w1 = w ∧ p.alloc_len = 0) ∨
     (6 ≤ cdb.length ∧ Spec.bit cdb 1 3 = true ∧ p.status = (msPage (attrsOf6 cdb) (nsidOf lun) t.nvme_wrappers 0).1 ∧
       p.ws = (msPage (attrsOf6 cdb) (nsidOf lun) t.nvme_wrappers 0).2.1 ∧
       p.count = (msPage (attrsOf6 cdb) (nsidOf lun) t.nvme_wrappers 0).2.2 ∧
       p.as = t.allocations ∧ w1 = w ∧ p.alloc_len = BitVec.ofNat 32 (byte cdb 4)) ∨
     (6 ≤ cdb.length ∧ Spec.bit cdb 1 3 = false ∧ setA E w = 0 ∧ p.status ≠ .kSuccess ∧ p.count = 1 ∧
       p.as = { t.allocations with e0 := setAl E w } ∧ w1 = setW E w ∧
       p.alloc_len = BitVec.ofNat 32 (byte cdb 4)) ∨
     (6 ≤ cdb.length ∧ Spec.bit cdb 1 3 = false ∧ setA E w ≠ 0 ∧
       p.status = (msPage (attrsOf6 cdb) (nsidOf lun)
         (t.nvme_wrappers.put 0 (identifyWr (nsidOf lun) 0 (setA E w))) 1).1 ∧
       p.ws = (msPage (attrsOf6 cdb) (nsidOf lun)
         (t.nvme_wrappers.put 0 (identifyWr (nsidOf lun) 0 (setA E w))) 1).2.1 ∧
       p.count = (msPage (attrsOf6 cdb) (nsidOf lun)
         (t.nvme_wrappers.put 0 (identifyWr (nsidOf lun) 0 (setA E w))) 1).2.2 ∧
       p.as = { t.allocations with e0 := setAl E w } ∧ w1 = setW E w ∧
       p.alloc_len = BitVec.ofNat 32 (byte cdb 4))) := by
  have hne := ne_nil_of_byte hop (by decide)
  have hc := clean_e0 h.clean
  have h0 := h.count0
  have hsw := switch_modesense6 E cdb buf (nsidOf lun) (startPipe t) hop
  rcases Nat.lt_or_ge cdb.length 6 with hl | hl
  · exact ⟨{ startPipe t with status := .kFailure }, _, h.ends hne (by rw [hsw, ms6_short E cdb _ _ w hl]),
      Or.inl ⟨hl, by simp, h0, rfl, rfl, rfl⟩⟩
  by_cases hd : Spec.bit cdb 1 3 = true
  · refine ⟨_, _, h.ends hne (by rw [hsw, ms6_dbd E cdb _ _ w hl (by omega) hd]), Or.inr (Or.inl ?_)⟩
    rw [h0]
    exact ⟨hl, hd, rfl, rfl, rfl, rfl, rfl, rfl⟩
  have hd' : Spec.bit cdb 1 3 = false := by simpa using hd
  by_cases ha : setA E w = 0
  · refine ⟨_, _, h.ends hne (by rw [hsw, ms6_fail E cdb _ _ w hl (by omega) hd' hc ha]),
      Or.inr (Or.inr (Or.inl ?_))⟩
    rw [h0]
    exact ⟨hl, hd', ha, by simp, rfl, rfl, rfl, rfl⟩
  · refine ⟨_, _, h.ends hne (by rw [hsw, ms6_ok E cdb _ _ w hl (by omega) hd' hc ha]),
      Or.inr (Or.inr (Or.inr ?_))⟩
    rw [h0]
    exact ⟨hl, hd', ha, rfl, rfl, rfl, rfl, rfl, rfl⟩

/-- Which pages and page controls `msPage` accepts. -/
theorem msPage_ok (cdb : List Byte) (nsid : U32) (ws : Arr3 NvmeCmdWrapper) (n : Nat) :
    (msPage (attrsOf6 cdb) nsid ws n).1 = .kSuccess ↔
      byte cdb 2 % 64 ∈ modePages ∧ (asksCaching (byte cdb 2 % 64) → byte cdb 2 / 64 ≠ 3) := by
  unfold msPage modePages asksCaching
  rw [attrsOf6_page, attrsOf6_pc]
  simp only [List.mem_cons, List.not_mem_nil, or_false]
  split
  · split
    · simp; omega
    · simp; omega
  · split
    · simp; omega
    · simp; omega

theorem selOf_toNat (cdb : List Byte) : (selOf (attrsOf6 cdb).pc).toNat = selectFor (byte cdb 2 / 64) := by
  have h := attrsOf6_pc cdb
  have h1 : (attrsOf6 cdb).pc = 1 ↔ byte cdb 2 / 64 = 1 := by
    rw [← h]; exact bv_eq_iff _ 1 (by decide)
  have h2 : (attrsOf6 cdb).pc = 2 ↔ byte cdb 2 / 64 = 2 := by
    rw [← h]; exact bv_eq_iff _ 2 (by decide)
  unfold selOf selectFor
  simp only [h1, h2]
  split
  · rfl
  · split <;> rfl

/-- **C49.** MODE SENSE(6) commands.  It is accepted exactly if the command block is complete, the page is one
of 08h, 0Ah, 1Ah, 3Fh, the page control is not "saved" when the caching page is asked for, and the page for
Identify was granted when block descriptors are wanted (DBD = 0).  It then yields Identify Namespace of the
LUN's namespace (with a buffer of one page) if DBD = 0, followed by Get Features (volatile write cache) if the
caching page is asked for, all for the admin queue. -/
theorem C49_mode_sense6 (E t w ptr cdb buf lun r t' w') (h : Began E t w ptr cdb buf lun r t' w')
    (hop : byte cdb 0 = 0x1a) :
    (∃ evs, w'.trace = evs ++ w.trace ∧
      (Accepted t' ↔ 6 ≤ cdb.length ∧ byte cdb 2 % 64 ∈ modePages ∧
        (asksCaching (byte cdb 2 % 64) → byte cdb 2 / 64 ≠ 3) ∧
        (Spec.bit cdb 1 3 = false → pagesGranted E evs))) ∧
    (Accepted t' → r.alloc_len.toNat = byte cdb 4 ∧ ∃ a, a ≠ 0 ∧
      t'.GetNvmeWrappers.map (fun wr => (wr.cmd.toBytes, wr.is_admin)) =
        (if Spec.bit cdb 1 3 = false then [(identifySqe (nsidOfLun lun) 0 a, true)] else []) ++
        (if asksCaching (byte cdb 2 % 64) then
          [(getFeaturesSqe (nsidOfLun lun) 6 (selectFor (byte cdb 2 / 64)), true)] else [])) ∧
    (Accepted t' → Spec.bit cdb 1 3 = false → ∀ wr, t'.GetNvmeWrappers.head? = some wr →
      wr.buffer_len.toNat = 4096) := by
  refine and_assoc.mp ⟨?_, ?_⟩
  rotate_left
  · intro ha hd wr hwr
    obtain ⟨p, w1, e, hcase⟩ := ms_cases h hop
    rcases hcase with ⟨-, hn, -⟩ | ⟨-, hd', -⟩ | ⟨-, -, -, hn, -⟩ | ⟨hl, -, h0, hs, hw, hcn, -, rfl, hal⟩
    · exact absurd (e.acc.mp ha) hn
    · rw [hd] at hd'; cases hd'
    · exact absurd (e.acc.mp ha) hn
    · rw [e.cmds (e.acc.mp ha), hw, hcn] at hwr
      revert hwr
      unfold msPage
      split
      · split
        · intro hwr; cases hwr; rfl
        · intro hwr; cases hwr; rfl
      · split
        · intro hwr; cases hwr; rfl
        · intro hwr; cases hwr; rfl
  obtain ⟨p, w1, e, hcase⟩ := ms_cases h hop
  rw [e.worldE]
  have halen : (BitVec.ofNat 32 (byte cdb 4) : U32).toNat = byte cdb 4 := by
    rw [BitVec.toNat_ofNat]
    have := byte_lt cdb 4
    omega
  rcases hcase with ⟨hl, hn, -, -, rfl, -⟩ | ⟨hl, hd, hs, hw, hcn, -, rfl, hal⟩ | ⟨hl, hd, h0, hn, -, -, rfl, -⟩ |
    ⟨hl, hd, h0, hs, hw, hcn, -, rfl, hal⟩
  · obtain ⟨evs, h1, h2⟩ := events_none E p w1
    exact ⟨⟨evs, h1, fun ha => absurd (e.acc.mp ha) hn, fun hh => by omega⟩, fun ha => absurd (e.acc.mp ha) hn⟩
  · obtain ⟨evs, h1, h2⟩ := events_none E p w1
    have hacc := (hs ▸ e.acc).trans (msPage_ok cdb _ _ _)
    refine ⟨⟨evs, h1, ?_⟩, fun ha => ⟨by rw [e.resp, hal]; exact halen, 1, by decide, ?_⟩⟩
    · rw [hacc, hd]
      simp [hl]
    · rw [e.cmds (e.acc.mp ha), hw, hcn, hd]
      have hok := hacc.mp ha
      unfold msPage
      rw [attrsOf6_page, attrsOf6_pc]
      simp only [Bool.true_eq_false, if_false, List.nil_append]
      by_cases hp : asksCaching (byte cdb 2 % 64)
      · have hp' : byte cdb 2 % 64 = 8 ∨ byte cdb 2 % 64 = 63 := hp
        rw [if_pos hp', if_neg (hok.2 hp), if_pos hp]
        simp only [take_one, Arr3.put, Arr3.set?, Option.getD_some, List.map_cons, List.map_nil,
          getFeaturesCmd_toBytes, nsidOf_toNat, selOf_toNat, Nat.zero_add]
      · have hp' : ¬ (byte cdb 2 % 64 = 8 ∨ byte cdb 2 % 64 = 63) := hp
        simp only [if_neg hp, if_neg hp']
        split <;> rfl
  · obtain ⟨evs, h1, h2⟩ := events_one E p w
    exact ⟨⟨evs, h1, fun ha => absurd (e.acc.mp ha) hn, fun hh => absurd h0 (h2.mp (hh.2.2.2 hd))⟩,
      fun ha => absurd (e.acc.mp ha) hn⟩
  · obtain ⟨evs, h1, h2⟩ := events_one E p w
    have hacc := (hs ▸ e.acc).trans (msPage_ok cdb _ _ _)
    refine ⟨⟨evs, h1, ?_⟩, fun ha => ⟨by rw [e.resp, hal]; exact halen, (setA E w).toNat, ?_, ?_⟩⟩
    · rw [hacc, hd, h2]
      simp only [hl, true_and, h0, ne_eq, not_false_eq_true, imp_self, and_true]
    · intro hh; exact h0 (BitVec.eq_of_toNat_eq hh)
    · rw [e.cmds (e.acc.mp ha), hw, hcn, hd]
      have hok := hacc.mp ha
      unfold msPage
      rw [attrsOf6_page, attrsOf6_pc]
      simp only [if_true]
      by_cases hp : asksCaching (byte cdb 2 % 64)
      · have hp' : byte cdb 2 % 64 = 8 ∨ byte cdb 2 % 64 = 63 := hp
        rw [if_pos hp', if_neg (hok.2 hp), if_pos hp]
        simp only [Nat.reduceAdd, take_two, Arr3.put, Arr3.set?, Option.getD_some, List.map_cons, List.map_nil,
          getFeaturesCmd_toBytes, nsidOf_toNat, selOf_toNat, identifyWr, identifyCmd_toBytes]
        rfl
      · have hp' : ¬ (byte cdb 2 % 64 = 8 ∨ byte cdb 2 % 64 = 63) := hp
        simp only [if_neg hp, if_neg hp']
        have : ∀ st ws', ((if byte cdb 2 % 64 = 0x0a ∨ byte cdb 2 % 64 = 0x1a
            then ((.kSuccess, ws', 1) : StatusCode × Arr3 NvmeCmdWrapper × Nat) else (st, ws', 1))).2 = (ws', 1) := by
          intro st ws'; split <;> rfl
        rw [this]
        simp only [take_one, Arr3.put, Arr3.set?, Option.getD_some, List.map_cons, List.map_nil,
          nsidOf_toNat, identifyWr, identifyCmd_toBytes]
        rfl

/-- MODE SENSE(6) for all pages with block descriptors. -/
def modeSense6All : List Byte := [0x1a, 0, 0x3f, 0, 0xff, 0]

example : ∃ r t' w', Began Demo.env (Translation.init Demo.ws) ⟨Demo.mem modeSense6All, []⟩ 0x100 modeSense6All
    Demo.data 3 r t' w' ∧ Accepted t' ∧ r.alloc_len = 255 ∧
      t'.GetNvmeWrappers.map (fun wr => wr.cmd.toBytes) = [identifySqe 4 0 0x100000, getFeaturesSqe 4 6 0] :=
  began_of _ _ _ _ _ _ _ (fun r t' => Accepted t' ∧ r.alloc_len = 255 ∧ _ = _)
    (by decide +kernel) (by decide +kernel)

end Scsi2Nvme
