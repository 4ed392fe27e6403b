import Verif.Properties.UnmapProps
/-!
# C69: what `Begin` does with UNMAP, exactly
-/

namespace Scsi2Nvme
open Spec

theorem pageAnswers_nil_of_dealloc (ds : List Event) (h : ∀ e ∈ ds, ∃ a n, e = Event.dealloc a n) :
    pageAnswers ds = [] := by
  unfold pageAnswers
  rw [List.filterMap_eq_nil_iff]
  intro e he
  obtain ⟨a, n, rfl⟩ := h e (List.mem_reverse.mp he)
  rfl

theorem pageAnswers_append (a b : List Event) : pageAnswers (a ++ b) = pageAnswers b ++ pageAnswers a := by
  unfold pageAnswers
  rw [List.reverse_append, List.filterMap_append]

theorem pageAnswers_set (E : Env) (w : World) :
    pageAnswers [.alloc 4096 0 (setM E w), .alloc 4096 1 (setA E w)] = [(setA E w).toNat] := rfl

/-- The allocator calls of a `Begin`, given those of the `switch`: the answers are the same. -/
theorem finish_answers (E : Env) (p : Pipe) (w w1 : World) (evs : List Event) (h : w1.trace = evs ++ w.trace) :
    ∃ evs', (finishW E p w1).trace = evs' ++ w.trace ∧ pageAnswers evs' = pageAnswers evs := by
  unfold finishW
  split
  · exact ⟨evs, h, rfl⟩
  · obtain ⟨ds, h1, h2⟩ := dealloc_trace E (livePages p.count p.as) w1
    refine ⟨ds ++ evs, by rw [h1, h]; simp, ?_⟩
    rw [pageAnswers_append, pageAnswers_nil_of_dealloc ds h2, List.append_nil]

/-- One call of `SetPages`. -/
theorem set_answers (E : Env) (w : World) : ∃ evs, (setW E w).trace = evs ++ w.trace ∧
    ((E.allocCb = none ∧ setA E w = 0 ∧ pageAnswers evs = []) ∨
     (E.allocCb ≠ none ∧ pageAnswers evs = [(setA E w).toNat])) := by
  by_cases hn : E.allocCb = none
  · exact ⟨[], by rw [(set_none hn w).1]; rfl, Or.inl ⟨hn, (set_none hn w).2, rfl⟩⟩
  · exact ⟨_, set_trace hn w, Or.inr ⟨hn, rfl⟩⟩

/-- The commands after the page part of MODE SENSE: those before it, and Get Features if asked for. -/
theorem msPage_cmds (cdb : List Byte) (lun : U64) (ws : Arr3 NvmeCmdWrapper) (n : Nat) (hn : n < 3)
    (hok : (msPage (attrsOf6 cdb) (nsidOf lun) ws n).1 = .kSuccess) :
    ∃ fs, ((msPage (attrsOf6 cdb) (nsidOf lun) ws n).2.1.toList.take (msPage (attrsOf6 cdb) (nsidOf lun) ws n).2.2)
      = ws.toList.take n ++ fs ∧
      fs.map (fun wr => (wr.cmd.toBytes, wr.is_admin)) = cachingCmds (nsidOfLun lun) cdb := by
  have h := (msPage_ok cdb (nsidOf lun) ws n).mp hok
  unfold msPage cachingCmds
  rw [attrsOf6_page, attrsOf6_pc]
  by_cases hp : asksCaching (byte cdb 2 % 64)
  · have hp' : byte cdb 2 % 64 = 8 ∨ byte cdb 2 % 64 = 63 := hp
    rw [if_pos hp', if_neg (h.2 hp), if_pos hp]
    have key : ∀ wr : NvmeCmdWrapper, (ws.put n wr).toList.take (n + 1) = ws.toList.take n ++ [wr] := by
      intro wr
      obtain ⟨a, b, c⟩ := ws
      match n, hn with
      | 0, _ => rfl
      | 1, _ => rfl
      | 2, _ => rfl
    refine ⟨_, key _, ?_⟩
    simp only [List.map_cons, List.map_nil, getFeaturesCmd_toBytes, nsidOf_toNat, selOf_toNat]
  · have hp' : ¬ (byte cdb 2 % 64 = 8 ∨ byte cdb 2 % 64 = 63) := hp
    simp only [if_neg hp, if_neg hp']
    refine ⟨[], ?_, rfl⟩
    split <;> simp

/-- The MODE SENSE(6) part of an UNMAP, as far as acceptance goes. -/
theorem ms6_iff (E : Env) (cdb : List Byte) (nsid : U32) (p : Pipe) (w : World) (hn : p.count < 2)
    (p' : Pipe) (w' : World) (h : beginModeSense6 E cdb.tail nsid p w = .ok (p', w')) :
    p'.status = .kSuccess ↔ modeFieldsOk cdb ∧
      (Spec.bit cdb 1 3 = false → p.as.e0.data_addr = 0 ∧ setA E w ≠ 0) := by
  constructor
  · intro hs
    obtain ⟨h1, h2, h3, -, hc⟩ := ms6_success E cdb nsid p w hn p' w' h hs
    refine ⟨⟨h1, h2, h3⟩, fun hd => ?_⟩
    rcases hc with ⟨hd', -⟩ | ⟨-, a, b, -⟩
    · rw [hd] at hd'; cases hd'
    · exact ⟨a, b⟩
  · rintro ⟨⟨hl, h2, h3⟩, h4⟩
    by_cases hd : Spec.bit cdb 1 3 = true
    · rw [ms6_dbd E cdb nsid p w hl (by omega) hd] at h
      cases h
      exact (msPage_ok cdb nsid _ _).mpr ⟨h2, h3⟩
    · have hd' : Spec.bit cdb 1 3 = false := by simpa using hd
      rw [ms6_ok E cdb nsid p w hl (by omega) hd' (h4 hd').1 (h4 hd').2] at h
      cases h
      exact (msPage_ok cdb nsid _ _).mpr ⟨h2, h3⟩

/-- The pages the MODE SENSE(6) part asks for. -/
theorem ms6_answers (E : Env) (cdb : List Byte) (nsid : U32) (p : Pipe) (w : World) (hn : p.count < 2)
    (p' : Pipe) (w' : World) (h : beginModeSense6 E cdb.tail nsid p w = .ok (p', w')) :
    ∃ evs, w'.trace = evs ++ w.trace ∧
      (p.as.e0.data_addr ≠ 0 ∨ Spec.bit cdb 1 3 = true ∨ cdb.length < 6 → pageAnswers evs = [] ∧ w' = w) ∧
      (p.as.e0.data_addr = 0 → Spec.bit cdb 1 3 = false → 6 ≤ cdb.length →
        (pageAnswers evs).getLast?.getD 0 = (setA E w).toNat ∧
        (pageAnswers evs = [] ∨ pageAnswers evs = [(setA E w).toNat])) := by
  rcases Nat.lt_or_ge cdb.length 6 with hl | hl
  · rw [ms6_short E cdb nsid p w hl] at h
    cases h
    exact ⟨[], rfl, fun _ => ⟨rfl, rfl⟩, fun _ _ hh => absurd hh (by omega)⟩
  by_cases hd : Spec.bit cdb 1 3 = true
  · rw [ms6_dbd E cdb nsid p w hl (by omega) hd] at h
    cases h
    exact ⟨[], rfl, fun _ => ⟨rfl, rfl⟩, fun _ hh => by rw [hd] at hh; cases hh⟩
  have hd' : Spec.bit cdb 1 3 = false := by simpa using hd
  by_cases ha : p.as.e0.data_addr = 0
  · have key : ∃ evs, (setW E w).trace = evs ++ w.trace ∧ (pageAnswers evs).getLast?.getD 0 = (setA E w).toNat ∧
        (pageAnswers evs = [] ∨ pageAnswers evs = [(setA E w).toNat]) := by
      obtain ⟨evs, g1, ⟨-, g2, g3⟩ | ⟨-, g3⟩⟩ := set_answers E w
      · exact ⟨evs, g1, by rw [g3, g2]; rfl, Or.inl g3⟩
      · exact ⟨evs, g1, by rw [g3]; rfl, Or.inr g3⟩
    obtain ⟨evs, g1, g2⟩ := key
    have hw : w' = setW E w := by
      by_cases h0 : setA E w = 0
      · rw [ms6_fail E cdb nsid p w hl (by omega) hd' ha h0] at h
        cases h; rfl
      · rw [ms6_ok E cdb nsid p w hl (by omega) hd' ha h0] at h
        cases h; rfl
    refine ⟨evs, by rw [hw]; exact g1, ?_, fun _ _ _ => g2⟩
    rintro (hh | hh | hh)
    · exact absurd ha hh
    · exact absurd hh hd
    · omega
  · rw [ms6_used E cdb nsid p w hl (by omega) hd' ha] at h
    cases h
    exact ⟨[], rfl, fun _ => ⟨rfl, rfl⟩, fun hh => absurd hh ha⟩

/-- **C69.** What `Begin` does with UNMAP, exactly, for a readable parameter list and a well-behaved allocator.

* If the parameter list is translatable and the page for it was granted at `a`: the command is accepted exactly
  if (reserved) bits of the command block make a good MODE SENSE(6) with DBD set; it then hands out the
  Dataset Management command for the requested ranges (flagged for the admin queue, with a buffer length of one
  page), which are stored at `a`, followed by Get Features if the caching page is "asked for".
* Otherwise: the command is accepted exactly if the bits make a good MODE SENSE(6) and, for DBD clear, a page
  was granted; it then hands out whatever the first command slot of the object still held from before (so
  possibly a Write), then what MODE SENSE(6) hands out. -/
theorem C69_unmap_begin (E t w ptr cdb buf lun r t' w' data)
    (h : Began E t w ptr cdb buf lun r t' w') (hg : GoodAllocator E) (hop : byte cdb 0 = 0x42)
    (hdata : w.mem.read buf.ptr buf.len = some data) :
    ∃ evs, w'.trace = evs ++ w.trace ∧
      (Accepted t' → r.alloc_len.toNat = byte cdb 4) ∧
      (∀ rs a, unmapRequest cdb data = some rs → (pageAnswers evs).head? = some a → a ≠ 0 →
        (Accepted t' ↔ modeFieldsOk cdb ∧ Spec.bit cdb 1 3 = true) ∧
        (Accepted t' → rangesAt w'.mem a rs ∧ ∃ wr fs, t'.GetNvmeWrappers = wr :: fs ∧
          wr.cmd.toBytes = deallocateSqe (nsidOfLun lun) rs.length a ∧ wr.buffer_len.toNat = 4096 ∧
          wr.is_admin = true ∧
          fs.map (fun wr => (wr.cmd.toBytes, wr.is_admin)) = cachingCmds (nsidOfLun lun) cdb)) ∧
      ((unmapRequest cdb data = none ∨ (pageAnswers evs).head?.getD 0 = 0) →
        (Accepted t' ↔ modeFieldsOk cdb ∧ (Spec.bit cdb 1 3 = false → (pageAnswers evs).getLast?.getD 0 ≠ 0)) ∧
        (Accepted t' → ∃ fs, t'.GetNvmeWrappers = t.nvme_wrappers.e0 :: fs ∧
          fs.map (fun wr => (wr.cmd.toBytes, wr.is_admin)) =
            (if Spec.bit cdb 1 3 = false then
              [(identifySqe (nsidOfLun lun) 0 ((pageAnswers evs).getLast?.getD 0), true)] else []) ++
            cachingCmds (nsidOfLun lun) cdb)) := by
  have hne := ne_nil_of_byte hop (by decide)
  obtain ⟨p, w1, hs, -⟩ := h.inv hne
  have e := h.ends hne hs
  have halen : (BitVec.ofNat 32 (byte cdb 4) : U32).toNat = byte cdb 4 := by
    rw [BitVec.toNat_ofNat]
    have := byte_lt cdb 4
    omega
  rw [switch_unmap E cdb buf _ _ hop] at hs
  unfold beginUnmap at hs
  simp only [M.bind_run, kPageSize] at hs
  -- the MODE SENSE part, from an arbitrary pipe with one command
  have tail : ∀ (q : Pipe) (w0 : World), q.count = 1 →
      beginModeSense6 E cdb.tail (nsidOf lun) q w0 = .ok (p, w1) →
      (Accepted t' ↔ modeFieldsOk cdb ∧ (Spec.bit cdb 1 3 = false → q.as.e0.data_addr = 0 ∧ setA E w0 ≠ 0)) ∧
      (Accepted t' → r.alloc_len.toNat = byte cdb 4 ∧
        ((Spec.bit cdb 1 3 = true ∧ w1 = w0 ∧ ∃ fs, t'.GetNvmeWrappers = q.ws.e0 :: fs ∧
          fs.map (fun wr => (wr.cmd.toBytes, wr.is_admin)) = cachingCmds (nsidOfLun lun) cdb) ∨
         (Spec.bit cdb 1 3 = false ∧ w1 = setW E w0 ∧ ∃ fs, t'.GetNvmeWrappers = q.ws.e0 :: fs ∧
          fs.map (fun wr => (wr.cmd.toBytes, wr.is_admin)) =
            (identifySqe (nsidOfLun lun) 0 (setA E w0).toNat, true) :: cachingCmds (nsidOfLun lun) cdb))) := by
    intro q w0 hq hms
    refine ⟨e.acc.trans (ms6_iff E cdb (nsidOf lun) q w0 (by omega) p w1 hms), fun ha => ?_⟩
    have hst := e.acc.mp ha
    obtain ⟨h1, h2, h3, hal, hc⟩ := ms6_success E cdb (nsidOf lun) q w0 (by omega) p w1 hms hst
    refine ⟨by rw [e.resp]; simp only; rw [hal]; exact halen, ?_⟩
    rcases hc with ⟨hd, has, hw, hws, hcn⟩ | ⟨hd, h0, hA, has, hw, hws, hcn⟩
    · refine Or.inl ⟨hd, hw, ?_⟩
      obtain ⟨fs, hf, hm⟩ := msPage_cmds cdb lun q.ws q.count (by omega) ((msPage_ok cdb _ _ _).mpr ⟨h2, h3⟩)
      refine ⟨fs, ?_, hm⟩
      rw [e.cmds hst, hws, hcn, hf, hq]
      rfl
    · refine Or.inr ⟨hd, hw, ?_⟩
      obtain ⟨fs, hf, hm⟩ := msPage_cmds cdb lun (q.ws.put q.count (identifyWr (nsidOf lun) 0 (setA E w0))) (q.count + 1)
        (by omega) ((msPage_ok cdb _ _ _).mpr ⟨h2, h3⟩)
      refine ⟨identifyWr (nsidOf lun) 0 (setA E w0) :: fs, ?_, ?_⟩
      · rw [e.cmds hst, hws, hcn, hf, hq]
        rfl
      · rw [List.map_cons, hm]
        simp only [identifyWr, identifyCmd_toBytes, nsidOf_toNat]
        rfl
  -- the calls of the MODE SENSE part and of the end of `Begin`
  have calls : ∀ (q : Pipe) (w0 : World) (evs0 : List Event), q.count = 1 → w0.trace = evs0 ++ w.trace →
      beginModeSense6 E cdb.tail (nsidOf lun) q w0 = .ok (p, w1) →
      ∃ evs evs2, w'.trace = evs ++ w.trace ∧ pageAnswers evs = pageAnswers evs0 ++ pageAnswers evs2 ∧
        (q.as.e0.data_addr ≠ 0 ∨ Spec.bit cdb 1 3 = true ∨ cdb.length < 6 → pageAnswers evs2 = [] ∧ w1 = w0) ∧
        (q.as.e0.data_addr = 0 → Spec.bit cdb 1 3 = false → 6 ≤ cdb.length →
          (pageAnswers evs2).getLast?.getD 0 = (setA E w0).toNat ∧
          (pageAnswers evs2 = [] ∨ pageAnswers evs2 = [(setA E w0).toNat])) := by
    intro q w0 evs0 hq h0 hms
    obtain ⟨evs2, k1, k2, k3⟩ := ms6_answers E cdb (nsidOf lun) q w0 (by omega) p w1 hms
    obtain ⟨evs, h1, h2⟩ := finish_answers E p w w1 (evs2 ++ evs0) (by rw [k1, h0]; simp)
    exact ⟨evs, evs2, by rw [e.worldE]; exact h1, by rw [h2, pageAnswers_append], k2, k3⟩
  have hA0 : ∀ w : World, ((setA E w).toNat ≠ 0 ↔ setA E w ≠ 0) := fun w =>
    not_congr ⟨fun hh => BitVec.eq_of_toNat_eq hh, fun hh => by rw [hh]; rfl⟩
  -- the second half of the statement, when the UNMAP part left no page and no command
  have other : ∀ (q : Pipe) (w0 : World) (evs : List Event), q.count = 1 → q.as.e0.data_addr = 0 →
      q.ws.e0 = t.nvme_wrappers.e0 → beginModeSense6 E cdb.tail (nsidOf lun) q w0 = .ok (p, w1) →
      (Spec.bit cdb 1 3 = false → 6 ≤ cdb.length → (pageAnswers evs).getLast?.getD 0 = (setA E w0).toNat) →
      (Accepted t' ↔ modeFieldsOk cdb ∧ (Spec.bit cdb 1 3 = false → (pageAnswers evs).getLast?.getD 0 ≠ 0)) ∧
        (Accepted t' → ∃ fs, t'.GetNvmeWrappers = t.nvme_wrappers.e0 :: fs ∧
          fs.map (fun wr => (wr.cmd.toBytes, wr.is_admin)) =
            (if Spec.bit cdb 1 3 = false then
              [(identifySqe (nsidOfLun lun) 0 ((pageAnswers evs).getLast?.getD 0), true)] else []) ++
            cachingCmds (nsidOfLun lun) cdb) := by
    intro q w0 evs hq hq0 hqe hms hl
    obtain ⟨hacc, hres⟩ := tail q w0 hq hms
    refine ⟨hacc.trans ⟨fun hh => ⟨hh.1, fun hd => ?_⟩, fun hh => ⟨hh.1, fun hd => ⟨hq0, ?_⟩⟩⟩, fun ha => ?_⟩
    · rw [hl hd hh.1.1]
      exact (hA0 _).mpr (hh.2 hd).2
    · have := hh.2 hd
      rw [hl hd hh.1.1] at this
      exact (hA0 _).mp this
    · rcases (hres ha).2 with ⟨hd, hw, fs, hf, hm⟩ | ⟨hd, hw, fs, hf, hm⟩
      · exact ⟨fs, by rw [hf, hqe], by rw [hd, hm]; rfl⟩
      · exact ⟨fs, by rw [hf, hqe], by rw [if_pos hd, hm, hl hd (hacc.mp ha).1.1]; rfl⟩
  rcases Unmap_run E cdb data buf (startPipe t).ws.e0 (nsidOf lun) (startPipe t).as.e0 (clean_e0 h.clean) w hdata
    with ⟨hn, st, hst, hr⟩ | ⟨rs', hrs', h0, hr⟩ | ⟨rs', hrs', hl1, hl2, h0, ds, hdl, hra, hr⟩
  · -- no translatable parameter list: no page asked for by the UNMAP part
    rw [hr] at hs
    simp only at hs
    obtain ⟨evs, evs2, h1, h2, -, h3⟩ := calls _ w [] rfl rfl hs
    refine ⟨evs, h1, fun ha => ((tail _ _ rfl hs).2 ha).1, fun rs a hrs => (by rw [hn] at hrs; cases hrs), fun _ => ?_⟩
    refine other _ w evs ?_ ?_ ?_ hs fun hd hl => ?_
    · rfl
    · exact clean_e0 h.clean
    · rfl
    · rw [h2]
      exact (h3 (clean_e0 h.clean) hd hl).1
  · -- the page was refused
    rw [hr] at hs
    simp only at hs
    obtain ⟨evs0, g1, g2⟩ := set_answers E w
    obtain ⟨evs, evs2, h1, h2, h4, h3⟩ := calls _ _ evs0 rfl g1 hs
    have hg2 : pageAnswers evs0 = [] ∨ pageAnswers evs0 = [0] := by
      rcases g2 with ⟨-, -, g⟩ | ⟨-, g⟩
      · exact Or.inl g
      · rw [h0] at g; exact Or.inr g
    refine ⟨evs, h1, fun ha => ((tail _ _ rfl hs).2 ha).1, fun rs a hrs hhd ha0 => ?_, fun _ => ?_⟩
    · exfalso
      have hz : (pageAnswers evs).head?.getD 0 = 0 := by
        rw [h2]
        rcases g2 with ⟨gn, -, g⟩ | ⟨-, g⟩
        · have hA1 : setA E (setW E w) = 0 := (set_none gn _).2
          have : pageAnswers evs2 = [] ∨ pageAnswers evs2 = [0] := by
            by_cases hd : Spec.bit cdb 1 3 = true
            · exact Or.inl (h4 (Or.inr (Or.inl hd))).1
            rcases Nat.lt_or_ge cdb.length 6 with hl | hl
            · exact Or.inl (h4 (Or.inr (Or.inr hl))).1
            have := (h3 h0 (by simpa using hd) hl).2
            rw [hA1] at this
            exact this
          rw [g]
          rcases this with k | k <;> rw [k] <;> rfl
        · rw [g, h0]; rfl
      rw [hhd] at hz
      exact ha0 hz
    · refine other _ _ evs rfl h0 rfl hs fun hd hl => ?_
      obtain ⟨k1, k2⟩ := h3 h0 hd hl
      rw [h2, ← k1]
      rcases k2 with k2 | k2
      · rw [k2, List.append_nil]
        rcases hg2 with g | g <;> rw [g] <;> rfl
      · rw [k2]; simp
  · -- the page was granted
    have hm := set_mapped hg w h0 (16 * rs'.length) (by omega)
    rw [hr hm] at hs
    simp only at hs
    obtain ⟨evs0, g1, g2⟩ := set_answers E w
    obtain ⟨evs, evs2, h1, h2, h4, -⟩ := calls _ _ evs0 rfl (by exact g1) hs
    have g : pageAnswers evs0 = [(setA E w).toNat] := by
      rcases g2 with ⟨-, g, -⟩ | ⟨-, g⟩
      · exact absurd g h0
      · exact g
    obtain ⟨k1, k2⟩ := h4 (Or.inl h0)
    rw [k1, g] at h2
    obtain ⟨hacc, hres⟩ := tail _ _ rfl hs
    refine ⟨evs, h1, fun ha => (hres ha).1, fun rs a hrs hhd ha0 => ?_, fun hh => ?_⟩
    · rw [hrs'] at hrs
      cases hrs
      rw [h2] at hhd
      cases hhd
      refine ⟨hacc.trans ⟨fun hh => ⟨hh.1, ?_⟩, fun hh => ⟨hh.1, fun hd => ?_⟩⟩, fun ha => ⟨?_, ?_⟩⟩
      · rcases Bool.eq_false_or_eq_true (Spec.bit cdb 1 3) with hd | hd
        · exact hd
        · exact absurd (hh.2 hd).1 h0
      · rw [hh.2] at hd; cases hd
      · rw [e.world (e.acc.mp ha), k2]
        exact hra _ _
      · rcases (hres ha).2 with ⟨-, -, fs, hf, hm⟩ | ⟨hd, -⟩
        · refine ⟨_, fs, hf, ?_, rfl, rfl, hm⟩
          rw [← nsidOf_toNat]
          exact dsmCmd_toBytes _ _ hl2 _
        · exact absurd ((hacc.mp ha).2 hd).1 h0
    · exfalso
      rcases hh with hh | hh
      · rw [hrs'] at hh; cases hh
      · rw [h2] at hh
        exact (hA0 w).mpr h0 hh

/-- UNMAP with the reserved bits that make it pass, after which the write cache is read too. -/
def unmapOdd2 : List Byte := [0x42, 8, 8, 0, 9, 0, 0, 0, 40, 0]

/-- The first case of C69 arises. -/
example : ∃ r t' w', Began boundedEnv (Translation.init Demo.ws) ⟨Demo.mem unmapOdd2 unmapData, []⟩ 0x100 unmapOdd2
    ⟨0x8000, 40⟩ 3 r t' w' ∧ Accepted t' ∧ r.alloc_len = 9 ∧
      t'.GetNvmeWrappers.map (fun wr => wr.cmd.toBytes) = [deallocateSqe 4 2 0x100000, getFeaturesSqe 4 6 0] ∧
      unmapRequest unmapOdd2 unmapData = some [(5, 3), (256, 2)] :=
  began_of _ _ _ _ _ _ _ (fun r t' => Accepted t' ∧ r.alloc_len = 9 ∧ _ = _ ∧ _ = _)
    (by decide +kernel) (by decide +kernel)

/-- A malformed UNMAP (no parameter list) asking for block descriptors. -/
def unmapOdd3 : List Byte := [0x42, 0, 0x0a, 0, 9, 0, 0, 0, 0, 0]

/-- The second case of C69 arises. -/
example : ∃ r t' w', Began boundedEnv (Translation.init Demo.ws) ⟨Demo.mem unmapOdd3 unmapData, []⟩ 0x100 unmapOdd3
    ⟨0x8000, 40⟩ 3 r t' w' ∧ Accepted t' ∧
      t'.GetNvmeWrappers.map (fun wr => wr.cmd.toBytes) = [Demo.ws.e0.cmd.toBytes, identifySqe 4 0 0x100000] ∧
      unmapRequest unmapOdd3 unmapData = none :=
  began_of _ _ _ _ _ _ _ (fun r t' => Accepted t' ∧ _ = _ ∧ _ = _)
    (by decide +kernel) (by decide +kernel)

end Scsi2Nvme
