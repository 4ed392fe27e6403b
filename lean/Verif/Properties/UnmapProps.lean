import Verif.Properties.Commands
import Verif.Properties.Memory
import Verif.Spec.Unmap
/-!
# C27, C28: UNMAP
-/

namespace Scsi2Nvme
open Spec

/-! ## The translator of UNMAP -/

/-- **C27.** The UNMAP translator, on any parameter list (any number of descriptors, any contents) and with any
well-behaved allocator.  It succeeds exactly if the command and its parameter list are as documented
(`unmapRequest`) and the page was granted; then the page holds one dataset management range per block
descriptor, in order, with the LBA and block count of the descriptor, and the command is Dataset Management /
Deallocate for that many ranges and that page, of the given namespace, with the page as its buffer. -/
theorem C27_unmap (E : Env) (hg : GoodAllocator E) (w : World) (cdb data : List Byte) (buf : Span)
    (hd : w.mem.read buf.ptr buf.len = some data) (wr : NvmeCmdWrapper) (nsid : U32) (al : Allocation)
    (hal : al.data_addr = 0) :
    ∃ st wr' al' w' evs, Unmap.UnmapToNvme E cdb.tail buf wr kPageSize nsid al w = .ok ((st, wr', al'), w') ∧
      w'.trace = evs ++ w.trace ∧
      (st = .kSuccess ↔ (unmapRequest cdb data).isSome ∧ pagesGranted E evs) ∧
      (st = .kSuccess → ∃ rs a, unmapRequest cdb data = some rs ∧ 1 ≤ rs.length ∧ rs.length ≤ 256 ∧ a ≠ 0 ∧
        wr'.cmd.toBytes = deallocateSqe nsid.toNat rs.length a ∧ wr'.buffer_len.toNat = 4096 ∧
        rangesAt w'.mem a rs ∧ al'.data_addr.toNat = a ∧ al'.data_page_count = 1) := by
  change ∃ st wr' al' w' evs, Unmap.UnmapToNvme E cdb.tail buf wr 4096 nsid al w = _ ∧ _
  rcases Unmap_run E cdb data buf wr nsid al hal w hd with ⟨hn, st, hst, hr⟩ | ⟨rs, hrs, h0, hr⟩ |
    ⟨rs, hrs, hl1, hl2, h0, ds, hdl, hra, hr⟩
  · refine ⟨st, wr, al, w, [], hr, rfl, ⟨fun h => absurd h hst, ?_⟩, fun h => absurd h hst⟩
    rw [hn]
    rintro ⟨h, -⟩
    cases h
  · by_cases hnone : E.allocCb = none
    · refine ⟨_, _, _, _, [], hr, by rw [(set_none hnone w).1]; rfl, ⟨by simp, ?_⟩, by simp⟩
      rintro ⟨-, h, -⟩
      exact absurd hnone h
    · refine ⟨_, _, _, _, _, hr, set_trace hnone w, ⟨by simp, ?_⟩, by simp⟩
      rintro ⟨-, -, h⟩
      exact absurd ((refused_set E w).mpr h0) h
  · have hm := set_mapped hg w h0 (16 * rs.length) (by omega)
    have hnone : E.allocCb ≠ none := fun h => h0 (set_none h w).2
    refine ⟨_, _, _, _, _, hr hm, set_trace hnone w, ⟨fun _ => ⟨by rw [hrs]; rfl, hnone, ?_⟩, fun _ => rfl⟩,
      fun _ => ⟨rs, (setA E w).toNat, hrs, hl1, hl2, ?_, dsmCmd_toBytes _ _ hl2 _, rfl, hra _ _, rfl, rfl⟩⟩
    · intro h
      exact h0 ((refused_set E w).mp h)
    · intro hh
      exact h0 (BitVec.eq_of_toNat_eq hh)

/-- UNMAP with two descriptors. -/
def unmapCdb : List Byte := [0x42, 0, 0, 0, 0, 0, 0, 0, 40, 0]
/-- Its parameter list: blocks 5-7 and blocks 256-257. -/
def unmapData : List Byte :=
  [0, 38, 0, 32, 0, 0, 0, 0,
   0, 0, 0, 0, 0, 0, 0, 5, 0, 0, 0, 3, 0, 0, 0, 0,
   0, 0, 0, 0, 0, 0, 1, 0, 0, 0, 0, 2, 0, 0, 0, 0]

/-- The hypotheses of C27 are met. -/
example : GoodAllocator boundedEnv ∧ (Demo.mem unmapCdb unmapData).read 0x8000 40 = some unmapData ∧
    unmapRequest unmapCdb unmapData = some [(5, 3), (256, 2)] :=
  ⟨boundedEnv_good, by decide +kernel, by decide +kernel⟩

/-! ## UNMAP through the interface -/

/-- What a successful MODE SENSE(6) part needs. -/
theorem ms6_success (E : Env) (cdb : List Byte) (nsid : U32) (p : Pipe) (w : World) (hn : p.count < 2)
    (p' : Pipe) (w' : World) (h : beginModeSense6 E cdb.tail nsid p w = .ok (p', w'))
    (hs : p'.status = .kSuccess) :
    6 ≤ cdb.length ∧ byte cdb 2 % 64 ∈ modePages ∧ (asksCaching (byte cdb 2 % 64) → byte cdb 2 / 64 ≠ 3) ∧
      p'.alloc_len = BitVec.ofNat 32 (byte cdb 4) ∧
      ((Spec.bit cdb 1 3 = true ∧ p'.as = p.as ∧ w' = w ∧ p'.ws = (msPage (attrsOf6 cdb) nsid p.ws p.count).2.1 ∧
          p'.count = (msPage (attrsOf6 cdb) nsid p.ws p.count).2.2) ∨
       (Spec.bit cdb 1 3 = false ∧ p.as.e0.data_addr = 0 ∧ setA E w ≠ 0 ∧ p'.as = { p.as with e0 := setAl E w } ∧
          w' = setW E w ∧
          p'.ws = (msPage (attrsOf6 cdb) nsid (p.ws.put p.count (identifyWr nsid 0 (setA E w))) (p.count + 1)).2.1 ∧
          p'.count = (msPage (attrsOf6 cdb) nsid (p.ws.put p.count (identifyWr nsid 0 (setA E w)))
            (p.count + 1)).2.2)) := by
  rcases Nat.lt_or_ge cdb.length 6 with hl | hl
  · rw [ms6_short E cdb nsid p w hl] at h
    cases h
    cases hs
  by_cases hd : Spec.bit cdb 1 3 = true
  · rw [ms6_dbd E cdb nsid p w hl (by omega) hd] at h
    cases h
    have := (msPage_ok cdb nsid p.ws p.count).mp hs
    exact ⟨hl, this.1, this.2, rfl, Or.inl ⟨hd, rfl, rfl, rfl, rfl⟩⟩
  have hd' : Spec.bit cdb 1 3 = false := by simpa using hd
  by_cases ha : p.as.e0.data_addr = 0
  · by_cases h0 : setA E w = 0
    · rw [ms6_fail E cdb nsid p w hl (by omega) hd' ha h0] at h
      cases h
      cases hs
    · rw [ms6_ok E cdb nsid p w hl (by omega) hd' ha h0] at h
      cases h
      have := (msPage_ok cdb nsid _ _).mp hs
      exact ⟨hl, this.1, this.2, rfl, Or.inr ⟨hd', ha, h0, rfl, rfl, rfl, rfl⟩⟩
  · rw [ms6_used E cdb nsid p w hl (by omega) hd' ha] at h
    cases h
    cases hs

/-- What an accepted UNMAP needs of its (reserved) bits. -/
theorem unmap_accepted_bits {E t w ptr cdb buf lun r t' w'} (h : Began E t w ptr cdb buf lun r t' w')
    (hop : byte cdb 0 = 0x42) (ha : Accepted t') : byte cdb 2 % 64 ∈ modePages := by
  have hne := ne_nil_of_byte hop (by decide)
  obtain ⟨p, w1, hs, -⟩ := h.inv hne
  have e := h.ends hne hs
  rw [switch_unmap E cdb buf _ _ hop] at hs
  unfold beginUnmap at hs
  simp only [M.bind_run] at hs
  split at hs
  · cases hs
  · exact (ms6_success E cdb _ _ _ (by simp) p w1 hs (e.acc.mp ha)).2.1

/-- **C28**, full statement (false, see `C28_refuted`): a conforming UNMAP command (reserved bits zero) with a
valid parameter list is translated, when the page is granted, to one Dataset Management command. -/
def C28_statement : Prop := ∀ E t w ptr cdb buf lun r t' w' data rs evs,
  Began E t w ptr cdb buf lun r t' w' → GoodAllocator E → byte cdb 0 = 0x42 →
  byte cdb 1 ≤ 1 → beAt cdb 2 4 = 0 → byte cdb 6 < 32 → byte cdb 9 = 0 →
  w.mem.read buf.ptr buf.len = some data → unmapRequest cdb data = some rs →
  w'.trace = evs ++ w.trace → pagesGranted E evs →
  Accepted t' ∧ ∃ wr a, t'.GetNvmeWrappers = [wr] ∧
    wr.cmd.toBytes = deallocateSqe (nsidOfLun lun) rs.length a ∧ rangesAt w'.mem a rs

/-- Every UNMAP command whose reserved byte 2 is zero is rejected, whatever its parameter list. -/
theorem C28_conforming_rejected (E t w ptr cdb buf lun r t' w')
    (h : Began E t w ptr cdb buf lun r t' w') (hop : byte cdb 0 = 0x42) (h2 : byte cdb 2 = 0) :
    ¬ Accepted t' ∧ t'.GetNvmeWrappers = [] := by
  have hna : ¬ Accepted t' := by
    intro ha
    have := unmap_accepted_bits h hop ha
    rw [h2] at this
    revert this
    decide
  have hne := ne_nil_of_byte hop (by decide)
  obtain ⟨p, w1, hs, -⟩ := h.inv hne
  have e := h.ends hne hs
  exact ⟨hna, e.none fun hp => hna (e.acc.mpr hp)⟩

/-- C28 does not hold: the conforming UNMAP of two ranges is rejected. -/
theorem C28_refuted : ¬ C28_statement := by
  intro hall
  cases hb : (Translation.init Demo.ws).Begin boundedEnv ⟨0x100, unmapCdb.length⟩ ⟨0x8000, 40⟩ 0
      ⟨Demo.mem unmapCdb unmapData, []⟩ with
  | error e =>
    have : (match (Translation.init Demo.ws).Begin boundedEnv ⟨0x100, unmapCdb.length⟩ ⟨0x8000, 40⟩ 0
        ⟨Demo.mem unmapCdb unmapData, []⟩ with | .error _ => true | .ok _ => false) = false := by decide +kernel
    rw [hb] at this
    cases this
  | ok x =>
    obtain ⟨⟨r, t'⟩, w'⟩ := x
    have hB : Began boundedEnv (Translation.init Demo.ws) ⟨Demo.mem unmapCdb unmapData, []⟩ 0x100 unmapCdb
        ⟨0x8000, 40⟩ 0 r t' w' := ⟨IdleObject_init _, by decide +kernel, hb⟩
    have htr : w'.trace = [.dealloc 0x100000 1, .alloc 4096 0 0, .alloc 4096 1 0x100000] := by
      have : (match (Translation.init Demo.ws).Begin boundedEnv ⟨0x100, unmapCdb.length⟩ ⟨0x8000, 40⟩ 0
          ⟨Demo.mem unmapCdb unmapData, []⟩ with
        | .error _ => false
        | .ok (_, w') => decide (w'.trace = [.dealloc 0x100000 1, .alloc 4096 0 0, .alloc 4096 1 0x100000]))
          = true := by decide +kernel
      rw [hb] at this
      exact of_decide_eq_true this
    have := hall boundedEnv _ _ _ _ _ _ _ _ _ unmapData [(5, 3), (256, 2)] _ hB boundedEnv_good
      (by decide) (by decide) (by decide) (by decide) (by decide) (by decide +kernel) (by decide +kernel)
      (by rw [htr]; exact (List.append_nil _).symm)
      ⟨by simp [boundedEnv], by
        rintro ⟨ps, n, hn, hm⟩
        simp only [List.mem_cons, List.not_mem_nil, or_false, reduceCtorEq, false_or, Event.alloc.injEq] at hm
        rcases hm with ⟨-, h, -⟩ | ⟨-, -, h⟩
        · exact hn h
        · revert h; decide⟩
    exact (C28_conforming_rejected _ _ _ _ _ _ _ _ _ _ hB (by decide) (by decide)).1 this.1

/-- **C28**, what does hold: with bit 3 of byte 1 set and the page code 0Ah or 1Ah in byte 2 (both reserved in
an UNMAP command) the command is translated as it should be, except for the queue (see C29). -/
theorem C28_unmap_partial (E t w ptr cdb buf lun r t' w' data)
    (h : Began E t w ptr cdb buf lun r t' w') (hg : GoodAllocator E) (hop : byte cdb 0 = 0x42)
    (h1 : Spec.bit cdb 1 3 = true) (h2 : byte cdb 2 % 64 = 0x0a ∨ byte cdb 2 % 64 = 0x1a)
    (hdata : w.mem.read buf.ptr buf.len = some data) (rs) (hrs : unmapRequest cdb data = some rs)
    (evs) (htr : w'.trace = evs ++ w.trace) (hpg : pagesGranted E evs) :
    Accepted t' ∧ ∃ wr a, t'.GetNvmeWrappers = [wr] ∧
      wr.cmd.toBytes = deallocateSqe (nsidOfLun lun) rs.length a ∧ rangesAt w'.mem a rs := by
  have hne := ne_nil_of_byte hop (by decide)
  have hl : 6 ≤ cdb.length := by
    unfold unmapRequest at hrs
    simp only at hrs
    split at hrs
    · omega
    · cases hrs
  have hms : ∀ (p : Pipe) (w : World), p.count = 1 → beginModeSense6 E cdb.tail (nsidOf lun) p w
      = .ok ({ p with status := .kSuccess, alloc_len := BitVec.ofNat 32 (byte cdb 4) }, w) := by
    intro p w hp
    rw [ms6_dbd E cdb (nsidOf lun) p w hl (by omega) h1]
    have : msPage (attrsOf6 cdb) (nsidOf lun) p.ws p.count = (.kSuccess, p.ws, p.count) := by
      unfold msPage
      rw [attrsOf6_page]
      rw [if_neg (by omega), if_pos h2]
    rw [this]
  have hun : ∀ st wr al w1, Unmap.UnmapToNvme E cdb.tail buf (startPipe t).ws.e0 4096 (nsidOf lun)
      (startPipe t).as.e0 w = .ok ((st, wr, al), w1) →
      beginSwitch E (cdb.headD 0) cdb.tail buf (nsidOf lun) (startPipe t) w = .ok
        ({ status := .kSuccess, count := 1, ws := { t.nvme_wrappers with e0 := wr },
           as := { t.allocations with e0 := al }, alloc_len := BitVec.ofNat 32 (byte cdb 4) }, w1) := by
    intro st wr al w1 hu
    rw [switch_unmap E cdb buf _ _ hop]
    unfold beginUnmap
    simp only [M.bind_run, kPageSize, hu]
    rw [hms _ _ rfl]
    rfl
  rcases Unmap_run E cdb data buf (startPipe t).ws.e0 (nsidOf lun) (startPipe t).as.e0 (clean_e0 h.clean) w hdata
    with ⟨hn, -⟩ | ⟨rs', hrs', h0, hr⟩ | ⟨rs', hrs', hl1, hl2, h0, ds, hdl, hra, hr⟩
  · rw [hrs] at hn; cases hn
  · exfalso
    have e := h.ends hne (hun _ _ _ _ hr)
    have hw := e.world rfl
    obtain ⟨hn, hnr⟩ := hpg
    rw [hw, set_trace hn w] at htr
    have := List.append_cancel_right htr
    apply hnr
    rw [← this]
    exact (refused_set E w).mpr h0
  · rw [hrs] at hrs'
    cases hrs'
    have hm := set_mapped hg w h0 (16 * rs.length) (by omega)
    have e := h.ends hne (hun _ _ _ _ (hr hm))
    refine ⟨e.acc.mpr rfl, _, (setA E w).toNat, e.cmds rfl, ?_, ?_⟩
    · rw [← nsidOf_toNat]; exact dsmCmd_toBytes _ _ hl2 _
    · rw [e.world rfl]; exact hra _ _

/-- UNMAP with the reserved bits set that make it pass. -/
def unmapOdd : List Byte := [0x42, 8, 0x0a, 0, 0, 0, 0, 0, 40, 0]

example : ∃ r t' w', Began boundedEnv (Translation.init Demo.ws) ⟨Demo.mem unmapOdd unmapData, []⟩ 0x100 unmapOdd
    ⟨0x8000, 40⟩ 3 r t' w' ∧ Accepted t' ∧
      t'.GetNvmeWrappers.map (fun wr => wr.cmd.toBytes) = [deallocateSqe 4 2 0x100000] ∧
      unmapRequest unmapOdd unmapData = some [(5, 3), (256, 2)] :=
  began_of _ _ _ _ _ _ _ (fun _ t' => Accepted t' ∧ _ = _ ∧ _ = _)
    (by decide +kernel) (by decide +kernel)

end Scsi2Nvme
