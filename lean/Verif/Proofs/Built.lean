import Verif.Properties.ReadWrite
import Verif.Properties.UnmapProps
/-!
# All commands handed out for an accepted SCSI command
-/

namespace Scsi2Nvme
open Spec

/-- The commands `Begin` builds (for anything but UNMAP), with their queue flags. -/
inductive Built (lun : U64) (buf : Span) : Nat → List Byte → Bool → Prop
  | read (opc lba blocks prchk pract fua) (h : isRead opc) : Built lun buf opc
      (readSqe (nsidOfLun lun) lba blocks prchk pract fua (prpOf buf)) false
  | write (opc lba blocks prchk pract fua) (h : isWrite opc) : Built lun buf opc
      (writeSqe (nsidOfLun lun) lba blocks prchk pract fua (prpOf buf)) false
  | writeHuge (opc lo hi) (h : isWrite opc) : Built lun buf opc
      (sqe 0x01 (nsidOfLun lun) (prpOf buf) lo hi 0xffffffff) false
  | flush : Built lun buf 0x35 (flushSqe (nsidOfLun lun)) false
  | compare (lba blocks prchk) : Built lun buf 0x2f (compareSqe 0 lba blocks prchk true) false
  | identifyNs (opc a) : Built lun buf opc (identifySqe (nsidOfLun lun) 0 a) true
  | identifyCtrl (a) : Built lun buf 0x12 (identifySqe 0 1 a) true
  | identifyList (opc a) : Built lun buf opc (identifySqe 0 2 a) true
  | getFeatures (sel) (h : sel < 4) : Built lun buf 0x1a (getFeaturesSqe (nsidOfLun lun) 6 sel) true

/-- REPORT LUNS from any starting point, successful. -/
theorem rl_success (E : Env) (cdb : List Byte) (p : Pipe) (w : World) (p' : Pipe) (w' : World)
    (h : beginReportLuns E cdb.tail p w = .ok (p', w')) (hs : p'.status = .kSuccess) :
    12 ≤ cdb.length ∧ byte cdb 2 ≤ 2 ∧ p.as.e0.data_addr = 0 ∧ setA E w ≠ 0 ∧ p'.count = 1 ∧
      p'.ws = { p.ws with e0 := identifyWr 0 2 (setA E w) } ∧ p'.as = { p.as with e0 := setAl E w } ∧
      w' = setW E w ∧ p'.alloc_len = BitVec.ofNat 32 (beAt cdb 6 4) := by
  rcases Nat.lt_or_ge cdb.length 12 with hl | hl
  · rw [rl_short E cdb p w hl] at h; cases h; cases hs
  rcases Nat.lt_or_ge 2 (byte cdb 2) with hb | hb
  · rw [rl_bad E cdb p w hl hb] at h; cases h; cases hs
  by_cases ha : p.as.e0.data_addr = 0
  · by_cases h0 : setA E w = 0
    · rw [rl_fail E cdb p w hl hb ha h0] at h; cases h; cases hs
    · rw [rl_ok E cdb p w hl hb ha h0] at h; cases h
      exact ⟨hl, hb, ha, h0, rfl, rfl, rfl, rfl, rfl⟩
  · rw [rl_used E cdb p w hl hb ha] at h; cases h; cases hs

/-- An accepted MAINTENANCE IN or MODE SENSE(10) is a REPORT LUNS. -/
theorem fallthrough_luns {E t w ptr cdb buf lun r t' w'} (h : Began E t w ptr cdb buf lun r t' w')
    (hop : byte cdb 0 = 0xa3 ∨ byte cdb 0 = 0x5a) (ha : Accepted t') :
    12 ≤ cdb.length ∧ byte cdb 2 ≤ 2 ∧ r.alloc_len.toNat = beAt cdb 6 4 ∧
      ∃ a wr, t'.GetNvmeWrappers = [wr] ∧ a ≠ 0 ∧ wr = identifyWr 0 2 a ∧
        ∃ w0, setA E w0 = a ∧ w' = setW E w0 ∧
          (byte cdb 0 = 0x5a → Spec.bit cdb 1 3 = true ∨ (setA E w = 0 ∧ w0 = setW E w)) := by
  have hne : cdb ≠ [] := by rcases hop with h | h <;> exact ne_nil_of_byte h (by decide)
  obtain ⟨p, w1, hs, -⟩ := h.inv hne
  have e := h.ends hne hs
  have hst := e.acc.mp ha
  have key : ∃ p0 w0, beginReportLuns E cdb.tail p0 w0 = .ok (p, w1) ∧
      (byte cdb 0 = 0x5a → 10 ≤ cdb.length → p0.as.e0.data_addr = 0 →
        Spec.bit cdb 1 3 = true ∨ (setA E w = 0 ∧ w0 = setW E w)) := by
    rcases hop with hop | hop
    · rw [switch_maintenance E cdb buf _ _ hop] at hs
      obtain ⟨st, al, e1⟩ := maint_run E cdb (startPipe t)
      rw [e1] at hs
      exact ⟨_, _, hs, fun h => by omega⟩
    · rw [switch_modesense10 E cdb buf _ _ hop] at hs
      obtain ⟨p1, hp1, e1⟩ := ms10_run E cdb (nsidOf lun) (startPipe t) w h.count0 (clean_e0 h.clean)
      rw [e1] at hs
      refine ⟨_, _, hs, fun _ hl h0 => ?_⟩
      by_cases hb : Spec.bit cdb 1 3 = true
      · exact Or.inl hb
      · right
        rw [if_pos ⟨hl, by simpa using hb⟩] at hp1
        rw [hp1] at h0
        exact ⟨h0, if_pos ⟨hl, by simpa using hb⟩⟩
  obtain ⟨p0, w0, hr, hk⟩ := key
  obtain ⟨hl, hb, h0, hA, hc, hw, -, hw1, hal⟩ := rl_success E cdb p0 w0 p w1 hr hst
  refine ⟨hl, hb, ?_, setA E w0, p.ws.e0, by rw [e.cmds hst, hc]; rfl, hA, by rw [hw], w0, rfl,
    by rw [e.world hst, hw1], fun h5 => hk h5 (by omega) h0⟩
  rw [e.resp, hal, BitVec.toNat_ofNat, Nat.mod_eq_of_lt (beAt_lt cdb 6 4)]

/-- Every command handed out for an accepted SCSI command other than UNMAP. -/
theorem built {E t w ptr cdb buf lun r t' w'} (h : Began E t w ptr cdb buf lun r t' w')
    (hne : cdb ≠ []) (hop : byte cdb 0 ≠ 0x42) (ha : Accepted t') :
    ∀ x ∈ t'.GetNvmeWrappers, Built lun buf (byte cdb 0) x.cmd.toBytes x.is_admin := by
  have one : ∀ {wr : NvmeCmdWrapper} {P : NvmeCmdWrapper → Prop}, t'.GetNvmeWrappers = [wr] → P wr →
      ∀ x ∈ t'.GetNvmeWrappers, P x := by
    intro wr P h1 h2 x hx
    rw [h1] at hx
    simp only [List.mem_cons, List.not_mem_nil, or_false] at hx
    rw [hx]; exact h2
  rcases opcode_cases (byte cdb 0) with ho | ho | ho | ho | ho | ho | ho | ho | ho | ho | ho | ho | ho | ho
  · have e := h.ends hne (by rw [switch_unknown E cdb buf _ _ ho]; rfl)
    exact absurd (e.acc.mp ha) (by simp)
  · obtain ⟨rw_, pract, prchk, wr, -, -, hc, hb, had, -⟩ := C18_read E t w ptr cdb buf lun r t' w' h ho ha
    exact one hc (by rw [hb, had]; exact .read _ _ _ _ _ _ ho)
  · obtain ⟨rw_, pract, prchk, wr, -, -, -, hc, hb, had, -⟩ := C21_write_all E t w ptr cdb buf lun r t' w' h ho ha
    refine one hc ?_
    rw [hb, had]
    split
    · exact .writeHuge _ _ _ ho
    · exact .write _ _ _ _ _ _ ho
  · have e := h.ends hne (by rw [switch_tur E cdb buf _ _ ho]; rfl)
    rw [e.cmds rfl]
    simp only [h.count0, List.take_zero]
    simp
  · have e := h.ends hne (by rw [switch_requestsense E cdb buf _ _ ho, rs_closed]; rfl)
    rw [e.cmds (e.acc.mp ha)]
    have : (if cdb.length < 6 ∨ Spec.bit cdb 5 2 = true then { startPipe t with status := .kInvalidInput }
        else { startPipe t with status := .kSuccess, alloc_len := BitVec.ofNat 32 (byte cdb 4) }).count = 0 := by
      split <;> exact h.count0
    rw [this]
    simp
  · obtain ⟨-, a0, a1, w0, w1, -, -, hc, b0, b1, d0, d1, -⟩ := C33_inquiry E t w ptr cdb buf lun r t' w' h ho ha
    intro x hx
    rw [hc] at hx
    simp only [List.mem_cons, List.not_mem_nil, or_false] at hx
    rw [ho]
    rcases hx with rfl | rfl
    · rw [b0, d0]; exact .identifyNs _ _
    · rw [b1, d1]; exact .identifyCtrl _
  · obtain ⟨-, a, -, hc⟩ := (C49_mode_sense6 E t w ptr cdb buf lun r t' w' h ho).2.1 ha
    intro x hx
    have : (x.cmd.toBytes, x.is_admin) ∈ t'.GetNvmeWrappers.map (fun wr => (wr.cmd.toBytes, wr.is_admin)) :=
      List.mem_map.mpr ⟨x, hx, rfl⟩
    rw [hc] at this
    rw [ho]
    simp only [List.mem_append] at this
    rcases this with h1 | h1
    · split at h1
      · simp only [List.mem_cons, List.not_mem_nil, or_false, Prod.mk.injEq] at h1
        rw [h1.1, h1.2]; exact .identifyNs _ _
      · cases h1
    · split at h1
      · simp only [List.mem_cons, List.not_mem_nil, or_false, Prod.mk.injEq] at h1
        rw [h1.1, h1.2]
        refine .getFeatures _ ?_
        unfold selectFor
        split
        · omega
        · split <;> omega
      · cases h1
  · obtain ⟨-, a, wr, -, hc, hb, had, -⟩ := (C44_read_capacity_commands E t w ptr cdb buf lun r t' w' h ho).2 ha
    exact one hc (by rw [hb, had]; exact .identifyNs _ _)
  · obtain ⟨-, -, wr, hc, hb, had⟩ := (C25_verify E t w ptr cdb buf lun r t' w' h ho).2 ha
    exact one hc (by rw [hb, had, ho]; exact .compare _ _ _)
  · obtain ⟨-, -, -, wr, hc, hb, had⟩ := C24_sync E t w ptr cdb buf lun r t' w' h ho
    exact one hc (by rw [hb, had, ho]; exact .flush)
  · exact absurd ho hop
  · obtain ⟨-, -, -, a, wr, hc, -, hwr, -⟩ := fallthrough_luns h (Or.inr ho) ha
    exact one hc (by rw [hwr]; exact identifyCmd_toBytes 0 2 a ▸ .identifyList _ _)
  · obtain ⟨-, a, wr, -, hc, hb, had, -⟩ := (C46_report_luns_commands E t w ptr cdb buf lun r t' w' h ho).2 ha
    exact one hc (by rw [hb, had]; exact .identifyList _ _)
  · obtain ⟨-, -, -, a, wr, hc, -, hwr, -⟩ := fallthrough_luns h (Or.inl ho) ha
    exact one hc (by rw [hwr]; exact identifyCmd_toBytes 0 2 a ▸ .identifyList _ _)

end Scsi2Nvme
