import Verif.Proofs.Unmap
/-!
# Closed forms of the cases of the `switch` in `Begin`, third part
-/

namespace Scsi2Nvme
open Spec

/-! ## MODE SENSE(6) -/

/-- The attributes in a MODE SENSE(6) (or, by fall through, UNMAP) CDB. -/
def attrsOf6 (cdb : List Byte) : ModeSense.CommonCmdAttributes :=
  ModeSense.attrs6 (Scsi.ModeSense6Command.ofBytes (cdb.tail.take Scsi.ModeSense6Command.size))

theorem byte_div64 (cdb : List Byte) (i : Nat) : byte cdb i / 64 % 4 = byte cdb i / 64 := by
  have := byte_lt cdb i
  omega

theorem attrsOf6_page (cdb : List Byte) : (attrsOf6 cdb).page_code.toNat = byte cdb 2 % 64 := by
  have := fieldBits cdb 5 8 6 1 0 (by omega) (by omega) (by omega)
  simp only [Nat.reduceAdd, Nat.pow_zero, Nat.div_one, Nat.reducePow] at this
  exact this

theorem attrsOf6_pc (cdb : List Byte) : (attrsOf6 cdb).pc.toNat = byte cdb 2 / 64 := by
  have := fieldBits cdb 5 14 2 1 6 (by omega) (by omega) (by omega)
  rw [← byte_div64]
  simp only [Nat.reduceAdd, Nat.reducePow] at this
  exact this

theorem attrsOf6_dbd (cdb : List Byte) : (attrsOf6 cdb).dbd = Spec.bit cdb 1 3 := by
  exact fieldBit cdb 5 3 0 3 (by omega) (by omega) (by omega)

theorem attrsOf6_len (cdb : List Byte) :
    (Scsi.ModeSense6Command.ofBytes (cdb.tail.take Scsi.ModeSense6Command.size)).alloc_length.setWidth 32
      = BitVec.ofNat 32 (byte cdb 4) := by
  have := field8 cdb 5 24 3 (by omega) (by omega)
  apply BitVec.eq_of_toNat_eq
  rw [BitVec.toNat_setWidth, BitVec.toNat_ofNat]
  exact congrArg (· % 2 ^ 32) this

theorem ms6_short (E : Env) (cdb : List Byte) (nsid : U32) (p : Pipe) (w : World) (hl : cdb.length < 6) :
    beginModeSense6 E cdb.tail nsid p w = .ok ({ p with status := .kFailure }, w) := by
  unfold beginModeSense6 ModeSense.ModeSense6ToNvme
  rw [readValue_none (by simp [Scsi.ModeSense6Command.size]; omega)]
  rfl

theorem ms6_dbd (E : Env) (cdb : List Byte) (nsid : U32) (p : Pipe) (w : World) (hl : 6 ≤ cdb.length)
    (hn : p.count < 3) (hd : Spec.bit cdb 1 3 = true) :
    beginModeSense6 E cdb.tail nsid p w
      = let r := msPage (attrsOf6 cdb) nsid p.ws p.count
        .ok ({ p with status := r.1, count := r.2.2, ws := r.2.1,
                      alloc_len := BitVec.ofNat 32 (byte cdb 4) }, w) := by
  unfold beginModeSense6 ModeSense.ModeSense6ToNvme
  rw [readValue_some (by simp [Scsi.ModeSense6Command.size]; omega)]
  have := ModeSense_dbd E (attrsOf6 cdb) p.ws p.as.e0 nsid p.count hn w (by rw [attrsOf6_dbd]; exact hd)
  unfold attrsOf6 at this
  simp only [M.bind_run, kPageSize, this, M.pure_run, attrsOf6_len]
  rfl

theorem ms6_used (E : Env) (cdb : List Byte) (nsid : U32) (p : Pipe) (w : World) (hl : 6 ≤ cdb.length)
    (hn : p.count < 3) (hd : Spec.bit cdb 1 3 = false) (ha : p.as.e0.data_addr ≠ 0) :
    beginModeSense6 E cdb.tail nsid p w
      = .ok ({ p with status := .kFailure, count := p.count + 1
                      ws := p.ws.put p.count (halfIdentify ((p.ws.get? p.count).getD p.ws.e0) nsid)
                      alloc_len := BitVec.ofNat 32 (byte cdb 4) }, w) := by
  unfold beginModeSense6 ModeSense.ModeSense6ToNvme
  rw [readValue_some (by simp [Scsi.ModeSense6Command.size]; omega)]
  have := ModeSense_used E (attrsOf6 cdb) p.ws p.as.e0 nsid p.count hn w (by rw [attrsOf6_dbd]; exact hd) ha
  unfold attrsOf6 at this
  simp only [M.bind_run, kPageSize, this, M.pure_run, attrsOf6_len]

theorem ms6_fail (E : Env) (cdb : List Byte) (nsid : U32) (p : Pipe) (w : World) (hl : 6 ≤ cdb.length)
    (hn : p.count < 3) (hd : Spec.bit cdb 1 3 = false) (ha : p.as.e0.data_addr = 0) (h0 : setA E w = 0) :
    beginModeSense6 E cdb.tail nsid p w
      = .ok ({ status := .kFailure, count := p.count + 1
               ws := p.ws.put p.count (halfIdentify ((p.ws.get? p.count).getD p.ws.e0) nsid)
               as := { p.as with e0 := setAl E w }
               alloc_len := BitVec.ofNat 32 (byte cdb 4) }, setW E w) := by
  unfold beginModeSense6 ModeSense.ModeSense6ToNvme
  rw [readValue_some (by simp [Scsi.ModeSense6Command.size]; omega)]
  have := ModeSense_fail E (attrsOf6 cdb) p.ws p.as.e0 nsid p.count hn w (by rw [attrsOf6_dbd]; exact hd) ha h0
  unfold attrsOf6 at this
  simp only [M.bind_run, kPageSize, this, M.pure_run, attrsOf6_len]

theorem ms6_ok (E : Env) (cdb : List Byte) (nsid : U32) (p : Pipe) (w : World) (hl : 6 ≤ cdb.length)
    (hn : p.count < 2) (hd : Spec.bit cdb 1 3 = false) (ha : p.as.e0.data_addr = 0) (h0 : setA E w ≠ 0) :
    beginModeSense6 E cdb.tail nsid p w
      = let r := msPage (attrsOf6 cdb) nsid (p.ws.put p.count (identifyWr nsid 0 (setA E w))) (p.count + 1)
        .ok ({ status := r.1, count := r.2.2, ws := r.2.1, as := { p.as with e0 := setAl E w }
               alloc_len := BitVec.ofNat 32 (byte cdb 4) }, setW E w) := by
  unfold beginModeSense6 ModeSense.ModeSense6ToNvme
  rw [readValue_some (by simp [Scsi.ModeSense6Command.size]; omega)]
  have := ModeSense_ok E (attrsOf6 cdb) p.ws p.as.e0 nsid p.count hn w (by rw [attrsOf6_dbd]; exact hd) ha h0
  unfold attrsOf6 at this
  simp only [M.bind_run, kPageSize, this, M.pure_run, attrsOf6_len]
  rfl

/-! ## REPORT LUNS -/

theorem rl_short (E : Env) (cdb : List Byte) (p : Pipe) (w : World) (hl : cdb.length < 12) :
    beginReportLuns E cdb.tail p w = .ok ({ p with status := .kInvalidInput, count := 1 }, w) := by
  unfold beginReportLuns ReportLuns.ReportLunsToNvme
  rw [readValue_none (by simp [Scsi.ReportLunsCommand.size]; omega)]
  rfl

theorem rl_select (cdb : List Byte) :
    ((Scsi.ReportLunsCommand.ofBytes (cdb.tail.take Scsi.ReportLunsCommand.size)).select_report
        ≠ Scsi.SelectReport.kRestrictedMethods
      ∧ (Scsi.ReportLunsCommand.ofBytes (cdb.tail.take Scsi.ReportLunsCommand.size)).select_report
        ≠ Scsi.SelectReport.kWellKnown
      ∧ (Scsi.ReportLunsCommand.ofBytes (cdb.tail.take Scsi.ReportLunsCommand.size)).select_report
        ≠ Scsi.SelectReport.kAllLogical) ↔ 2 < byte cdb 2 := by
  have := field8 cdb 11 8 1 (by omega) (by omega)
  have h : (Scsi.ReportLunsCommand.ofBytes (cdb.tail.take Scsi.ReportLunsCommand.size)).select_report.toNat
    = byte cdb 2 := this
  rw [← h]
  generalize (Scsi.ReportLunsCommand.ofBytes (cdb.tail.take Scsi.ReportLunsCommand.size)).select_report = s
  rw [ne_eq, ne_eq, ne_eq]
  have e0 : s = Scsi.SelectReport.kRestrictedMethods ↔ s.toNat = 0 := bv_eq_iff _ 0 (by decide)
  have e1 : s = Scsi.SelectReport.kWellKnown ↔ s.toNat = 1 := bv_eq_iff _ 1 (by decide)
  have e2 : s = Scsi.SelectReport.kAllLogical ↔ s.toNat = 2 := bv_eq_iff _ 2 (by decide)
  rw [e0, e1, e2]
  omega

theorem rl_len (cdb : List Byte) (hl : 12 ≤ cdb.length) :
    bswap 4 (Scsi.ReportLunsCommand.ofBytes (cdb.tail.take Scsi.ReportLunsCommand.size)).alloc_length
      = BitVec.ofNat 32 (beAt cdb 6 4) := by
  have := field32 cdb 11 40 5 (by omega) (by omega) (by omega)
  apply BitVec.eq_of_toNat_eq
  rw [BitVec.toNat_ofNat, Nat.mod_eq_of_lt (beAt_lt cdb 6 4)]
  exact this

theorem rl_bad (E : Env) (cdb : List Byte) (p : Pipe) (w : World) (hl : 12 ≤ cdb.length)
    (hs : 2 < byte cdb 2) :
    beginReportLuns E cdb.tail p w = .ok ({ p with status := .kInvalidInput, count := 1 }, w) := by
  unfold beginReportLuns ReportLuns.ReportLunsToNvme
  rw [readValue_some (by simp [Scsi.ReportLunsCommand.size]; omega)]
  simp only [rl_select]
  rw [if_pos hs]
  rfl

theorem rl_used (E : Env) (cdb : List Byte) (p : Pipe) (w : World) (hl : 12 ≤ cdb.length)
    (hs : byte cdb 2 ≤ 2) (ha : p.as.e0.data_addr ≠ 0) :
    beginReportLuns E cdb.tail p w = .ok ({ p with
      status := .kFailure, count := 1
      ws := { p.ws with e0 := { p.ws.e0 with cmd := { opc := Nvme.AdminOpcode.kIdentify, cdw_0 := 0x2 } } }
      alloc_len := BitVec.ofNat 32 (beAt cdb 6 4) }, w) := by
  unfold beginReportLuns ReportLuns.ReportLunsToNvme
  rw [readValue_some (by simp [Scsi.ReportLunsCommand.size]; omega)]
  simp only [rl_select]
  rw [if_neg (by omega)]
  simp only [M.bind_run, kPageSize, SetPages_used E _ _ ha, if_true, M.pure_run, ntohl_def, rl_len cdb hl]

theorem rl_fail (E : Env) (cdb : List Byte) (p : Pipe) (w : World) (hl : 12 ≤ cdb.length)
    (hs : byte cdb 2 ≤ 2) (ha : p.as.e0.data_addr = 0) (h0 : setA E w = 0) :
    beginReportLuns E cdb.tail p w = .ok ({
      status := .kFailure, count := 1
      ws := { p.ws with e0 := { p.ws.e0 with cmd := { opc := Nvme.AdminOpcode.kIdentify, cdw_0 := 0x2 } } }
      as := { p.as with e0 := setAl E w }
      alloc_len := BitVec.ofNat 32 (beAt cdb 6 4) }, setW E w) := by
  unfold beginReportLuns ReportLuns.ReportLunsToNvme
  rw [readValue_some (by simp [Scsi.ReportLunsCommand.size]; omega)]
  simp only [rl_select]
  rw [if_neg (by omega)]
  simp only [M.bind_run, kPageSize, SetPages_free E _ _ ha, h0, if_true, M.pure_run, ntohl_def,
    rl_len cdb hl]

theorem rl_ok (E : Env) (cdb : List Byte) (p : Pipe) (w : World) (hl : 12 ≤ cdb.length)
    (hs : byte cdb 2 ≤ 2) (ha : p.as.e0.data_addr = 0) (h0 : setA E w ≠ 0) :
    beginReportLuns E cdb.tail p w = .ok ({
      status := .kSuccess, count := 1
      ws := { p.ws with e0 := identifyWr 0 2 (setA E w) }
      as := { p.as with e0 := setAl E w }
      alloc_len := BitVec.ofNat 32 (beAt cdb 6 4) }, setW E w) := by
  unfold beginReportLuns ReportLuns.ReportLunsToNvme
  rw [readValue_some (by simp [Scsi.ReportLunsCommand.size]; omega)]
  simp only [rl_select]
  rw [if_neg (by omega)]
  simp only [M.bind_run, kPageSize, SetPages_free E _ _ ha, h0, if_false, reduceCtorEq, M.pure_run,
    ntohl_def, rl_len cdb hl]
  rfl

/-! ## READ CAPACITY(10) -/

theorem rc_naca (cdb : List Byte) :
    (Scsi.ReadCapacity10Command.ofBytes (cdb.tail.take Scsi.ReadCapacity10Command.size)).naca = 1
      ↔ Spec.bit cdb 9 2 = true := bit_false_iff cdb 9 66 8 2 (by omega) (by omega) (by omega)

theorem rc_short (E : Env) (cdb : List Byte) (nsid : U32) (p : Pipe) (w : World) (hl : cdb.length < 10) :
    beginReadCapacity10 E cdb.tail nsid p w
      = .ok ({ p with status := .kInvalidInput, count := 1 }, w) := by
  unfold beginReadCapacity10 ReadCapacity.ReadCapacity10ToNvme
  rw [readValue_none (by simp [Scsi.ReadCapacity10Command.size]; omega)]
  rfl

theorem rc_bad (E : Env) (cdb : List Byte) (nsid : U32) (p : Pipe) (w : World) (hl : 10 ≤ cdb.length)
    (hs : Spec.bit cdb 9 2 = true) :
    beginReadCapacity10 E cdb.tail nsid p w
      = .ok ({ p with status := .kInvalidInput, count := 1 }, w) := by
  unfold beginReadCapacity10 ReadCapacity.ReadCapacity10ToNvme
  rw [readValue_some (by simp [Scsi.ReadCapacity10Command.size]; omega)]
  simp only [rc_naca]
  rw [if_pos hs]
  rfl

theorem rc_fail (E : Env) (cdb : List Byte) (nsid : U32) (p : Pipe) (w : World) (hl : 10 ≤ cdb.length)
    (hs : Spec.bit cdb 9 2 = false) (ha : p.as.e0.data_addr = 0) (h0 : setA E w = 0) :
    beginReadCapacity10 E cdb.tail nsid p w = .ok ({ p with
      status := .kFailure, count := 1, as := { p.as with e0 := setAl E w }, alloc_len := 8 },
      setW E w) := by
  unfold beginReadCapacity10 ReadCapacity.ReadCapacity10ToNvme
  rw [readValue_some (by simp [Scsi.ReadCapacity10Command.size]; omega)]
  simp only [rc_naca]
  rw [if_neg (by simp [hs])]
  simp only [M.bind_run, kPageSize, SetPages_free E _ _ ha, h0, if_true, M.pure_run, ne_eq,
    reduceCtorEq, not_false_eq_true]

theorem rc_ok (E : Env) (cdb : List Byte) (nsid : U32) (p : Pipe) (w : World) (hl : 10 ≤ cdb.length)
    (hs : Spec.bit cdb 9 2 = false) (ha : p.as.e0.data_addr = 0) (h0 : setA E w ≠ 0) :
    beginReadCapacity10 E cdb.tail nsid p w = .ok ({
      status := .kSuccess, count := 1
      ws := { p.ws with e0 := identifyWr nsid 0 (setA E w) }
      as := { p.as with e0 := setAl E w }, alloc_len := 8 }, setW E w) := by
  unfold beginReadCapacity10 ReadCapacity.ReadCapacity10ToNvme
  rw [readValue_some (by simp [Scsi.ReadCapacity10Command.size]; omega)]
  simp only [rc_naca]
  rw [if_neg (by simp [hs])]
  simp only [M.bind_run, kPageSize, SetPages_free E _ _ ha, h0, if_false, M.pure_run, ne_eq,
    reduceCtorEq, not_true_eq_false]
  rfl

/-! ## REQUEST SENSE -/

theorem rs_closed (cdb : List Byte) (p : Pipe) :
    beginRequestSense cdb.tail p
      = if cdb.length < 6 ∨ Spec.bit cdb 5 2 = true then { p with status := .kInvalidInput }
        else { p with status := .kSuccess, alloc_len := BitVec.ofNat 32 (byte cdb 4) } := by
  unfold beginRequestSense RequestSense.RequestSenseToNvme
  rcases Nat.lt_or_ge cdb.length 6 with hl | hl
  · rw [readValue_none (by simp [Scsi.RequestSenseCommand.size]; omega), if_pos (Or.inl hl)]
  · rw [readValue_some (by simp [Scsi.RequestSenseCommand.size]; omega)]
    have hn : (Scsi.RequestSenseCommand.ofBytes (cdb.tail.take Scsi.RequestSenseCommand.size)).naca = 1
      ↔ Spec.bit cdb 5 2 = true := bit_false_iff cdb 5 34 4 2 (by omega) (by omega) (by omega)
    have ha : (Scsi.RequestSenseCommand.ofBytes
        (cdb.tail.take Scsi.RequestSenseCommand.size)).allocation_length.setWidth 32
        = BitVec.ofNat 32 (byte cdb 4) := by
      have := field8 cdb 5 24 3 (by omega) (by omega)
      apply BitVec.eq_of_toNat_eq
      rw [BitVec.toNat_setWidth, BitVec.toNat_ofNat]
      exact congrArg (· % 2 ^ 32) this
    simp only [hn, ha]
    by_cases h : Spec.bit cdb 5 2 = true
    · rw [if_pos h, if_pos (Or.inr h)]
    · rw [if_neg h, if_neg (by simp [h]; omega)]

/-! ## VERIFY(10) -/

theorem BuildPrInfo_toNat (a b : Byte) :
    (Verify.BuildPrInfo a b).toNat = 8 + verifyPrchk a.toNat b.toNat := by
  have ha : a = 0 ↔ a.toNat = 0 := bv_eq_iff _ 0 (by decide)
  have hb : a = 1 ↔ a.toNat = 1 := bv_eq_iff _ 1 (by decide)
  unfold Verify.BuildPrInfo verifyPrchk
  simp only [ha, hb]
  generalize a.toNat = x
  generalize b.toNat = y
  by_cases h0 : x = 0
  · simp only [h0, if_true]
    by_cases h6 : y < 6
    · have : y = 0 ∨ y = 1 ∨ y = 2 ∨ y = 3 ∨ y = 4 ∨ y = 5 := by omega
      rcases this with rfl | rfl | rfl | rfl | rfl | rfl <;> rfl
    · obtain ⟨n, rfl⟩ := Nat.exists_eq_add_of_le (Nat.not_lt.mp h6)
      split <;> split <;> first | omega | rfl
  · simp only [h0, if_false]
    by_cases h1 : x = 1
    · simp only [h1, if_true, true_and]
      match y with
      | 0 => rfl
      | n + 1 => simp
    · simp only [h1, if_false, false_and]; rfl

theorem Verify_closed (cdb : List Byte) (wr : NvmeCmdWrapper) :
    (if cdb.length < 10 ∨ beAt cdb 7 2 = 0 ∨ Spec.bit cdb 9 2 = true then
      ∃ st, st ≠ .kSuccess ∧ Verify.VerifyToNvme cdb.tail wr = (st, wr)
    else ∃ wr', Verify.VerifyToNvme cdb.tail wr = (.kSuccess, wr') ∧
      wr'.cmd.toBytes = compareSqe 0 (beAt cdb 2 4) (beAt cdb 7 2)
        (verifyPrchk (byte cdb 1 / 2 % 4) (byte cdb 1 / 32)) true ∧
      wr'.cmd.opc = 0x05 ∧ wr'.cmd.nsid = 0 ∧ wr'.is_admin = false ∧ wr'.buffer_len = wr.buffer_len) := by
  unfold Verify.VerifyToNvme
  rcases Nat.lt_or_ge cdb.length 10 with hl | hl
  · rw [readValue_none (by simp [Scsi.Verify10Command.size]; omega), if_pos (Or.inl hl)]
    exact ⟨_, by decide, rfl⟩
  rw [readValue_some (by simp [Scsi.Verify10Command.size]; omega)]
  have fl := field16 cdb 9 48 6 (by omega) (by omega) (by omega)
  have fa := field32 cdb 9 8 1 (by omega) (by omega) (by omega)
  have fn : (Scsi.Verify10Command.ofBytes (cdb.tail.take Scsi.Verify10Command.size)).naca = 1
      ↔ Spec.bit cdb 9 2 = true := bit_false_iff cdb 9 66 8 2 (by omega) (by omega) (by omega)
  have fb := fieldBits cdb 9 1 2 0 1 (by omega) (by omega) (by omega)
  have fv := fieldTop3 cdb 9 5 0 (by omega) (by omega)
  simp only [Nat.reduceAdd, Nat.zero_add, Nat.reducePow, Nat.pow_one] at fl fa fb fv
  change (bswap 2 (Scsi.Verify10Command.ofBytes (cdb.tail.take Scsi.Verify10Command.size)).verification_length).toNat = _ at fl
  change (bswap 4 (Scsi.Verify10Command.ofBytes (cdb.tail.take Scsi.Verify10Command.size)).logical_block_address).toNat = _ at fa
  change (Scsi.Verify10Command.ofBytes (cdb.tail.take Scsi.Verify10Command.size)).bytchk.toNat = _ at fb
  change (Scsi.Verify10Command.ofBytes (cdb.tail.take Scsi.Verify10Command.size)).vr_protect.toNat = _ at fv
  generalize Scsi.Verify10Command.ofBytes (cdb.tail.take Scsi.Verify10Command.size) = c at fl fa fn fb fv ⊢
  have hz : c.verification_length = 0 ↔ beAt cdb 7 2 = 0 := by
    rw [← fl]
    constructor
    · intro h; rw [h]; decide
    · intro h
      have : bswap 2 c.verification_length = bswap 2 (0 : U16) := by
        apply BitVec.eq_of_toNat_eq; rw [h]; decide
      have := congrArg (bswap 2) this
      rwa [bswap_bswap, bswap_bswap] at this
  simp only [hz, fn]
  by_cases h1 : beAt cdb 7 2 = 0
  · rw [if_pos h1, if_pos (by omega)]; exact ⟨_, by decide, rfl⟩
  by_cases h2 : Spec.bit cdb 9 2 = true
  · rw [if_neg h1, if_pos h2, if_pos (by simp [h2])]; exact ⟨_, by decide, rfl⟩
  rw [if_neg h1, if_neg h2, if_neg (by simp [h1, h2]; omega)]
  refine ⟨_, rfl, ?_, rfl, rfl, rfl, rfl⟩
  have hcmd := toBytes_sqe Nvme.NvmOpcode.kCompare 0 0 (bswap_32 c.logical_block_address) 0
    (htoll (((ntohs c.verification_length).setWidth 32 - 1)
      ||| ((Verify.BuildPrInfo (c.bytchk.setWidth 8) (c.vr_protect.setWidth 8)).setWidth 32 <<< 26)))
  refine hcmd.trans ?_
  unfold compareSqe
  have hlt := beAt_lt cdb 2 4
  have hlt2 := beAt_lt cdb 7 2
  have e0 : (bswap_32 c.logical_block_address).toNat = beAt cdb 2 4 % 2 ^ 32 := by
    rw [Nat.mod_eq_of_lt hlt]; exact fa
  have e1 : (0 : U32).toNat = beAt cdb 2 4 / 2 ^ 32 := by
    rw [Nat.div_eq_of_lt hlt]; rfl
  have hp := BuildPrInfo_toNat (c.bytchk.setWidth 8) (c.vr_protect.setWidth 8)
  have eb : (c.bytchk.setWidth 8).toNat = byte cdb 1 / 2 % 4 := by
    rw [BitVec.toNat_setWidth, fb]; omega
  have ev : (c.vr_protect.setWidth 8).toNat = byte cdb 1 / 32 := by
    rw [BitVec.toNat_setWidth, fv]; have := byte_lt cdb 1; omega
  rw [eb, ev] at hp
  have hpc : verifyPrchk (byte cdb 1 / 2 % 4) (byte cdb 1 / 32) < 8 := by
    unfold verifyPrchk; split
    · split <;> omega
    · split <;> omega
  have e2 : (htoll (((ntohs c.verification_length).setWidth 32 - 1)
      ||| ((Verify.BuildPrInfo (c.bytchk.setWidth 8) (c.vr_protect.setWidth 8)).setWidth 32 <<< 26))).toNat
      = ioCdw12 (beAt cdb 7 2) (verifyPrchk (byte cdb 1 / 2 % 4) (byte cdb 1 / 32)) true false := by
    have hne : (ntohs c.verification_length) ≠ 0 := by
      intro hh
      apply h1
      rw [← fl]
      have := congrArg BitVec.toNat hh
      simpa using this
    have := cdw12_toNat (ntohs c.verification_length)
      (Verify.BuildPrInfo (c.bytchk.setWidth 8) (c.vr_protect.setWidth 8)) false hne (by omega)
    have fl' : (ntohs c.verification_length).toNat = beAt cdb 7 2 := fl
    rw [hp, fl'] at this
    unfold ioCdw12
    simp only [Bool.toNat_false, Bool.toNat_true, Nat.mul_zero, Nat.add_zero, Nat.mul_one] at this ⊢
    rw [show ∀ x, (beAt cdb 7 2 - 1) + 2 ^ 26 * x + 2 ^ 29 = (beAt cdb 7 2 - 1) + 2 ^ 26 * (8 + x) by
      intro x; omega, ← this]
    unfold Read.BuildCdw12
    simp only [htoll_def, Bool.false_eq_true, if_false]
    congr 1
    rw [BitVec.or_comm]
    simp
  rw [e0, e2]
  refine congrArg (fun x => sqe 5 0 0 (beAt cdb 2 4 % 2 ^ 32) x (ioCdw12 (beAt cdb 7 2)
    (verifyPrchk (byte cdb 1 / 2 % 4) (byte cdb 1 / 32)) true false)) e1

end Scsi2Nvme
