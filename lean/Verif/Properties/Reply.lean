import Verif.Properties.Plan
import Verif.Properties.Luns
import Verif.Properties.Simple
import Verif.Properties.ModeData
import Verif.Properties.InquiryExact
import Verif.Properties.Io
import Verif.Properties.Safety2
import Verif.Spec.Reply
/-!
# C79: `Complete` as a function
-/

namespace Scsi2Nvme
open Spec

theorem wrote_nil (x : Ran) {p : Nat} (h : x.wroteNothing) : x.wrote p [] := by
  obtain ⟨evs, h1, h2⟩ := h
  refine ⟨evs, h1, fun a ha => ?_⟩
  rw [h2 a ha, put_nil, put_nil]

/-- All or nothing. -/
theorem wrote_whole (x : Ran) (p len : Nat) (bs : List Byte) (n : Nat) (hn : bs.length = n)
    (h : if n ≤ len then x.wrote p bs else x.wroteNothing) : x.wrote p (whole len bs) := by
  unfold whole
  rw [hn]
  split
  · rename_i c; rw [if_pos c] at h; exact h
  · rename_i c; rw [if_neg c] at h; exact wrote_nil x h

theorem senseData_senseBytes (j : Nat → Byte) (s : ScsiStatus) (hk : s.sense_key.toNat < 16) :
    (senseData j s).toBytes = senseBytes j (infoOf s) := by
  rw [senseData_bytes]
  unfold senseBytes infoOf
  simp only [le_eq]
  rw [Nat.mod_eq_of_lt hk]
  simp only [List.append_assoc]
  congr 4
  have e : (j 2 ++ j 3 ++ j 4 : BitVec 24).toNat = (j 4).toNat + 2 ^ 8 * ((j 3).toNat + 2 ^ 8 * (j 2).toNat) := by
    rw [BitVec.toNat_append, BitVec.toNat_append, ← Nat.shiftLeft_add_eq_or_of_lt (j 4).isLt, ← Nat.shiftLeft_add_eq_or_of_lt (j 3).isLt,
      Nat.shiftLeft_eq, Nat.shiftLeft_eq]
    omega
  rw [e]
  have h2 := (j 2).isLt
  have h3 := (j 3).isLt
  have h4 := (j 4).isLt
  simp only [leBytes, List.cons_append, List.nil_append, List.cons.injEq]
  refine ⟨?_, ?_, ?_, ?_⟩
  · apply BitVec.eq_of_toNat_eq; rw [BitVec.toNat_ofNat]; omega
  · apply BitVec.eq_of_toNat_eq; rw [BitVec.toNat_ofNat]; omega
  · apply BitVec.eq_of_toNat_eq; rw [BitVec.toNat_ofNat]; omega
  · trivial

/-- The sense buffer afterwards. -/
theorem sense_wrote (x : Ran) (hg : GoodAllocator x.E) {wm : World} (hw : x.w3 = abortW x.E x.t1 wm) {s : ScsiStatus}
    (hk : s.sense_key.toNat < 16) {ok : Bool} (hf : FillSenseBuffer x.E x.sense s x.w2 = .ok (ok, wm)) :
    x.wrote x.sense.ptr (whole x.sense.len (senseBytes (x.E.junk x.w2) (infoOf s))) := by
  change WriteValue' (senseData (x.E.junk x.w2) s).toBytes x.sense x.w2 = .ok (ok, wm) at hf
  rw [senseData_senseBytes _ _ hk] at hf
  unfold whole
  rcases WriteValue'_inv hf with ⟨a, -, -, b⟩ | ⟨a, -, b⟩
  · rw [if_pos a]; exact x.wrote_of hg hw b
  · rw [if_neg (by omega)]; exact wrote_nil x (x.wroteNothing_of hg hw b)

/-- What `Begin` handed out, in the form of a plan's result. -/
def Spec.Ran.result (x : Ran) : Option (List Handed) :=
  if Accepted x.t1 then some (x.cmds.map handed) else none

theorem mode10Head_eq (a : ModeSense.CommonCmdAttributes) (hp : a.page_code.toNat ∉ modePages) (hd : a.dbd = false) :
    ({ mode_data_length := htons (ModeSense.GetModeDataLength a true)
       dpofua := 0b01
       longlba := if a.llbaa then 1 else 0
       bdl := if a.dbd then 0
        else if a.llbaa then htons (BitVec.ofNat 16 Scsi.LongLbaBlockDescriptor.size)
        else htons (BitVec.ofNat 16 Scsi.ShortLbaBlockDescriptor.size) } : Scsi.ModeParameter10Header).toBytes
      = mode10Head a.llbaa := by
  obtain ⟨pg, pc, dbd, ll⟩ := a
  simp only at hp hd ⊢
  subst hd
  simp only [modePages, List.mem_cons, List.not_mem_nil, or_false, not_or] at hp
  unfold ModeSense.GetModeDataLength
  simp only [Bool.false_eq_true, if_false, if_true]
  rw [if_neg (fun h => hp.1 (by rw [h]; rfl)), if_neg (fun h => hp.2.1 (by rw [h]; rfl)),
    if_neg (fun h => hp.2.2.1 (by rw [h]; rfl)), if_neg (fun h => hp.2.2.2 (by rw [h]; rfl))]
  have e0 : ({ mode_data_length := htons 14, dpofua := 1, longlba := 0, bdl := htons 8 } : Scsi.ModeParameter10Header).toBytes
      = mode10Head false := by decide +kernel
  have e1 : ({ mode_data_length := htons 22, dpofua := 1, longlba := 1, bdl := htons 16 } : Scsi.ModeParameter10Header).toBytes
      = mode10Head true := by decide +kernel
  cases ll
  · rw [← e0]; rfl
  · rw [← e1]; rfl


theorem page_unsupported (pg : BitVec 6) (hp : pg.toNat ∉ modePages) (g : U32) (b : Span) :
    ModeSense.WritePageData pg g b = M.ub .missingReturn := by
  simp only [modePages, List.mem_cons, List.not_mem_nil, or_false, not_or] at hp
  unfold ModeSense.WritePageData
  rw [if_neg (fun h => hp.1 (by rw [h]; rfl)), if_neg (fun h => hp.2.1 (by rw [h]; rfl)),
    if_neg (fun h => hp.2.2.1 (by rw [h]; rfl)), if_neg (fun h => hp.2.2.2 (by rw [h]; rfl))]

theorem descriptor_inv {i : Nvme.GenericQueueEntryCmd} {b : Span} {ll ok : Bool} {n : Nat} {w w' : World}
    (h : ModeSense.WriteBlockDescriptor i b ll w = .ok ((ok, n), w')) : ok = false → w' = w := by
  intro hf
  unfold ModeSense.WriteBlockDescriptor at h
  simp only [M.bind_run] at h
  cases hl : load i.prp1.toNat 4096 w with
  | error e => rw [hl] at h; cases h
  | ok r =>
    obtain ⟨page, w1⟩ := r
    obtain ⟨rfl, -⟩ := load_inv hl
    rw [hl] at h
    simp only at h
    have shift : ∀ v (u : World) x u', ModeSense.shiftLbads v u = .ok (x, u') → u' = u := by
      intro v u x u' hs
      unfold ModeSense.shiftLbads at hs
      split at hs
      · cases hs
      · cases hs; rfl
    split at h
    all_goals
      simp only [M.bind_run] at h
      split at h
      · cases h
      · rename_i v u hs
        have := shift _ _ _ _ hs
        subst this
        split at h
        · cases h
        · rename_i ok' u' hr
          simp only [M.pure_run, Except.ok.injEq, Prod.mk.injEq] at h
          obtain ⟨⟨h1, -⟩, h2⟩ := h
          rcases WriteValue'_inv hr with ⟨-, hb, -, -⟩ | ⟨-, hb, hw⟩
          · rw [h1, hf] at hb; cases hb
          · rw [← h2]; exact hw

/-- MODE SENSE(10): at most the header is written. -/
theorem mode10_inv {a : ModeSense.CommonCmdAttributes} {g : U32} {i : Nvme.GenericQueueEntryCmd} {b : Span} {w w' : World}
    {st : StatusCode} (hp : a.page_code.toNat ∉ modePages) (h : ModeSense.ModeSenseToScsi a true g i b w = .ok (st, w')) :
    w' = { w with mem := w.mem.put b.ptr (whole b.len (mode10Head a.llbaa)) } := by
  unfold ModeSense.ModeSenseToScsi at h
  simp only [if_true, M.bind_run] at h
  cases hh : ModeSense.WriteMode10Header a b w with
  | error e => rw [hh] at h; cases h
  | ok r =>
    obtain ⟨ok, w1⟩ := r
    rw [hh] at h
    simp only at h
    unfold ModeSense.WriteMode10Header at hh
    cases hd : a.dbd with
    | true =>
      rcases WriteValue'_inv hh with ⟨-, rfl, -, -⟩ | ⟨hl, rfl, hw⟩
      · simp only [if_true, ModeSense.modeSenseBody, hd, M.bind_run, page_unsupported _ hp] at h
        cases h
      · simp only [Bool.false_eq_true, if_false, M.pure_run, Except.ok.injEq, Prod.mk.injEq] at h
        rw [← h.2, hw]
        have : (mode10Head a.llbaa).length = 8 := by cases a.llbaa <;> rfl
        rw [Scsi.ModeParameter10Header.toBytes_length] at hl
        unfold whole
        rw [if_neg (by rw [this]; exact Nat.not_le.mpr hl), put_nil]
    | false =>
      rw [mode10Head_eq a hp hd] at hh
      rcases WriteValue'_inv hh with ⟨hl, rfl, -, hw⟩ | ⟨hl, rfl, hw⟩
      · unfold whole
        rw [if_pos hl, ← hw]
        simp only [if_true, ModeSense.modeSenseBody, hd, Bool.false_eq_true, if_false, M.bind_run] at h
        split at h
        · cases h
        · rename_i r w2 hr
          obtain ⟨ok, n⟩ := r
          simp only at h
          cases ok with
          | true =>
            simp only [if_true, M.bind_run, page_unsupported _ hp] at h
            cases h
          | false =>
            simp only [Bool.false_eq_true, if_false, M.pure_run, Except.ok.injEq, Prod.mk.injEq] at h
            rw [← h.2]
            exact descriptor_inv hr rfl
      · simp only [Bool.false_eq_true, if_false, M.pure_run, Except.ok.injEq, Prod.mk.injEq] at h
        rw [← h.2, hw]
        unfold whole
        rw [if_neg (by omega), put_nil]


theorem switch_mode10 {x : Ran} (hop : byte x.cdb 0 = 0x5a) (hs : x.succeeded) :
    ∃ wm, x.w3 = abortW x.E x.t1 wm ∧ x.good ∧
      wm = { x.w2 with mem := x.w2.mem.put x.din.ptr (whole x.din.len (mode10Head (Spec.bit x.cdb 1 4))) } := by
  obtain ⟨st, wm, hw, hgd, hsw⟩ := x.switch hs
  refine ⟨wm, hw, hgd, ?_⟩
  obtain ⟨hl12, hb2, -⟩ := fallthrough_luns x.began (Or.inr hop) hs.1
  have hnp : byte x.cdb 2 % 64 ∉ modePages := by
    unfold modePages
    simp only [List.mem_cons, List.not_mem_nil, or_false]
    omega
  rw [opc_of_byte hop (by decide)] at hsw
  unfold completeSwitch at hsw
  rw [if_neg (by decide), if_neg (by decide), if_neg (by decide), if_pos (by decide)] at hsw
  cases hc : x.cpl with
  | nil => rw [hc] at hsw; cases hsw
  | cons c cs =>
    rw [hc] at hsw
    simp only [cplHead, M.bind_run, M.pure_run] at hsw
    unfold ModeSense.ModeSense10ToScsi at hsw
    rw [readValue_some (by rw [List.length_tail]; simp only [Scsi.ModeSense10Command.size]; omega)] at hsw
    split at hsw
    · cases hsw
    · rename_i st' w' hr
      simp only [Except.ok.injEq, Prod.mk.injEq] at hsw
      rw [← hsw.2]
      have := mode10_inv (a := attrsOf10 x.cdb) (by rw [attrsOf10_page]; exact hnp) hr
      rw [attrsOf10_llbaa] at this
      exact this

/-- The data returned. -/
theorem reply_data (x : Ran) (hg : GoodAllocator x.E) (hb : accessible x.w.mem x.din) (p0 p1 : List Byte)
    (h0 : readsPage x.cdb = true → x.page 0 p0) (h1 : byte x.cdb 0 = 0x12 → x.page 1 p1) (hs : x.succeeded) :
    x.good ∧ x.wrote x.din.ptr (reply x.cdb (nsidOfLun x.lun) x.din.len ((List.range 33).map (x.E.junk x.w2)) p0 p1
      ((x.cpl.map fun c => c.cdw0.toNat).getD 0 0)) := by
  have hne : x.cdb ≠ [] := (began_span x.began hs.1).1
  unfold readsPage at h0
  simp only [decide_eq_true_eq] at h0
  rcases opcode_cases (byte x.cdb 0) with ho | ho | ho | ho | ho | ho | ho | ho | ho | ho | ho | ho | ho | ho
  · exact absurd hs.1 (C55_unknown_begin _ _ _ _ _ _ _ _ _ _ x.began hne ho).1
  · obtain ⟨hgd, hw⟩ := C68_io_complete x (.inl ho) hs
    refine ⟨hgd, ?_⟩
    have : reply x.cdb (nsidOfLun x.lun) x.din.len ((List.range 33).map (x.E.junk x.w2)) p0 p1
        ((x.cpl.map fun c => c.cdw0.toNat).getD 0 0) = [] := by
      unfold reply
      rcases ho with ho | ho | ho | ho <;> rw [ho] <;> rfl
    rw [this]
    exact ⟨[], by rw [hw]; rfl, fun a _ => by rw [hw, put_nil]⟩
  · obtain ⟨hgd, hw⟩ := C68_io_complete x (.inr (.inl ho)) hs
    refine ⟨hgd, ?_⟩
    have : reply x.cdb (nsidOfLun x.lun) x.din.len ((List.range 33).map (x.E.junk x.w2)) p0 p1
        ((x.cpl.map fun c => c.cdw0.toNat).getD 0 0) = [] := by
      unfold reply
      rcases ho with ho | ho | ho | ho <;> rw [ho] <;> rfl
    rw [this]
    exact ⟨[], by rw [hw]; rfl, fun a _ => by rw [hw, put_nil]⟩
  · -- TEST UNIT READY
    have hc : x.cpl = [] := by
      have := hs.2.1
      unfold Ran.answered Ran.cmds at this
      rw [(C54_test_unit_ready_begin _ _ _ _ _ _ _ _ _ _ x.began hne ho).2.1] at this
      exact List.length_eq_zero_iff.mp this
    obtain ⟨hgd, hw⟩ := C54_test_unit_ready x hne ho hc
    refine ⟨hgd, ?_⟩
    unfold reply
    rw [ho]
    show x.wrote _ []
    exact ⟨[], by rw [hw]; rfl, fun a _ => by rw [hw, put_nil]⟩
  · -- REQUEST SENSE
    obtain ⟨hgd, hd⟩ := C48_request_sense_data x hg ho hs
    refine ⟨hgd, ?_⟩
    unfold reply
    rw [ho]
    exact wrote_whole x _ _ _ _ (noSense_length _) hd
  · -- INQUIRY
    have g0 := h0 (.inl ho)
    have g1 := h1 ho
    unfold reply inquiryReply
    rw [ho]
    simp only
    cases hv : Spec.bit x.cdb 1 0 with
    | false =>
      have hi : Inquired x false (byte x.cdb 2) p0 p1 := ⟨ho, hv, rfl, hs, g0, g1⟩
      obtain ⟨hgd, hd⟩ := C34_standard_inquiry x _ _ _ hg hi
      refine ⟨hgd, ?_⟩
      rw [if_pos rfl]
      exact wrote_whole x _ _ _ _ (C34_length _ _ (x.page_length g1)) hd
    | true =>
      have hi : Inquired x true (byte x.cdb 2) p0 p1 := ⟨ho, hv, rfl, hs, g0, g1⟩
      obtain ⟨hgd, hd⟩ := C76_vpd_exact x _ _ _ hg hi
      refine ⟨hgd, ?_⟩
      rw [if_neg (by decide)]
      cases hvp : actualVpd ((List.range 33).map (x.E.junk x.w2)) (byte x.cdb 2) p0 p1 (nsidOfLun x.lun) with
      | none => rw [hvp] at hd; exact wrote_nil x hd
      | some bs =>
        rw [hvp] at hd
        simp only [List.mem_cons, List.not_mem_nil, or_false] at hd ⊢
        split at hd
        · rename_i c; rw [if_pos c]; exact hd
        · rename_i c; rw [if_neg c]
          split at hd
          · rename_i c'; rw [if_pos c']; exact hd
          · rename_i c'; rw [if_neg c']; exact wrote_nil x hd
  · -- MODE SENSE(6)
    unfold reply
    rw [ho]
    simp only
    cases hv : Spec.bit x.cdb 1 3 with
    | true =>
      obtain ⟨hgd, c, hc, hd⟩ := C50_mode_sense_pages x hg ho hs hv
      refine ⟨hgd, ?_⟩
      have e : (x.cpl.map fun c => c.cdw0.toNat).getD 0 0 = c.cdw0.toNat := by
        rw [List.getD_eq_getElem?_getD, List.getElem?_map, hc]; rfl
      rw [e, if_pos rfl]
      exact hd
    | false =>
      obtain ⟨hgd, c, hc, hd⟩ := C50_mode_sense_data x hg p0 ⟨ho, hs, h0 (.inr (.inr (.inr ⟨ho, hv⟩)))⟩ hv hb
      refine ⟨hgd, ?_⟩
      have e : (x.cpl.map fun c => c.cdw0.toNat).getD 0 0 = c.cdw0.toNat := by
        rw [List.getD_eq_getElem?_getD, List.getElem?_map, hc]; rfl
      rw [e, if_neg (by decide)]
      exact hd
  · -- READ CAPACITY(10)
    obtain ⟨hgd, hd⟩ := C44_read_capacity_data x p0 hg ⟨ho, hs, h0 (.inr (.inl ho))⟩
    refine ⟨hgd, ?_⟩
    unfold reply
    rw [ho]
    simp only
    split
    · rename_i c
      refine wrote_whole x _ _ _ 8 ?_ ?_
      · unfold beBytes
        simp only [List.length_append, List.length_reverse, le_eq, leBytes_length]
      · split at hd
        · rename_i c'; rw [if_pos c'.2.2]; exact hd
        · rename_i c'; rw [if_neg (fun h8 => c' ⟨c.1, c.2, h8⟩)]; exact hd
    · rename_i c
      rw [if_neg (fun h8 => c ⟨h8.1, h8.2.1⟩)] at hd
      exact wrote_nil x hd
  · obtain ⟨hgd, hw⟩ := C68_io_complete x (.inr (.inr (.inr ho))) hs
    refine ⟨hgd, ?_⟩
    unfold reply
    rw [ho]
    show x.wrote _ []
    exact ⟨[], by rw [hw]; rfl, fun a _ => by rw [hw, put_nil]⟩
  · obtain ⟨hgd, hw⟩ := C68_io_complete x (.inr (.inr (.inl ho))) hs
    refine ⟨hgd, ?_⟩
    unfold reply
    rw [ho]
    show x.wrote _ []
    exact ⟨[], by rw [hw]; rfl, fun a _ => by rw [hw, put_nil]⟩
  · -- UNMAP
    obtain ⟨st, wm, hw, hgd, hsw⟩ := x.switch hs
    refine ⟨hgd, ?_⟩
    unfold reply
    rw [ho]
    rw [opc_of_byte ho (by decide)] at hsw
    cases hsw
    exact wrote_nil x (x.wroteNothing_of hg hw rfl)
  · -- MODE SENSE(10)
    obtain ⟨wm, hw, hgd, hwm⟩ := switch_mode10 ho hs
    refine ⟨hgd, ?_⟩
    unfold reply
    rw [ho]
    exact x.wrote_of hg hw hwm
  · -- REPORT LUNS
    obtain ⟨hgd, hd⟩ := C46_report_luns_exact x p0 hg ⟨ho, hs, h0 (.inr (.inr (.inl ho)))⟩ hb
    refine ⟨hgd, ?_⟩
    unfold reply
    rw [ho]
    simp only
    split at hd
    · rename_i c; rw [if_pos c]; exact hd
    · rename_i c; rw [if_neg c]; exact wrote_nil x hd
  · -- MAINTENANCE IN
    obtain ⟨hgd, hd⟩ := C53_data_partial x hg ho hs
    refine ⟨hgd, ?_⟩
    unfold reply
    rw [ho]
    exact wrote_whole x _ _ _ 4 rfl hd

/-- The first completion that is not successful. -/
theorem firstError_find (l : List Nvme.GenericQueueEntryCpl) :
    match firstError l with
    | none => l.find? (fun c => (cplStatus c).status ≠ 0) = none
    | some s => ∃ c, l.find? (fun c => (cplStatus c).status ≠ 0) = some c ∧ infoOf s = cplStatus c ∧
        s.sense_key.toNat < 16 := by
  induction l with
  | nil => rfl
  | cons c cs ih =>
    unfold firstError
    obtain ⟨e1, e2⟩ := statusOf_eq c.sct c.sc
    have e1' : infoOf (Status.StatusToScsi c.sct c.sc) = cplStatus c := e1
    simp only
    by_cases hz : (Status.StatusToScsi c.sct c.sc).status ≠ Scsi.Status.kGood
    · rw [if_pos hz]
      refine ⟨c, ?_, e1', e2⟩
      rw [List.find?_cons_of_pos]
      rw [← e1']
      simp only [decide_eq_true_eq]
      intro h
      exact hz (BitVec.eq_of_toNat_eq h)
    · rw [if_neg hz]
      have : ¬ (cplStatus c).status ≠ 0 := by
        rw [← e1']
        intro h
        apply hz
        intro h'
        exact h (by rw [show (infoOf (Status.StatusToScsi c.sct c.sc)).status = (Status.StatusToScsi c.sct c.sc).status.toNat from rfl, h']; rfl)
      rw [List.find?_cons_of_neg (by simpa using this)]
      exact ih

/-- **C79.** Every call of `Complete` ends exactly as the function `outcome` says: an API failure if the number of
completions is not the number of commands handed out; CHECK CONDITION with INVALID FIELD IN CDB if `Begin` rejected the
command; the status and sense data of the first completion that is not successful; and otherwise GOOD with exactly the
data `reply`.  Nothing but the sense buffer or the data-in buffer is changed (apart from pages handed back).  `p0`, `p1`
are the pages the device filled, if the command is one whose answer is made of them; the data-in buffer exists when
`Begin` is called. -/
theorem C79_complete (x : Ran) (hg : GoodAllocator x.E) (hb : accessible x.w.mem x.din) (p0 p1 : List Byte)
    (h0 : x.succeeded → readsPage x.cdb = true → x.page 0 p0) (h1 : x.succeeded → byte x.cdb 0 = 0x12 → x.page 1 p1) :
    x.ended (outcome x.result x.cpl x.cdb (nsidOfLun x.lun) x.din.len (x.E.junk x.w2) p0 p1) := by
  obtain ⟨wm, hw, -, h⟩ := x.inv
  have hlen : (x.result.getD []).length = x.cmds.length := by
    unfold Spec.Ran.result
    split
    · simp
    · rename_i hr
      rw [x.cmds_rejected hr]; rfl
  unfold outcome
  rw [hlen]
  rcases h with ⟨ha, hc, hm⟩ | ⟨ha, hr, hc, ok, hf⟩ | ⟨ha, hr, s, hs, hc, ok, hf⟩ | ⟨ha, hr, hn, hc, st, hsw⟩
  · rw [if_pos (show x.cpl.length ≠ x.cmds.length from ha)]
    exact ⟨by rw [hc], x.wroteNothing_of hg hw hm⟩
  · rw [if_neg (not_not_intro (show x.cpl.length = x.cmds.length from ha))]
    have : x.result = none := if_neg hr
    rw [this]
    exact ⟨by rw [hc], by rw [hc]; rfl, sense_wrote x hg hw (s := rejectedStatus) (by decide) hf⟩
  · rw [if_neg (not_not_intro (show x.cpl.length = x.cmds.length from ha))]
    have : x.result = some (x.cmds.map handed) := if_pos hr
    rw [this]
    have hfe := firstError_find x.cpl
    rw [hs] at hfe
    obtain ⟨c, g1, g2, g3⟩ := hfe
    simp only [g1]
    rw [← g2]
    exact ⟨by rw [hc], by rw [hc]; rfl, sense_wrote x hg hw g3 hf⟩
  · rw [if_neg (not_not_intro (show x.cpl.length = x.cmds.length from ha))]
    have : x.result = some (x.cmds.map handed) := if_pos hr
    rw [this]
    have hfe := firstError_find x.cpl
    rw [hn] at hfe
    simp only at hfe ⊢
    rw [hfe]
    have hs : x.succeeded := ⟨hr, ha, (firstError_none _).mp hn⟩
    exact reply_data x hg hb p0 p1 (h0 hs) (h1 hs) hs

/-- **C79**, from the command block to the answer: together with C78, the whole answer is a function of the command
block, the buffers, the LUN, the allocator's answers, what the command slots held before, the completions and what the
device put into the pages. -/
theorem C79_run (x : Ran) (hg : GoodAllocator x.E) (hb : accessible x.w.mem x.din) (data p0 p1 : List Byte)
    (hu : byte x.cdb 0 = 0x42 → x.w.mem.read x.buf.ptr x.buf.len = some data)
    (h0 : x.succeeded → readsPage x.cdb = true → x.page 0 p0) (h1 : x.succeeded → byte x.cdb 0 = 0x12 → x.page 1 p1) :
    ∃ evs, x.w1.trace = evs ++ x.w.trace ∧
      let pl := plan x.cdb x.buf data x.lun (slots x.t) fun i => (pageAnswers evs).getD i 0
      x.r.alloc_len.toNat = pl.announced ∧ x.cmds.map handed = pl.result.getD [] ∧
      x.ended (outcome pl.result x.cpl x.cdb (nsidOfLun x.lun) x.din.len (x.E.junk x.w2) p0 p1) := by
  obtain ⟨evs, ht, -, -, hal, hres⟩ := C78_begin _ _ _ _ _ _ _ _ _ _ data x.began (fun h => ⟨hg, hu h⟩)
  refine ⟨evs, ht, hal, ?_⟩
  have := C79_complete x hg hb p0 p1 h0 h1
  split at hres
  · rename_i hr
    simp only [hr]
    have e : x.result = none := if_neg hres.1
    rw [e] at this
    refine ⟨?_, this⟩
    unfold Spec.Ran.cmds
    rw [hres.2]; rfl
  · rename_i cs hr
    simp only [hr]
    have e : x.result = some (x.cmds.map handed) := if_pos hres.1
    have e' : x.cmds.map handed = cs := hres.2
    rw [e, e'] at this
    exact ⟨e', this⟩

/-- The hypotheses are met by READ CAPACITY(10) of a namespace of 1000h blocks of 512 bytes, and the answer is
00 00 10 00 00 00 02 00. -/
example : ∃ (x : Ran) (p0 p1 : List Byte), GoodAllocator x.E ∧ accessible x.w.mem x.din ∧ (x.succeeded → readsPage x.cdb = true → x.page 0 p0) ∧
    (x.succeeded → byte x.cdb 0 = 0x12 → x.page 1 p1) ∧
    outcome x.result x.cpl x.cdb (nsidOfLun x.lun) x.din.len (x.E.junk x.w2) p0 p1
      = .good [0, 0, 0x10, 0, 0, 0, 2, 0] := by
  obtain ⟨x, h1, h2, h3, h4, h5, h6⟩ := Demo.rc_demo Demo.smallNs (by decide +kernel) 8 (by decide)
  refine ⟨x, _, [], h1, ?_, fun _ _ => h2.page, fun _ h => absurd h (by rw [h2.opcode]; decide), ?_⟩
  · rw [h3]
    exact fun i hi => Demo.demo_data (by decide) h5 _ (by simp only; omega) (by simp only at hi ⊢; omega)
  · have ha := h2.ok.2.1
    unfold Spec.Ran.answered at ha
    have hf : x.cpl.find? (fun c => (cplStatus c).status ≠ 0) = none := by
      rw [List.find?_eq_none]
      intro c hc
      simp only [decide_eq_true_eq]
      exact not_not_intro ((statusOf_good _ _).mpr (h2.ok.2.2 c hc))
    unfold outcome Spec.Ran.result
    rw [if_pos h2.ok.1]
    simp only [Option.getD_some, List.length_map, ha, ne_eq, not_true_eq_false, if_false, hf]
    unfold reply
    rw [h2.opcode, h3]
    show Outcome.good (if 9 ≤ lbads (Demo.pad Demo.smallNs) ∧ lbads (Demo.pad Demo.smallNs) ≤ 31 then
      whole 8 (beBytes 4 (min (nsze (Demo.pad Demo.smallNs)) 0xffffffff) ++ beBytes 4 (2 ^ lbads (Demo.pad Demo.smallNs)))
      else []) = _
    decide +kernel

/-- A command that is not supported ends with CHECK CONDITION, ILLEGAL REQUEST. -/
example : outcome none [] [0xff] 1 8 (fun _ => 0) [] [] = .failed ⟨2, 5, 0x24, 0⟩ [0x72, 5, 0x24, 0, 0, 0, 0, 0] := by
  decide +kernel

end Scsi2Nvme
