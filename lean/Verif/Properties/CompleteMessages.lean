import Verif.Proofs.CompleteMessages
import Verif.Properties.MessageCatalogue
/-!
# C116: what `Complete` logs
-/

namespace Scsi2Nvme
open Spec Log

theorem noRoom_eq (E : Env) (sense : Span) (s : ScsiStatus) {w w' : World} {ok : Bool}
    (h : FillSenseBuffer E sense s w = .ok (ok, w')) : (FillSenseBufferLog E sense s w).map said = noRoomRemarks sense.len := by
  unfold FillSenseBufferLog noRoomRemarks
  rw [whenNot_ok h]
  change WriteValue' (senseData (E.junk w) s).toBytes sense w = .ok (ok, w') at h
  rcases WriteValue'_inv h with ⟨a, rfl, -⟩ | ⟨a, rfl, -⟩
  · rw [senseData_length] at a
    rw [if_pos rfl, if_neg (by omega)]; rfl
  · rw [senseData_length] at a
    rw [if_neg (by decide), if_pos a]; rfl

/-- The messages of the `switch`. -/
def endLog (x : Ran) : List Remark :=
  (completeSwitchLog x.E x.t1 (x.cdb.headD 0) x.cdb.tail x.cpl x.din x.w2).map said

/-- The data are built from the pages without complaint, or the complaint is the one expected. -/
theorem reply_end (x : Ran) (p0 p1 : List Byte) (h0 : readsPage x.cdb = true → x.page 0 p0)
    (h1 : byte x.cdb 0 = 0x12 → x.page 1 p1) (hs : x.succeeded) {st : StatusCode} {wm : World}
    (hsw : completeSwitch x.E x.t1 (x.cdb.headD 0) x.cdb.tail x.cpl x.din x.w2 = .ok (st, wm)) :
    endLog x ++ backOf st = replyRemarks x.cdb x.din.len p0 p1 := by
  have hne : x.cdb ≠ [] := (began_span x.began hs.1).1
  have hps : x.t1.pipeline_status = .kSuccess := hs.1
  have hsk : backOf x.t1.pipeline_status = [] := by rw [hps]; rfl
  unfold readsPage at h0
  simp only [decide_eq_true_eq] at h0
  unfold endLog replyRemarks
  rcases opcode_cases (byte x.cdb 0) with ho | ho | ho | ho | ho | ho | ho | ho | ho | ho | ho | ho | ho | ho
  · exact absurd hs.1 (C55_unknown_begin _ _ _ _ _ _ _ _ _ _ x.began hne ho).1
  · rw [rw_switch _ _ _ _ _ (.inl ho)] at hsw
    cases hsw
    rcases ho with ho | ho | ho | ho <;> rw [ho, opc_of_byte ho (by decide)] <;> rfl
  · rw [rw_switch _ _ _ _ _ (.inr ho)] at hsw
    cases hsw
    rcases ho with ho | ho | ho | ho <;> rw [ho, opc_of_byte ho (by decide)] <;> rfl
  · rw [opc_of_byte ho (by decide)] at hsw
    rw [ho, opc_of_byte ho (by decide)]
    cases hsw
    rfl
  · -- REQUEST SENSE
    have hlen : 6 ≤ x.cdb.length := ((C48_request_sense_begin _ _ _ _ _ _ _ _ _ _ x.began ho).1.mp hs.1).1
    rw [opc_of_byte ho (by decide)] at hsw
    rw [ho, opc_of_byte ho (by decide)]
    unfold completeSwitch at hsw
    rw [if_neg (by decide), if_neg (by decide), if_neg (by decide), if_neg (by decide), if_neg (by decide),
      if_neg (by decide), if_neg (by decide), if_neg (by decide), if_pos (by decide)] at hsw
    change (RequestSenseToScsiLog x.cdb.tail x.din x.w2).map said ++ _ = _
    unfold RequestSense.RequestSenseToScsi at hsw
    unfold RequestSenseToScsiLog
    rw [readValue_some (by rw [List.length_tail]; simp only [Scsi.RequestSenseCommand.size]; omega)] at hsw ⊢
    simp only at hsw ⊢
    have hn : (Scsi.RequestSenseCommand.ofBytes (x.cdb.tail.take Scsi.RequestSenseCommand.size)).desc = 1
        ↔ Spec.bit x.cdb 1 0 = true := bit_false_iff x.cdb 5 0 0 0 (by omega) (by omega) (by omega)
    by_cases hd : Spec.bit x.cdb 1 0 = true
    · rw [if_pos (hn.mpr hd)] at hsw ⊢
      rw [if_pos hd]
      exact onFailure_write rfl (Scsi.DescriptorFormatSenseData.toBytes_length _) rfl hsw
    · rw [if_neg (fun hh => hd (hn.mp hh))] at hsw ⊢
      rw [if_neg hd]
      exact onFailure_write rfl (Scsi.FixedFormatSenseData.toBytes_length _) rfl hsw
  · -- INQUIRY
    have g0 := h0 (.inl ho)
    have g1 := h1 ho
    obtain ⟨p, w1, e, hc, hcase⟩ := inquiry_cases x.began ho
    have hst := e.acc.mp hs.1
    rcases hcase with ⟨-, hn, -⟩ | ⟨-, -, hn, -⟩ | ⟨-, -, -, hn, -⟩ | ⟨hl, n0, n1, -, -, e0, e1, -, -⟩
    · exact absurd hst hn
    · exact absurd hst hn
    · exact absurd hst hn
    have r0 := x.page0 g0
    have r1 := x.page1 g1
    rw [opc_of_byte ho (by decide)] at hsw
    rw [ho, opc_of_byte ho (by decide)]
    unfold completeSwitch at hsw
    rw [if_neg (by decide), if_pos (by decide)] at hsw
    change (InquiryToScsiLog x.E x.cdb.tail x.din x.t1.nvme_wrappers.e0.cmd x.t1.nvme_wrappers.e1.cmd x.w2).map said ++ _
      = inquiryEndRemarks (Spec.bit x.cdb 1 0) (byte x.cdb 2) x.din.len p0 p1
    rw [e.wss] at hsw r0 r1 ⊢
    unfold Inquiry.InquiryToScsi at hsw
    unfold InquiryToScsiLog
    rw [readValue_some (by rw [List.length_tail]; simp only [Scsi.InquiryCommand.size]; omega)] at hsw ⊢
    simp only [SafePointerCast_4096] at hsw ⊢
    have z0 : p.ws.e0.cmd.prp1.toNat ≠ 0 := by
      rw [e0]; intro hh; exact n0 (BitVec.eq_of_toNat_eq hh)
    have z1 : p.ws.e1.cmd.prp1.toNat ≠ 0 := by
      rw [e1]; intro hh; exact n1 (BitVec.eq_of_toNat_eq hh)
    rw [if_neg z0, if_neg z1] at hsw ⊢
    simp only [M.bind_run, load_ok r0, load_ok r1] at hsw
    rw [after_ok (load_ok r0), after_ok (load_ok r1)]
    have f1 : ((Scsi.InquiryCommand.ofBytes (x.cdb.tail.take Scsi.InquiryCommand.size)).evpd == 1) = Spec.bit x.cdb 1 0 :=
      fieldBit x.cdb 5 0 0 0 rfl (by omega) (by omega)
    have f2 : (Scsi.InquiryCommand.ofBytes (x.cdb.tail.take Scsi.InquiryCommand.size)).page_code.toNat = byte x.cdb 2 :=
      field8 x.cdb 5 8 1 rfl (by omega)
    rw [inquiryPage_eq x.E _ _ _ _ _ _ _ f1 f2] at hsw
    exact inquiryLog x.E _ _ _ _ f1 f2 (x.page_length g0) (x.page_length g1) hsw
  · -- MODE SENSE(6)
    obtain ⟨evs, -, hacc⟩ := (C49_mode_sense6 _ _ _ _ _ _ _ _ _ _ x.began ho).1
    obtain ⟨hlen, hpg, -⟩ := hacc.mp hs.1
    rw [opc_of_byte ho (by decide)] at hsw
    rw [ho, opc_of_byte ho (by decide)]
    unfold completeSwitch at hsw
    rw [if_neg (by decide), if_neg (by decide), if_pos (by decide)] at hsw
    cases hc : x.cpl with
    | nil => rw [hc] at hsw; cases hsw
    | cons c cs =>
      rw [hc] at hsw
      change (ModeSense6ToScsiLog x.cdb.tail x.t1.nvme_wrappers.e0.cmd c.cdw0 x.din x.w2).map said ++ _
        = modeEndRemarks (Spec.bit x.cdb 1 3) (byte x.cdb 2 % 64) x.din.len
      simp only [cplHead, M.bind_run, M.pure_run] at hsw
      unfold ModeSense.ModeSense6ToScsi at hsw
      unfold ModeSense6ToScsiLog
      rw [readValue_some (by rw [List.length_tail]; simp only [Scsi.ModeSense6Command.size]; omega)] at hsw ⊢
      simp only at hsw ⊢
      split at hsw
      · cases hsw
      rename_i st' w' hr
      simp only [Except.ok.injEq, Prod.mk.injEq] at hsw
      rw [← hsw.1, hsk, List.append_nil]
      have := mode6Log (a := attrsOf6 x.cdb) rfl (by rw [attrsOf6_page]; exact hpg) hr
      rw [attrsOf6_page, attrsOf6_dbd] at this
      exact this
  · -- READ CAPACITY(10)
    have r0 := x.page0 (h0 (.inr (.inl ho)))
    obtain ⟨p, w1, e, hc, hcase⟩ := rc_cases x.began ho
    have hst := e.acc.mp hs.1
    rcases hcase with ⟨-, hn, -⟩ | ⟨-, -, -, hn, -⟩ | ⟨-, -, n0, -, -, e0, -, -⟩
    · exact absurd hst hn
    · exact absurd hst hn
    rw [opc_of_byte ho (by decide)] at hsw
    rw [ho, opc_of_byte ho (by decide)]
    unfold completeSwitch at hsw
    rw [if_neg (by decide), if_neg (by decide), if_neg (by decide), if_neg (by decide), if_neg (by decide),
      if_neg (by decide), if_neg (by decide), if_pos (by decide)] at hsw
    refine capacityLog ?_ r0 hsw
    rw [e.wss, e0]; intro hh; exact n0 (BitVec.eq_of_toNat_eq hh)
  · rw [opc_of_byte ho (by decide)] at hsw
    rw [ho, opc_of_byte ho (by decide)]
    cases hsw
    exact hsk
  · rw [opc_of_byte ho (by decide)] at hsw
    rw [ho, opc_of_byte ho (by decide)]
    cases hsw
    rfl
  · rw [opc_of_byte ho (by decide)] at hsw
    rw [ho, opc_of_byte ho (by decide)]
    cases hsw
    rfl
  · -- MODE SENSE(10)
    obtain ⟨hl12, hb2, -⟩ := fallthrough_luns x.began (Or.inr ho) hs.1
    have hnp : byte x.cdb 2 % 64 ∉ modePages := by
      unfold modePages
      simp only [List.mem_cons, List.not_mem_nil, or_false]
      omega
    rw [opc_of_byte ho (by decide)] at hsw
    rw [ho, opc_of_byte ho (by decide)]
    unfold completeSwitch at hsw
    rw [if_neg (by decide), if_neg (by decide), if_neg (by decide), if_pos (by decide)] at hsw
    cases hc : x.cpl with
    | nil => rw [hc] at hsw; cases hsw
    | cons c cs =>
      rw [hc] at hsw
      change (ModeSense10ToScsiLog x.cdb.tail x.t1.nvme_wrappers.e0.cmd c.cdw0 x.din x.w2).map said ++ _ = _
      simp only [cplHead, M.bind_run, M.pure_run] at hsw
      unfold ModeSense.ModeSense10ToScsi at hsw
      unfold ModeSense10ToScsiLog
      rw [readValue_some (by rw [List.length_tail]; simp only [Scsi.ModeSense10Command.size]; omega)] at hsw ⊢
      simp only at hsw ⊢
      split at hsw
      · cases hsw
      rename_i st' w' hr
      simp only [Except.ok.injEq, Prod.mk.injEq] at hsw
      rw [← hsw.1, hsk, List.append_nil]
      exact mode10Log (a := attrsOf10 x.cdb) (by rw [attrsOf10_page]; exact hnp) hr
  · -- REPORT LUNS
    obtain ⟨p, w1, e, hc, hcase⟩ := rl_api_cases x.began ho
    have hst := e.acc.mp hs.1
    rcases hcase with ⟨-, hn, -⟩ | ⟨-, -, -, hn, -⟩ | ⟨-, -, n0, -, -, e0, -, -⟩
    · exact absurd hst hn
    · exact absurd hst hn
    rw [opc_of_byte ho (by decide)] at hsw
    rw [ho, opc_of_byte ho (by decide)]
    unfold completeSwitch at hsw
    rw [if_neg (by decide), if_neg (by decide), if_neg (by decide), if_neg (by decide), if_neg (by decide),
      if_pos (by decide)] at hsw
    refine reportLunsLog ?_ hsw
    rw [e.wss, e0]; intro hh; exact n0 (BitVec.eq_of_toNat_eq hh)
  · -- MAINTENANCE IN
    rw [opc_of_byte ho (by decide)] at hsw
    rw [ho, opc_of_byte ho (by decide)]
    unfold completeSwitch at hsw
    rw [if_neg (by decide), if_neg (by decide), if_neg (by decide), if_neg (by decide), if_pos (by decide)] at hsw
    simp only [M.bind_run] at hsw
    split at hsw
    · cases hsw
    · simp only [M.pure_run, Except.ok.injEq, Prod.mk.injEq] at hsw
      rw [← hsw.1, hsk]
      rfl

/-- **C116.** Every call of `Complete` makes exactly the remarks `closingRemarks` says: one whose text is undefined if the number of
completions is wrong; one if the sense buffer is too short, for a command which `Begin` rejected or of which an NVMe command failed, after one
about its status code if that is not known; and after success those about the response (`p0`, `p1`: the pages the device filled). -/
theorem C116_messages (x : Ran) (p0 p1 : List Byte)
    (h0 : x.succeeded → readsPage x.cdb = true → x.page 0 p0) (h1 : x.succeeded → byte x.cdb 0 = 0x12 → x.page 1 p1) :
    (CompleteLog x.E x.t1 x.cpl x.din x.sense x.w2).map said
      = closingRemarks x.result x.cpl x.cdb x.din.len x.sense.len p0 p1 := by
  obtain ⟨wm, -, -, h⟩ := x.inv
  have hcl := x.cmds_length
  have hlen : (x.result.getD []).length = x.cmds.length := by
    unfold Spec.Ran.result
    split
    · simp
    · rename_i hr
      rw [x.cmds_rejected hr]; rfl
  unfold CompleteLog closingRemarks
  rw [hlen, ← hcl, if_neg x.wf.2]
  rcases h with ⟨ha, -, -⟩ | ⟨ha, hr, -, ok, hf⟩ | ⟨ha, hr, s, hs, -, ok, hf⟩ | ⟨ha, hr, hn, -, st, hsw⟩
  · have ha' : x.cpl.length ≠ x.cmds.length := ha
    rw [if_pos ha', if_pos ha']
    refine congrArg (fun r => [r]) ?_
    unfold said
    simp only [mismatch₂]
  · have ha' : ¬ x.cpl.length ≠ x.cmds.length := not_not_intro ha
    have hr' : x.result = none := if_neg hr
    rw [if_neg ha', if_neg ha', if_pos (show x.t1.pipeline_status ≠ .kSuccess from hr), hr']
    exact noRoom_eq _ _ _ hf
  · have ha' : ¬ x.cpl.length ≠ x.cmds.length := not_not_intro ha
    have hr' : x.result = some (x.cmds.map handed) := if_pos hr
    have hff := firstError_find x.cpl
    rw [hs] at hff
    obtain ⟨c, hc, -⟩ := hff
    rw [if_neg ha', if_neg ha', if_neg (not_not_intro (show x.t1.pipeline_status = .kSuccess from hr)), hr', hs, List.map_append,
      firstErrorLog_eq, hc]
    simp only [noRoom_eq _ _ _ hf]
  · have ha' : ¬ x.cpl.length ≠ x.cmds.length := not_not_intro ha
    have hr' : x.result = some (x.cmds.map handed) := if_pos hr
    have hff := firstError_find x.cpl
    rw [hn] at hff
    simp only at hff
    rw [if_neg ha', if_neg ha', if_neg (not_not_intro (show x.t1.pipeline_status = .kSuccess from hr)), hr', hn, List.map_append,
      firstErrorLog_eq, hff]
    have hsu : x.succeeded := ⟨hr, ha, (firstError_none _).mp hn⟩
    have hload : load x.t1.scsi_cmd.ptr x.t1.scsi_cmd.len x.w2 = .ok (x.cdb, x.w2) := by
      rw [x.span hr]; exact load_ok x.kept
    simp only [List.nil_append]
    rw [after_ok hload, List.map_append, after_ok hsw]
    rw [← reply_end x p0 p1 (h0 hsu) (h1 hsu) hsu hsw]
    unfold endLog backOf
    refine congrArg (_ ++ ·) ?_
    split <;> rfl

/-- **C116.** `Complete` on an object without a command says so, and nothing else. -/
theorem C116_unbegun (E : Env) (t : Translation) (cpl : List Nvme.GenericQueueEntryCpl) (din sense : Span) (w : World)
    (h : t.pipeline_status = .kUninitialized) :
    (CompleteLog E t cpl din sense w).map said = [some (text! "Invalid use of API: Complete called before Begin")] := by
  unfold CompleteLog
  rw [if_pos h]
  rfl

/-! ## The catalogue -/

theorem cat_whenNot {m : M Bool} {w : World} {msg : Msg} (h : Catalogued msg) : ∀ x ∈ whenNot m w msg, Catalogued x :=
  cat_after fun _ _ => cat_ite cat_nil (cat_one h)

theorem cat_onFailure {m : M StatusCode} {w : World} {msg : Msg} (h : Catalogued msg) : ∀ x ∈ onFailure m w msg, Catalogued x :=
  cat_after fun _ _ => cat_ite (cat_one h) cat_nil

theorem cat_fill (E b s w) : ∀ x ∈ FillSenseBufferLog E b s w, Catalogued x := cat_whenNot (cat_plain _ _ _ (by decide +kernel))

theorem cat_status (sct : BitVec 3) (sc : Byte) : ∀ x ∈ StatusToScsiLog sct sc, Catalogued x := by
  have one : ∀ l, (⟨"status.cc", l, text! "No SCSI translation for NVMe status with code %#x", [.byte]⟩ : Site) ∈ sites →
      Catalogued ⟨"status.cc", l, text! "No SCSI translation for NVMe status with code %#x", [.int sc.toNat]⟩ :=
    fun l h => ⟨_, h, rfl, rfl, rfl, .cons sc.isLt .nil⟩
  unfold StatusToScsiLog
  refine cat_ite (cat_ite cat_nil (cat_one (one _ (by decide +kernel)))) ?_
  refine cat_ite (cat_ite cat_nil (cat_one (one _ (by decide +kernel)))) ?_
  refine cat_ite (cat_ite cat_nil (cat_one (one _ (by decide +kernel)))) ?_
  refine cat_one ⟨⟨"status.cc", 218, text! "No SCSI translation for nvme status code type %#xand status code %#x", [.byte, .byte]⟩,
    by decide +kernel, rfl, rfl, rfl, ?_⟩
  exact .cons (Nat.lt_trans sct.isLt (by decide)) (.cons sc.isLt .nil)

theorem cat_first (l) : ∀ x ∈ firstErrorLog l, Catalogued x := by
  induction l with
  | nil => exact cat_nil
  | cons c cs ih => exact cat_append (cat_status _ _) (cat_ite cat_nil ih)

theorem cat_inquiryPage (E c nsid ns ctrl b w) : ∀ x ∈ inquiryPageLog E c nsid ns ctrl b w, Catalogued x := by
  unfold inquiryPageLog
  refine cat_ite ?_ (cat_onFailure (cat_plain _ _ _ (by decide +kernel)))
  refine cat_ite (cat_onFailure (cat_plain _ _ _ (by decide +kernel))) ?_
  refine cat_ite (cat_onFailure (cat_plain _ _ _ (by decide +kernel))) ?_
  refine cat_ite ?_ ?_
  · unfold TranslateDeviceIdentificationVpdLog
    refine cat_append ?_ (cat_after fun _ _ => cat_ite cat_nil (cat_whenNot (cat_plain _ _ _ (by decide +kernel))))
    unfold BuildIdentificationDescriptorLog
    refine cat_ite (cat_after fun _ _ => cat_ite ?_ (cat_one (cat_plain _ _ _ (by decide +kernel)))) ?_
    · exact cat_whenNot (cat_plain _ _ _ (by decide +kernel))
    refine cat_ite (cat_after fun _ _ => cat_ite ?_ (cat_one (cat_plain _ _ _ (by decide +kernel))))
      (cat_one (cat_plain _ _ _ (by decide +kernel)))
    exact cat_whenNot (cat_plain _ _ _ (by decide +kernel))
  refine cat_ite ?_ ?_
  · unfold TranslateExtendedInquiryDataVpdLog
    split
    · exact cat_one (cat_plain _ _ _ (by decide +kernel))
    · exact cat_whenNot (cat_plain _ _ _ (by decide +kernel))
  refine cat_ite ?_ ?_
  · exact cat_append (cat_ite (cat_one (cat_plain _ _ _ (by decide +kernel))) cat_nil) (cat_whenNot (cat_plain _ _ _ (by decide +kernel)))
  refine cat_ite (cat_onFailure (cat_plain _ _ _ (by decide +kernel))) ?_
  exact cat_ite (cat_onFailure (cat_plain _ _ _ (by decide +kernel))) (cat_one (cat_plain _ _ _ (by decide +kernel)))

theorem cat_modeEnd (a ten g i b w) : ∀ x ∈ ModeSenseToScsiLog a ten g i b w, Catalogued x := by
  have body : ∀ b w, ∀ x ∈ modeSenseBodyLog a g i b w, Catalogued x := by
    intro b w
    unfold modeSenseBodyLog
    refine cat_ite (cat_whenNot (cat_plain _ _ _ (by decide +kernel))) (cat_after fun _ _ => cat_ite ?_ ?_)
    · exact cat_whenNot (cat_plain _ _ _ (by decide +kernel))
    · exact cat_one (cat_plain _ _ _ (by decide +kernel))
  unfold ModeSenseToScsiLog
  exact cat_ite (cat_after fun _ _ => cat_ite (body _ _) (cat_one (cat_plain _ _ _ (by decide +kernel))))
    (cat_after fun _ _ => cat_ite (body _ _) (cat_one (cat_plain _ _ _ (by decide +kernel))))

theorem cat_writeLuns (p b) (n i : Nat) (hn : i + n ≤ 2 ^ 32) (w) : ∀ x ∈ writeLunsLog p b i n w, Catalogued x := by
  induction n generalizing i w with
  | zero => exact cat_nil
  | succ n ih =>
    unfold writeLunsLog
    refine cat_after fun _ _ => cat_after fun _ _ => cat_ite (ih _ (by omega) _) (cat_one ?_)
    exact ⟨⟨"report_luns.cc", 121, text! "Truncating report luns response at position %u", [.u32]⟩, by decide +kernel, rfl, rfl, rfl,
      .cons (show i < 2 ^ 32 by omega) .nil⟩

theorem cat_lunsEnd (c b w) : ∀ x ∈ ReportLunsToScsiLog c b w, Catalogued x := by
  unfold ReportLunsToScsiLog
  refine cat_ite (cat_one (cat_plain _ _ _ (by decide +kernel))) (cat_ite (cat_one (cat_plain _ _ _ (by decide +kernel))) ?_)
  refine cat_after fun page _ => cat_after fun _ _ => cat_ite (cat_writeLuns _ _ _ _ ?_ _) (cat_one (cat_plain _ _ _ (by decide +kernel)))
  have hle : ReportLuns.GetNsListLength Nvme.kIdentifyNsListMaxLength page ≤ 1024 := GetNsListLength_le 1024 page
  generalize ReportLuns.GetNsListLength Nvme.kIdentifyNsListMaxLength page = n at hle ⊢
  generalize (BitVec.ofNat 32 (sizeSub b.len Scsi.ReportLunsParamData.size)) = al
  split
  · have := (al - BitVec.ofNat 32 (al.toNat % 8)).isLt
    omega
  · omega

theorem cat_completeSwitch (E t opc cmd cpl b w) : ∀ x ∈ completeSwitchLog E t opc cmd cpl b w, Catalogued x := by
  unfold completeSwitchLog
  refine cat_ite ?_ ?_
  · unfold InquiryToScsiLog
    split
    · exact cat_one (cat_plain _ _ _ (by decide +kernel))
    · refine cat_ite (cat_one (cat_plain _ _ _ (by decide +kernel))) (cat_ite (cat_one (cat_plain _ _ _ (by decide +kernel))) ?_)
      exact cat_after fun _ _ => cat_after fun _ _ => cat_inquiryPage _ _ _ _ _ _ _
  refine cat_ite (cat_after fun _ _ => ?_) ?_
  · unfold ModeSense6ToScsiLog
    split
    · exact cat_one (cat_plain _ _ _ (by decide +kernel))
    · exact cat_modeEnd _ _ _ _ _ _
  refine cat_ite (cat_after fun _ _ => ?_) ?_
  · unfold ModeSense10ToScsiLog
    split
    · exact cat_one (cat_plain _ _ _ (by decide +kernel))
    · exact cat_modeEnd _ _ _ _ _ _
  refine cat_ite (cat_lunsEnd _ _ _) ?_
  refine cat_ite ?_ ?_
  · unfold ReadCapacity10ToScsiLog
    refine cat_ite (cat_one (cat_plain _ _ _ (by decide +kernel))) (cat_after fun _ _ => ?_)
    refine cat_ite (cat_one (cat_plain _ _ _ (by decide +kernel))) (cat_ite (cat_one (cat_plain _ _ _ (by decide +kernel))) ?_)
    exact cat_onFailure (cat_plain _ _ _ (by decide +kernel))
  refine cat_ite ?_ ?_
  · unfold RequestSenseToScsiLog
    split
    · exact cat_one (cat_plain _ _ _ (by decide +kernel))
    · exact cat_ite (cat_onFailure (cat_plain _ _ _ (by decide +kernel))) (cat_onFailure (cat_plain _ _ _ (by decide +kernel)))
  refine cat_ite cat_nil (cat_one ?_)
  exact ⟨⟨"translation.cc", 277, text! "Invalid opcode case reached: %u. Please contact SCSI2NVMe devs.", [.byte]⟩, by decide +kernel, rfl,
    rfl, rfl, .cons opc.isLt .nil⟩

/-- **C116.** Whatever the state of the object and of the world: every call of DebugLog executed by `Complete` is one of the calls in the
catalogue extracted from the sources (file, line, format), with arguments of the types found there.  (The two numbers are values of C++ types.) -/
theorem C116_catalogue (E : Env) (t : Translation) (cpl : List Nvme.GenericQueueEntryCpl) (din sense : Span) (w : World)
    (hc : cpl.length < 2 ^ 64) (ht : t.nvme_cmd_count < 2 ^ 32) :
    ∀ m ∈ CompleteLog E t cpl din sense w, Catalogued m := by
  unfold CompleteLog
  refine cat_ite (cat_one (cat_plain _ _ _ (by decide +kernel))) (cat_ite (cat_one ?_) (cat_ite (cat_fill _ _ _ _) ?_))
  · exact ⟨⟨"translation.cc", 183, text! "Invalid use of API, completion count %u does not equal command count %u", [.size, .u32]⟩,
      by decide +kernel, rfl, rfl, rfl, .cons hc (.cons ht .nil)⟩
  refine cat_append (cat_first _) ?_
  split
  · exact cat_fill _ _ _ _
  · refine cat_after fun _ _ => cat_append (cat_completeSwitch _ _ _ _ _ _ _) (cat_after fun _ _ => cat_ite (cat_one ?_) cat_nil)
    exact cat_plain _ _ _ (by decide +kernel)

/-! ## C117 -/

/-- What `Complete` says. -/
def Spec.Ran.remarks (x : Ran) : List Remark := (CompleteLog x.E x.t1 x.cpl x.din x.sense x.w2).map said

/-- **C117**, full statement (false, see `C117_refuted`): a command for which GOOD is reported is one whose response was built. -/
def C117_statement : Prop := ∀ (x : Ran), GoodAllocator x.E → accessible x.w.mem x.din → x.good → failedBack ∉ x.remarks

/-- A successful command. -/
theorem remarks_succeeded (x : Ran) (p0 p1 : List Byte) (hs : x.succeeded) (h0 : readsPage x.cdb = true → x.page 0 p0)
    (h1 : byte x.cdb 0 = 0x12 → x.page 1 p1) : x.remarks = replyRemarks x.cdb x.din.len p0 p1 := by
  refine (C116_messages x p0 p1 (fun _ => h0) (fun _ => h1)).trans ?_
  have hr' : x.result = some (x.cmds.map handed) := if_pos hs.1
  have hff := firstError_find x.cpl
  rw [(firstError_none _).mpr hs.2.2] at hff
  simp only at hff
  unfold closingRemarks
  rw [hr']
  have ha : ¬ x.cpl.length ≠ (x.cmds.map handed).length := by
    rw [List.length_map]; exact not_not_intro hs.2.1
  rw [if_neg (by simpa using ha)]
  simp only [hff]

/-- **C117**, the part that holds: nothing is said about a successful READ, WRITE, SYNCHRONIZE CACHE, TEST UNIT READY, VERIFY, UNMAP or
MAINTENANCE IN - the last one even if its data did not fit into the buffer and were dropped. -/
theorem C117_silent_partial (x : Ran) (hs : x.succeeded)
    (ho : byte x.cdb 0 ∉ [0x03, 0x12, 0x1a, 0x25, 0x5a, 0xa0]) : CompleteLog x.E x.t1 x.cpl x.din x.sense x.w2 = [] := by
  simp only [List.mem_cons, List.not_mem_nil, or_false, not_or] at ho
  obtain ⟨o1, o2, o3, o4, o5, o6⟩ := ho
  have := remarks_succeeded x [] [] hs (by
    intro h
    unfold readsPage at h
    simp only [decide_eq_true_eq] at h
    omega) (fun h => absurd h o2)
  have hr : replyRemarks x.cdb x.din.len [] [] = [] := by
    unfold replyRemarks
    split <;> first | rfl | contradiction
  rw [hr] at this
  exact List.map_eq_nil_iff.mp this

/-- **C117**, the part that holds: with a data-in buffer of at least 64 bytes, the response of a successful command is built, unless it is an
INQUIRY for a page which the library does not have, for device identification of a namespace without NGUID and EUI-64, or for extended inquiry
data of a namespace with a combination of protection types which the library does not know, or a READ CAPACITY(10) of a namespace with blocks
smaller than 512 bytes or larger than 2^31. -/
theorem C117_built_partial (x : Ran) (p0 p1 : List Byte) (hs : x.succeeded) (h0 : readsPage x.cdb = true → x.page 0 p0)
    (h1 : byte x.cdb 0 = 0x12 → x.page 1 p1) (hl : 64 ≤ x.din.len)
    (hi : byte x.cdb 0 = 0x12 → Spec.bit x.cdb 1 0 = true → byte x.cdb 2 ∈ [0x00, 0x80, 0x83, 0x86, 0xb0, 0xb1, 0xb2] ∧
      (byte x.cdb 2 = 0x83 → identifier p0 ≠ none) ∧
      (byte x.cdb 2 = 0x86 → spt (supportsType3 p0) (supportsType2 p0) (supportsType1 p0) ≠ none))
    (hc : byte x.cdb 0 = 0x25 → 9 ≤ lbads p0 ∧ lbads p0 ≤ 31) : failedBack ∉ x.remarks := by
  rw [remarks_succeeded x p0 p1 hs h0 h1]
  have f : ∀ n (t : List Char), n ≤ 64 → failing (x.din.len < n) t = [] := fun n t hn => by
    unfold failing; rw [if_neg (by omega)]
  have nb : ∀ t : List Char, t ≠ text! "Failed to translate back to SCSI" → failedBack ≠ some t := by
    intro t h e
    exact h (Option.some.inj e).symm
  unfold replyRemarks
  split
  · split <;> rw [f _ _ (by omega)] <;> exact List.not_mem_nil
  · rename_i ho
    have hi := hi ho
    unfold inquiryEndRemarks
    cases hv : Spec.bit x.cdb 1 0 with
    | false => rw [if_pos rfl, f _ _ (by omega)]; exact List.not_mem_nil
    | true =>
      rw [if_neg (by decide)]
      obtain ⟨g1, g2, g3⟩ := hi hv
      split
      · rw [f _ _ (by omega)]; exact List.not_mem_nil
      split
      · rw [f _ _ (by omega)]; exact List.not_mem_nil
      split
      · rename_i c
        have g2 := g2 c
        split
        · rename_i e; exact absurd e g2
        · rename_i id e
          have hid : id.length ≤ 16 := by
            unfold identifier at e
            split at e
            · cases e; unfold nguid slice; rw [List.length_take]; omega
            split at e
            · cases e; unfold eui64 slice; rw [List.length_take]; omega
            · cases e
          rw [f _ _ (by omega)]; exact List.not_mem_nil
      split
      · rename_i c
        have g3 := g3 c
        split
        · rename_i e; exact absurd e g3
        · rw [f _ _ (by omega)]; exact List.not_mem_nil
      split
      · rw [f _ _ (by omega), List.append_nil]
        split
        · simp only [List.mem_cons, List.not_mem_nil, or_false]
          exact nb _ (by decide)
        · exact List.not_mem_nil
      split
      · rw [f _ _ (by omega)]; exact List.not_mem_nil
      split
      · rw [f _ _ (by omega)]; exact List.not_mem_nil
      · simp only [List.mem_cons, List.not_mem_nil, or_false] at g1
        omega
  · unfold modeEndRemarks
    simp only
    repeat' split
    all_goals simp only [List.mem_cons, List.not_mem_nil, or_false, not_false_eq_true]
    all_goals exact nb _ (by decide)
  · rename_i ho
    obtain ⟨c1, c2⟩ := hc ho
    rw [if_neg (by omega), if_neg (by omega), f _ _ (by omega)]
    exact List.not_mem_nil
  · split
    all_goals simp only [List.mem_cons, List.not_mem_nil, or_false]
    all_goals exact nb _ (by decide)
  · rw [f _ _ (by omega)]; exact List.not_mem_nil
  · exact List.not_mem_nil

/-- REQUEST SENSE with a buffer of 4 bytes: GOOD is reported although the response was not built, and that is said. -/
theorem request_sense_short : ∃ x : Ran, GoodAllocator x.E ∧ accessible x.w.mem x.din ∧ x.good ∧ x.succeeded ∧ byte x.cdb 0 = 0x03 ∧
    x.remarks = [some (text! "Error writing Fixed Format Sense Data to buffer"), failedBack] := by
  obtain ⟨x, h1, h2, h3, h4, h5, h6, h7, h8⟩ := Demo.simple_demo [3, 0, 0, 0, 18, 0] (by decide) 4 (by decide) Accepted
    (by decide) (by decide) (by
      intro r t1 w1 hb
      have := C48_request_sense_begin _ _ _ _ _ _ _ _ _ _ hb rfl
      exact ⟨this.1.mpr (by decide), this.2.1⟩)
  have hs : x.succeeded := ⟨h3, h4, by rw [h5]; simp⟩
  have ho : byte x.cdb 0 = 0x03 := by rw [h2]; rfl
  refine ⟨x, h1, ?_, (C48_request_sense_data x h1 ho hs).1, hs, ho, ?_⟩
  · rw [h6, h7]
    intro i hi
    have : ∀ i < 4, ((Demo.mem [3, 0, 0, 0, 18, 0] []) (0x8000 + i)).isSome = true := by decide +kernel
    exact this i hi
  · rw [remarks_succeeded x [] [] hs (by rw [h2]; intro h; exact absurd h (by decide)) (by rw [ho]; intro h; exact absurd h (by decide)),
      h6, h2]
    decide +kernel

/-- **C117** is false: a REQUEST SENSE whose data-in buffer has 4 bytes is answered with GOOD and without data. -/
theorem C117_refuted : ¬ C117_statement := by
  intro h
  obtain ⟨x, h1, h2, h3, -, -, h4⟩ := request_sense_short
  refine h x h1 h2 h3 ?_
  rw [h4]
  simp

end Scsi2Nvme
