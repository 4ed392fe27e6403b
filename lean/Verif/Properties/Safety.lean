import Verif.Properties.BeginAll
import Verif.Properties.Status
import Verif.Proofs.Defined
import Verif.Proofs.Ran
/-!
# `Complete` is memory safe (C10)
-/

namespace Scsi2Nvme
open Spec

/-! ## The frame kept during `Complete` -/

/-- Same accessible addresses as in `w0`, same contents on `S`. -/
def Kept (w0 : World) (S : Nat → Prop) (w : World) : Prop :=
  (∀ a, (w.mem a).isSome = (w0.mem a).isSome) ∧ ∀ a, S a → w.mem a = w0.mem a

theorem kept_self (w : World) (S : Nat → Prop) : Kept w S w := ⟨fun _ => rfl, fun _ _ => rfl⟩

theorem kept_stable (w0 : World) (S : Nat → Prop) (s : Span) (ha : accessible w0.mem s)
    (hd : ∀ a, S a → ¬ inSpan s a) : Stable (Kept w0 S) s where
  acc := fun w h i hi => by rw [h.1]; exact ha i hi
  put := by
    intro w p bs h h1 h2
    refine ⟨fun a => ?_, fun a hs => ?_⟩
    · rcases Nat.lt_or_ge a p with h3 | h3
      · simp only; rw [put_outside (Or.inl h3)]; exact h.1 a
      rcases Nat.lt_or_ge a (p + bs.length) with h4 | h4
      · simp only
        have e : a = p + (a - p) := by omega
        rw [e, put_inside (by omega), ← e, ← h.1 a, List.getElem?_eq_getElem (by omega)]
        have := ha (a - s.ptr) (by omega)
        rw [show s.ptr + (a - s.ptr) = a by omega, ← h.1] at this
        rw [this]; rfl
      · simp only; rw [put_outside (Or.inr h4)]; exact h.1 a
    · have := hd a hs
      unfold inSpan at this
      simp only
      rw [put_outside (by omega)]
      exact h.2 a hs

theorem Tot.ite' {I : World → Prop} {c : Prop} [Decidable c] {a b : M α} (h1 : c → Tot I a) (h2 : ¬ c → Tot I b) :
    Tot I (if c then a else b) := by
  split
  · exact h1 ‹_›
  · exact h2 ‹_›

/-! ## When `Complete` is defined -/

theorem FillSense_tot {I : World → Prop} {E : Env} {s : Span} (h : Stable I s) (st : ScsiStatus) :
    Tot I (FillSenseBuffer E s st) := .bind (.get _) fun _ => .write' h _

/-- `Complete` is defined if the sense buffer is accessible and the `switch` is defined. -/
theorem Complete_defined {E : Env} {t : Translation} (ht : Wf t) {w : World} {cpl : List Nvme.GenericQueueEntryCpl}
    {din sense : Span} (hs : accessible w.mem sense)
    (hsw : t.pipeline_status = .kSuccess → cpl.length = t.nvme_cmd_count → firstError cpl = none →
      ∃ bs, w.mem.read t.scsi_cmd.ptr t.scsi_cmd.len = some bs ∧
        ∃ st w', completeSwitch E t (bs.headD 0) bs.tail cpl din w = .ok (st, w')) :
    ∃ r, t.Complete E cpl din sense w = .ok r := by
  have hst := kept_stable w (fun _ => False) sense hs fun _ h => h.elim
  unfold Translation.Complete
  by_cases hu : t.pipeline_status = .kUninitialized
  · rw [if_pos hu]; exact ⟨_, rfl⟩
  rw [if_neg hu]
  by_cases hl : cpl.length = t.nvme_cmd_count
  rotate_left
  · rw [if_pos hl]
    simp only [M.bind_run, Abort_run E t ht]
    exact ⟨_, rfl⟩
  rw [if_neg (by simpa using hl)]
  by_cases hp : t.pipeline_status = .kSuccess
  rotate_left
  · rw [if_pos hp]
    obtain ⟨a, w', e, -⟩ := FillSense_tot (E := E) hst rejectedStatus w (kept_self _ _)
    simp only [M.bind_run, e, Abort_run E t ht]
    exact ⟨_, rfl⟩
  rw [if_neg (by simpa using hp)]
  cases hf : firstError cpl with
  | some s =>
    obtain ⟨a, w', e, -⟩ := FillSense_tot (E := E) hst s w (kept_self _ _)
    simp only [M.bind_run, e, Abort_run E t ht]
    exact ⟨_, rfl⟩
  | none =>
    obtain ⟨bs, h1, st, w', h2⟩ := hsw hp hl hf
    simp only [M.bind_run, load_ok h1, h2]
    rw [AbortPipeline_run E { t with pipeline_status := st } w' ht.count]
    exact ⟨_, rfl⟩

/-- `Complete` is undefined if the `switch` is. -/
theorem Complete_undefined {E : Env} {t : Translation} {w : World} {cpl : List Nvme.GenericQueueEntryCpl}
    {din sense : Span} (hp : t.pipeline_status = .kSuccess) (hl : cpl.length = t.nvme_cmd_count)
    (hc : firstError cpl = none) {bs : List Byte} (h1 : w.mem.read t.scsi_cmd.ptr t.scsi_cmd.len = some bs) {u : UB}
    (h2 : completeSwitch E t (bs.headD 0) bs.tail cpl din w = .error u) :
    t.Complete E cpl din sense w = .error u := by
  unfold Translation.Complete
  rw [if_neg (by rw [hp]; simp), if_neg (by simpa using hl), if_neg (by simpa using hp), hc]
  simp only [M.bind_run, load_ok h1, h2]

theorem began_wf {E t w ptr cdb buf lun r t' w'} (h : Began E t w ptr cdb buf lun r t' w') : Wf t' := by
  have hi := h.idle.idle
  rcases Begin_inv _ _ hi _ _ _ _ _ _ _ h.call with ⟨-, -, h, -⟩ | ⟨-, bs, p, w1, -, -, hs, hc, he, -, h, -⟩
  · rw [h]
    exact ⟨hi.wf.count, hi.wf.pages, fun _ => hi.count⟩
  · rw [h]
    exact finishT_wf hi.clean hc he

theorem began_span {E t w ptr cdb buf lun r t' w'} (h : Began E t w ptr cdb buf lun r t' w') (ha : Accepted t') :
    cdb ≠ [] ∧ t'.scsi_cmd = ⟨ptr, cdb.length⟩ := by
  have hne : cdb ≠ [] := by
    intro h0
    have hb := h
    rw [h0] at hb
    exact hb.nil.1 ha
  obtain ⟨p, w1, hs, -⟩ := h.inv hne
  exact ⟨hne, (h.ends hne hs).span⟩

theorem identifyWr_op (nsid cns : U32) (a : U64) : byte (identifyWr nsid cns a).cmd.toBytes 0 = 0x06 := by
  rw [show (identifyWr nsid cns a).cmd.toBytes = _ from identifyCmd_toBytes nsid cns a]
  rfl

/-- The pages the device fills are still accessible when `Complete` is called. -/
def pagesAccessible (t1 : Translation) (m : Mem) : Prop :=
  ∀ wr ∈ t1.GetNvmeWrappers, byte wr.cmd.toBytes 0 = 0x06 → accessible m ⟨leAt wr.cmd.toBytes 24 8, 4096⟩

theorem pagesAccessible.of {t1 : Translation} {m : Mem} (h : pagesAccessible t1 m) {nsid cns : U32} {a : U64}
    (hm : identifyWr nsid cns a ∈ t1.GetNvmeWrappers) : accessible m ⟨a.toNat, 4096⟩ := by
  have := h _ hm (identifyWr_op _ _ _)
  rw [prp1_bytes] at this
  exact this

/-- The situation of C10: a command was given to `Begin`; when `Complete` is called the command block is still in
place, the data-in buffer (which was accessible all the time), the sense buffer and the pages the device fills are
accessible. -/
structure Pending (E : Env) (t : Translation) (w : World) (ptr : Nat) (cdb : List Byte) (buf : Span) (lun : U64)
    (r : BeginResponse) (t1 : Translation) (w1 w2 : World) (din sense : Span) : Prop where
  began : Began E t w ptr cdb buf lun r t1 w1
  kept : w2.mem.read ptr cdb.length = some cdb
  early : accessible w.mem din
  data : accessible w2.mem din
  sense : accessible w2.mem sense
  pages : pagesAccessible t1 w2.mem

/-- `Complete` finishes without undefined behaviour. -/
def defined (E : Env) (t1 : Translation) (cpl : List Nvme.GenericQueueEntryCpl) (din sense : Span) (w2 : World) : Prop :=
  ∃ c t2 w3, t1.Complete E cpl din sense w2 = .ok ((c, t2), w3)

/-- **C10**, full statement (false, see `C10_refuted`): `Complete` never has undefined behaviour. -/
def C10_statement : Prop := ∀ E t w ptr cdb buf lun r t1 w1 w2 din sense cpl, GoodAllocator E →
  Pending E t w ptr cdb buf lun r t1 w1 w2 din sense → defined E t1 cpl din sense w2

/-- The two commands for which `Complete` can go wrong, and what keeps them from doing so: MODE SENSE(10) with no
room for a header; MODE SENSE(6) for which there is a completion to look at and the LBA data size the device reports
is below 2^32. -/
structure Benign (cdb : List Byte) (t1 : Translation) (w2 : World) (din : Span) : Prop where
  mode10 : byte cdb 0 = 0x5a → din.len < 8
  mode6 : byte cdb 0 = 0x1a → t1.GetNvmeWrappers ≠ []
  lbads : byte cdb 0 = 0x1a → Spec.bit cdb 1 3 = false → ∀ wr page, t1.GetNvmeWrappers.head? = some wr →
    w2.mem.read (leAt wr.cmd.toBytes 24 8) 4096 = some page → lbads page < 32

/-- **C10**, the part that holds: `Complete` has no undefined behaviour, whatever the completions, the contents of
the pages and the buffer sizes are, except for MODE SENSE outside of `Benign`. -/
theorem C10_complete_safe_partial (E t w ptr cdb buf lun r t1 w1 w2 din sense cpl) (hg : GoodAllocator E)
    (h : Pending E t w ptr cdb buf lun r t1 w1 w2 din sense) (hb : Benign cdb t1 w2 din) :
    defined E t1 cpl din sense w2 := by
  have hwf := began_wf h.began
  suffices hh : ∃ r, t1.Complete E cpl din sense w2 = .ok r by
    obtain ⟨⟨⟨c, t2⟩, w3⟩, e⟩ := hh
    exact ⟨c, t2, w3, e⟩
  refine Complete_defined hwf h.sense fun hp hl _ => ?_
  have ha : Accepted t1 := hp
  obtain ⟨hne, hspan⟩ := began_span h.began ha
  refine ⟨cdb, by rw [hspan]; exact h.kept, ?_⟩
  have hst := kept_stable w2 (fun _ => False) din h.data fun _ h => h.elim
  have hlen : t1.GetNvmeWrappers.length = t1.nvme_cmd_count := by
    unfold Translation.GetNvmeWrappers
    rw [List.length_take]
    have := hwf.count
    simp only [Arr3.toList, List.length_cons, List.length_nil]
    omega
  have key : ∀ op : Byte, cdb.headD 0 = op → byte cdb 0 = op.toNat := fun op ho => by rw [byte0_headD, ho]
  have fin : ∀ S, Tot (Kept w2 S) (completeSwitch E t1 (cdb.headD 0) cdb.tail cpl din) →
      ∃ st w', completeSwitch E t1 (cdb.headD 0) cdb.tail cpl din w2 = .ok (st, w') := by
    intro S ht
    obtain ⟨a, w', e, -⟩ := ht w2 (kept_self _ _)
    exact ⟨a, w', e⟩
  by_cases hm6 : byte cdb 0 = 0x1a
  · -- MODE SENSE(6)
    obtain ⟨p, w1', e, hcase⟩ := ms_cases h.began hm6
    have hs := e.acc.mp ha
    have hne := hb.mode6 hm6
    have h6 : 6 ≤ cdb.length ∧ byte cdb 2 % 64 ∈ modePages := by
      have := (C49_mode_sense6 E t w ptr cdb buf lun r t1 w1 h.began hm6).1
      obtain ⟨evs, -, h2⟩ := this
      exact ⟨(h2.mp ha).1, (h2.mp ha).2.1⟩
    have hpage : Spec.bit cdb 1 3 = false → t1.GetNvmeWrappers.head? = some (identifyWr (nsidOf lun) 0 (setA E w)) ∧
        t1.nvme_wrappers.e0 = identifyWr (nsidOf lun) 0 (setA E w) ∧ setA E w ≠ 0 := by
      intro hd
      rcases hcase with ⟨hh, -⟩ | ⟨-, hh, -⟩ | ⟨-, -, -, hn, -⟩ | ⟨-, -, hA, -, hws, hcnt, -⟩
      · omega
      · rw [hd] at hh; cases hh
      · exact absurd hs hn
      · have he0 : p.ws.e0 = identifyWr (nsidOf lun) 0 (setA E w) := by
          rw [hws]
          unfold msPage
          split
          · split <;> rfl
          · split <;> rfl
        refine ⟨?_, by rw [e.wss, he0], hA⟩
        rw [e.cmds hs]
        match hk : p.count with
        | 0 =>
          exfalso
          rw [e.cmds hs, hk] at hne
          exact hne rfl
        | k + 1 => rw [← he0]; rfl
    -- the contents of the page
    have hpg : Spec.bit cdb 1 3 = false → ∃ page, w2.mem.read (setA E w).toNat 4096 = some page ∧ lbads page < 32 := by
      intro hd
      obtain ⟨g1, -, -⟩ := hpage hd
      have hacc := h.pages.of (List.mem_of_mem_head? g1)
      obtain ⟨page, hr⟩ := read_of_accessible hacc
      exact ⟨page, hr, hb.lbads hm6 hd _ page g1 (by rw [prp1_bytes]; exact hr)⟩
    -- it is disjoint from the data buffer
    have hdis : Spec.bit cdb 1 3 = false → ∀ a, inRange (setA E w).toNat 4096 a → ¬ inSpan din a := by
      intro hd a hr hi
      obtain ⟨-, -, hA⟩ := hpage hd
      rcases set_good hg w with ⟨h0, -⟩ | ⟨-, -, h1, -⟩
      · exact hA h0
      · have := h.early (a - din.ptr) (by unfold inSpan at hi; omega)
        rw [show din.ptr + (a - din.ptr) = a by unfold inSpan at hi; omega, (h1 a hr).1] at this
        cases this
    have hst2 := kept_stable w2 (fun a => Spec.bit cdb 1 3 = false ∧ inRange (setA E w).toNat 4096 a) din h.data
      fun a hh => hdis hh.1 a hh.2
    refine fin (fun a => Spec.bit cdb 1 3 = false ∧ inRange (setA E w).toNat 4096 a) ?_
    unfold completeSwitch
    rw [opc_of_byte hm6 (by decide)]
    rw [if_neg (by decide), if_neg (by decide), if_pos (by decide)]
    have : ∃ c cs, cpl = c :: cs := by
      cases cpl with
      | nil =>
        rw [← hlen] at hl
        exact absurd (List.length_eq_zero_iff.mp hl.symm) hne
      | cons c cs => exact ⟨c, cs, rfl⟩
    obtain ⟨c, cs, rfl⟩ := this
    refine .bind (.pure _ _) fun _ => .bind (ModeSense6ToScsi_tot hst2 _ _ _ fun cc hcc => ?_) fun _ => .pure _ _
    rw [readValue_some (by rw [List.length_tail]; simp only [Scsi.ModeSense6Command.size]; omega)] at hcc
    cases hcc
    change (attrsOf6 cdb).page_code.toNat ∈ _ ∧ ((attrsOf6 cdb).dbd = false → _)
    rw [attrsOf6_page, attrsOf6_dbd]
    refine ⟨h6.2, fun hd w' hw' => ?_⟩
    obtain ⟨g1, g2, -⟩ := hpage hd
    obtain ⟨page, hr, hl⟩ := hpg hd
    refine ⟨page, ?_, hl⟩
    rw [g2]
    change w'.mem.read (setA E w).toNat 4096 = _
    rw [← hr]
    apply read_congr
    intro i hi
    exact hw'.2 _ ⟨hd, by unfold inRange; omega⟩
  refine fin (fun _ => False) ?_
  unfold completeSwitch
  refine .ite (.pure _ _) (.ite' (fun ho => ?_) fun _ => .ite' (fun ho => absurd (key _ ho) hm6) fun _ => .ite' (fun ho => ?_)
    fun _ => .ite (.bind (MaintenanceIn_tot hst) fun _ => .pure _ _) (.ite' (fun ho => ?_) fun _ => .ite (.pure _ _)
    (.ite' (fun ho => ?_) fun _ => .ite (RequestSense_tot hst _) (.ite (.pure _ _) (.ite (.pure _ _) (.ite (.pure _ _)
    (.pure _ _)))))))
  · obtain ⟨p, w1', e, hc, hcase⟩ := inquiry_cases h.began (key _ ho)
    have hs := e.acc.mp ha
    have hm := e.cmds hs
    rw [hc, take_two] at hm
    rcases hcase with ⟨-, hn, -⟩ | ⟨-, -, hn, -⟩ | ⟨-, -, -, hn, -⟩ | ⟨-, -, -, -, -, e0, e1, -, -⟩
    · exact absurd hs hn
    · exact absurd hs hn
    · exact absurd hs hn
    rw [e.wss, e0, e1]
    rw [e0, e1] at hm
    refine InquiryToScsi_tot hst _ _ _ _ (fun w' hw' i hi => ?_) (fun w' hw' i hi => ?_)
    · rw [hw'.1]
      exact h.pages.of (a := setA E w) (by rw [hm]; exact List.mem_cons_self ..) i hi
    · rw [hw'.1]
      exact h.pages.of (a := setA E (setW E w)) (by rw [hm]; exact List.mem_cons_of_mem _ (List.mem_singleton.mpr rfl)) i hi
  · -- MODE SENSE(10)
    have h8 := hb.mode10 (key _ ho)
    obtain ⟨hl12, -, -, a, wr, hc, -⟩ := fallthrough_luns h.began (Or.inr (key _ ho)) ha
    rw [← hlen, hc] at hl
    cases cpl with
    | nil => cases hl
    | cons c cs =>
      refine .bind (.pure _ _) fun _ => .bind ?_ fun _ => .pure _ _
      unfold ModeSense.ModeSense10ToScsi
      rw [readValue_some (by rw [List.length_tail]; simp only [Scsi.ModeSense10Command.size]; omega)]
      simp only
      unfold ModeSense.ModeSenseToScsi
      rw [if_pos rfl]
      intro w' hw'
      refine ⟨.kSuccess, w', ?_, hw'⟩
      have : ∀ b : List Byte, b.length = 8 → WriteValue' b din w' = .ok (false, w') := by
        intro b hb
        exact WriteValue_false (Or.inl (by omega))
      unfold ModeSense.WriteMode10Header
      simp only [M.bind_run]
      rw [this _ (Scsi.ModeParameter10Header.toBytes_length _)]
      rfl
  · obtain ⟨p, w1', e, hc, hcase⟩ := rl_api_cases h.began (key _ ho)
    have hs := e.acc.mp ha
    have hm := e.cmds hs
    rw [hc, take_one] at hm
    rcases hcase with ⟨-, hn, -⟩ | ⟨-, -, -, hn, -⟩ | ⟨-, -, -, -, -, e0, -, -⟩
    · exact absurd hs hn
    · exact absurd hs hn
    rw [e.wss, e0]
    rw [e0] at hm
    refine ReportLunsToScsi_tot hst _ fun w' hw' i hi => ?_
    rw [hw'.1]
    exact h.pages.of (a := setA E w) (by rw [hm]; exact List.mem_cons_self ..) i hi
  · obtain ⟨p, w1', e, hc, hcase⟩ := rc_cases h.began (key _ ho)
    have hs := e.acc.mp ha
    have hm := e.cmds hs
    rw [hc, take_one] at hm
    rcases hcase with ⟨-, hn, -⟩ | ⟨-, -, -, hn, -⟩ | ⟨-, -, -, -, -, e0, -, -⟩
    · exact absurd hs hn
    · exact absurd hs hn
    rw [e.wss, e0]
    rw [e0] at hm
    refine ReadCapacity_tot hst _ fun w' hw' i hi => ?_
    rw [hw'.1]
    exact h.pages.of (a := setA E w) (by rw [hm]; exact List.mem_cons_self ..) i hi

theorem headD_ne {cdb : List Byte} {k : Byte} (h : byte cdb 0 ≠ k.toNat) : ¬ cdb.headD 0 = k := by
  intro hh
  apply h
  rw [byte0_headD, hh]

end Scsi2Nvme
