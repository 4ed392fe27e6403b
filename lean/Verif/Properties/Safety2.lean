import Verif.Properties.Safety
import Verif.Proofs.Demos
import Verif.Proofs.Cases4
/-!
# Exactly when `Complete` has undefined behaviour (C10)
-/

namespace Scsi2Nvme
open Spec

section mode
open ModeSense
variable {I : World → Prop} {s : Span} (hs : Stable I s)
include hs

theorem write_ok (bytes : List Byte) (w : World) (hw : I w) (hl : bytes.length ≤ s.len) :
    ∃ w', WriteValue' bytes s w = .ok (true, w') ∧ I w' := by
  have hm : w.mem.mapped s.ptr bytes.length := mapped_iff.mpr fun i hi => hs.acc w hw i (by omega)
  refine ⟨_, WriteValue_true hl (Nat.le_refl _) hm, hs.put w _ _ hw (Nat.le_refl _) ?_⟩
  rw [List.length_take]
  omega

omit hs in
theorem WritePageData_bad (pg : BitVec 6) (g : U32) (w : World) (hp : pg.toNat ∉ modePages) :
    WritePageData pg g s w = .error .missingReturn := by
  unfold WritePageData
  have hk : ∀ k : BitVec 6, k.toNat ∈ modePages → ¬ pg = k := fun k h e => hp (e ▸ h)
  rw [if_neg (hk _ (by decide)), if_neg (hk _ (by decide)), if_neg (hk _ (by decide)), if_neg (hk _ (by decide))]
  rfl

omit hs in
theorem WriteBlockDescriptor_bad (i : Nvme.GenericQueueEntryCmd) (l : Bool) (w : World) (page : List Byte)
    (hr : w.mem.read i.prp1.toNat 4096 = some page) (hb : 32 ≤ lbads page) :
    WriteBlockDescriptor i s l w = .error .shift := by
  unfold WriteBlockDescriptor
  have hl := lbads_eq page
  have : shiftLbads (getF page (Nvme.IdentifyNamespace.lbads (getF page Nvme.IdentifyNamespace.flbas_format).toNat))
      = M.ub .shift := by
    unfold shiftLbads
    rw [if_pos (by rw [hl]; omega)]
  simp only [M.bind_run, load_ok hr, this]
  cases l <;> rfl

theorem WriteBlockDescriptor_run (i : Nvme.GenericQueueEntryCmd) (l : Bool) (w : World) (hw : I w) (page : List Byte)
    (hr : w.mem.read i.prp1.toNat 4096 = some page) (hb : lbads page < 32) :
    ∃ w', WriteBlockDescriptor i s l w = .ok ((decide ((if l then 16 else 8) ≤ s.len), if l then 16 else 8), w') ∧ I w' := by
  unfold WriteBlockDescriptor
  have hl := lbads_eq page
  have h1 : ∀ b : List Byte, ∃ w', WriteValue' b s w = .ok (decide (b.length ≤ s.len), w') ∧ I w' := by
    intro b
    by_cases hle : b.length ≤ s.len
    · obtain ⟨w', e, h⟩ := write_ok hs b w hw hle
      exact ⟨w', by rw [e, decide_eq_true hle], h⟩
    · exact ⟨w, by rw [decide_eq_false hle]; exact WriteValue_false (Or.inl (by omega)), hw⟩
  have : shiftLbads (getF page (Nvme.IdentifyNamespace.lbads (getF page Nvme.IdentifyNamespace.flbas_format).toNat))
      = pure (1#32 <<< (getF page (Nvme.IdentifyNamespace.lbads
          (getF page Nvme.IdentifyNamespace.flbas_format).toNat)).toNat) := by
    unfold shiftLbads
    rw [if_neg (by rw [hl]; omega)]
  simp only [M.bind_run, load_ok hr, this, M.pure_run]
  cases l with
  | true =>
    simp only [if_true, M.bind_run, M.pure_run]
    generalize hb : Scsi.LongLbaBlockDescriptor.toBytes _ = b
    have hlen : b.length = 16 := by rw [← hb]; exact Scsi.LongLbaBlockDescriptor.toBytes_length _
    obtain ⟨w', e, h⟩ := h1 b
    rw [hlen] at e
    exact ⟨w', by rw [e]; rfl, h⟩
  | false =>
    simp only [Bool.false_eq_true, if_false, M.bind_run, M.pure_run]
    generalize hb : Scsi.ShortLbaBlockDescriptor.toBytes _ = b
    have hlen : b.length = 8 := by rw [← hb]; exact Scsi.ShortLbaBlockDescriptor.toBytes_length _
    obtain ⟨w', e, h⟩ := h1 b
    rw [hlen] at e
    exact ⟨w', by rw [e]; rfl, h⟩

/-- After the header. -/
theorem modeSenseBody_exact (a : CommonCmdAttributes) (g : U32) (i : Nvme.GenericQueueEntryCmd) (w : World) (hw : I w)
    (page : List Byte) (hr : a.dbd = false → ∀ w, I w → w.mem.read i.prp1.toNat 4096 = some page) :
    (∃ r, modeSenseBody a g i s w = .ok r) ↔
      ¬ ((a.dbd = true ∧ a.page_code.toNat ∉ modePages) ∨
        (a.dbd = false ∧ (32 ≤ lbads page ∨ ((if a.llbaa then 16 else 8) ≤ s.len ∧ a.page_code.toNat ∉ modePages)))) := by
  unfold modeSenseBody
  have hbad : ∀ (s : Span) (w : World), a.page_code.toNat ∉ modePages →
      ¬ ∃ r, (do let _ ← WritePageData a.page_code g s; pure StatusCode.kSuccess : M StatusCode) w = .ok r := by
    rintro s w hp ⟨r, h⟩
    simp only [M.bind_run, WritePageData_bad a.page_code g w hp] at h
    cases h
  have hok : ∀ {s : Span} (w : World), Stable I s → I w → a.page_code.toNat ∈ modePages →
      ∃ r, (do let _ ← WritePageData a.page_code g s; pure StatusCode.kSuccess : M StatusCode) w = .ok r := by
    intro s w hs hw hp
    obtain ⟨a, w', e, -⟩ := Tot.bind (f := fun _ => (pure StatusCode.kSuccess : M StatusCode))
      (WritePageData_tot hs a.page_code g hp) (fun _ => .pure _ _) w hw
    exact ⟨_, e⟩
  cases hd : a.dbd with
  | true =>
    rw [if_pos rfl]
    simp only [true_and, Bool.true_eq_false, false_and, or_false]
    by_cases hp : a.page_code.toNat ∈ modePages
    · exact ⟨fun _ h => h hp, fun _ => hok w hs hw hp⟩
    · exact ⟨fun h => absurd h (hbad s w hp), fun h => absurd hp h⟩
  | false =>
    rw [if_neg (by decide)]
    simp only [true_and, Bool.false_eq_true, false_and, false_or]
    rcases Nat.lt_or_ge (lbads page) 32 with hl | hl
    rotate_left
    · refine ⟨?_, fun h => absurd (Or.inl hl) h⟩
      rintro ⟨r, h⟩
      simp only [M.bind_run, WriteBlockDescriptor_bad i a.llbaa w page (hr hd w hw) hl] at h
      cases h
    obtain ⟨w', e, hw'⟩ := WriteBlockDescriptor_run hs i a.llbaa w hw page (hr hd w hw) hl
    simp only [M.bind_run, e]
    by_cases hle : (if a.llbaa then 16 else 8) ≤ s.len
    · simp only [decide_eq_true hle, if_true]
      by_cases hp : a.page_code.toNat ∈ modePages
      · exact ⟨fun _ h => h.elim (fun h => by omega) fun h => h.2 hp, fun _ => hok w' (hs.sub _) hw' hp⟩
      · exact ⟨fun h => absurd h (hbad _ w' hp), fun h => absurd (Or.inr ⟨hle, hp⟩) h⟩
    · simp only [decide_eq_false hle]
      exact ⟨fun _ h => h.elim (fun h => by omega) fun h => hle h.1, fun _ => ⟨_, rfl⟩⟩

/-- The whole function: `k` is the size of the header. -/
theorem ModeSenseToScsi_exact (a : CommonCmdAttributes) (is10 : Bool) (g : U32) (i : Nvme.GenericQueueEntryCmd) (w : World)
    (hw : I w) (page : List Byte) (hr : a.dbd = false → ∀ w, I w → w.mem.read i.prp1.toNat 4096 = some page)
    (k : Nat) (hk : k = if is10 then 8 else 4) :
    (∃ r, ModeSenseToScsi a is10 g i s w = .ok r) ↔
      ¬ (k ≤ s.len ∧ ((a.dbd = true ∧ a.page_code.toNat ∉ modePages) ∨
        (a.dbd = false ∧ (32 ≤ lbads page ∨ (k + (if a.llbaa then 16 else 8) ≤ s.len ∧ a.page_code.toNat ∉ modePages))))) := by
  have key : ∀ b : List Byte, b.length = k →
      ((∃ r, (do
        let ok ← WriteValue' b s
        if ok then modeSenseBody a g i (s.subspan k) else pure .kSuccess) w = .ok r) ↔
      ¬ (k ≤ s.len ∧ ((a.dbd = true ∧ a.page_code.toNat ∉ modePages) ∨
        (a.dbd = false ∧ (32 ≤ lbads page ∨ (k + (if a.llbaa then 16 else 8) ≤ s.len ∧ a.page_code.toNat ∉ modePages)))))) := by
    intro b hb
    simp only [M.bind_run]
    by_cases hle : k ≤ s.len
    · obtain ⟨w', e, hw'⟩ := write_ok hs b w hw (by omega)
      rw [e]
      simp only [if_true, hle, true_and]
      rw [modeSenseBody_exact (hs.sub k) a g i w' hw' page hr, subspan_len]
      have : (k + (if a.llbaa then 16 else 8) ≤ s.len) ↔ (if a.llbaa then 16 else 8) ≤ s.len - k := by
        split <;> omega
      rw [this]
    · rw [show WriteValue' b s w = .ok (false, w) from WriteValue_false (Or.inl (by omega))]
      exact ⟨fun _ h => hle h.1, fun _ => ⟨_, rfl⟩⟩
  unfold ModeSenseToScsi
  cases is10 with
  | true =>
    rw [if_pos rfl] at hk ⊢
    subst hk
    exact key _ (Scsi.ModeParameter10Header.toBytes_length _)
  | false =>
    rw [if_neg (by decide)] at hk ⊢
    subst hk
    exact key _ (Scsi.ModeParameter6Header.toBytes_length _)

end mode

theorem attrsOf10_llbaa (cdb : List Byte) : (ModeSense.CommonCmdAttributes.llbaa (attrsOf10 cdb)) = Spec.bit cdb 1 4 :=
  fieldBit cdb 9 4 0 4 (by omega) (by omega) (by omega)

theorem attrsOf10_page (cdb : List Byte) : (attrsOf10 cdb).page_code.toNat = byte cdb 2 % 64 := by
  have := fieldBits cdb 9 8 6 1 0 (by omega) (by omega) (by omega)
  rw [Nat.pow_zero, Nat.div_one] at this
  exact this

/-- The page the first NVMe command points to, when `Complete` is called. -/
def firstPage (t1 : Translation) (m : Mem) (page : List Byte) : Prop :=
  ∃ wr, t1.GetNvmeWrappers.head? = some wr ∧ m.read (leAt wr.cmd.toBytes 24 8) 4096 = some page

/-- What can go wrong in `Complete` for a command all of whose NVMe commands were successful. -/
inductive Faulty (cdb : List Byte) (t1 : Translation) (w2 : World) (din : Span) : Prop
  /-- MODE SENSE(6) without NVMe commands: there is no first completion -/
  | noCompletion : byte cdb 0 = 0x1a → t1.GetNvmeWrappers = [] → Faulty cdb t1 w2 din
  /-- MODE SENSE(6): the block length the device reports is 2^32 or more -/
  | shift6 (page : List Byte) : byte cdb 0 = 0x1a → Spec.bit cdb 1 3 = false → 4 ≤ din.len → firstPage t1 w2.mem page →
      32 ≤ lbads page → Faulty cdb t1 w2 din
  /-- MODE SENSE(10) with DBD and room for the header -/
  | noReturn : byte cdb 0 = 0x5a → Spec.bit cdb 1 3 = true → 8 ≤ din.len → Faulty cdb t1 w2 din
  /-- MODE SENSE(10) without DBD: the block length -/
  | shift10 (page : List Byte) : byte cdb 0 = 0x5a → Spec.bit cdb 1 3 = false → 8 ≤ din.len → firstPage t1 w2.mem page →
      32 ≤ lbads page → Faulty cdb t1 w2 din
  /-- MODE SENSE(10) without DBD: room for header and block descriptor (long if LLBAA is set) -/
  | noReturnDescriptor : byte cdb 0 = 0x5a → Spec.bit cdb 1 3 = false →
      8 + (if Spec.bit cdb 1 4 then 16 else 8) ≤ din.len → Faulty cdb t1 w2 din

/-- The page is not touched by writes into the data buffer. -/
theorem fresh_disjoint {m : Mem} {a : Nat} {din : Span} (he : accessible m din) (h1 : ∀ x, inRange a 4096 x → m x = none) :
    ∀ x, inRange a 4096 x → ¬ inSpan din x := by
  intro x hr hi
  have := he (x - din.ptr) (by unfold inSpan at hi; omega)
  rw [show din.ptr + (x - din.ptr) = x by unfold inSpan at hi; omega, h1 x hr] at this
  cases this

theorem firstPage_unique {t1 : Translation} {m : Mem} {wr : NvmeCmdWrapper} {l : List NvmeCmdWrapper} {a : U64} {n c : U32}
    (h : t1.GetNvmeWrappers = wr :: l) (hw : wr = identifyWr n c a) (page : List Byte) :
    firstPage t1 m page ↔ m.read a.toNat 4096 = some page := by
  unfold firstPage
  rw [h]
  simp only [List.head?_cons, Option.some.injEq, exists_eq_left', hw, prp1_bytes]
  exact Iff.rfl

/-- The `switch` for MODE SENSE. -/
theorem switch_exact {E t w ptr cdb buf lun r t1 w1 w2 din sense} {cpl : List Nvme.GenericQueueEntryCpl}
    (hg : GoodAllocator E) (h : Pending E t w ptr cdb buf lun r t1 w1 w2 din sense) (ha : Accepted t1)
    (hl : cpl.length = t1.GetNvmeWrappers.length) (hop : byte cdb 0 = 0x1a ∨ byte cdb 0 = 0x5a) :
    (∃ r, completeSwitch E t1 (cdb.headD 0) cdb.tail cpl din w2 = .ok r) ↔ ¬ Faulty cdb t1 w2 din := by
  have hwf := began_wf h.began
  have hignore : ∀ (m : M StatusCode) (s : StatusCode),
      (∃ r, (do let _ ← m; pure s : M StatusCode) w2 = .ok r) ↔ ∃ r, m w2 = .ok r := by
    intro m s
    simp only [M.bind_run]
    cases m w2 with
    | error u => exact ⟨fun ⟨r, h⟩ => (by cases h), fun ⟨r, h⟩ => (by cases h)⟩
    | ok r => exact ⟨fun _ => ⟨r, rfl⟩, fun _ => ⟨_, rfl⟩⟩
  rcases hop with hop | hop
  · -- MODE SENSE(6)
    obtain ⟨p, w1', e, hcase⟩ := ms_cases h.began hop
    have hs := e.acc.mp ha
    have h6 : 6 ≤ cdb.length ∧ byte cdb 2 % 64 ∈ modePages := by
      obtain ⟨evs, -, h2⟩ := (C49_mode_sense6 E t w ptr cdb buf lun r t1 w1 h.began hop).1
      exact ⟨(h2.mp ha).1, (h2.mp ha).2.1⟩
    unfold completeSwitch
    rw [opc_of_byte hop (by decide)]
    rw [if_neg (by decide), if_neg (by decide), if_pos (by decide)]
    cases cpl with
    | nil =>
      have hn : t1.GetNvmeWrappers = [] := List.length_eq_zero_iff.mp hl.symm
      refine ⟨?_, fun hf => absurd (.noCompletion hop hn) hf⟩
      rintro ⟨r, hr⟩
      cases hr
    | cons c cs =>
    simp only [cplHead]
    change (∃ r, (do
      let _ ← ModeSense.ModeSense6ToScsi cdb.tail t1.nvme_wrappers.e0.cmd c.cdw0 din
      pure t1.pipeline_status : M StatusCode) w2 = .ok r) ↔ _
    rw [hignore]
    unfold ModeSense.ModeSense6ToScsi
    rw [readValue_some (by rw [List.length_tail]; simp only [Scsi.ModeSense6Command.size]; omega)]
    change (∃ r, ModeSense.ModeSenseToScsi (attrsOf6 cdb) false c.cdw0 t1.nvme_wrappers.e0.cmd din w2 = .ok r) ↔ _
    obtain ⟨wr, l, hcm⟩ : ∃ wr l, t1.GetNvmeWrappers = wr :: l := by
      cases hq : t1.GetNvmeWrappers with
      | nil => rw [hq] at hl; cases hl
      | cons wr l => exact ⟨wr, l, rfl⟩
    have hpage : Spec.bit cdb 1 3 = false → wr = identifyWr (nsidOf lun) 0 (setA E w) ∧
        t1.nvme_wrappers.e0 = identifyWr (nsidOf lun) 0 (setA E w) ∧ setA E w ≠ 0 := by
      intro hd
      rcases hcase with ⟨hh, -⟩ | ⟨-, hh, -⟩ | ⟨-, -, -, hn, -⟩ | ⟨-, -, hA, -, hws, hcnt, -⟩
      · omega
      · rw [hd] at hh; cases hh
      · exact absurd hs hn
      · have he0 : p.ws.e0 = identifyWr (nsidOf lun) 0 (setA E w) := by
          rw [hws]
          unfold msPage
          split
          · split <;> rfl
          · split <;> rfl
        refine ⟨?_, by rw [e.wss, he0], hA⟩
        have hcm' := e.cmds hs
        rw [hcm] at hcm'
        match hk : p.count with
        | 0 => rw [hk] at hcm'; cases hcm'
        | k + 1 =>
          rw [hk] at hcm'
          rw [← he0]
          exact (List.cons.inj hcm').1
    have hpg : ∃ page, Spec.bit cdb 1 3 = false → w2.mem.read (setA E w).toNat 4096 = some page := by
      by_cases hd : Spec.bit cdb 1 3 = false
      · obtain ⟨g1, -, -⟩ := hpage hd
        have hacc := h.pages.of (nsid := nsidOf lun) (cns := 0) (a := setA E w) (by rw [hcm, g1]; exact List.mem_cons_self ..)
        obtain ⟨page, hr⟩ := read_of_accessible hacc
        exact ⟨page, fun _ => hr⟩
      · exact ⟨[], fun h => absurd h hd⟩
    obtain ⟨page, hpg⟩ := hpg
    have hdis : ∀ a, (Spec.bit cdb 1 3 = false ∧ inRange (setA E w).toNat 4096 a) → ¬ inSpan din a := by
      rintro a ⟨hd, hr⟩
      obtain ⟨-, -, hA⟩ := hpage hd
      rcases set_good hg w with ⟨h0, -⟩ | ⟨-, -, h1, -⟩
      · exact absurd h0 hA
      · exact fresh_disjoint h.early (fun x hx => (h1 x hx).1) a hr
    have hst := kept_stable w2 (fun a => Spec.bit cdb 1 3 = false ∧ inRange (setA E w).toNat 4096 a) din h.data hdis
    rw [ModeSenseToScsi_exact hst (attrsOf6 cdb) false _ _ w2 (kept_self _ _) page ?_ 4 rfl]
    · rw [attrsOf6_page, attrsOf6_dbd]
      refine not_congr ⟨?_, ?_⟩
      · rintro ⟨h4, ⟨-, hn⟩ | ⟨hd, hb | ⟨-, hn⟩⟩⟩
        · exact absurd h6.2 hn
        · exact .shift6 page hop hd h4 ((firstPage_unique hcm (hpage hd).1 page).mpr (hpg hd)) hb
        · exact absurd h6.2 hn
      · intro hf
        cases hf with
        | noCompletion _ hn => rw [hcm] at hn; cases hn
        | shift6 page' _ hd h4 hp hb =>
          have := (firstPage_unique hcm (hpage hd).1 page').mp hp
          rw [hpg hd] at this
          cases this
          exact ⟨h4, Or.inr ⟨hd, Or.inl hb⟩⟩
        | noReturn h5 => omega
        | shift10 _ h5 => omega
        | noReturnDescriptor h5 => omega
    · rw [attrsOf6_dbd]
      intro hd w' hw'
      rw [(hpage hd).2.1]
      change w'.mem.read (setA E w).toNat 4096 = _
      rw [← hpg hd]
      apply read_congr
      intro i hi
      exact hw'.2 _ ⟨hd, by unfold inRange; omega⟩
  · -- MODE SENSE(10)
    obtain ⟨hl12, hb2, -, a, wr, hcm, ha0, hwr, w0, hw0, -, hdbd⟩ := fallthrough_luns h.began (Or.inr hop) ha
    have hdbd := hdbd hop
    have he0 : t1.nvme_wrappers.e0 = wr := by
      have : t1.GetNvmeWrappers = t1.nvme_wrappers.toList.take t1.nvme_cmd_count := rfl
      rw [this] at hcm
      match hk : t1.nvme_cmd_count with
      | 0 => rw [hk] at hcm; cases hcm
      | k + 1 =>
        rw [hk] at hcm
        exact (List.cons.inj hcm).1
    unfold completeSwitch
    rw [opc_of_byte hop (by decide)]
    rw [if_neg (by decide), if_neg (by decide), if_neg (by decide), if_pos (by decide)]
    cases cpl with
    | nil => rw [hcm] at hl; cases hl
    | cons c cs =>
    simp only [cplHead]
    change (∃ r, (do
      let _ ← ModeSense.ModeSense10ToScsi cdb.tail t1.nvme_wrappers.e0.cmd c.cdw0 din
      pure t1.pipeline_status : M StatusCode) w2 = .ok r) ↔ _
    rw [hignore]
    unfold ModeSense.ModeSense10ToScsi
    rw [readValue_some (by rw [List.length_tail]; simp only [Scsi.ModeSense10Command.size]; omega)]
    change (∃ r, ModeSense.ModeSenseToScsi (attrsOf10 cdb) true c.cdw0 t1.nvme_wrappers.e0.cmd din w2 = .ok r) ↔ _
    have hacc := h.pages.of (nsid := 0) (cns := 2) (a := a) (by rw [hcm, hwr]; exact List.mem_cons_self ..)
    obtain ⟨page, hpg⟩ := read_of_accessible hacc
    have hdis : ∀ x, (Spec.bit cdb 1 3 = false ∧ inRange a.toNat 4096 x) → ¬ inSpan din x := by
      rintro x ⟨hd, hr⟩
      rcases hdbd with hh | ⟨hA, hw⟩
      · rw [hd] at hh; cases hh
      rcases set_good hg w with ⟨-, hm⟩ | ⟨h0, -⟩
      · rcases set_good hg w0 with ⟨h0, -⟩ | ⟨-, -, h1, -⟩
        · rw [hw0] at h0; exact absurd h0 ha0
        · rw [hw0, hw, hm] at h1
          exact fresh_disjoint h.early (fun x hx => (h1 x hx).1) x hr
      · exact absurd hA h0
    have hst := kept_stable w2 (fun x => Spec.bit cdb 1 3 = false ∧ inRange a.toNat 4096 x) din h.data hdis
    have hnp : byte cdb 2 % 64 ∉ modePages := by
      unfold modePages
      simp only [List.mem_cons, List.not_mem_nil, or_false]
      omega
    rw [ModeSenseToScsi_exact hst (attrsOf10 cdb) true _ _ w2 (kept_self _ _) page ?_ 8 rfl]
    · rw [attrsOf10_page, attrsOf10_dbd, attrsOf10_llbaa]
      refine not_congr ⟨?_, ?_⟩
      · rintro ⟨h8, ⟨hd, -⟩ | ⟨hd, hb | ⟨hl, -⟩⟩⟩
        · exact .noReturn hop hd h8
        · exact .shift10 page hop hd h8 ((firstPage_unique hcm hwr page).mpr hpg) hb
        · exact .noReturnDescriptor hop hd hl
      · intro hf
        cases hf with
        | noCompletion h5 => omega
        | shift6 _ h5 => omega
        | noReturn _ hd h8 => exact ⟨h8, Or.inl ⟨hd, hnp⟩⟩
        | shift10 page' _ hd h8 hp hb =>
          have := (firstPage_unique hcm hwr page').mp hp
          rw [hpg] at this
          cases this
          exact ⟨h8, Or.inr ⟨hd, Or.inl hb⟩⟩
        | noReturnDescriptor _ hd hl => exact ⟨by omega, Or.inr ⟨hd, Or.inr ⟨hl, hnp⟩⟩⟩
    · rw [attrsOf10_dbd]
      intro hd w' hw'
      rw [he0, hwr]
      change w'.mem.read a.toNat 4096 = _
      rw [← hpg]
      apply read_congr
      intro i hi
      exact hw'.2 _ ⟨hd, by unfold inRange; omega⟩

/-- **C10**, exactly what holds: `Complete` has undefined behaviour if and only if the command was accepted, there is a
successful completion for each of its NVMe commands, and one of the five cases of `Faulty` applies. -/
theorem C10_exact_partial (E t w ptr cdb buf lun r t1 w1 w2 din sense cpl) (hg : GoodAllocator E)
    (h : Pending E t w ptr cdb buf lun r t1 w1 w2 din sense) :
    defined E t1 cpl din sense w2 ↔
      ¬ (Accepted t1 ∧ cpl.length = t1.GetNvmeWrappers.length ∧ (∀ c ∈ cpl, cplOk c) ∧ Faulty cdb t1 w2 din) := by
  have hwf := began_wf h.began
  have hlen : t1.GetNvmeWrappers.length = t1.nvme_cmd_count := by
    unfold Translation.GetNvmeWrappers
    rw [List.length_take]
    have := hwf.count
    simp only [Arr3.toList, List.length_cons, List.length_nil]
    omega
  by_cases hop : byte cdb 0 = 0x1a ∨ byte cdb 0 = 0x5a
  · constructor
    · rintro ⟨c, t2, w3, hc⟩ ⟨ha, hl, hok, hf⟩
      obtain ⟨hne, hspan⟩ := began_span h.began ha
      have := mt (switch_exact hg h ha hl hop).mp (not_not_intro hf)
      cases hsw : completeSwitch E t1 (cdb.headD 0) cdb.tail cpl din w2 with
      | ok r => exact this ⟨r, hsw⟩
      | error u =>
        rw [Complete_undefined ha (hl.trans hlen) ((firstError_none _).mpr hok) (by rw [hspan]; exact h.kept) hsw] at hc
        cases hc
    · intro hnf
      suffices hh : ∃ r, t1.Complete E cpl din sense w2 = .ok r by
        obtain ⟨⟨⟨c, t2⟩, w3⟩, e⟩ := hh
        exact ⟨c, t2, w3, e⟩
      refine Complete_defined hwf h.sense fun hp hl hfe => ?_
      have ha : Accepted t1 := hp
      obtain ⟨hne, hspan⟩ := began_span h.began ha
      refine ⟨cdb, by rw [hspan]; exact h.kept, ?_⟩
      obtain ⟨⟨st, w'⟩, hr⟩ := (switch_exact hg h ha (hl.trans hlen.symm) hop).mpr
        fun hf => hnf ⟨ha, hl.trans hlen.symm, (firstError_none _).mp hfe, hf⟩
      exact ⟨st, w', hr⟩
  · refine ⟨fun _ hh => ?_, fun _ => C10_complete_safe_partial _ _ _ _ _ _ _ _ _ _ _ _ _ cpl hg h
      ⟨fun h => absurd (Or.inr h) hop, fun h => absurd (Or.inl h) hop, fun h => absurd (Or.inl h) hop⟩⟩
    apply hop
    cases hh.2.2.2 with
    | noCompletion h => exact Or.inl h
    | shift6 _ h => exact Or.inl h
    | noReturn h => exact Or.inr h
    | shift10 _ h => exact Or.inr h
    | noReturnDescriptor h => exact Or.inr h

namespace Demo

/-- The situation of C10 for a given command block. -/
theorem demo_pending (cdb : List Byte) (hc : cdb.length ≤ 0x300) (p0 p1 : List Byte) (len : Nat) (hl : len ≤ 0x8000)
    {r t1 w1} (hb : Began (stack env.junk) (Translation.init ws) ⟨mem cdb [], []⟩ 0x100 cdb data 1 r t1 w1)
    (h2 : pagesAccessible t1 (mem2 cdb p0 p1)) :
    Pending (stack env.junk) (Translation.init ws) ⟨mem cdb [], []⟩ 0x100 cdb data 1 r t1 w1
      ⟨mem2 cdb p0 p1, []⟩ ⟨0x8000, len⟩ sense := by
  refine ⟨hb, read_cdb2 cdb p0 p1 hc, fun i hi => ?_, fun i hi => ?_, mem2_sense cdb p0 p1 hc, h2⟩
  · have hi : i < len := hi
    simp only
    rw [mem_data cdb hc _ (by omega) (by omega)]; rfl
  · have hi : i < len := hi
    simp only
    rw [mem2_data cdb p0 p1 hc _ (by omega) (by omega)]; rfl

end Demo

/-- MODE SENSE(6) for the control page with DBD = 1, which is accepted and needs no NVMe command: `Complete` looks at
the first of no completions.  -/
theorem C10_control_page : ∃ r t1 w1, Accepted t1 ∧ t1.GetNvmeWrappers = [] ∧
    Pending (Demo.stack Demo.env.junk) (Translation.init Demo.ws) ⟨Demo.mem [0x1a, 8, 0x0a, 0, 96, 0] [], []⟩ 0x100
      [0x1a, 8, 0x0a, 0, 96, 0] Demo.data 1 r t1 w1 ⟨Demo.mem2 [0x1a, 8, 0x0a, 0, 96, 0] [] [], []⟩ ⟨0x8000, 96⟩ Demo.sense := by
  have hc : ([0x1a, 8, 0x0a, 0, 96, 0] : List Byte).length ≤ 0x300 := by decide
  obtain ⟨r, t1, w1, hb⟩ := Demo.demo_began Demo.env.junk [0x1a, 8, 0x0a, 0, 96, 0] hc 1
  have hacc : Accepted t1 := by
    obtain ⟨evs, h1, h2⟩ := (C49_mode_sense6 _ _ _ _ _ _ _ _ _ _ hb rfl).1
    exact h2.mpr ⟨by decide, by decide, by decide, fun hh => absurd hh (by decide)⟩
  have hm : t1.GetNvmeWrappers = [] := by
    obtain ⟨-, a, -, hm⟩ := (C49_mode_sense6 _ _ _ _ _ _ _ _ _ _ hb rfl).2.1 hacc
    rw [if_neg (by decide), if_neg (by decide)] at hm
    exact List.map_eq_nil_iff.mp hm
  exact ⟨r, t1, w1, hacc, hm, Demo.demo_pending _ hc [] [] 96 (by decide) hb fun wr hwr => by rw [hm] at hwr; cases hwr⟩

theorem C10_refuted : ¬ C10_statement := by
  intro hall
  obtain ⟨r, t1, w1, ha, hm, hp⟩ := C10_control_page
  have := hall _ _ _ _ _ _ _ _ _ _ _ _ _ [] (Demo.stack_good _) hp
  exact (C10_exact_partial _ _ _ _ _ _ _ _ _ _ _ _ _ _ (Demo.stack_good _) hp).mp this
    ⟨ha, by rw [hm]; rfl, (fun _ h => by cases h), .noCompletion rfl hm⟩

/-- The hypotheses of C10 and the absence of faults: the same with the page of all pages, one successful completion. -/
example : ∃ E t w ptr cdb buf lun r t1 w1 w2 din sense, ∃ cpl : List Nvme.GenericQueueEntryCpl, GoodAllocator E ∧
    Pending E t w ptr cdb buf lun r t1 w1 w2 din sense ∧ Accepted t1 ∧ cpl.length = t1.GetNvmeWrappers.length ∧
    (∀ c ∈ cpl, cplOk c) ∧ ¬ Faulty cdb t1 w2 din := by
  have hc : ([0x1a, 8, 0x3f, 0, 96, 0] : List Byte).length ≤ 0x300 := by decide
  obtain ⟨r, t1, w1, hb⟩ := Demo.demo_began Demo.env.junk [0x1a, 8, 0x3f, 0, 96, 0] hc 1
  have hacc : Accepted t1 := by
    obtain ⟨evs, h1, h2⟩ := (C49_mode_sense6 _ _ _ _ _ _ _ _ _ _ hb rfl).1
    exact h2.mpr ⟨by decide, by decide, by decide, fun hh => absurd hh (by decide)⟩
  obtain ⟨-, a, -, hm⟩ := (C49_mode_sense6 _ _ _ _ _ _ _ _ _ _ hb rfl).2.1 hacc
  rw [if_neg (by decide), if_pos (by decide)] at hm
  have hlen : t1.GetNvmeWrappers.length = 1 := by
    have := congrArg List.length hm
    rw [List.length_map] at this
    exact this
  have h0a : ∀ wr ∈ t1.GetNvmeWrappers, byte wr.cmd.toBytes 0 = 0x0a := by
    intro wr hwr
    have := List.mem_map_of_mem (f := fun x => (x.cmd.toBytes, x.is_admin)) hwr
    rw [hm] at this
    simp only [List.nil_append, List.mem_cons, List.not_mem_nil, or_false, Prod.mk.injEq] at this
    rw [this.1]
    rfl
  refine ⟨_, _, _, _, _, _, _, _, _, _, _, _, _, [{}], Demo.stack_good _,
    Demo.demo_pending _ hc [] [] 96 (by decide) hb fun wr hwr h06 => ?_, hacc, by rw [hlen]; rfl, ?_, fun hf => ?_⟩
  · rw [h0a wr hwr] at h06; exact absurd h06 (by decide)
  · simp only [List.forall_mem_cons, List.not_mem_nil, false_implies, implies_true, and_true]
    exact ⟨rfl, rfl⟩
  · cases hf with
    | noCompletion _ hn => rw [hn] at hlen; cases hlen
    | shift6 _ _ hd => exact absurd hd (by decide)
    | noReturn h5 => exact absurd h5 (by decide)
    | shift10 _ h5 => exact absurd h5 (by decide)
    | noReturnDescriptor h5 => exact absurd h5 (by decide)

end Scsi2Nvme
