import Verif.Spec.Padding
import Verif.Properties.Reread
/-!
# C119: bytes after the command
-/

namespace Scsi2Nvme
open Spec

theorem readValue_take {α : Type} {size : Nat} {dec : List Byte → α} {a b : List Byte} {k : Nat} (h : a.take k = b.take k)
    (ha : k ≤ a.length) (hb : k ≤ b.length) (hs : size ≤ k) : readValue size dec a = readValue size dec b := by
  rw [readValue_some (by omega), readValue_some (by omega)]
  have e : a.take size = b.take size := by
    have h1 := congrArg (List.take size) h
    rwa [List.take_take, List.take_take, Nat.min_eq_left hs] at h1
  rw [e]

theorem ite_same {α : Type} {c : Prop} [Decidable c] {a b a' b' : α} (h1 : c → a = a') (h2 : ¬ c → b = b') :
    (if c then a else b) = if c then a' else b' := by
  by_cases h : c
  · rw [if_pos h, if_pos h, h1 h]
  · rw [if_neg h, if_neg h, h2 h]

/-- The translation of a command depends on the command alone. -/
theorem beginSwitch_take (E : Env) (opc : Byte) (a b : List Byte) (buf : Span) (nsid : U32) (p : Pipe)
    (h : a.take (commandLength opc.toNat - 1) = b.take (commandLength opc.toNat - 1))
    (ha : commandLength opc.toNat - 1 ≤ a.length) (hb : commandLength opc.toNat - 1 ≤ b.length)
    (h5 : opc ≠ 0x5a ∨ (a.take 11 = b.take 11 ∧ 11 ≤ a.length ∧ 11 ≤ b.length)) :
    beginSwitch E opc a buf nsid p = beginSwitch E opc b buf nsid p := by
  unfold beginSwitch
  refine ite_same (fun c => ?_) (fun _ => ?_)
  · subst c
    unfold beginInquiry Inquiry.InquiryToNvme
    rw [readValue_take h ha hb (by decide)]
  refine ite_same (fun c => ?_) (fun _ => ?_)
  · subst c
    unfold beginUnmap Unmap.UnmapToNvme beginModeSense6 ModeSense.ModeSense6ToNvme
    rw [readValue_take (size := Scsi.UnmapCommand.size) h ha hb (by decide)]
    simp only [readValue_take (size := Scsi.ModeSense6Command.size) h ha hb (by decide)]
  refine ite_same (fun c => ?_) (fun _ => ?_)
  · subst c
    unfold beginModeSense6 ModeSense.ModeSense6ToNvme
    rw [readValue_take h ha hb (by decide)]
  refine ite_same (fun c => ?_) (fun _ => ?_)
  · subst c
    rcases h5 with h5 | ⟨g, ga, gb⟩
    · exact absurd rfl h5
    unfold beginModeSense10 ModeSense.ModeSense10ToNvme beginMaintenanceIn MaintenanceIn.ValidateReportSupportedOpCodes beginReportLuns ReportLuns.ReportLunsToNvme
    have e1 := readValue_take (size := Scsi.ModeSense10Command.size) (dec := Scsi.ModeSense10Command.ofBytes) g ga gb (by decide)
    have e2 := readValue_take (size := Scsi.ReportOpCodesCommand.size) (dec := Scsi.ReportOpCodesCommand.ofBytes) g ga gb (by decide)
    have e3 := readValue_take (size := Scsi.ReportLunsCommand.size) (dec := Scsi.ReportLunsCommand.ofBytes) g ga gb (by decide)
    simp only [e1, e2, e3]
  refine ite_same (fun c => ?_) (fun _ => ?_)
  · subst c
    unfold beginMaintenanceIn MaintenanceIn.ValidateReportSupportedOpCodes beginReportLuns ReportLuns.ReportLunsToNvme
    have e2 := readValue_take (size := Scsi.ReportOpCodesCommand.size) (dec := Scsi.ReportOpCodesCommand.ofBytes) h ha hb (by decide)
    have e3 := readValue_take (size := Scsi.ReportLunsCommand.size) (dec := Scsi.ReportLunsCommand.ofBytes) h ha hb (by decide)
    simp only [e2, e3]
  refine ite_same (fun c => ?_) (fun _ => ?_)
  · subst c
    unfold beginReportLuns ReportLuns.ReportLunsToNvme
    rw [readValue_take h ha hb (by decide)]
  refine ite_same (fun c => ?_) (fun _ => ?_)
  · subst c
    unfold beginReadCapacity10 ReadCapacity.ReadCapacity10ToNvme
    rw [readValue_take h ha hb (by decide)]
  refine ite_same (fun c => ?_) (fun _ => ?_)
  · subst c
    unfold beginRequestSense RequestSense.RequestSenseToNvme
    rw [readValue_take h ha hb (by decide)]
  refine ite_same (fun c => ?_) (fun _ => ?_)
  · subst c
    unfold Read.Read6ToNvme
    rw [readValue_take h ha hb (by decide)]
  refine ite_same (fun c => ?_) (fun _ => ?_)
  · subst c
    unfold Read.Read10ToNvme
    rw [readValue_take h ha hb (by decide)]
  refine ite_same (fun c => ?_) (fun _ => ?_)
  · subst c
    unfold Read.Read12ToNvme
    rw [readValue_take h ha hb (by decide)]
  refine ite_same (fun c => ?_) (fun _ => ?_)
  · subst c
    unfold Read.Read16ToNvme
    rw [readValue_take h ha hb (by decide)]
  refine ite_same (fun _ => rfl) (fun _ => ?_)
  refine ite_same (fun c => ?_) (fun _ => ?_)
  · subst c
    unfold Verify.VerifyToNvme
    rw [readValue_take h ha hb (by decide)]
  refine ite_same (fun _ => rfl) (fun _ => ?_)
  refine ite_same (fun c => ?_) (fun _ => ?_)
  · subst c
    unfold Write.Write6ToNvme
    rw [readValue_take h ha hb (by decide)]
  refine ite_same (fun c => ?_) (fun _ => ?_)
  · subst c
    unfold Write.Write10ToNvme
    rw [readValue_take h ha hb (by decide)]
  refine ite_same (fun c => ?_) (fun _ => ?_)
  · subst c
    unfold Write.Write12ToNvme
    rw [readValue_take h ha hb (by decide)]
  refine ite_same (fun c => ?_) (fun _ => ?_)
  · subst c
    unfold Write.Write16ToNvme
    rw [readValue_take h ha hb (by decide)]
  rfl

/-- So does what is written back. -/
theorem completeSwitch_take (E : Env) (t t' : Translation) (ht : EqualButBlock t t') (opc : Byte) (a b : List Byte)
    (cpl : List Nvme.GenericQueueEntryCpl) (bin : Span)
    (h : a.take (commandLength opc.toNat - 1) = b.take (commandLength opc.toNat - 1))
    (ha : commandLength opc.toNat - 1 ≤ a.length) (hb : commandLength opc.toNat - 1 ≤ b.length) :
    completeSwitch E t opc a cpl bin = completeSwitch E t' opc b cpl bin := by
  have e1 : t'.pipeline_status = t.pipeline_status := by rw [ht]
  have e2 : t'.nvme_wrappers = t.nvme_wrappers := by rw [ht]
  unfold completeSwitch
  rw [e1, e2]
  refine ite_same (fun _ => rfl) (fun _ => ?_)
  refine ite_same (fun c => ?_) (fun _ => ?_)
  · subst c
    unfold Inquiry.InquiryToScsi
    rw [readValue_take h ha hb (by decide)]
  refine ite_same (fun c => ?_) (fun _ => ?_)
  · subst c
    unfold ModeSense.ModeSense6ToScsi
    rw [readValue_take h ha hb (by decide)]
  refine ite_same (fun c => ?_) (fun _ => ?_)
  · subst c
    unfold ModeSense.ModeSense10ToScsi
    rw [readValue_take h ha hb (by decide)]
  refine ite_same (fun _ => rfl) (fun _ => ?_)
  refine ite_same (fun _ => rfl) (fun _ => ?_)
  refine ite_same (fun _ => rfl) (fun _ => ?_)
  refine ite_same (fun _ => rfl) (fun _ => ?_)
  refine ite_same (fun c => ?_) (fun _ => ?_)
  · subst c
    unfold RequestSense.RequestSenseToScsi
    rw [readValue_take h ha hb (by decide)]
  rfl

theorem read_take {m : Mem} {p n k : Nat} {bs : List Byte} (h : m.read p n = some bs) (hk : k ≤ n) :
    m.read p k = some (bs.take k) := by
  have h1 := read_eq_some.mp h
  refine read_eq_some.mpr ⟨by rw [List.length_take]; omega, fun i hi => ?_⟩
  rw [h1.2 i (by omega), List.getElem?_take_of_lt hi]

/-- Two command blocks at the same place hold the same command. -/
theorem blocks {m : Mem} {p n n' : Nat} (h : HoldsCommand m p n) (h' : HoldsCommand m p n') :
    ∃ (op : Byte) (a b : List Byte), m.read p n = some (op :: a) ∧ m.read p n' = some (op :: b) ∧ n = a.length + 1 ∧ n' = b.length + 1 ∧
      commandLength op.toNat - 1 ≤ a.length ∧ commandLength op.toNat - 1 ≤ b.length ∧
      (∀ k, k ≤ a.length → k ≤ b.length → a.take k = b.take k) ∧ m p = some op := by
  obtain ⟨g1, op, g2, g3⟩ := h
  obtain ⟨g1', op', g2', g3'⟩ := h'
  rw [g2] at g2'
  cases g2'
  have pos : 0 < commandLength op.toNat := by
    unfold commandLength
    split <;> omega
  obtain ⟨bs, r⟩ := Option.isSome_iff_exists.mp g1
  obtain ⟨bs', r'⟩ := Option.isSome_iff_exists.mp g1'
  have l := read_length r
  have l' := read_length r'
  cases bs with
  | nil => simp only [List.length_nil] at l; omega
  | cons x a =>
    cases bs' with
    | nil => simp only [List.length_nil] at l'; omega
    | cons y b =>
      simp only [List.length_cons] at l l'
      have hx : x = op := by
        have := (read_eq_some.mp r).2 0 (by omega)
        simp only [Nat.add_zero, List.getElem?_cons_zero] at this
        exact Option.some.inj (this.symm.trans g2)
      have hy : y = op := by
        have := (read_eq_some.mp r').2 0 (by omega)
        simp only [Nat.add_zero, List.getElem?_cons_zero] at this
        exact Option.some.inj (this.symm.trans g2)
      subst hx; subst hy
      refine ⟨_, a, b, r, r', l.symm, l'.symm, by omega, by omega, fun k h1 h2 => ?_, g2⟩
      have e := (read_take r (k := k + 1) (by omega)).symm.trans (read_take r' (k := k + 1) (by omega))
      simp only [List.take_succ_cons, Option.some.injEq, List.cons.injEq, true_and] at e
      exact e

theorem EqualButBlock.refl (t : Translation) : EqualButBlock t t := rfl

/-- **C119**, full statement for `Begin` (false, see `C119_refuted`): how many bytes follow the command in the command block, and which,
does not matter. -/
def C119_statement : Prop := ∀ (E : Env) (t : Translation) (w : World) (p n n' : Nat) (buf : Span) (lun : U64),
  HoldsCommand w.mem p n → HoldsCommand w.mem p n' → SameEnd (t.Begin E ⟨p, n⟩ buf lun w) (t.Begin E ⟨p, n'⟩ buf lun w)

/-- **C119 (partial)**: with every object in every state, for every command other than MODE SENSE(10), `Begin` does the same whatever
follows the command in the command block.  Missing: MODE SENSE(10), for which it does so if both command blocks have 12 bytes. -/
theorem C119_begin_partial (E : Env) (t : Translation) (w : World) (p n n' : Nat) (buf : Span) (lun : U64)
    (h : HoldsCommand w.mem p n) (h' : HoldsCommand w.mem p n') (h5 : w.mem p ≠ some 0x5a ∨ (12 ≤ n ∧ 12 ≤ n')) :
    SameEnd (t.Begin E ⟨p, n⟩ buf lun w) (t.Begin E ⟨p, n'⟩ buf lun w) := by
  obtain ⟨op, a, b, r, r', l, l', ha, hb, ht, hop⟩ := blocks h h'
  unfold Translation.Begin
  by_cases hu : t.pipeline_status ≠ .kUninitialized
  · rw [if_pos hu, if_pos hu]
    exact ⟨rfl, rfl, rfl⟩
  rw [if_neg hu, if_neg hu, if_neg (by simp only; omega), if_neg (by simp only; omega)]
  have hs := beginSwitch_take E op a b buf (lun.setWidth 32 + 1)
    { status := .kSuccess, count := t.nvme_cmd_count, ws := t.nvme_wrappers, as := t.allocations, alloc_len := 0 }
    (ht _ ha hb) ha hb (by
      rcases h5 with h5 | ⟨h1, h2⟩
      · exact .inl (fun e => h5 (by rw [hop, e]))
      · exact .inr ⟨ht 11 (by omega) (by omega), by omega, by omega⟩)
  simp only [M.bind_run, load_ok r, load_ok r', List.headD_cons, List.tail_cons]
  rw [hs]
  cases beginSwitch E op b buf (lun.setWidth 32 + 1)
    { status := .kSuccess, count := t.nvme_cmd_count, ws := t.nvme_wrappers, as := t.allocations, alloc_len := 0 } w with
  | error e => exact rfl
  | ok q =>
    obtain ⟨q, w1⟩ := q
    simp only
    by_cases hq : q.status ≠ .kSuccess
    · rw [if_pos hq, if_pos hq]
      unfold Translation.FlushMemory
      simp only [M.bind_run]
      cases flushLoop E q.count 0 q.as w1 with
      | error e => exact rfl
      | ok z => exact ⟨rfl, rfl, rfl⟩
    · rw [if_neg hq, if_neg hq]
      exact ⟨rfl, rfl, rfl⟩

theorem Abort_sameEnd (E : Env) (t t' : Translation) (ht : EqualButBlock t t') (r : CompleteResponse) (w : World) :
    SameEnd ((do let t ← t.AbortPipeline E; pure (r, t) : M (CompleteResponse × Translation)) w)
      ((do let t ← t'.AbortPipeline E; pure (r, t) : M (CompleteResponse × Translation)) w) := by
  have e1 : t'.nvme_cmd_count = t.nvme_cmd_count := by rw [ht]
  have e2 : t'.allocations = t.allocations := by rw [ht]
  have e3 : t'.nvme_wrappers = t.nvme_wrappers := by rw [ht]
  unfold Translation.AbortPipeline Translation.FlushMemory
  simp only [M.bind_run, e1, e2]
  cases flushLoop E t.nvme_cmd_count 0 t.allocations w with
  | error e => exact rfl
  | ok z =>
    refine ⟨rfl, ?_, rfl⟩
    unfold EqualButBlock
    simp only [e3]

/-- **C119** for `Complete`: for every command, whatever the two objects are in the middle of, and whatever follows the command in the
command block. -/
theorem C119_complete (E : Env) (t t' : Translation) (w : World) (p n n' : Nat) (cpl : List Nvme.GenericQueueEntryCpl) (bin sense : Span)
    (ht : EqualButBlock t t') (hs : t.scsi_cmd = ⟨p, n⟩) (hs' : t'.scsi_cmd = ⟨p, n'⟩)
    (h : HoldsCommand w.mem p n) (h' : HoldsCommand w.mem p n') :
    SameEnd (t.Complete E cpl bin sense w) (t'.Complete E cpl bin sense w) := by
  obtain ⟨op, a, b, r, r', l, l', ha, hb, htk, hop⟩ := blocks h h'
  have e0 : t'.pipeline_status = t.pipeline_status := by rw [ht]
  have e1 : t'.nvme_cmd_count = t.nvme_cmd_count := by rw [ht]
  unfold Translation.Complete
  rw [e0, e1]
  by_cases c1 : t.pipeline_status = .kUninitialized
  · rw [if_pos c1, if_pos c1]
    exact ⟨rfl, ht, rfl⟩
  rw [if_neg c1, if_neg c1]
  by_cases c2 : cpl.length ≠ t.nvme_cmd_count
  · rw [if_pos c2, if_pos c2]
    exact Abort_sameEnd E t t' ht _ w
  rw [if_neg c2, if_neg c2]
  by_cases c3 : t.pipeline_status ≠ .kSuccess
  · rw [if_pos c3, if_pos c3, M.bind_run, M.bind_run]
    cases FillSenseBuffer E sense rejectedStatus w with
    | error e => exact rfl
    | ok z => exact Abort_sameEnd E t t' ht _ z.2
  rw [if_neg c3, if_neg c3]
  cases firstError cpl with
  | some s =>
    simp only
    rw [M.bind_run, M.bind_run]
    cases FillSenseBuffer E sense s w with
    | error e => exact rfl
    | ok z => exact Abort_sameEnd E t t' ht _ z.2
  | none =>
    simp only
    have r1 : w.mem.read t.scsi_cmd.ptr t.scsi_cmd.len = some (op :: a) := by rw [hs]; exact r
    have r2 : w.mem.read t'.scsi_cmd.ptr t'.scsi_cmd.len = some (op :: b) := by rw [hs']; exact r'
    rw [M.bind_run, M.bind_run, load_ok r1, load_ok r2]
    simp only [List.headD_cons, List.tail_cons]
    rw [M.bind_run, M.bind_run, completeSwitch_take E t t' ht op a b cpl bin (htk _ ha hb) ha hb]
    cases completeSwitch E t' op b cpl bin w with
    | error e => exact rfl
    | ok z =>
      have hz : EqualButBlock { t with pipeline_status := z.1 } { t' with pipeline_status := z.1 } := by
        unfold EqualButBlock at ht ⊢
        rw [ht]
      have := Abort_sameEnd E _ _ hz ⟨.kSuccess, 0⟩ z.2
      rw [e1] at this
      exact this

/-- A MODE SENSE(10) of the caching page, followed by six zero bytes. -/
def padded : List Byte := [0x5a, 8, 0x00, 0, 0, 0, 0, 0, 64, 0, 0, 0, 0, 0, 0, 0]

/-- **C119** does not hold: a MODE SENSE(10) is rejected if the command block has its ten bytes, and executed as a REPORT LUNS if the
command block has 16. -/
theorem C119_refuted : ¬ C119_statement := by
  intro h
  have h1 : ∀ n, 10 ≤ n → n ≤ 16 → HoldsCommand (Demo.mem padded) 0x100 n := by
    intro n h1 h2
    refine ⟨?_, 0x5a, by decide +kernel, by have : commandLength (0x5a : Byte).toNat = 10 := by decide
                                            omega⟩
    have e : ((Demo.mem padded).read 0x100 16).isSome := by decide +kernel
    obtain ⟨bs, hb⟩ := Option.isSome_iff_exists.mp e
    rw [read_take hb h2]
    rfl
  have := h Demo.env (Translation.init Demo.ws) ⟨Demo.mem padded, []⟩ 0x100 10 16 Demo.data 0 (h1 10 (by omega) (by omega)) (h1 16 (by omega) (by omega))
  have h2 : ((Translation.init Demo.ws).Begin Demo.env ⟨0x100, 10⟩ Demo.data 0 ⟨Demo.mem padded, []⟩).toOption.map
      (fun x => x.1.2.nvme_cmd_count) = some 0 := by decide +kernel
  have h3 : ((Translation.init Demo.ws).Begin Demo.env ⟨0x100, 16⟩ Demo.data 0 ⟨Demo.mem padded, []⟩).toOption.map
      (fun x => x.1.2.nvme_cmd_count) = some 1 := by decide +kernel
  revert this h2 h3
  cases (Translation.init Demo.ws).Begin Demo.env ⟨0x100, 10⟩ Demo.data 0 ⟨Demo.mem padded, []⟩ with
  | error e => intro _ h2; cases h2
  | ok x =>
    cases (Translation.init Demo.ws).Begin Demo.env ⟨0x100, 16⟩ Demo.data 0 ⟨Demo.mem padded, []⟩ with
    | error e => intro _ _ h3; cases h3
    | ok y =>
      intro e h2 h3
      obtain ⟨⟨r, t⟩, w⟩ := x
      obtain ⟨⟨r', t'⟩, w'⟩ := y
      obtain ⟨-, e, -⟩ := e
      simp only [Except.toOption, Option.map_some, Option.some.injEq] at h2 h3
      rw [e] at h3
      simp only [h2] at h3
      cases h3

/-- A READ(10), followed by six bytes of something else. -/
def paddedRead : List Byte := Demo.read10 ++ [1, 2, 3, 4, 5, 6]

/-- Hypotheses of `C119_begin_partial`: a READ(10) in a command block of 10 and in one of 16 bytes; it is accepted in both. -/
example : HoldsCommand (Demo.mem paddedRead) 0x100 10 ∧ HoldsCommand (Demo.mem paddedRead) 0x100 16 ∧ Demo.mem paddedRead [] 0x100 ≠ some 0x5a ∧
    ((Translation.init Demo.ws).Begin Demo.env ⟨0x100, 16⟩ Demo.data 0 ⟨Demo.mem paddedRead, []⟩).toOption.map
      (fun x => x.1.2.nvme_cmd_count) = some 1 :=
  ⟨⟨by decide +kernel, 0x28, by decide +kernel, by decide⟩, ⟨by decide +kernel, 0x28, by decide +kernel, by decide⟩, by decide +kernel,
    by decide +kernel⟩

/-- The object after `Begin` accepted the READ(10) in a command block of 10 bytes, and in one of 16. -/
def afterRead (n : Nat) : Translation :=
  match (Translation.init Demo.ws).Begin Demo.env ⟨0x100, n⟩ Demo.data 0 ⟨Demo.mem paddedRead, []⟩ with
  | .ok ((_, t), _) => t
  | .error _ => Translation.init Demo.ws

/-- Hypotheses of `C119_complete`: those two objects, with a command pending. -/
example : EqualButBlock (afterRead 10) (afterRead 16) ∧ (afterRead 10).scsi_cmd = ⟨0x100, 10⟩ ∧ (afterRead 16).scsi_cmd = ⟨0x100, 16⟩ ∧
    (afterRead 10).pipeline_status = .kSuccess ∧ (afterRead 10).nvme_cmd_count = 1 := by
  unfold EqualButBlock
  decide +kernel

end Scsi2Nvme
