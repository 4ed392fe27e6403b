import Verif.Proofs.Summary
/-!
# What `Complete` may touch
-/

namespace Scsi2Nvme
open Spec

/-- An address of a span. -/
def inSpan (s : Span) (p : Nat) : Prop := s.ptr ≤ p ∧ p < s.ptr + s.len

/-- If the computation finishes, no allocator call was made, memory outside of `S` is unchanged and the
same addresses are accessible. -/
def Framed (S : Nat → Prop) (x : M α) : Prop := ∀ w a w', x w = .ok (a, w') →
  w'.trace = w.trace ∧ (∀ p, ¬ S p → w'.mem p = w.mem p) ∧ ∀ p, (w'.mem p).isSome = (w.mem p).isSome

theorem Framed.pure (S : Nat → Prop) (a : α) : Framed S (Pure.pure a : M α) := by
  intro w b w' h
  simp only [M.pure_run, Except.ok.injEq, Prod.mk.injEq] at h
  obtain ⟨_, rfl⟩ := h
  exact ⟨rfl, fun _ _ => rfl, fun _ => rfl⟩

theorem Framed.bind {S : Nat → Prop} {x : M α} {f : α → M β} (hx : Framed S x)
    (hf : ∀ a, Framed S (f a)) : Framed S (x >>= f) := by
  intro w b w' h
  simp only [M.bind_run] at h
  cases hxw : x w with
  | error e => rw [hxw] at h; cases h
  | ok r =>
    obtain ⟨a, w1⟩ := r
    rw [hxw] at h
    obtain ⟨t1, m1, s1⟩ := hx w a w1 hxw
    obtain ⟨t2, m2, s2⟩ := hf a w1 b w' h
    exact ⟨t2.trans t1, fun p hp => (m2 p hp).trans (m1 p hp), fun p => (s2 p).trans (s1 p)⟩

theorem Framed.ub (S : Nat → Prop) (e : UB) : Framed S (M.ub e : M α) := by
  intro w b w' h; cases h

theorem Framed.get (S : Nat → Prop) : Framed S M.get := by
  intro w b w' h
  simp only [M.get_run, Except.ok.injEq, Prod.mk.injEq] at h
  obtain ⟨_, rfl⟩ := h
  exact ⟨rfl, fun _ _ => rfl, fun _ => rfl⟩

theorem Framed.load (S : Nat → Prop) (p n : Nat) : Framed S (load p n) := by
  intro w b w' h
  obtain ⟨rfl, -⟩ := load_inv h
  exact ⟨rfl, fun _ _ => rfl, fun _ => rfl⟩

theorem Framed.ite {S : Nat → Prop} {c : Prop} [Decidable c] {x y : M α} (hx : Framed S x)
    (hy : Framed S y) : Framed S (if c then x else y) := by
  split <;> assumption

theorem Framed.mono {S T : Nat → Prop} {x : M α} (h : Framed S x) (hst : ∀ p, S p → T p) :
    Framed T x := by
  intro w a w' hx
  obtain ⟨a1, a2, a3⟩ := h w a w' hx
  exact ⟨a1, fun p hp => a2 p (fun hs => hp (hst p hs)), a3⟩

theorem Framed.store {S : Nat → Prop} {p : Nat} {bs : List Byte}
    (h : ∀ a, p ≤ a → a < p + bs.length → S a) : Framed S (store p bs) := by
  intro w b w' hs
  obtain ⟨rfl, hm⟩ := store_inv hs
  refine ⟨rfl, fun q hq => ?_, fun q => put_isSome hm⟩
  refine put_outside ?_
  by_cases h1 : p ≤ q
  · by_cases h2 : q < p + bs.length
    · exact absurd (h q h1 h2) hq
    · omega
  · omega

theorem Framed.WriteValue {S : Nat → Prop} (bytes : List Byte) (out : Span) (n : Nat)
    (h : ∀ p, inSpan out p → S p) : Framed S (WriteValue bytes out n) := by
  unfold Scsi2Nvme.WriteValue
  split
  · exact .pure _ _
  · rename_i hn
    refine .bind (.store fun a h1 h2 => h a ⟨h1, ?_⟩) fun _ => .pure _ _
    simp only [List.length_take] at h2
    omega

theorem Framed.WriteValue' {S : Nat → Prop} (bytes : List Byte) (out : Span)
    (h : ∀ p, inSpan out p → S p) : Framed S (WriteValue' bytes out) := .WriteValue _ _ _ h

theorem inSpan_subspan {s : Span} {pos : Nat} {len : Option Nat} {p : Nat}
    (h : inSpan (s.subspan pos len) p) : inSpan s p := by
  unfold Span.subspan at h
  unfold inSpan at *
  split at h
  · simp at h
  · rw [sizeSub_le (by omega)] at h
    cases len with
    | none => simp only at h; omega
    | some l =>
      simp only at h
      split at h <;> (simp only at h; omega)

theorem FillSenseBuffer_framed (E : Env) (s : Span) (st : ScsiStatus) :
    Framed (inSpan s) (FillSenseBuffer E s st) :=
  .bind (.get _) fun _ => .WriteValue' _ _ fun _ h => h

section cs
open Inquiry ModeSense

theorem writeHeaderAndBody_framed (a b : List Byte) (s : Span) :
    Framed (inSpan s) (writeHeaderAndBody a b s) := by
  refine .bind (.WriteValue' _ _ fun _ h => h) fun ok => .ite ?_ (.pure _ _)
  exact .bind (.WriteValue' _ _ fun _ h => inSpan_subspan h) fun _ => .pure _ _

theorem writeStatus_framed (a : List Byte) (s : Span) :
    Framed (inSpan s) (do
      let ok ← WriteValue' a s
      pure (if ok then StatusCode.kSuccess else StatusCode.kFailure)) :=
  .bind (.WriteValue' _ _ fun _ h => h) fun _ => .pure _ _

theorem BuildIdentificationDescriptor_framed (ns : List Byte) (s : Span) :
    Framed (inSpan s) (BuildIdentificationDescriptor ns s) := by
  unfold BuildIdentificationDescriptor writeDescriptor
  have hw : ∀ n, Framed (inSpan s) (do
      let ok ← WriteValue' (identificationDescriptor n).toBytes s
      pure (if ok = true then StatusCode.kSuccess else StatusCode.kFailure, n)) := fun n =>
    .bind (.WriteValue' _ _ fun _ h => h) fun _ => .pure _ _
  refine .ite ?_ (.ite ?_ (.pure _ _))
  · exact .bind (.WriteValue' _ _ fun _ h => inSpan_subspan h) fun _ => .ite (hw _) (.pure _ _)
  · exact .bind (.WriteValue' _ _ fun _ h => inSpan_subspan h) fun _ => .ite (hw _) (.pure _ _)

theorem inquiryPage_framed (E : Env) (c : Scsi.InquiryCommand) (nsid : U32) (ns ctrl : List Byte)
    (s : Span) : Framed (inSpan s) (inquiryPage E c nsid ns ctrl s) := by
  unfold inquiryPage
  refine .ite (.ite ?_ (.ite ?_ (.ite ?_ (.ite ?_ (.ite ?_ (.ite ?_ (.ite ?_ (.pure _ _)))))))) ?_
  · exact writeHeaderAndBody_framed _ _ _
  · exact .bind (.get _) fun _ => writeHeaderAndBody_framed _ _ _
  · refine .bind ((BuildIdentificationDescriptor_framed ns _).mono fun _ h => inSpan_subspan h) fun r => ?_
    exact .ite (.pure _ _) (writeStatus_framed _ _)
  · unfold TranslateExtendedInquiryDataVpd
    split
    · exact .pure _ _
    · exact writeStatus_framed _ _
  · exact writeStatus_framed _ _
  · exact writeStatus_framed _ _
  · exact writeStatus_framed _ _
  · exact .bind (.WriteValue _ _ _ fun _ h => h) fun _ => .pure _ _

theorem InquiryToScsi_framed (E : Env) (cmd : List Byte) (s : Span) (a b : Nvme.GenericQueueEntryCmd) :
    Framed (inSpan s) (InquiryToScsi E cmd s a b) := by
  unfold InquiryToScsi
  split
  · exact .pure _ _
  · refine .ite (.pure _ _) (.ite (.pure _ _) ?_)
    exact .bind (.load _ _ _) fun _ => .bind (.load _ _ _) fun _ => inquiryPage_framed _ _ _ _ _ _

theorem WritePageData_framed (pg : BitVec 6) (g : U32) (s : Span) :
    Framed (inSpan s) (WritePageData pg g s) := by
  unfold WritePageData
  refine .ite (.WriteValue' _ _ fun _ h => h) (.ite (.WriteValue' _ _ fun _ h => h)
    (.ite (.WriteValue' _ _ fun _ h => h) (.ite ?_ (.ub _ _))))
  refine .bind (.WriteValue' _ _ fun _ h => h) fun _ => .ite ?_ (.pure _ _)
  refine .bind (.WriteValue' _ _ fun _ h => inSpan_subspan h) fun _ => .ite ?_ (.pure _ _)
  exact .WriteValue' _ _ fun _ h => inSpan_subspan (inSpan_subspan h)

theorem shiftLbads_framed (S : Nat → Prop) (b : Byte) : Framed S (shiftLbads b) :=
  .ite (.ub _ _) (.pure _ _)

theorem WriteBlockDescriptor_framed (i : Nvme.GenericQueueEntryCmd) (s : Span) (l : Bool) :
    Framed (inSpan s) (WriteBlockDescriptor i s l) := by
  unfold WriteBlockDescriptor
  refine .bind (.load _ _ _) fun _ => .ite ?_ ?_
  · exact .bind (shiftLbads_framed _ _) fun _ => .bind (.WriteValue' _ _ fun _ h => h) fun _ => .pure _ _
  · exact .bind (shiftLbads_framed _ _) fun _ => .bind (.WriteValue' _ _ fun _ h => h) fun _ => .pure _ _

theorem modeSenseBody_framed (a : CommonCmdAttributes) (g : U32) (i : Nvme.GenericQueueEntryCmd) (s : Span) :
    Framed (inSpan s) (modeSenseBody a g i s) := by
  unfold modeSenseBody
  refine .ite (.bind (WritePageData_framed _ _ _) fun _ => .pure _ _) ?_
  refine .bind (WriteBlockDescriptor_framed _ _ _) fun _ => .ite ?_ (.pure _ _)
  exact .bind ((WritePageData_framed _ _ _).mono fun _ h => inSpan_subspan h) fun _ => .pure _ _

theorem ModeSenseToScsi_framed (a : CommonCmdAttributes) (is10 : Bool) (g : U32)
    (i : Nvme.GenericQueueEntryCmd) (s : Span) : Framed (inSpan s) (ModeSenseToScsi a is10 g i s) := by
  unfold ModeSenseToScsi
  refine .ite ?_ ?_
  · exact .bind (.WriteValue' _ _ fun _ h => h) fun _ => .ite
      ((modeSenseBody_framed _ _ _ _).mono fun _ h => inSpan_subspan h) (.pure _ _)
  · exact .bind (.WriteValue' _ _ fun _ h => h) fun _ => .ite
      ((modeSenseBody_framed _ _ _ _).mono fun _ h => inSpan_subspan h) (.pure _ _)

theorem writeLuns_framed (l : Nat) (s : Span) (i n : Nat) :
    Framed (inSpan s) (ReportLuns.writeLuns l s i n) := by
  induction n generalizing i with
  | zero => exact .pure _ _
  | succ n ih =>
    unfold ReportLuns.writeLuns
    refine .bind (.load _ _ _) fun _ => .bind (.WriteValue' _ _ fun _ h => inSpan_subspan h) fun _ => ?_
    exact .ite (ih _) (.pure _ _)

theorem ReportLunsToScsi_framed (i : Nvme.GenericQueueEntryCmd) (s : Span) :
    Framed (inSpan s) (ReportLuns.ReportLunsToScsi i s) := by
  unfold ReportLuns.ReportLunsToScsi
  refine .ite (.pure _ _) (.ite (.pure _ _) (.bind (.load _ _ _) fun _ => ?_))
  refine .bind (.WriteValue' _ _ fun _ h => h) fun _ => .ite ?_ (.pure _ _)
  exact .bind (writeLuns_framed _ _ _ _) fun _ => .pure _ _

theorem ReadCapacity10ToScsi_framed (i : Nvme.GenericQueueEntryCmd) (s : Span) :
    Framed (inSpan s) (ReadCapacity.ReadCapacity10ToScsi s i) := by
  unfold ReadCapacity.ReadCapacity10ToScsi
  refine .ite (.pure _ _) (.bind (.load _ _ _) fun _ => .ite (.pure _ _) (.ite (.pure _ _) ?_))
  exact writeStatus_framed _ _

theorem RequestSenseToScsi_framed (cmd : List Byte) (s : Span) :
    Framed (inSpan s) (RequestSense.RequestSenseToScsi cmd s) := by
  unfold RequestSense.RequestSenseToScsi
  split
  · exact .pure _ _
  · exact .ite (writeStatus_framed _ _) (writeStatus_framed _ _)

theorem cplHead_framed (S : Nat → Prop) (c : List Nvme.GenericQueueEntryCpl) : Framed S (cplHead c) := by
  unfold cplHead
  split
  · exact .ub _ _
  · exact .pure _ _

theorem completeSwitch_framed (E : Env) (t : Translation) (opc : Byte) (cmd : List Byte)
    (cpl : List Nvme.GenericQueueEntryCpl) (s : Span) :
    Framed (inSpan s) (completeSwitch E t opc cmd cpl s) := by
  unfold completeSwitch
  refine .ite (.pure _ _) (.ite (InquiryToScsi_framed _ _ _ _ _) (.ite ?_ (.ite ?_ (.ite ?_
    (.ite (ReportLunsToScsi_framed _ _) (.ite (.pure _ _) (.ite (ReadCapacity10ToScsi_framed _ _)
    (.ite (RequestSenseToScsi_framed _ _) (.ite (.pure _ _) (.ite (.pure _ _) (.ite (.pure _ _)
    (.pure _ _))))))))))))
  · refine .bind (cplHead_framed _ _) fun _ => .bind ?_ fun _ => .pure _ _
    unfold ModeSense6ToScsi
    split
    · exact .pure _ _
    · exact ModeSenseToScsi_framed _ _ _ _ _
  · refine .bind (cplHead_framed _ _) fun _ => .bind ?_ fun _ => .pure _ _
    unfold ModeSense10ToScsi
    split
    · exact .pure _ _
    · exact ModeSenseToScsi_framed _ _ _ _ _
  · refine .bind ?_ fun _ => .pure _ _
    exact .bind (.WriteValue' _ _ fun _ h => h) fun _ => .pure _ _

end cs

end Scsi2Nvme
