import Verif.Proofs.Summary
/-!
# The `switch` of `Begin` never leaves the object uninitialised
-/

namespace Scsi2Nvme

/-- Every value the computation can finish with satisfies `P`. -/
def Rets (P : α → Prop) (x : M α) : Prop := ∀ w a w', x w = .ok (a, w') → P a

theorem Rets.pure {P : α → Prop} {a : α} (h : P a) : Rets P (Pure.pure a : M α) := by
  intro w b w' hb
  simp only [M.pure_run, Except.ok.injEq, Prod.mk.injEq] at hb
  rw [← hb.1]; exact h

theorem Rets.bind {P : β → Prop} {Q : α → Prop} {x : M α} {f : α → M β} (hx : Rets Q x)
    (hf : ∀ a, Q a → Rets P (f a)) : Rets P (x >>= f) := by
  intro w b w' h
  simp only [M.bind_run] at h
  cases hxw : x w with
  | error e => rw [hxw] at h; cases h
  | ok r =>
    obtain ⟨a, w1⟩ := r
    rw [hxw] at h
    exact hf a (hx w a w1 hxw) w1 b w' h

theorem Rets.any (x : M α) : Rets (fun _ => True) x := fun _ _ _ _ => trivial

theorem Rets.ub {P : α → Prop} (e : UB) : Rets P (M.ub e : M α) := by intro w b w' h; cases h

theorem Rets.ite {P : α → Prop} {c : Prop} [Decidable c] {x y : M α} (hx : Rets P x) (hy : Rets P y) :
    Rets P (if c then x else y) := by split <;> assumption

theorem SetPages_rets (E : Env) (a : Allocation) (ps : U32) (n m : U16) :
    Rets (fun r => r.1 ≠ .kUninitialized) (a.SetPages E ps n m) := by
  unfold Allocation.SetPages
  refine .ite (.pure (by simp)) (.bind (.any _) fun _ _ => .bind (.any _) fun _ _ => ?_)
  exact .ite (.pure (by simp)) (.pure (by simp))

theorem modeSensePage_rets (a : ModeSense.CommonCmdAttributes) (ws : Arr3 NvmeCmdWrapper) (al : Allocation)
    (nsid : U32) (n : Nat) : Rets (fun r => r.1 ≠ .kUninitialized) (ModeSense.modeSensePage a ws al nsid n) := by
  unfold ModeSense.modeSensePage
  refine .ite (.ite (.pure (by simp)) (.pure (by simp))) ?_
  refine .bind (.any _) fun wr _ => .bind (.any _) fun _ _ => .pure ?_
  unfold ModeSense.GenerateCacheGetFeaturesCmd
  simp only
  split <;> simp

theorem ModeSenseToNvme_rets (E : Env) (a : ModeSense.CommonCmdAttributes) (ws : Arr3 NvmeCmdWrapper)
    (al : Allocation) (ps nsid : U32) (n : Nat) :
    Rets (fun r => r.1 ≠ .kUninitialized) (ModeSense.ModeSenseToNvme E a ws al ps nsid n) := by
  unfold ModeSense.ModeSenseToNvme
  refine .ite (modeSensePage_rets _ _ _ _ _) ?_
  refine .bind (.any _) fun wr _ => .bind (Q := fun r => r.1 ≠ .kUninitialized) ?_ fun r hr => ?_
  · unfold ModeSense.GenerateBlockDescriptorIdentifyCmd
    exact .bind (.any _) fun _ _ => .ite (.pure (by simp)) (.pure (by simp))
  · exact .bind (.any _) fun _ _ => .ite (.pure hr) (modeSensePage_rets _ _ _ _ _)

theorem ms6_rets (E : Env) (cmd : List Byte) (nsid : U32) (p : Pipe) :
    Rets (fun p => p.status ≠ .kUninitialized) (beginModeSense6 E cmd nsid p) := by
  unfold beginModeSense6 ModeSense.ModeSense6ToNvme
  refine .bind (Q := fun r => r.1 ≠ .kUninitialized) ?_ fun r hr => .pure hr
  split
  · exact .pure (by simp)
  · exact .bind (ModeSenseToNvme_rets _ _ _ _ _ _ _) fun r hr => .pure hr

theorem rl_rets (E : Env) (cmd : List Byte) (p : Pipe) :
    Rets (fun p => p.status ≠ .kUninitialized) (beginReportLuns E cmd p) := by
  unfold beginReportLuns ReportLuns.ReportLunsToNvme
  refine .bind (Q := fun r => r.1 ≠ .kUninitialized) ?_ fun r hr => .pure hr
  split
  · exact .pure (by simp)
  · refine .ite (.pure (by simp)) (.bind (.any _) fun _ _ => ?_)
    exact .ite (.pure (by simp)) (.pure (by simp))

theorem Read_status (rp : Byte) (fua : Bool) (tl : U32) (wr : NvmeCmdWrapper) (nsid : U32) (buf : Span) (al : U32) :
    (Read.Read rp fua tl wr nsid kLbaSize buf al).1 ≠ .kUninitialized := by
  unfold Read.Read Read.LegacyRead
  split
  · simp
  split
  · simp
  simp only
  by_cases h : buf.len < (((tl &&& 65535#32).setWidth 16).setWidth 32 * kLbaSize).toNat
  · simp only [if_pos h]; simp
  · simp only [if_neg h]
    split <;> simp

theorem Write_status (rp : Byte) (fua : Bool) (tl : U32) (wr : NvmeCmdWrapper) (nsid : U32) (buf : Span) :
    (Write.Write fua rp tl wr nsid buf).1 ≠ .kUninitialized := by
  unfold Write.Write Write.LegacyWrite
  split
  · simp
  simp only
  split <;> simp

theorem readMatch_status {r : StatusCode × NvmeCmdWrapper × U32} (h : r.1 ≠ .kUninitialized)
    (F : NvmeCmdWrapper → NvmeCmdWrapper) :
    (match r with
      | (.kSuccess, wr, al) => (StatusCode.kSuccess, F wr, al)
      | (st, wr, al) => (st, wr, al)).1 ≠ .kUninitialized := by
  obtain ⟨st, wr, al⟩ := r
  cases st <;> simp_all

theorem writeMatch_status {r : StatusCode × NvmeCmdWrapper} (h : r.1 ≠ .kUninitialized)
    (F : NvmeCmdWrapper → NvmeCmdWrapper) :
    (match r with
      | (.kSuccess, wr) => (StatusCode.kSuccess, F wr)
      | (st, wr) => (st, wr)).1 ≠ .kUninitialized := by
  obtain ⟨st, wr⟩ := r
  cases st <;> simp_all

theorem LegacyRead_status (wr : NvmeCmdWrapper) (nsid : U32) (tl : U16) (buf : Span) :
    (Read.LegacyRead wr nsid tl kLbaSize buf).1 ≠ .kUninitialized := by
  unfold Read.LegacyRead
  simp only
  split <;> simp

theorem Read6_status (cmd : List Byte) (wr : NvmeCmdWrapper) (nsid : U32) (buf : Span) (al : U32) :
    (Read.Read6ToNvme cmd wr nsid kLbaSize buf al).1 ≠ .kUninitialized := by
  unfold Read.Read6ToNvme
  split
  · simp
  · exact readMatch_status (LegacyRead_status _ _ _ _) _

theorem Read10_status (cmd : List Byte) (wr : NvmeCmdWrapper) (nsid : U32) (buf : Span) (al : U32) :
    (Read.Read10ToNvme cmd wr nsid kLbaSize buf al).1 ≠ .kUninitialized := by
  unfold Read.Read10ToNvme
  split
  · simp
  · exact readMatch_status (Read_status _ _ _ _ _ _ _) _

theorem Read12_status (cmd : List Byte) (wr : NvmeCmdWrapper) (nsid : U32) (buf : Span) (al : U32) :
    (Read.Read12ToNvme cmd wr nsid kLbaSize buf al).1 ≠ .kUninitialized := by
  unfold Read.Read12ToNvme
  split
  · simp
  · exact readMatch_status (Read_status _ _ _ _ _ _ _) _

theorem Read16_status (cmd : List Byte) (wr : NvmeCmdWrapper) (nsid : U32) (buf : Span) (al : U32) :
    (Read.Read16ToNvme cmd wr nsid kLbaSize buf al).1 ≠ .kUninitialized := by
  unfold Read.Read16ToNvme
  split
  · simp
  · exact readMatch_status (Read_status _ _ _ _ _ _ _) _

theorem Write6_status (cmd : List Byte) (wr : NvmeCmdWrapper) (nsid : U32) (buf : Span) :
    (Write.Write6ToNvme cmd wr nsid buf).1 ≠ .kUninitialized := by
  unfold Write.Write6ToNvme Write.LegacyWrite
  split <;> simp

theorem Write10_status (cmd : List Byte) (wr : NvmeCmdWrapper) (nsid : U32) (buf : Span) :
    (Write.Write10ToNvme cmd wr nsid buf).1 ≠ .kUninitialized := by
  unfold Write.Write10ToNvme
  split
  · simp
  · exact writeMatch_status (Write_status _ _ _ _ _ _) _

theorem Write12_status (cmd : List Byte) (wr : NvmeCmdWrapper) (nsid : U32) (buf : Span) :
    (Write.Write12ToNvme cmd wr nsid buf).1 ≠ .kUninitialized := by
  unfold Write.Write12ToNvme
  split
  · simp
  · exact writeMatch_status (Write_status _ _ _ _ _ _) _

theorem Write16_status (cmd : List Byte) (wr : NvmeCmdWrapper) (nsid : U32) (buf : Span) :
    (Write.Write16ToNvme cmd wr nsid buf).1 ≠ .kUninitialized := by
  unfold Write.Write16ToNvme
  split
  · simp
  · exact writeMatch_status (Write_status _ _ _ _ _ _) _

theorem switch_rets (E : Env) (opc : Byte) (cmd : List Byte) (buf : Span) (nsid : U32) (p : Pipe) :
    Rets (fun p => p.status ≠ .kUninitialized) (beginSwitch E opc cmd buf nsid p) := by
  unfold beginSwitch
  refine .ite ?_ (.ite ?_ (.ite (ms6_rets _ _ _ _) (.ite ?_ (.ite (rl_rets _ _ _) (.ite (rl_rets _ _ _)
    (.ite ?_ (.ite (.pure ?_) (.ite (.pure (Read6_status _ _ _ _ _)) (.ite (.pure (Read10_status _ _ _ _ _))
    (.ite (.pure (Read12_status _ _ _ _ _)) (.ite (.pure (Read16_status _ _ _ _ _)) (.ite (.pure (by simp))
    (.ite (.pure ?_) (.ite (.pure (by simp)) (.ite (.pure (Write6_status _ _ _ _))
    (.ite (.pure (Write10_status _ _ _ _)) (.ite (.pure (Write12_status _ _ _ _))
    (.ite (.pure (Write16_status _ _ _ _)) (.pure (by simp))))))))))))))))))))
  · unfold beginInquiry Inquiry.InquiryToNvme
    refine .bind (Q := fun r => r.status ≠ .kUninitialized) ?_ fun r hr => .pure hr
    split
    · exact .pure (by simp)
    · refine .bind (SetPages_rets _ _ _ _ _) fun r hr => .ite (.pure hr) ?_
      refine .bind (SetPages_rets _ _ _ _ _) fun r hr => .ite (.pure hr) (.pure (by simp))
  · unfold beginUnmap
    exact .bind (.any _) fun _ _ => ms6_rets _ _ _ _
  · unfold beginModeSense10
    exact .bind (.any _) fun _ _ => rl_rets _ _ _
  · unfold beginReadCapacity10 ReadCapacity.ReadCapacity10ToNvme
    refine .bind (Q := fun r => r.1 ≠ .kUninitialized) ?_ fun r hr => .pure hr
    split
    · exact .pure (by simp)
    · refine .ite (.pure (by simp)) (.bind (SetPages_rets _ _ _ _ _) fun r hr => .ite (.pure hr) (.pure (by simp)))
  · unfold beginRequestSense RequestSense.RequestSenseToNvme
    split
    · simp
    · simp only; split <;> simp
  · unfold beginWrite Verify.VerifyToNvme
    split
    · simp
    · simp only; split
      · simp
      · split <;> simp

end Scsi2Nvme
