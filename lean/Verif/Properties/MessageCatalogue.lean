import Verif.Properties.Messages
/-!
# C115: the messages of `Begin` are those of the catalogue
-/

namespace Scsi2Nvme
open Spec Log

/-- The executed call `m` of DebugLog is one of the calls listed in the catalogue of the sources, with values of the types listed there. -/
def Spec.Catalogued (m : Msg) : Prop := ∃ s ∈ sites, s.file = m.file ∧ s.line = m.line ∧ s.fmt = m.fmt ∧ Fit s.args m.args

theorem cat_plain (f : String) (l : Nat) (fmt : List Char) (h : (⟨f, l, fmt, []⟩ : Site) ∈ sites) : Catalogued ⟨f, l, fmt, []⟩ :=
  ⟨_, h, rfl, rfl, rfl, .nil⟩

theorem cat_after {m : M α} {w : World} {f : α → World → List Msg} (h : ∀ a w', ∀ x ∈ f a w', Catalogued x) :
    ∀ x ∈ after m w f, Catalogued x := by
  intro x hx
  unfold after at hx
  split at hx
  · exact h _ _ x hx
  · simp at hx

theorem cat_nil : ∀ x ∈ ([] : List Msg), Catalogued x := by simp

theorem cat_one {m : Msg} (h : Catalogued m) : ∀ x ∈ [m], Catalogued x := by
  intro x hx
  rw [List.mem_singleton] at hx
  exact hx ▸ h

theorem cat_append {a b : List Msg} (ha : ∀ x ∈ a, Catalogued x) (hb : ∀ x ∈ b, Catalogued x) : ∀ x ∈ a ++ b, Catalogued x := by
  intro x hx
  rcases List.mem_append.mp hx with g | g
  · exact ha x g
  · exact hb x g

theorem cat_setPages (E a p d m w) : ∀ x ∈ SetPagesLog E a p d m w, Catalogued x := by
  unfold SetPagesLog
  split
  · exact cat_one (cat_plain _ _ _ (by decide +kernel))
  · refine cat_after fun _ _ => cat_after fun _ _ => ?_
    split
    · exact cat_one (cat_plain _ _ _ (by decide +kernel))
    · exact cat_nil

theorem cat_legacyRead (tl ls b) : ∀ x ∈ LegacyReadLog tl ls b, Catalogued x := by
  unfold LegacyReadLog
  split
  · exact cat_one (cat_plain _ _ _ (by decide +kernel))
  · exact cat_nil

theorem cat_read (p tl ws n ls b) : ∀ x ∈ ReadLog p tl ws n ls b, Catalogued x := by
  unfold ReadLog BuildPrinfoLog
  split
  · exact cat_one (cat_plain _ _ _ (by decide +kernel))
  split
  · exact cat_one (cat_plain _ _ _ (by decide +kernel))
  refine cat_append (cat_legacyRead _ _ _) ?_
  split
  · split
    · refine cat_one ⟨⟨"read.cc", 45, text! "RDPROTECT with value %d has no translation to PRINFO", [.byte]⟩, by decide +kernel, rfl, rfl, rfl, ?_⟩
      exact .cons p.isLt .nil
    · exact cat_nil
  · exact cat_nil

theorem cat_write (p tl ws n b) : ∀ x ∈ WriteLog p tl ws n b, Catalogued x := by
  unfold WriteLog BuildPRInfoLog
  split
  · exact cat_one (cat_plain _ _ _ (by decide +kernel))
  split
  · split
    · exact cat_one (cat_plain _ _ _ (by decide +kernel))
    · exact cat_nil
  · exact cat_nil

theorem cat_page (a) : ∀ x ∈ modeSensePageLog a, Catalogued x := by
  unfold modeSensePageLog GenerateCacheGetFeaturesCmdLog
  repeat' split
  all_goals first | exact cat_nil | exact cat_one (cat_plain _ _ _ (by decide +kernel))

theorem cat_mode (E a al p w) : ∀ x ∈ ModeSenseLog E a al p w, Catalogued x := by
  unfold ModeSenseLog
  split
  · exact cat_page _
  · refine cat_append (cat_setPages _ _ _ _ _ _) (cat_after fun _ _ => ?_)
    split
    · exact cat_one (cat_plain _ _ _ (by decide +kernel))
    · exact cat_page _

theorem cat_mode6 (E c al p w) : ∀ x ∈ ModeSense6Log E c al p w, Catalogued x := by
  unfold ModeSense6Log
  split
  · exact cat_one (cat_plain _ _ _ (by decide +kernel))
  · exact cat_mode _ _ _ _ _

theorem cat_luns (E c p al w) : ∀ x ∈ ReportLunsLog E c p al w, Catalogued x := by
  unfold ReportLunsLog
  split
  · exact cat_one (cat_plain _ _ _ (by decide +kernel))
  · rename_i c _
    split
    · refine cat_one ⟨⟨"report_luns.cc", 55, text! "Invalid report luns select report %u", [.scoped]⟩, by decide +kernel, rfl, rfl, rfl, ?_⟩
      exact .cons c.select_report.isLt .nil
    · exact cat_setPages _ _ _ _ _ _

theorem cat_maintenance (E c al w) : ∀ x ∈ maintenanceLog E c al w, Catalogued x := by
  unfold maintenanceLog ValidateReportSupportedOpCodesLog
  refine cat_append ?_ (cat_luns _ _ _ _ _)
  repeat' split
  all_goals first | exact cat_nil | exact cat_one (cat_plain _ _ _ (by decide +kernel))

theorem cat_unmap (E c b p al w) : ∀ x ∈ UnmapLog E c b p al w, Catalogued x := by
  unfold UnmapLog
  split
  · exact cat_one (cat_plain _ _ _ (by decide +kernel))
  split
  · exact cat_one (cat_plain _ _ _ (by decide +kernel))
  split
  · exact cat_one (cat_plain _ _ _ (by decide +kernel))
  refine cat_after fun r w => ?_
  cases r with
  | none => exact cat_one (cat_plain _ _ _ (by decide +kernel))
  | some pl =>
    simp only
    have hlt := (ntohs pl.block_desc_data_length).isLt
    split
    · exact cat_one (cat_plain _ _ _ (by decide +kernel))
    split
    · refine cat_one ⟨⟨"unmap.cc", 64, text! "Non-divisible unmap block descriptor data length %u", [.u16]⟩, by decide +kernel, rfl, rfl, rfl, ?_⟩
      exact .cons hlt .nil
    split
    · refine cat_one ⟨⟨"unmap.cc", 71, text! "Unsupported unmap block descriptor count %u", [.u32]⟩, by decide +kernel, rfl, rfl, rfl, ?_⟩
      refine Fit.cons ?_ .nil
      exact Nat.lt_of_le_of_lt (Nat.div_le_self _ _) (Nat.lt_of_lt_of_le hlt (by decide))
    refine cat_after fun ds w => ?_
    cases ds with
    | none => exact cat_one (cat_plain _ _ _ (by decide +kernel))
    | some ds =>
      refine cat_append (cat_setPages _ _ _ _ _ _) (cat_after fun _ _ => ?_)
      split
      · exact cat_nil
      · refine cat_after fun _ _ => ?_
        split
        · exact cat_nil
        · exact cat_one (cat_plain _ _ _ (by decide +kernel))

theorem cat_ite {c : Prop} [Decidable c] {a b : List Msg} (ha : ∀ x ∈ a, Catalogued x) (hb : ∀ x ∈ b, Catalogued x) :
    ∀ x ∈ (if c then a else b), Catalogued x := by
  by_cases h : c
  · rw [if_pos h]; exact ha
  · rw [if_neg h]; exact hb

theorem cat_switch (E opc cmd buf nsid p w) : ∀ x ∈ beginSwitchLog E opc cmd buf nsid p w, Catalogued x := by
  unfold beginSwitchLog
  refine cat_ite ?_ ?_
  · unfold InquiryLog
    split
    · exact cat_one (cat_plain _ _ _ (by decide +kernel))
    · refine cat_append (cat_setPages _ _ _ _ _ _) (cat_after fun _ _ => ?_)
      split
      · exact cat_nil
      · exact cat_setPages _ _ _ _ _ _
  refine cat_ite ?_ ?_
  · exact cat_append (cat_unmap _ _ _ _ _ _) (cat_after fun _ _ => cat_mode6 _ _ _ _ _)
  refine cat_ite ?_ ?_
  · exact cat_mode6 _ _ _ _ _
  refine cat_ite ?_ ?_
  · refine cat_append ?_ (cat_after fun _ _ => cat_maintenance _ _ _ _)
    unfold ModeSense10Log
    split
    · exact cat_one (cat_plain _ _ _ (by decide +kernel))
    · exact cat_mode _ _ _ _ _
  refine cat_ite ?_ ?_
  · exact cat_maintenance _ _ _ _
  refine cat_ite ?_ ?_
  · exact cat_luns _ _ _ _ _
  refine cat_ite ?_ ?_
  · unfold ReadCapacity10Log
    split
    · exact cat_one (cat_plain _ _ _ (by decide +kernel))
    split
    · exact cat_one (cat_plain _ _ _ (by decide +kernel))
    · exact cat_setPages _ _ _ _ _ _
  refine cat_ite ?_ ?_
  · unfold RequestSenseLog
    repeat' split
    all_goals first | exact cat_nil | exact cat_one (cat_plain _ _ _ (by decide +kernel))
  refine cat_ite ?_ ?_
  · unfold Read6Log
    split
    · exact cat_one (cat_plain _ _ _ (by decide +kernel))
    · exact cat_legacyRead _ _ _
  refine cat_ite ?_ ?_
  · unfold Read10Log
    split
    · exact cat_one (cat_plain _ _ _ (by decide +kernel))
    · exact cat_read _ _ _ _ _ _
  refine cat_ite ?_ ?_
  · unfold Read12Log
    split
    · exact cat_one (cat_plain _ _ _ (by decide +kernel))
    · exact cat_read _ _ _ _ _ _
  refine cat_ite ?_ ?_
  · unfold Read16Log
    split
    · exact cat_one (cat_plain _ _ _ (by decide +kernel))
    · exact cat_read _ _ _ _ _ _
  refine cat_ite ?_ ?_
  · exact cat_nil
  refine cat_ite ?_ ?_
  · unfold VerifyLog
    repeat' split
    all_goals first | exact cat_nil | exact cat_one (cat_plain _ _ _ (by decide +kernel))
  refine cat_ite ?_ ?_
  · exact cat_nil
  refine cat_ite ?_ ?_
  · unfold Write6Log
    split
    · exact cat_one (cat_plain _ _ _ (by decide +kernel))
    · exact cat_nil
  refine cat_ite ?_ ?_
  · unfold Write10Log
    split
    · exact cat_one (cat_plain _ _ _ (by decide +kernel))
    · exact cat_write _ _ _ _ _
  refine cat_ite ?_ ?_
  · unfold Write12Log
    split
    · exact cat_one (cat_plain _ _ _ (by decide +kernel))
    · exact cat_write _ _ _ _ _
  refine cat_ite ?_ ?_
  · unfold Write16Log
    split
    · exact cat_one (cat_plain _ _ _ (by decide +kernel))
    · exact cat_write _ _ _ _ _
  · refine cat_one ⟨⟨"translation.cc", 160, text! "Bad OpCode: %#x", [.byte]⟩, by decide +kernel, rfl, rfl, rfl, ?_⟩
    exact .cons opc.isLt .nil

/-- **C115.** Whatever the state of the object and of the world: every call of DebugLog executed by `Begin` is one of the calls in the catalogue
extracted from the sources (file, line, format), with arguments of the types found there; so C100 applies to each. -/
theorem C115_catalogue (E : Env) (t : Translation) (cmd buf : Span) (lun : U64) (w : World) :
    ∀ m ∈ BeginLog E t cmd buf lun w, Catalogued m := by
  unfold BeginLog
  split
  · exact cat_one (cat_plain _ _ _ (by decide +kernel))
  split
  · exact cat_one (cat_plain _ _ _ (by decide +kernel))
  · refine cat_after fun cdb w => ?_
    intro x hx
    rcases List.mem_cons.mp hx with g | g
    · subst g
      refine ⟨⟨"translation.cc", 55, text! "Translating command %s with opcode %#x", [.name, .byte]⟩, by decide +kernel, rfl, rfl, rfl, ?_⟩
      exact .cons ⟨_, (cdb.headD 0).isLt, rfl⟩ (.cons (cdb.headD 0).isLt .nil)
    · exact cat_switch _ _ _ _ _ _ _ x g

end Scsi2Nvme
