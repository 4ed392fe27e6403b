import Verif.Model.Log
import Verif.Properties.Plan
/-!
# C100: debug messages
-/

namespace Scsi2Nvme
open Spec Log

/-! ## Specification -/

namespace Spec

/-- The call of DebugLog hands a complete message to the callback, and the kernel module prints this message as it is. -/
def Logged (s : Site) (args : List Arg) : Prop :=
  ∃ msg, DebugLog true s.fmt args = some (some msg) ∧ format s.fmt args = some msg ∧ Print msg = some msg

/-- The value of a digit. -/
def digitValue (c : Char) : Nat := if c.isDigit then c.toNat - 48 else c.toNat - 87

/-- The number with these digits. -/
def numeral (base : Nat) (cs : List Char) : Nat := cs.foldl (fun n c => base * n + digitValue c) 0

end Spec

/-! ## Numbers -/

theorem digitChar_ne (n : Nat) (h : n < 16) : Nat.digitChar n ≠ '%' := by
  revert n; decide

theorem digitChar_value (n : Nat) (h : n < 16) : digitValue (Nat.digitChar n) = n := by
  revert n; decide

theorem digits_clean (b fuel n : Nat) (hb : 0 < b) (hb' : b ≤ 16) : '%' ∉ digits b fuel n := by
  induction fuel generalizing n with
  | zero => simp [digits]
  | succ fuel ih =>
    unfold digits
    have h2 := digitChar_ne (n % b) (Nat.lt_of_lt_of_le (Nat.mod_lt _ hb) hb')
    rw [List.mem_append, List.mem_singleton]
    rintro (h | h)
    · split at h
      · cases h
      · exact ih _ h
    · exact h2 h.symm

theorem digits_length (b fuel n : Nat) : (digits b fuel n).length ≤ fuel := by
  induction fuel generalizing n with
  | zero => simp [digits]
  | succ fuel ih =>
    unfold digits
    have := ih (n / b)
    rw [List.length_append, List.length_singleton]
    split
    · simp
    · omega

theorem digits_value (b fuel n : Nat) (hb : 1 < b) (hb' : b ≤ 16) (h : n < b ^ fuel) : numeral b (digits b fuel n) = n := by
  induction fuel generalizing n with
  | zero => simp at h; subst h; rfl
  | succ fuel ih =>
    unfold digits
    have hm : digitValue (Nat.digitChar (n % b)) = n % b := digitChar_value _ (Nat.lt_of_lt_of_le (Nat.mod_lt _ (by omega)) hb')
    have hd : n / b < b ^ fuel := by
      rw [Nat.div_lt_iff_lt_mul (by omega)]
      rw [Nat.pow_succ] at h
      exact h
    have hi := ih (n / b) hd
    have hn := Nat.div_add_mod n b
    unfold numeral at hi ⊢
    rw [List.foldl_append]
    simp only [List.foldl_cons, List.foldl_nil]
    rw [hm]
    split
    · rename_i hlt
      simp only [List.foldl_nil]
      rw [Nat.mod_eq_of_lt hlt]
      omega
    · rw [hi]
      exact hn

/-! ## Messages -/

/-- Does the format fit the types? -/
def shape : List Char → List Ty → Bool
  | [], ts => ts.isEmpty
  | c :: cs, ts =>
    if c ≠ '%' then shape cs ts
    else match cs, ts with
      | 's' :: cs, .name :: ts => shape cs ts
      | 'd' :: cs, .byte :: ts => shape cs ts
      | 'u' :: cs, .byte :: ts => shape cs ts
      | 'u' :: cs, .u16 :: ts => shape cs ts
      | 'u' :: cs, .u32 :: ts => shape cs ts
      | '#' :: 'x' :: cs, .byte :: ts => shape cs ts
      | _, _ => false

theorem name_clean : ∀ n, n < 256 → '%' ∉ (ScsiOpcodeToString n).toList ∧ (ScsiOpcodeToString n).toList.length ≤ 34 := by
  intro n _
  unfold ScsiOpcodeToString
  split <;> decide +kernel

theorem hex_clean (n : Nat) : '%' ∉ hex n ∧ (hex n).length ≤ 34 := by
  unfold hex
  split
  · decide
  · have h1 := digits_clean 16 32 n (by decide) (by decide)
    have h2 := digits_length 16 32 n
    refine ⟨?_, by simp only [List.length_cons]; omega⟩
    rw [List.mem_cons, List.mem_cons]
    rintro (h | h | h)
    · cases h
    · cases h
    · exact h1 h

theorem dec_clean (n : Nat) : '%' ∉ dec n ∧ (dec n).length ≤ 34 := by
  have h1 := digits_clean 10 32 n (by decide) (by decide)
  have h2 := digits_length 10 32 n
  exact ⟨h1, by unfold dec; omega⟩

/-- A part of a message, and the rest of it. -/
theorem message_cons {p : List Char} {cs : List Char} {as : List Arg} {k j : Nat} (hp : '%' ∉ p ∧ p.length ≤ j)
    (h : ∃ msg, format cs as = some msg ∧ '%' ∉ msg ∧ msg.length ≤ k) :
    ∃ msg, (format cs as).map (p ++ ·) = some msg ∧ '%' ∉ msg ∧ msg.length ≤ j + k := by
  obtain ⟨msg, h1, h2, h3⟩ := h
  refine ⟨p ++ msg, by rw [h1]; rfl, ?_, ?_⟩
  · rw [List.mem_append]
    rintro (h | h)
    · exact hp.1 h
    · exact h2 h
  · rw [List.length_append]; omega

/-- All arguments have values of their types. -/
inductive Spec.Fit : List Ty → List Arg → Prop
  | nil : Fit [] []
  | cons {t a ts as} : t.admits a → Fit ts as → Fit (t :: ts) (a :: as)

theorem message_of (cs : List Char) (ts : List Ty) (as : List Arg) (hs : shape cs ts = true) (hf : Fit ts as) :
    ∃ msg, format cs as = some msg ∧ '%' ∉ msg ∧ msg.length ≤ cs.length + 34 * ts.length := by
  match cs with
  | [] => exact ⟨[], by unfold format; rfl, by simp, by simp⟩
  | c :: cs =>
    unfold shape at hs
    unfold format
    split at hs
    · rename_i hc
      rw [if_pos hc]
      obtain ⟨msg, h1, h2, h3⟩ := message_of cs ts as hs hf
      refine ⟨c :: msg, by rw [h1]; rfl, ?_, ?_⟩
      · rw [List.mem_cons]
        rintro (h | h)
        · exact hc h.symm
        · exact h2 h
      · simp only [List.length_cons]; omega
    · rename_i hc
      rw [if_neg hc]
      split at hs
      · rename_i cs ts
        cases hf with
        | @cons _ a _ as ha hf =>
          cases a with
          | str s =>
            obtain ⟨n, hn, rfl⟩ := ha
            obtain ⟨msg, h⟩ := message_cons (name_clean n hn) (message_of cs ts as hs hf)
            exact ⟨msg, h.1, h.2.1, by simp only [List.length_cons]; omega⟩
          | _ => cases ha
      · rename_i cs ts
        cases hf with
        | @cons _ a _ as ha hf =>
          cases a with
          | int n =>
            obtain ⟨msg, h⟩ := message_cons (dec_clean n) (message_of cs ts as hs hf)
            exact ⟨msg, h.1, h.2.1, by simp only [List.length_cons]; omega⟩
          | _ => cases ha
      · rename_i cs ts
        cases hf with
        | @cons _ a _ as ha hf =>
          cases a with
          | int n =>
            obtain ⟨msg, h⟩ := message_cons (dec_clean n) (message_of cs ts as hs hf)
            exact ⟨msg, h.1, h.2.1, by simp only [List.length_cons]; omega⟩
          | _ => cases ha
      · rename_i cs ts
        cases hf with
        | @cons _ a _ as ha hf =>
          cases a with
          | int n =>
            obtain ⟨msg, h⟩ := message_cons (dec_clean n) (message_of cs ts as hs hf)
            exact ⟨msg, h.1, h.2.1, by simp only [List.length_cons]; omega⟩
          | _ => cases ha
      · rename_i cs ts
        cases hf with
        | @cons _ a _ as ha hf =>
          cases a with
          | uint n =>
            obtain ⟨msg, h⟩ := message_cons (dec_clean n) (message_of cs ts as hs hf)
            exact ⟨msg, h.1, h.2.1, by simp only [List.length_cons]; omega⟩
          | _ => cases ha
      · rename_i cs ts
        cases hf with
        | @cons _ a _ as ha hf =>
          cases a with
          | int n =>
            obtain ⟨msg, h⟩ := message_cons (hex_clean n) (message_of cs ts as hs hf)
            exact ⟨msg, h.1, h.2.1, by simp only [List.length_cons]; omega⟩
          | _ => cases ha
      · cases hs
  termination_by cs.length

theorem print_clean (msg : List Char) (h : '%' ∉ msg) : Print msg = some msg := by
  unfold Print
  induction msg with
  | nil => unfold format; rfl
  | cons c cs ih =>
    rw [List.mem_cons] at h
    have hc : c ≠ '%' := fun e => h (.inl e.symm)
    unfold format
    rw [if_pos hc, ih (fun e => h (.inr e))]
    rfl

/-- The two calls of DebugLog whose arguments do not have the types of their conversions. -/
def mismatched : List (String × Nat) := [("report_luns.cc", 55), ("translation.cc", 183)]

/-- `shape`, and a bound on the length of the message. -/
def soundFormat (cs : List Char) (ts : List Ty) : Bool := shape cs ts && decide (cs.length + 34 * ts.length ≤ 1023)

theorem sites_sound : ∀ s ∈ sites, soundFormat s.fmt s.args = true ∨ (s.file, s.line) ∈ mismatched := by
  decide +kernel

theorem sites_shape (s : Site) (hs : s ∈ sites) (hm : (s.file, s.line) ∉ mismatched) :
    shape s.fmt s.args = true ∧ s.fmt.length + 34 * s.args.length ≤ 1023 := by
  rcases sites_sound s hs with h | h
  · unfold soundFormat at h
    rw [Bool.and_eq_true, decide_eq_true_eq] at h
    exact h
  · exact absurd h hm

/-- **C100**, full statement (false, see `C100_refuted`): every call of DebugLog is defined whatever the values of its arguments, hands the
complete message to the callback, and the kernel module prints the message as it is. -/
def C100_statement : Prop := ∀ s ∈ sites, ∀ args, Fit s.args args → Logged s args

/-- **C100.** … which holds of all calls but two: no message is cut off at 1023 characters, and none contains a `%`, which `printk(msg)` would take
for a conversion. -/
theorem C100_messages_partial (s : Site) (hs : s ∈ sites) (hm : (s.file, s.line) ∉ [("report_luns.cc", 55), ("translation.cc", 183)])
    (args : List Arg) (hf : Fit s.args args) : Logged s args := by
  obtain ⟨h1, h2⟩ := sites_shape s hs hm
  obtain ⟨msg, h3, h4, h5⟩ := message_of _ _ _ h1 hf
  refine ⟨msg, ?_, h3, print_clean msg h4⟩
  unfold DebugLog
  rw [if_neg (by decide), h3]
  simp only [Option.map_some]
  rw [List.take_of_length_le (by omega)]

theorem mismatch₁ (n : Nat) : DebugLog true (text! "Invalid report luns select report %u") [.scoped n] = none := by
  simp [DebugLog, format]

theorem mismatch₂ (n : Nat) (as : List Arg) :
    DebugLog true (text! "Invalid use of API, completion count %u does not equal command count %u") (.size n :: as) = none := by
  simp [DebugLog, format]

theorem site_183 : ⟨"translation.cc", 183, (text! "Invalid use of API, completion count %u does not equal command count %u"), [.size, .u32]⟩ ∈ sites :=
  List.mem_of_getElem? (i := 73) rfl

/-- **C100** is false: translation.cc:183 passes a `size_t` (the number of completions) for `%u`, and report_luns.cc:55 a scoped enumeration. -/
theorem C100_refuted : ¬ C100_statement := by
  intro h
  obtain ⟨msg, h1, -⟩ := h _ site_183 [.size 2, .uint 1] (.cons (by decide : 2 < 2 ^ 64) (.cons (by decide : 1 < 2 ^ 32) .nil))
  have e := mismatch₂ 2 [.uint 1]
  simp only at h1
  rw [e] at h1
  cases h1

/-- **C100.** Both calls have undefined behaviour, whatever the values of the arguments, if a callback is set. -/
theorem C100_undefined (n m : Nat) :
    DebugLog true (text! "Invalid report luns select report %u") [.scoped n] = none ∧
    DebugLog true (text! "Invalid use of API, completion count %u does not equal command count %u") [.size n, .uint m] = none :=
  ⟨mismatch₁ n, mismatch₂ n [.uint m]⟩

/-- **C100.** Without a callback, DebugLog does nothing, and is defined for every format and all arguments. -/
theorem C100_silent (fmt : List Char) (args : List Arg) : DebugLog false fmt args = some none := rfl

/-- **C100.** The numbers in messages are what they should be: `%u` and `%d` give the decimal digits, `%#x` gives 0x and the hexadecimal digits
(or 0). -/
theorem C100_numbers (n : Nat) (h : n < 2 ^ 32) :
    (∃ msg, format ['%', 'u'] [.uint n] = some msg ∧ numeral 10 msg = n) ∧
    (∃ msg, format ['%', 'd'] [.int n] = some msg ∧ numeral 10 msg = n) ∧
    (∃ msg, format ['%', '#', 'x'] [.int n] = some msg ∧
      (n = 0 ∧ msg = ['0'] ∨ 0 < n ∧ ∃ ds, msg = '0' :: 'x' :: ds ∧ numeral 16 ds = n)) := by
  have h10 : n < 10 ^ 32 := Nat.lt_of_lt_of_le h (by decide)
  have h16 : n < 16 ^ 32 := Nat.lt_of_lt_of_le h (by decide)
  refine ⟨⟨dec n, by simp [format], digits_value 10 32 n (by decide) (by decide) h10⟩,
    ⟨dec n, by simp [format], digits_value 10 32 n (by decide) (by decide) h10⟩, ⟨hex n, by simp [format], ?_⟩⟩
  unfold hex
  split
  · exact .inl ⟨by assumption, rfl⟩
  · exact .inr ⟨by omega, _, rfl, digits_value 16 32 n (by decide) (by decide) h16⟩

def namedCodes : List Nat := [0x0, 0x3, 0x8, 0xa, 0x12, 0x16, 0x17, 0x1a, 0x1b, 0x1e, 0x25, 0x28, 0x2a, 0x2f, 0x35, 0x42, 0x43, 0x5a, 0x5e, 0x5f, 0x7f, 0x88, 0x8a, 0x8f, 0x91, 0x9e, 0xa0, 0xa3, 0xa8, 0xaa, 0xaf]

/-- **C100.** Two operation codes have the same name only if the name is INVALID_OPCODE. -/
theorem C100_names (a b : Nat) (ha : a < 256) (hb : b < 256) (h : ScsiOpcodeToString a = ScsiOpcodeToString b) :
    a = b ∨ ScsiOpcodeToString a = "INVALID_OPCODE" := by
  have named : ∀ a < 256, ScsiOpcodeToString a = "INVALID_OPCODE" ∨ a ∈ namedCodes := by decide +kernel
  have apart : ∀ a ∈ namedCodes, ∀ b ∈ namedCodes, ScsiOpcodeToString a = ScsiOpcodeToString b → a = b := by decide +kernel
  rcases named a ha with e | e
  · exact .inr e
  rcases named b hb with e' | e'
  · exact .inr (h.trans e')
  exact .inl (apart a e b e' h)

/-- **C100.** No command is accepted whose operation code is called INVALID_OPCODE in the message about it. -/
theorem C100_accepted_named (E t w ptr cdb buf lun r t' w') (h : Began E t w ptr cdb buf lun r t' w') (ha : Accepted t') :
    ScsiOpcodeToString (byte cdb 0) ≠ "INVALID_OPCODE" := by
  have hs : byte cdb 0 ∈ supported := by
    refine Classical.byContradiction fun ho => ?_
    by_cases hne : cdb = []
    · subst hne
      exact ho (by decide)
    · have e := h.ends hne (by rw [switch_unknown E cdb buf _ _ ho]; rfl)
      exact absurd (e.acc.mp ha) (by simp)
  exact (show ∀ k ∈ supported, ScsiOpcodeToString k ≠ "INVALID_OPCODE" by decide +kernel) _ hs

/-- INQUIRY: the message. -/
example : DebugLog true (text! "Translating command %s with opcode %#x") [.str (ScsiOpcodeToString 0x12), .int 0x12] =
    some (some "Translating command kInquiry with opcode 0x12".toList) := by decide +kernel

/-- The hypotheses of `C100_messages_partial` are met by this call. -/
example : ⟨"translation.cc", 55, (text! "Translating command %s with opcode %#x"), [.name, .byte]⟩ ∈ sites ∧
    Fit [.name, .byte] [.str (ScsiOpcodeToString 0x12), .int 0x12] :=
  ⟨List.mem_of_getElem? (i := 70) rfl, .cons ⟨0x12, by decide, rfl⟩ (.cons (by decide : 0x12 < 2 ^ 8) .nil)⟩

end Scsi2Nvme
