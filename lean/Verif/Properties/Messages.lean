import Verif.Properties.Plan
import Verif.Properties.Log
import Verif.Spec.Messages
/-!
# C115: what `Begin` logs
-/

namespace Scsi2Nvme
open Spec Log

/-! ## Texts -/

theorem said_text (f : String) (l : Nat) (cs : List Char) (h : '%' ∉ cs ∧ cs.length ≤ 1023) : said ⟨f, l, cs, []⟩ = some cs := by
  have h1 : format cs [] = some cs := print_clean cs h.1
  unfold said DebugLog
  rw [if_neg (by decide)]
  simp only [h1, Option.map_some, List.take_of_length_le h.2]

theorem format_text (p cs : List Char) (as : List Arg) (h : '%' ∉ p) : format (p ++ cs) as = (format cs as).map (p ++ ·) := by
  induction p with
  | nil => simp
  | cons c p ih =>
    rw [List.mem_cons] at h
    have hc : c ≠ '%' := fun e => h (.inl e.symm)
    rw [List.cons_append]
    conv => lhs; unfold format
    rw [if_pos hc, ih (fun e => h (.inr e)), Option.map_map]
    rfl

theorem said_format (f : String) (l : Nat) (cs : List Char) (as : List Arg) (s : List Char) (h : format cs as = some s)
    (hl : s.length ≤ 1023) : said ⟨f, l, cs, as⟩ = some s := by
  unfold said DebugLog
  rw [if_neg (by decide)]
  simp only [h, Option.map_some, List.take_of_length_le hl]

theorem said_dec (f : String) (l : Nat) (p q : List Char) (a : Arg) (n : Nat) (c : Char)
    (hc : (c = 'd' ∧ a = .int n) ∨ (c = 'u' ∧ a = .int n) ∨ (c = 'u' ∧ a = .uint n))
    (h : '%' ∉ p ∧ '%' ∉ q ∧ p.length + q.length ≤ 900) :
    said ⟨f, l, p ++ '%' :: c :: q, [a]⟩ = some (p ++ dec n ++ q) := by
  have hq : format q [] = some q := print_clean q h.2.1
  have hd := (dec_clean n).2
  refine said_format _ _ _ _ _ ?_ (by simp only [List.length_append]; omega)
  rw [format_text p _ _ h.1]
  rcases hc with ⟨rfl, rfl⟩ | ⟨rfl, rfl⟩ | ⟨rfl, rfl⟩ <;> simp [format, hq]

theorem said_hex (f : String) (l : Nat) (p : List Char) (n : Nat) (h : '%' ∉ p ∧ p.length ≤ 900) :
    said ⟨f, l, p ++ ['%', '#', 'x'], [.int n]⟩ = some (p ++ hex n) := by
  have hd := (hex_clean n).2
  refine said_format _ _ _ _ _ ?_ (by simp only [List.length_append]; omega)
  rw [format_text p _ _ h.1]
  simp [format]

/-- The name of every operation code. -/
theorem opcodeName_eq (n : Nat) (hn : n < 256) : ScsiOpcodeToString n = opcodeName n :=
  (show ∀ n < 256, ScsiOpcodeToString n = opcodeName n by decide +kernel) n hn

/-- **C100.** Every operation code is called what the standard's list says. -/
theorem C100_called (n : Nat) (hn : n < 256) : ScsiOpcodeToString n = (opcodeNames.lookup n).getD "INVALID_OPCODE" := opcodeName_eq n hn

theorem said_opening (n : Nat) (hn : n < 256) :
    said ⟨"translation.cc", 55, text! "Translating command %s with opcode %#x", [.str (ScsiOpcodeToString n), .int n]⟩ = opening n := by
  have h1 := (name_clean n hn).2
  have h2 := (hex_clean n).2
  unfold opening
  rw [← opcodeName_eq n hn]
  refine said_format _ _ _ _ _ ?_ (by simp only [List.length_append, List.length_cons, List.length_nil]; omega)
  have := format_text (text! "Translating command ") (text! "%s with opcode %#x") [.str (ScsiOpcodeToString n), .int n] (by decide)
  refine this.trans ?_
  simp [format]

theorem said_scoped (f : String) (l n : Nat) : said ⟨f, l, text! "Invalid report luns select report %u", [.scoped n]⟩ = none := by
  unfold said
  simp only [mismatch₁]

/-! ## SetPages -/

theorem SetPagesLog_used (E : Env) (a : Allocation) (w : World) (h : a.data_addr ≠ 0) :
    (SetPagesLog E a 4096 1 0 w).map said = [slotInUse] := by
  unfold SetPagesLog
  rw [if_pos (Or.inl ⟨by decide, h⟩)]
  show [said _] = _
  rw [said_text _ _ _ (by decide)]
  rfl

theorem SetPagesLog_free (E : Env) (a : Allocation) (w : World) (h : a.data_addr = 0) :
    (SetPagesLog E a 4096 1 0 w).map said = if setA E w = 0 then [outOfPages] else [] := by
  unfold SetPagesLog
  rw [if_neg (by simp [h])]
  simp only [after, AllocPages_run]
  by_cases hz : setA E w = 0
  · rw [if_pos (Or.inl ⟨by decide, hz⟩), if_pos hz]
    show [said _] = _
    rw [said_text _ _ _ (by decide)]
    rfl
  · rw [if_neg (by simp [setA] at hz ⊢; exact hz), if_neg hz]
    rfl

theorem setA_zero (E : Env) (w : World) : (setA E w).toNat = 0 ↔ setA E w = 0 :=
  ⟨fun h => BitVec.eq_of_toNat_eq h, fun h => by rw [h]; rfl⟩

theorem SetPages_said (E : Env) (a : Allocation) (w : World) :
    (SetPagesLog E a 4096 1 0 w).map said
      = if (a.data_addr == 0) = false then [slotInUse] else if (setA E w).toNat = 0 then [outOfPages] else [] := by
  by_cases h : a.data_addr = 0
  · have hb : ¬ (a.data_addr == 0) = false := by simp [h]
    rw [SetPagesLog_free E a w h, if_neg hb]
    simp only [setA_zero]
  · rw [SetPagesLog_used E a w h, if_pos (by simpa using h)]

/-! ## READ and WRITE -/

theorem LegacyReadLog_said (tl : U16) (buf : Span) :
    (LegacyReadLog tl kLbaSize buf).map said
      = if buf.len < tl.toNat * 4096 then [some (text! "Not enough memory allocated for Read buffer")] else [] := by
  unfold LegacyReadLog
  rw [mul4096]
  split
  · show [said _] = _
    rw [said_text _ _ _ (by decide)]
  · rfl

theorem BuildPrinfo_none (b : Byte) : Read.BuildPrinfo b = none ↔ 5 < b.toNat := by
  have := b.isLt
  revert b
  decide +kernel

theorem BuildPRInfo_none (b : Byte) : Write.BuildPRInfo b = none ↔ 5 < b.toNat := by
  have := b.isLt
  revert b
  decide +kernel

theorem BuildPrinfoLog_said (b : Byte) :
    (BuildPrinfoLog b).map said = if 5 < b.toNat then
      [some (text! "RDPROTECT with value " ++ dec b.toNat ++ text! " has no translation to PRINFO")] else [] := by
  unfold BuildPrinfoLog
  by_cases h : 5 < b.toNat
  · rw [(BuildPrinfo_none b).mpr h, if_pos h]
    show [said _] = _
    congr 1
    exact said_dec _ _ (text! "RDPROTECT with value ") (text! " has no translation to PRINFO") _ _ 'd' (.inl ⟨rfl, rfl⟩) (by decide)
  · rw [if_neg h]
    cases hb : Read.BuildPrinfo b with
    | none => exact absurd ((BuildPrinfo_none b).mp hb) h
    | some x => rfl

theorem BuildPRInfoLog_said (b : Byte) :
    (BuildPRInfoLog b).map said = if 5 < b.toNat then [some (text! "Invalid WriteProtect Code for PRInfo")] else [] := by
  unfold BuildPRInfoLog
  by_cases h : 5 < b.toNat
  · rw [(BuildPRInfo_none b).mpr h, if_pos h]
    show [said _] = _
    rw [said_text _ _ _ (by decide)]
  · rw [if_neg h]
    cases hb : Write.BuildPRInfo b with
    | none => exact absurd ((BuildPRInfo_none b).mp hb) h
    | some x => rfl

/-- The remarks about a READ of `n` blocks with RDPROTECT `p`. -/
def readSaid (n p bufLen : Nat) : List Remark :=
  if n = 0 then [some (text! "NVMe read command does not support transfering zero blocks")]
  else if 65535 < n then [some (text! "Transfer length exceeds limit of 16 bits")]
  else if bufLen < n * 4096 then [some (text! "Not enough memory allocated for Read buffer")]
  else if 5 < p then [some (text! "RDPROTECT with value " ++ dec p ++ text! " has no translation to PRINFO")]
  else []

theorem ReadLog_said (rp : Byte) (tl : U32) (wr : NvmeCmdWrapper) (nsid : U32) (buf : Span) :
    (ReadLog rp tl wr nsid kLbaSize buf).map said = readSaid tl.toNat rp.toNat buf.len := by
  unfold ReadLog readSaid
  by_cases h0 : tl = 0
  · subst h0
    rw [if_pos rfl, if_pos (show (0 : U32).toNat = 0 from rfl)]
    show [said _] = _
    rw [said_text _ _ _ (by decide)]
  have h0' : tl.toNat ≠ 0 := fun hh => h0 (BitVec.eq_of_toNat_eq hh)
  rw [if_neg h0, if_neg h0']
  by_cases h1 : tl > 0xffff#32
  · have : 65535 < tl.toNat := by simpa [BitVec.lt_def] using h1
    rw [if_pos h1, if_pos this]
    show [said _] = _
    rw [said_text _ _ _ (by decide)]
  have h2 : ¬ 65535 < tl.toNat := by simpa [BitVec.lt_def] using h1
  rw [if_neg h1, if_neg h2]
  have h3 : ((tl &&& 0xffff#32).setWidth 16).toNat = tl.toNat := by
    have h4 : (tl &&& 0xffff#32) = tl := by
      apply BitVec.eq_of_toNat_eq
      rw [BitVec.toNat_and]
      show tl.toNat &&& (2 ^ 16 - 1) = _
      rw [Nat.and_two_pow_sub_one_eq_mod]
      omega
    rw [h4, BitVec.toNat_setWidth]; omega
  simp only [List.map_append]
  rw [LegacyReadLog_said, h3]
  by_cases h4 : buf.len < tl.toNat * 4096
  · rw [if_pos h4, if_pos h4, LegacyRead_short _ _ _ _ (by rw [h3]; exact h4)]
    rfl
  · have : (Read.LegacyRead wr nsid ((tl &&& 0xffff#32).setWidth 16) kLbaSize buf).1 = .kSuccess := by
      unfold Read.LegacyRead
      have : ¬ buf.len < (((tl &&& 0xffff#32).setWidth 16).setWidth 32 * kLbaSize : U32).toNat := by rw [mul4096, h3]; exact h4
      simp only
      rw [if_neg this]
    rw [if_neg h4, if_neg h4, if_pos this, BuildPrinfoLog_said]
    rfl

/-- The remarks about a WRITE of `n` blocks with WRPROTECT `p`. -/
def writeSaid (n p : Nat) : List Remark :=
  if n = 0 then [some (text! "NVMe write command does not support transfering zero blocks")]
  else if 5 < p then [some (text! "Invalid WriteProtect Code for PRInfo")]
  else []

theorem WriteLog_said (wp : Byte) (tl : U32) (wr : NvmeCmdWrapper) (nsid : U32) (buf : Span) :
    (WriteLog wp tl wr nsid buf).map said = writeSaid tl.toNat wp.toNat := by
  unfold WriteLog writeSaid
  by_cases h0 : tl = 0
  · subst h0
    rw [if_pos rfl, if_pos (show (0 : U32).toNat = 0 from rfl)]
    show [said _] = _
    rw [said_text _ _ _ (by decide)]
  have h0' : tl.toNat ≠ 0 := fun hh => h0 (BitVec.eq_of_toNat_eq hh)
  rw [if_neg h0, if_neg h0', if_pos (show (Write.LegacyWrite wr nsid buf).1 = .kSuccess from rfl), BuildPRInfoLog_said]

theorem setWidth8_toNat (x : BitVec 3) : (x.setWidth 8).toNat = x.toNat := by
  rw [BitVec.toNat_setWidth]; have := x.isLt; omega

theorem Read10_said (cdb : List Byte) (hop : byte cdb 0 = 0x28) (wr : NvmeCmdWrapper) (nsid : U32) (buf : Span) :
    (Read10Log cdb.tail wr nsid kLbaSize buf).map said = readRemarks cdb buf.len := by
  have hd := decodeRw_10 (cdb := cdb) (by omega)
  unfold Read10Log readRemarks
  by_cases hl : cdb.length < 10
  · rw [if_pos hl] at hd
    rw [readValue_none (by simp [Scsi.Read10Command.size]; omega), hd, hop]
    show [said _] = _
    rw [said_text _ _ _ (by decide)]
    rfl
  · rw [if_neg hl] at hd
    rw [readValue_some (by simp [Scsi.Read10Command.size]; omega), hd]
    have f3 : (ntohs (Scsi.Read10Command.ofBytes (cdb.tail.take Scsi.Read10Command.size)).transfer_length).toNat = beAt cdb 7 2 :=
      field16 cdb 9 48 6 (by omega) (by omega) (by omega)
    have f1 : (Scsi.Read10Command.ofBytes (cdb.tail.take Scsi.Read10Command.size)).rd_protect.toNat = byte cdb 1 / 32 :=
      fieldTop3 cdb 9 5 0 (by omega) (by omega)
    generalize Scsi.Read10Command.ofBytes (cdb.tail.take Scsi.Read10Command.size) = c at f1 f3 ⊢
    have f4 : ((ntohs c.transfer_length).setWidth 32).toNat = beAt cdb 7 2 := by
      rw [BitVec.toNat_setWidth, f3]; have := beAt_lt cdb 7 2; omega
    simp only
    rw [ReadLog_said, f4, setWidth8_toNat, f1]
    rfl

theorem Read12_said (cdb : List Byte) (hop : byte cdb 0 = 0xa8) (wr : NvmeCmdWrapper) (nsid : U32) (buf : Span) :
    (Read12Log cdb.tail wr nsid kLbaSize buf).map said = readRemarks cdb buf.len := by
  have hd := decodeRw_12 (cdb := cdb) (by omega)
  unfold Read12Log readRemarks
  by_cases hl : cdb.length < 12
  · rw [if_pos hl] at hd
    rw [readValue_none (by simp [Scsi.Read12Command.size]; omega), hd, hop]
    show [said _] = _
    rw [said_text _ _ _ (by decide)]
    rfl
  · rw [if_neg hl] at hd
    rw [readValue_some (by simp [Scsi.Read12Command.size]; omega), hd]
    have f4 : (ntohl (Scsi.Read12Command.ofBytes (cdb.tail.take Scsi.Read12Command.size)).transfer_length).toNat = beAt cdb 6 4 :=
      field32 cdb 11 40 5 (by omega) (by omega) (by omega)
    have f1 : (Scsi.Read12Command.ofBytes (cdb.tail.take Scsi.Read12Command.size)).rd_protect.toNat = byte cdb 1 / 32 :=
      fieldTop3 cdb 11 5 0 (by omega) (by omega)
    generalize Scsi.Read12Command.ofBytes (cdb.tail.take Scsi.Read12Command.size) = c at f1 f4 ⊢
    simp only
    rw [ReadLog_said, f4, setWidth8_toNat, f1]
    rfl

theorem Read16_said (cdb : List Byte) (hop : byte cdb 0 = 0x88) (wr : NvmeCmdWrapper) (nsid : U32) (buf : Span) :
    (Read16Log cdb.tail wr nsid kLbaSize buf).map said = readRemarks cdb buf.len := by
  have hd := decodeRw_16 (cdb := cdb) (by omega)
  unfold Read16Log readRemarks
  by_cases hl : cdb.length < 16
  · rw [if_pos hl] at hd
    rw [readValue_none (by simp [Scsi.Read16Command.size]; omega), hd, hop]
    show [said _] = _
    rw [said_text _ _ _ (by decide)]
    rfl
  · rw [if_neg hl] at hd
    rw [readValue_some (by simp [Scsi.Read16Command.size]; omega), hd]
    have f4 : (ntohl (Scsi.Read16Command.ofBytes (cdb.tail.take Scsi.Read16Command.size)).transfer_length).toNat = beAt cdb 10 4 :=
      field32 cdb 15 72 9 (by omega) (by omega) (by omega)
    have f1 : (Scsi.Read16Command.ofBytes (cdb.tail.take Scsi.Read16Command.size)).rd_protect.toNat = byte cdb 1 / 32 :=
      fieldTop3 cdb 15 5 0 (by omega) (by omega)
    generalize Scsi.Read16Command.ofBytes (cdb.tail.take Scsi.Read16Command.size) = c at f1 f4 ⊢
    simp only
    rw [ReadLog_said, f4, setWidth8_toNat, f1]
    rfl

theorem Read6_said (cdb : List Byte) (hop : byte cdb 0 = 0x08) (buf : Span) :
    (Read6Log cdb.tail kLbaSize buf).map said = readRemarks cdb buf.len := by
  have hd := decodeRw_6 (cdb := cdb) (by omega)
  unfold Read6Log readRemarks
  by_cases hl : cdb.length < 6
  · rw [if_pos hl] at hd
    rw [readValue_none (by simp [Scsi.Read6Command.size]; omega), hd, hop]
    show [said _] = _
    rw [said_text _ _ _ (by decide)]
    rfl
  · rw [if_neg hl] at hd
    rw [readValue_some (by simp [Scsi.Read6Command.size]; omega), hd]
    have f3 : (Scsi.Read6Command.ofBytes (cdb.tail.take Scsi.Read6Command.size)).transfer_length.toNat
        = byte cdb 4 := field8 cdb 5 24 3 (by omega) (by omega)
    generalize Scsi.Read6Command.ofBytes (cdb.tail.take Scsi.Read6Command.size) = c at f3 ⊢
    have ht := tl6_toNat cdb _ f3
    have b3 := byte_lt cdb 4
    simp only
    generalize (if c.transfer_length = 0 then 256#16 else c.transfer_length.setWidth 16) = tl at ht
    have h0 : ¬ tl.toNat = 0 := by rw [ht]; split <;> omega
    have h1 : ¬ 65535 < tl.toNat := by rw [ht]; split <;> omega
    rw [LegacyReadLog_said, ← ht, if_neg h0, if_neg h1]
    rfl

theorem Write10_said (cdb : List Byte) (hop : byte cdb 0 = 0x2a) (wr : NvmeCmdWrapper) (nsid : U32) (buf : Span) :
    (Write10Log cdb.tail wr nsid buf).map said = writeRemarks cdb := by
  have hd := decodeRw_10 (cdb := cdb) (by omega)
  unfold Write10Log writeRemarks
  by_cases hl : cdb.length < 10
  · rw [if_pos hl] at hd
    rw [readValue_none (by simp [Scsi.Write10Command.size]; omega), hd, hop]
    show [said _] = _
    rw [said_text _ _ _ (by decide)]
    rfl
  · rw [if_neg hl] at hd
    rw [readValue_some (by simp [Scsi.Write10Command.size]; omega), hd]
    have f3 : (ntohs (Scsi.Write10Command.ofBytes (cdb.tail.take Scsi.Write10Command.size)).transfer_length).toNat = beAt cdb 7 2 :=
      field16 cdb 9 48 6 (by omega) (by omega) (by omega)
    have f1 : (Scsi.Write10Command.ofBytes (cdb.tail.take Scsi.Write10Command.size)).wr_protect.toNat = byte cdb 1 / 32 :=
      fieldTop3 cdb 9 5 0 (by omega) (by omega)
    generalize Scsi.Write10Command.ofBytes (cdb.tail.take Scsi.Write10Command.size) = c at f1 f3 ⊢
    have f4 : ((ntohs c.transfer_length).setWidth 32).toNat = beAt cdb 7 2 := by
      rw [BitVec.toNat_setWidth, f3]; have := beAt_lt cdb 7 2; omega
    simp only
    rw [WriteLog_said, f4, setWidth8_toNat, f1]
    rfl

theorem Write12_said (cdb : List Byte) (hop : byte cdb 0 = 0xaa) (wr : NvmeCmdWrapper) (nsid : U32) (buf : Span) :
    (Write12Log cdb.tail wr nsid buf).map said = writeRemarks cdb := by
  have hd := decodeRw_12 (cdb := cdb) (by omega)
  unfold Write12Log writeRemarks
  by_cases hl : cdb.length < 12
  · rw [if_pos hl] at hd
    rw [readValue_none (by simp [Scsi.Write12Command.size]; omega), hd, hop]
    show [said _] = _
    rw [said_text _ _ _ (by decide)]
    rfl
  · rw [if_neg hl] at hd
    rw [readValue_some (by simp [Scsi.Write12Command.size]; omega), hd]
    have f4 : (ntohl (Scsi.Write12Command.ofBytes (cdb.tail.take Scsi.Write12Command.size)).transfer_length).toNat = beAt cdb 6 4 :=
      field32 cdb 11 40 5 (by omega) (by omega) (by omega)
    have f1 : (Scsi.Write12Command.ofBytes (cdb.tail.take Scsi.Write12Command.size)).wr_protect.toNat = byte cdb 1 / 32 :=
      fieldTop3 cdb 11 5 0 (by omega) (by omega)
    generalize Scsi.Write12Command.ofBytes (cdb.tail.take Scsi.Write12Command.size) = c at f1 f4 ⊢
    simp only
    rw [WriteLog_said, f4, setWidth8_toNat, f1]
    rfl

theorem Write16_said (cdb : List Byte) (hop : byte cdb 0 = 0x8a) (wr : NvmeCmdWrapper) (nsid : U32) (buf : Span) :
    (Write16Log cdb.tail wr nsid buf).map said = writeRemarks cdb := by
  have hd := decodeRw_16 (cdb := cdb) (by omega)
  unfold Write16Log writeRemarks
  by_cases hl : cdb.length < 16
  · rw [if_pos hl] at hd
    rw [readValue_none (by simp [Scsi.Write16Command.size]; omega), hd, hop]
    show [said _] = _
    rw [said_text _ _ _ (by decide)]
    rfl
  · rw [if_neg hl] at hd
    rw [readValue_some (by simp [Scsi.Write16Command.size]; omega), hd]
    have f4 : (ntohl (Scsi.Write16Command.ofBytes (cdb.tail.take Scsi.Write16Command.size)).transfer_length).toNat = beAt cdb 10 4 :=
      field32 cdb 15 72 9 (by omega) (by omega) (by omega)
    have f1 : (Scsi.Write16Command.ofBytes (cdb.tail.take Scsi.Write16Command.size)).wr_protect.toNat = byte cdb 1 / 32 :=
      fieldTop3 cdb 15 5 0 (by omega) (by omega)
    generalize Scsi.Write16Command.ofBytes (cdb.tail.take Scsi.Write16Command.size) = c at f1 f4 ⊢
    simp only
    rw [WriteLog_said, f4, setWidth8_toNat, f1]
    rfl

theorem Write6_said (cdb : List Byte) (hop : byte cdb 0 = 0x0a) : (Write6Log cdb.tail).map said = writeRemarks cdb := by
  have hd := decodeRw_6 (cdb := cdb) (by omega)
  unfold Write6Log writeRemarks
  by_cases hl : cdb.length < 6
  · rw [if_pos hl] at hd
    rw [readValue_none (by simp [Scsi.Write6Command.size]; omega), hd, hop]
    show [said _] = _
    rw [said_text _ _ _ (by decide)]
    rfl
  · rw [if_neg hl] at hd
    rw [readValue_some (by simp [Scsi.Write6Command.size]; omega), hd]
    have h0 : ¬ (if byte cdb 4 = 0 then 256 else byte cdb 4) = 0 := by split <;> omega
    simp only
    rw [if_neg h0]
    rfl

/-! ## The commands without a page -/

theorem Verify_said (cdb : List Byte) : (VerifyLog cdb.tail).map said = verifyRemarks cdb := by
  unfold VerifyLog verifyRemarks
  rcases Nat.lt_or_ge cdb.length 10 with hl | hl
  · rw [readValue_none (by simp [Scsi.Verify10Command.size]; omega), if_pos hl]
    show [said _] = _
    rw [said_text _ _ _ (by decide)]
  rw [readValue_some (by simp [Scsi.Verify10Command.size]; omega), if_neg (show ¬ cdb.length < 10 by omega)]
  have fl : (bswap 2 (Scsi.Verify10Command.ofBytes (cdb.tail.take Scsi.Verify10Command.size)).verification_length).toNat
      = beAt cdb 7 2 := field16 cdb 9 48 6 (by omega) (by omega) (by omega)
  have fn : (Scsi.Verify10Command.ofBytes (cdb.tail.take Scsi.Verify10Command.size)).naca = 1
      ↔ Spec.bit cdb 9 2 = true := bit_false_iff cdb 9 66 8 2 (by omega) (by omega) (by omega)
  generalize Scsi.Verify10Command.ofBytes (cdb.tail.take Scsi.Verify10Command.size) = c at fl fn ⊢
  have hz : c.verification_length = 0 ↔ beAt cdb 7 2 = 0 := by
    rw [← fl]
    constructor
    · intro h; rw [h]; decide
    · intro h
      have : bswap 2 c.verification_length = bswap 2 (0 : U16) := by
        apply BitVec.eq_of_toNat_eq; rw [h]; decide
      have := congrArg (bswap 2) this
      rwa [bswap_bswap, bswap_bswap] at this
  simp only
  by_cases h1 : beAt cdb 7 2 = 0
  · rw [if_pos h1, if_pos (hz.mpr h1)]
    show [said _] = _
    rw [said_text _ _ _ (by decide)]
  rw [if_neg h1, if_neg (fun h => h1 (hz.mp h))]
  by_cases h2 : Spec.bit cdb 9 2 = true
  · rw [if_pos h2, if_pos (fn.mpr h2)]
    show [said _] = _
    rw [said_text _ _ _ (by decide)]
  · rw [if_neg h2, if_neg (fun h => h2 (fn.mp h))]
    rfl

theorem RequestSense_said (cdb : List Byte) : (RequestSenseLog cdb.tail).map said = senseRemarks cdb := by
  unfold RequestSenseLog senseRemarks
  rcases Nat.lt_or_ge cdb.length 6 with hl | hl
  · rw [readValue_none (by simp [Scsi.RequestSenseCommand.size]; omega), if_pos (Or.inl hl)]
    show [said _] = _
    rw [said_text _ _ _ (by decide)]
  rw [readValue_some (by simp [Scsi.RequestSenseCommand.size]; omega)]
  have hn : (Scsi.RequestSenseCommand.ofBytes (cdb.tail.take Scsi.RequestSenseCommand.size)).naca = 1
      ↔ Spec.bit cdb 5 2 = true := bit_false_iff cdb 5 34 4 2 (by omega) (by omega) (by omega)
  simp only [hn]
  by_cases h : Spec.bit cdb 5 2 = true
  · rw [if_pos h, if_pos (Or.inr h)]
    show [said _] = _
    rw [said_text _ _ _ (by decide)]
  · rw [if_neg h, if_neg (by simp [h]; omega)]
    rfl

theorem Validate_said (cdb : List Byte) :
    (ValidateReportSupportedOpCodesLog cdb.tail).map said
      = if cdb.length < 12 then [some (text! "Malformed Report Supported OpCodes command")]
        else if byte cdb 2 % 8 = 1 ∧ byte cdb 3 = 0x93 then []
        else [some (text! "Only supporting ReportSupportedOpCodes for WriteSame16")] := by
  unfold ValidateReportSupportedOpCodesLog
  rcases Nat.lt_or_ge cdb.length 12 with hl | hl
  · rw [readValue_none (by simp [Scsi.ReportOpCodesCommand.size]; omega), if_pos hl]
    show [said _] = _
    rw [said_text _ _ _ (by decide)]
  rw [readValue_some (by simp [Scsi.ReportOpCodesCommand.size]; omega), if_neg (show ¬ cdb.length < 12 by omega)]
  have f1 : (Scsi.ReportOpCodesCommand.ofBytes (cdb.tail.take Scsi.ReportOpCodesCommand.size)).requested_op_code.toNat
      = byte cdb 3 := field8 cdb 11 16 2 (by omega) (by omega)
  have f2 : (Scsi.ReportOpCodesCommand.ofBytes (cdb.tail.take Scsi.ReportOpCodesCommand.size)).reporting_options.toNat
      = byte cdb 2 / 2 ^ 0 % 2 ^ 3 := fieldBits cdb 11 8 3 1 0 (by omega) (by omega) (by omega)
  generalize Scsi.ReportOpCodesCommand.ofBytes (cdb.tail.take Scsi.ReportOpCodesCommand.size) = c at f1 f2 ⊢
  simp only [Nat.pow_zero, Nat.div_one, Nat.reducePow] at f2
  have e1 : c.requested_op_code = Scsi.OpCode.kWriteSame16 ↔ byte cdb 3 = 0x93 := by
    rw [← f1]; exact bv_eq_iff _ 0x93 (by decide)
  have e2 : c.reporting_options = 0b001 ↔ byte cdb 2 % 8 = 1 := by
    rw [← f2]; exact bv_eq_iff _ 1 (by decide)
  simp only
  by_cases h : byte cdb 2 % 8 = 1 ∧ byte cdb 3 = 0x93
  · rw [if_pos h, if_neg (fun g => g.elim (fun g => g (e1.mpr h.2)) (fun g => g (e2.mpr h.1)))]
    rfl
  · have : c.requested_op_code ≠ Scsi.OpCode.kWriteSame16 ∨ c.reporting_options ≠ 0b001 := by
      by_cases h1 : byte cdb 3 = 0x93
      · exact Or.inr fun g => h ⟨e2.mp g, h1⟩
      · exact Or.inl fun g => h1 (e1.mp g)
    rw [if_neg h, if_pos this]
    show [said _] = _
    rw [said_text _ _ _ (by decide)]

/-! ## The commands with a page -/

theorem ReportLuns_said (E : Env) (cdb : List Byte) (al : Allocation) (w : World) :
    (ReportLunsLog E cdb.tail 4096 al w).map said = lunsRemarks cdb (al.data_addr == 0) (setA E w).toNat := by
  unfold ReportLunsLog lunsRemarks
  rcases Nat.lt_or_ge cdb.length 12 with hl | hl
  · rw [readValue_none (by simp [Scsi.ReportLunsCommand.size]; omega), if_pos hl]
    show [said _] = _
    rw [said_text _ _ _ (by decide)]
  rw [readValue_some (by simp [Scsi.ReportLunsCommand.size]; omega), if_neg (show ¬ cdb.length < 12 by omega)]
  simp only [rl_select]
  by_cases hs : 2 < byte cdb 2
  · rw [if_pos hs, if_pos hs]
    show [said _] = _
    rw [said_scoped]
  rw [if_neg hs, if_neg hs]
  exact SetPages_said E al w

theorem maintenance_said (E : Env) (cdb : List Byte) (al : Allocation) (w : World) :
    (maintenanceLog E cdb.tail al w).map said = maintenanceRemarks cdb (al.data_addr == 0) (setA E w).toNat := by
  unfold maintenanceLog maintenanceRemarks
  rw [List.map_append, Validate_said]
  congr 1
  exact ReportLuns_said E cdb al w

theorem ReadCapacity_said (E : Env) (cdb : List Byte) (al : Allocation) (w : World) (h : al.data_addr = 0) :
    (ReadCapacity10Log E cdb.tail 4096 al w).map said = capacityRemarks cdb (setA E w).toNat := by
  unfold ReadCapacity10Log capacityRemarks
  rcases Nat.lt_or_ge cdb.length 10 with hl | hl
  · rw [readValue_none (by simp [Scsi.ReadCapacity10Command.size]; omega), if_pos hl]
    show [said _] = _
    rw [said_text _ _ _ (by decide)]
  rw [readValue_some (by simp [Scsi.ReadCapacity10Command.size]; omega), if_neg (show ¬ cdb.length < 10 by omega)]
  simp only [rc_naca]
  by_cases hs : Spec.bit cdb 9 2 = true
  · rw [if_pos hs, if_pos hs]
    show [said _] = _
    rw [said_text _ _ _ (by decide)]
  rw [if_neg hs, if_neg hs, SetPagesLog_free E al w h]
  simp only [setA_zero]

theorem Inquiry_said (E : Env) (cdb : List Byte) (a0 a1 : Allocation) (w : World) (h0 : a0.data_addr = 0) (h1 : a1.data_addr = 0) :
    (InquiryLog E cdb.tail 4096 a0 a1 w).map said
      = inquiryRemarks cdb (fun i => if i = 0 then (setA E w).toNat else (setA E (setW E w)).toNat) := by
  unfold InquiryLog inquiryRemarks
  rcases Nat.lt_or_ge cdb.length 6 with hl | hl
  · rw [readValue_none (by simp [Scsi.InquiryCommand.size]; omega), if_pos hl]
    show [said _] = _
    rw [said_text _ _ _ (by decide)]
  rw [readValue_some (by simp [Scsi.InquiryCommand.size]; omega), if_neg (show ¬ cdb.length < 6 by omega)]
  simp only [List.map_append, after, SetPages_free E a0 w h0, SetPagesLog_free E a0 w h0, if_true, Nat.one_ne_zero, if_false, setA_zero]
  by_cases hz : setA E w = 0
  · simp [hz]
  · simp only [if_neg hz, List.nil_append, SetPagesLog_free E a1 _ h1, hz, false_or, ne_eq, not_true_eq_false, if_false]

/-! ## MODE SENSE -/

theorem page_said (cdb : List Byte) (a : ModeSense.CommonCmdAttributes) (hp : a.page_code.toNat = byte cdb 2 % 64)
    (hc : a.pc.toNat = byte cdb 2 / 64) : (modeSensePageLog a).map said = pageRemarks cdb := by
  have e8 : a.page_code = Scsi.ModePageCode.kCacheMode ↔ byte cdb 2 % 64 = 0x08 := by rw [← hp]; exact bv_eq_iff _ 8 (by decide)
  have ea : a.page_code = Scsi.ModePageCode.kControlMode ↔ byte cdb 2 % 64 = 0x0a := by rw [← hp]; exact bv_eq_iff _ 10 (by decide)
  have e1a : a.page_code = Scsi.ModePageCode.kPowerConditionMode ↔ byte cdb 2 % 64 = 0x1a := by
    rw [← hp]; exact bv_eq_iff _ 26 (by decide)
  have e3f : a.page_code = Scsi.ModePageCode.kAllSupportedModes ↔ byte cdb 2 % 64 = 0x3f := by
    rw [← hp]; exact bv_eq_iff _ 63 (by decide)
  have c0 : a.pc = Scsi.PageControl.kCurrent ↔ byte cdb 2 / 64 = 0 := by rw [← hc]; exact bv_eq_iff _ 0 (by decide)
  have c1 : a.pc = Scsi.PageControl.kChangeable ↔ byte cdb 2 / 64 = 1 := by rw [← hc]; exact bv_eq_iff _ 1 (by decide)
  have c2 : a.pc = Scsi.PageControl.kDefault ↔ byte cdb 2 / 64 = 2 := by rw [← hc]; exact bv_eq_iff _ 2 (by decide)
  have hb := byte_lt cdb 2
  unfold modeSensePageLog GenerateCacheGetFeaturesCmdLog pageRemarks modePages asksCaching
  simp only [ne_eq, e8, ea, e1a, e3f, c0, c1, c2, List.mem_cons, List.not_mem_nil, or_false]
  generalize byte cdb 2 % 64 = m at *
  by_cases h1 : m = 8 ∨ m = 63
  · have g1 : ¬ (¬ m = 8 ∧ ¬ m = 63) := by omega
    have g2 : ¬ ¬ (m = 8 ∨ m = 10 ∨ m = 26 ∨ m = 63) := by omega
    rw [if_neg g1, if_neg g2]
    by_cases h2 : byte cdb 2 / 64 = 3
    · have g3 : ¬ (byte cdb 2 / 64 = 0 ∨ byte cdb 2 / 64 = 1 ∨ byte cdb 2 / 64 = 2) := by omega
      rw [if_neg g3, if_pos ⟨h1, h2⟩]
      show [said _] = _
      rw [said_text _ _ _ (by decide)]
    · have g3 : byte cdb 2 / 64 = 0 ∨ byte cdb 2 / 64 = 1 ∨ byte cdb 2 / 64 = 2 := by omega
      rw [if_pos g3, if_neg (fun g => h2 g.2)]
      rfl
  · have g1 : ¬ m = 8 ∧ ¬ m = 63 := by omega
    rw [if_pos g1]
    by_cases h2 : m = 10 ∨ m = 26
    · have g2 : ¬ ¬ (m = 8 ∨ m = 10 ∨ m = 26 ∨ m = 63) := by omega
      rw [if_pos h2, if_neg g2, if_neg (fun g => h1 g.1)]
      rfl
    · have g2 : ¬ (m = 8 ∨ m = 10 ∨ m = 26 ∨ m = 63) := by omega
      rw [if_neg h2, if_pos g2]
      show [said _] = _
      rw [said_text _ _ _ (by decide)]

theorem ModeSense_said (E : Env) (cdb : List Byte) (ten : Bool) (hl : ¬ cdb.length < (if ten then 10 else 6))
    (a : ModeSense.CommonCmdAttributes) (hp : a.page_code.toNat = byte cdb 2 % 64)
    (hc : a.pc.toNat = byte cdb 2 / 64) (hd : a.dbd = Spec.bit cdb 1 3) (al : Allocation) (w : World) :
    (ModeSenseLog E a al 4096 w).map said = modeRemarks ten cdb (al.data_addr == 0) (setA E w).toNat := by
  unfold ModeSenseLog modeRemarks
  rw [if_neg hl, hd]
  by_cases h : Spec.bit cdb 1 3 = true
  · rw [if_pos h, if_pos h]
    exact page_said cdb a hp hc
  rw [if_neg h, if_neg h, List.map_append, SetPages_said]
  by_cases h1 : al.data_addr = 0
  · have g1 : ¬ (al.data_addr == 0) = false := by simp [h1]
    rw [if_neg g1, if_neg g1]
    simp only [after, SetPages_free E al w h1, setA_zero]
    by_cases hz : setA E w = 0
    · simp only [if_pos hz, if_true]
      show [outOfPages] ++ [said _] = _
      rw [said_text _ _ _ (by decide)]
      rfl
    · simp only [if_neg hz, reduceCtorEq, if_false, List.nil_append]
      exact page_said cdb a hp hc
  · have g1 : (al.data_addr == 0) = false := by simpa using h1
    rw [if_pos g1, if_pos g1]
    simp only [after, SetPages_used E al w h1, if_true]
    show [slotInUse] ++ [said _] = _
    rw [said_text _ _ _ (by decide)]
    rfl

theorem attrs10_page (cdb : List Byte) : (attrsOf10 cdb).page_code.toNat = byte cdb 2 % 64 := by
  have := fieldBits cdb 9 8 6 1 0 (by omega) (by omega) (by omega)
  rw [Nat.pow_zero, Nat.div_one] at this
  exact this

theorem attrsOf10_pc (cdb : List Byte) : (attrsOf10 cdb).pc.toNat = byte cdb 2 / 64 := by
  have := fieldBits cdb 9 14 2 1 6 (by omega) (by omega) (by omega)
  rw [← byte_div64]
  simp only [Nat.reduceAdd, Nat.reducePow] at this
  exact this

theorem ModeSense6_said (E : Env) (cdb : List Byte) (al : Allocation) (w : World) :
    (ModeSense6Log E cdb.tail al 4096 w).map said = modeRemarks false cdb (al.data_addr == 0) (setA E w).toNat := by
  unfold ModeSense6Log
  rcases Nat.lt_or_ge cdb.length 6 with hl | hl
  · rw [readValue_none (by simp [Scsi.ModeSense6Command.size]; omega)]
    unfold modeRemarks
    rw [if_pos (by simpa using hl)]
    show [said _] = _
    rw [said_text _ _ _ (by decide)]
    rfl
  rw [readValue_some (by simp [Scsi.ModeSense6Command.size]; omega)]
  exact ModeSense_said E cdb false (by simp; omega) (attrsOf6 cdb) (attrsOf6_page cdb) (attrsOf6_pc cdb) (attrsOf6_dbd cdb) al w

theorem ModeSense10_said (E : Env) (cdb : List Byte) (al : Allocation) (w : World) :
    (ModeSense10Log E cdb.tail al 4096 w).map said = modeRemarks true cdb (al.data_addr == 0) (setA E w).toNat := by
  unfold ModeSense10Log
  rcases Nat.lt_or_ge cdb.length 10 with hl | hl
  · rw [readValue_none (by simp [Scsi.ModeSense10Command.size]; omega)]
    unfold modeRemarks
    rw [if_pos (by simpa using hl)]
    show [said _] = _
    rw [said_text _ _ _ (by decide)]
    rfl
  rw [readValue_some (by simp [Scsi.ModeSense10Command.size]; omega)]
  exact ModeSense_said E cdb true (by simp; omega) (attrsOf10 cdb) (attrs10_page cdb) (attrsOf10_pc cdb) (attrsOf10_dbd cdb) al w

/-! ## UNMAP -/

theorem Unmap_said (E : Env) (cdb data : List Byte) (buf : Span) (al : Allocation) (ha : al.data_addr = 0) (w : World)
    (hd : w.mem.read buf.ptr buf.len = some data) (hg : GoodAllocator E) :
    (UnmapLog E cdb.tail buf 4096 al w).map said = unmapRemarks cdb data (setA E w).toNat := by
  have hlen := read_length hd
  unfold UnmapLog unmapRemarks
  simp only
  rcases Nat.lt_or_ge cdb.length 10 with hl | hl
  · rw [readValue_none (by simp [Scsi.UnmapCommand.size]; omega), if_pos hl]
    show [said _] = _
    rw [said_text _ _ _ (by decide)]
  rw [readValue_some (by simp [Scsi.UnmapCommand.size]; omega), if_neg (show ¬ cdb.length < 10 by omega)]
  have f1 := field16 cdb 9 48 6 (by omega) (by omega) (by omega)
  have f2 := bit_false_iff cdb 9 0 0 0 (by omega) (by omega) (by omega)
  simp only [Nat.reduceAdd, Nat.zero_add] at f1 f2
  have g1 : (ntohs (Scsi.UnmapCommand.ofBytes (List.take Scsi.UnmapCommand.size cdb.tail)).param_list_length).toNat
    = beAt cdb 7 2 := f1
  have g2 : (Scsi.UnmapCommand.ofBytes (List.take Scsi.UnmapCommand.size cdb.tail)).anchor = 1
    ↔ Spec.bit cdb 1 0 = true := f2
  simp only [g1, g2]
  by_cases c1 : beAt cdb 7 2 < 8
  · rw [if_pos (show beAt cdb 7 2 < Scsi.UnmapParamList.size from c1), if_pos c1]
    show [said _] = _
    rw [said_text _ _ _ (by decide)]
  rw [if_neg (show ¬ beAt cdb 7 2 < Scsi.UnmapParamList.size from c1), if_neg c1]
  by_cases c2 : Spec.bit cdb 1 0 = true
  · rw [if_pos c2, if_pos c2]
    show [said _] = _
    rw [said_text _ _ _ (by decide)]
  rw [if_neg c2, if_neg c2]
  simp only [after, show Scsi.UnmapParamList.size = 8 from rfl, show Scsi.UnmapBlockDescriptor.size = 16 from rfl,
    show Nvme.DatasetManagmentRange.size = 16 from rfl]
  by_cases c3 : buf.len < 8
  · rw [ReadValue_short c3, if_pos (by omega)]
    show [said _] = _
    rw [said_text _ _ _ (by decide)]
  have hr := read_sub hd 0 8 (by omega)
  rw [ReadValue_run (by omega) (by simpa using hr), if_neg (show ¬ data.length < 8 by omega)]
  simp only
  have f1 := getF_slice16 data 0 8 16 2 2 (by omega) (by omega) (by omega)
  have g1 : (ntohs (Scsi.UnmapParamList.ofBytes (List.take 8 data)).block_desc_data_length).toNat
      = beAt data 2 2 := by
    rw [List.drop_zero, Nat.zero_add] at f1; exact f1
  simp only [g1]
  have hsub : (buf.subspan 8).len = data.length - 8 := by
    unfold Span.subspan
    split
    · simp only; omega
    · rw [sizeSub_le (by omega)]; simp only; omega
  rw [hsub]
  by_cases c4 : data.length - 8 < beAt data 2 2
  · rw [if_pos c4, if_pos c4]
    show [said _] = _
    rw [said_text _ _ _ (by decide)]
  rw [if_neg c4, if_neg c4]
  by_cases c5 : beAt data 2 2 % 16 ≠ 0
  · rw [if_pos c5, if_pos c5]
    show [said _] = _
    congr 1
    have := said_dec "unmap.cc" 64 (text! "Non-divisible unmap block descriptor data length ") [] (.int (beAt data 2 2)) (beAt data 2 2) 'u'
      (.inr (.inl ⟨rfl, rfl⟩)) (by decide)
    rw [List.append_nil] at this
    exact this
  rw [if_neg c5, if_neg c5]
  by_cases c6 : beAt data 2 2 / 16 = 0 ∨ beAt data 2 2 / 16 > 256
  · rw [if_pos c6, if_pos (show beAt data 2 2 / 16 = 0 ∨ 256 < beAt data 2 2 / 16 from c6)]
    show [said _] = _
    congr 1
    have := said_dec "unmap.cc" 71 (text! "Unsupported unmap block descriptor count ") [] (.uint (beAt data 2 2 / 16)) (beAt data 2 2 / 16) 'u'
      (.inr (.inr ⟨rfl, rfl⟩)) (by decide)
    rw [List.append_nil] at this
    exact this
  rw [if_neg c6, if_neg (show ¬ (beAt data 2 2 / 16 = 0 ∨ 256 < beAt data 2 2 / 16) from c6)]
  have hbl : 8 < buf.len := by omega
  rw [Span.subspan_none _ _ hbl]
  have hdat : w.mem.read (buf.ptr + 8) (16 * (beAt data 2 2 / 16))
      = some ((data.drop 8).take (16 * (beAt data 2 2 / 16))) := read_sub hd 8 _ (by omega)
  rw [readDescriptors_run _ ⟨buf.ptr + 8, buf.len - 8⟩ w _ (by simp only; omega) hdat]
  simp only [List.map_append, SetPages_free E al w ha, SetPagesLog_free E al w ha, setA_zero]
  by_cases h0 : setA E w = 0
  · simp [h0]
  · simp only [if_neg h0, reduceCtorEq, if_false, List.nil_append]
    have hm := set_mapped hg w h0 (16 * (beAt data 2 2 / 16)) (by omega)
    have hA : (setA E w).toNat ≠ 0 := fun hh => h0 (BitVec.eq_of_toNat_eq hh)
    have hw := writeRanges_run (descs (beAt data 2 2 / 16) (List.take (16 * (beAt data 2 2 / 16)) (List.drop 8 data)))
      ⟨(setAl E w).data_addr.toNat, 16 * (beAt data 2 2 / 16)⟩ (setW E w) (by simp [descs_length]) hA (by rw [descs_length]; exact hm)
    rw [hw]
    rfl

/-! ## All commands -/

theorem talk_luns (E : Env) (cdb : List Byte) (p : Pipe) (w0 w : World) (bs : List Nat) (hb : PagesAsked E w0 w bs) :
    ∃ p' w' as, beginReportLuns E cdb.tail p w = .ok (p', w') ∧ PagesAsked E w0 w' (bs ++ as) ∧
      lunsRemarks cdb (p.as.e0.data_addr == 0) (setA E w).toNat
        = lunsRemarks cdb (p.as.e0.data_addr == 0) ((bs ++ as).getD bs.length 0) := by
  rcases Nat.lt_or_ge cdb.length 12 with hl | hl
  · exact ⟨_, _, [], rl_short E cdb p w hl, by simpa using hb, by unfold lunsRemarks; rw [if_pos hl, if_pos hl]⟩
  rcases Nat.lt_or_ge 2 (byte cdb 2) with hs | hs
  · refine ⟨_, _, [], rl_bad E cdb p w hl hs, by simpa using hb, ?_⟩
    unfold lunsRemarks
    simp only [if_pos hs]
  by_cases ha : p.as.e0.data_addr = 0
  · have hb2 := hb.trans (.set E w)
    by_cases h0 : setA E w = 0
    · exact ⟨_, _, _, rl_fail E cdb p w hl hs ha h0, hb2, by rw [getD_append_length]⟩
    · exact ⟨_, _, _, rl_ok E cdb p w hl hs ha h0, hb2, by rw [getD_append_length]⟩
  · have hb' : (p.as.e0.data_addr == 0) = false := by simpa using ha
    refine ⟨_, _, [], rl_used E cdb p w hl hs ha, by simpa using hb, ?_⟩
    unfold lunsRemarks
    simp only [if_pos hb']

theorem talk_maintenance (E : Env) (cdb : List Byte) (p : Pipe) (w0 w : World) (bs : List Nat) (hb : PagesAsked E w0 w bs) :
    ∃ p' w' as, beginMaintenanceIn E cdb.tail p w = .ok (p', w') ∧ PagesAsked E w0 w' (bs ++ as) ∧
      (maintenanceLog E cdb.tail p.as.e0 w).map said
        = maintenanceRemarks cdb (p.as.e0.data_addr == 0) ((bs ++ as).getD bs.length 0) := by
  rw [maintenance_said]
  unfold beginMaintenanceIn maintenanceRemarks
  obtain ⟨p', w', as, h1, h2, h3⟩ := talk_luns E cdb
    { p with
      status := (MaintenanceIn.ValidateReportSupportedOpCodes cdb.tail p.alloc_len).1
      count := 0
      alloc_len := (MaintenanceIn.ValidateReportSupportedOpCodes cdb.tail p.alloc_len).2 } w0 w bs hb
  exact ⟨p', w', as, h1, h2, by rw [h3]⟩

theorem talk_mode6 (E : Env) (cdb : List Byte) (nsid : U32) (p : Pipe) (w0 w : World) (bs : List Nat) (hb : PagesAsked E w0 w bs)
    (hn : p.count < 2) :
    ∃ p' w' as, beginModeSense6 E cdb.tail nsid p w = .ok (p', w') ∧ PagesAsked E w0 w' (bs ++ as) ∧
      (ModeSense6Log E cdb.tail p.as.e0 4096 w).map said
        = modeRemarks false cdb (p.as.e0.data_addr == 0) ((bs ++ as).getD bs.length 0) := by
  rw [ModeSense6_said]
  rcases Nat.lt_or_ge cdb.length 6 with hl | hl
  · have hl' : cdb.length < (if false = true then 10 else 6) := by simpa using hl
    refine ⟨_, _, [], ms6_short E cdb nsid p w hl, by simpa using hb, ?_⟩
    unfold modeRemarks
    rw [if_pos hl', if_pos hl']
  by_cases hd : Spec.bit cdb 1 3 = true
  · refine ⟨_, _, [], ms6_dbd E cdb nsid p w hl (by omega) hd, by simpa using hb, ?_⟩
    unfold modeRemarks
    simp only [if_pos hd]
  have hd' : Spec.bit cdb 1 3 = false := by simpa using hd
  by_cases ha : p.as.e0.data_addr = 0
  · have hb2 := hb.trans (.set E w)
    by_cases h0 : setA E w = 0
    · exact ⟨_, _, _, ms6_fail E cdb nsid p w hl (by omega) hd' ha h0, hb2, by rw [getD_append_length]⟩
    · exact ⟨_, _, _, ms6_ok E cdb nsid p w hl (by omega) hd' ha h0, hb2, by rw [getD_append_length]⟩
  · have hb' : (p.as.e0.data_addr == 0) = false := by simpa using ha
    refine ⟨_, _, [], ms6_used E cdb nsid p w hl (by omega) hd' ha, by simpa using hb, ?_⟩
    unfold modeRemarks
    simp only [if_pos hb']

theorem talk_capacity (E : Env) (cdb : List Byte) (nsid : U32) (p : Pipe) (w : World) (hc : p.as.e0.data_addr = 0) :
    ∃ p' w' as, beginReadCapacity10 E cdb.tail nsid p w = .ok (p', w') ∧ PagesAsked E w w' as ∧
      (ReadCapacity10Log E cdb.tail 4096 p.as.e0 w).map said = capacityRemarks cdb (as.getD 0 0) := by
  rw [ReadCapacity_said E cdb _ w hc]
  unfold capacityRemarks
  rcases Nat.lt_or_ge cdb.length 10 with hl | hl
  · exact ⟨_, _, [], rc_short E cdb nsid p w hl, .nil E w, by rw [if_pos hl, if_pos hl]⟩
  by_cases hn : Spec.bit cdb 9 2 = true
  · refine ⟨_, _, [], rc_bad E cdb nsid p w hl hn, .nil E w, ?_⟩
    simp only [if_pos hn]
  have hn' : Spec.bit cdb 9 2 = false := by simpa using hn
  by_cases h0 : setA E w = 0
  · exact ⟨_, _, [(setA E w).toNat], rc_fail E cdb nsid p w hl hn' hc h0, .set E w, rfl⟩
  · exact ⟨_, _, _, rc_ok E cdb nsid p w hl hn' hc h0, .set E w, rfl⟩

theorem talk_inquiry (E : Env) (cdb : List Byte) (nsid : U32) (p : Pipe) (w : World) (hc : Clean p.as) :
    ∃ p' w' as, beginInquiry E cdb.tail nsid p w = .ok (p', w') ∧ PagesAsked E w w' as ∧
      (InquiryLog E cdb.tail 4096 p.as.e0 p.as.e1 w).map said = inquiryRemarks cdb (as.getD · 0) := by
  rw [Inquiry_said E cdb _ _ w (clean_e0 hc) (clean_e1 hc)]
  unfold inquiryRemarks
  rcases Nat.lt_or_ge cdb.length 6 with hl | hl
  · exact ⟨_, _, [], inquiry_short E cdb nsid p w hl, .nil E w, by rw [if_pos hl, if_pos hl]⟩
  by_cases h0 : setA E w = 0
  · refine ⟨_, _, [(setA E w).toNat], inquiry_fail0 E cdb nsid p w hl hc h0, .set E w, ?_⟩
    rw [h0]
    rfl
  by_cases h1 : setA E (setW E w) = 0
  · exact ⟨_, _, _, inquiry_fail1 E cdb nsid p w hl hc h0 h1, (PagesAsked.set E w).trans (.set E _), rfl⟩
  · exact ⟨_, _, _, inquiry_ok E cdb nsid p w hl hc h0 h1, (PagesAsked.set E w).trans (.set E _), rfl⟩

/-- MODE SENSE(10), and MAINTENANCE IN after it. -/
theorem talk_mode10 (E : Env) (cdb : List Byte) (nsid : U32) (p : Pipe) (w : World) (hn : p.count = 0) (ha : p.as.e0.data_addr = 0) :
    ∃ p' w' as, beginModeSense10 E cdb.tail nsid p w = .ok (p', w') ∧ PagesAsked E w w' as ∧
      (ModeSense10Log E cdb.tail p.as.e0 4096 w ++
        after (ModeSense.ModeSense10ToNvme E cdb.tail p.ws p.as.e0 4096 nsid p.count p.alloc_len) w fun r w =>
        maintenanceLog E cdb.tail r.2.2.1 w).map said = mode10Remarks cdb (as.getD · 0) := by
  rw [List.map_append, ModeSense10_said]
  unfold beginModeSense10 ModeSense.ModeSense10ToNvme mode10Remarks
  have hz : (p.as.e0.data_addr == 0) = true := by simp [ha]
  rcases Nat.lt_or_ge cdb.length 10 with hl | hl
  · rw [readValue_none (by simp [Scsi.ModeSense10Command.size]; omega)]
    simp only [M.bind_run, M.pure_run, after, if_pos (Or.inl hl : cdb.length < 10 ∨ Spec.bit cdb 1 3 = true)]
    obtain ⟨p', w', as, h1, h2, h3⟩ := talk_maintenance E cdb { p with status := .kFailure } w w [] (.nil E w)
    refine ⟨p', w', as, h1, h2, ?_⟩
    rw [h3, hz]
    congr 1
    have hl' : cdb.length < (if true = true then 10 else 6) := by simpa using hl
    unfold modeRemarks
    rw [if_pos hl', if_pos hl']
  rw [readValue_some (by simp [Scsi.ModeSense10Command.size]; omega)]
  simp only [M.bind_run, kPageSize, after]
  by_cases hd : Spec.bit cdb 1 3 = true
  · simp only [if_pos (Or.inr hd : cdb.length < 10 ∨ Spec.bit cdb 1 3 = true)]
    have := ModeSense_dbd E (attrsOf10 cdb) p.ws p.as.e0 nsid p.count (by omega) w (by rw [attrsOf10_dbd]; exact hd)
    unfold attrsOf10 at this
    rw [this]
    simp only [M.pure_run]
    generalize msPage _ nsid p.ws p.count = r
    obtain ⟨p', w', as, h1, h2, h3⟩ := talk_maintenance E cdb
      { p with status := r.1, count := r.2.2, ws := r.2.1, alloc_len := (ntohs (Scsi.ModeSense10Command.ofBytes (cdb.tail.take Scsi.ModeSense10Command.size)).alloc_length).setWidth 32 }
      w w [] (.nil E w)
    refine ⟨p', w', as, h1, h2, ?_⟩
    have h4 := h3
    rw [hz] at h4
    rw [hz]
    refine congr (congrArg _ ?_) h4
    unfold modeRemarks
    simp only [if_pos hd]
  · have hd' : Spec.bit cdb 1 3 = false := by simpa using hd
    have hneg : ¬ (cdb.length < 10 ∨ Spec.bit cdb 1 3 = true) := fun h => h.elim (by omega) hd
    simp only [if_neg hneg]
    have fin : ∀ q : Pipe, q.as = { p.as with e0 := setAl E w } →
        ∃ p' w' as, beginMaintenanceIn E cdb.tail q (setW E w) = .ok (p', w') ∧ PagesAsked E w w' as ∧
          modeRemarks true cdb (p.as.e0.data_addr == 0) (setA E w).toNat ++ (maintenanceLog E cdb.tail (setAl E w) (setW E w)).map said
            = modeRemarks true cdb true (as.getD 0 0) ++ maintenanceRemarks cdb (as.getD 0 0 == 0) (as.getD 1 0) := by
      intro q hq
      obtain ⟨p', w', as, h1, h2, h3⟩ := talk_maintenance E cdb q w _ _ (.set E w)
      have hzz : (q.as.e0.data_addr == 0) = (([(setA E w).toNat] ++ as).getD 0 0 == 0) := by
        rw [hq]
        show (setA E w == 0) = ((setA E w).toNat == 0)
        rw [Bool.eq_iff_iff, beq_iff_eq, beq_iff_eq]
        exact ⟨fun h => by rw [h]; rfl, fun h => BitVec.eq_of_toNat_eq h⟩
      rw [hzz] at h3
      refine ⟨p', w', _, h1, h2, ?_⟩
      rw [hz]
      refine congr rfl ?_
      rw [hq] at h3
      exact h3
    by_cases h0 : setA E w = 0
    · have := ModeSense_fail E (attrsOf10 cdb) p.ws p.as.e0 nsid p.count (by omega) w (by rw [attrsOf10_dbd]; exact hd') ha h0
      unfold attrsOf10 at this
      rw [this]
      simp only [M.pure_run]
      exact fin _ rfl
    · have := ModeSense_ok E (attrsOf10 cdb) p.ws p.as.e0 nsid p.count (by omega) w (by rw [attrsOf10_dbd]; exact hd') ha h0
      unfold attrsOf10 at this
      rw [this]
      simp only [M.pure_run]
      exact fin _ rfl

/-- UNMAP, and MODE SENSE(6) after it. -/
theorem talk_unmap (E : Env) (cdb : List Byte) (buf : Span) (data : List Byte) (nsid : U32) (t : Translation) (w : World)
    (hg : GoodAllocator E) (hc : Clean (startPipe t).as) (hd : w.mem.read buf.ptr buf.len = some data) :
    ∃ p' w' as, beginUnmap E cdb.tail buf nsid (startPipe t) w = .ok (p', w') ∧ PagesAsked E w w' as ∧
      (UnmapLog E cdb.tail buf 4096 (startPipe t).as.e0 w ++
        after (Unmap.UnmapToNvme E cdb.tail buf (startPipe t).ws.e0 4096 nsid (startPipe t).as.e0) w fun r w =>
        ModeSense6Log E cdb.tail r.2.2 4096 w).map said = unmapAllRemarks cdb data (as.getD · 0) := by
  have hus := Unmap_said E cdb data buf (startPipe t).as.e0 (clean_e0 hc) w hd hg
  have hz : ((startPipe t).as.e0.data_addr == 0) = true := by rw [clean_e0 hc]; rfl
  have hrq : ∀ a b, unmapRequest cdb data = none → unmapRemarks cdb data a = unmapRemarks cdb data b := by
    intro a b hn
    unfold unmapRemarks
    unfold unmapRequest at hn
    simp only at hn ⊢
    split at hn
    · cases hn
    rename_i hno
    by_cases c1 : cdb.length < 10
    · simp only [if_pos c1]
    by_cases c2 : beAt cdb 7 2 < 8
    · simp only [if_pos c2]
    by_cases c3 : Spec.bit cdb 1 0 = true
    · simp only [if_pos c3]
    by_cases c4 : data.length < 8
    · simp only [if_pos c4]
    by_cases c5 : data.length - 8 < beAt data 2 2
    · simp only [if_pos c5]
    by_cases c6 : beAt data 2 2 % 16 ≠ 0
    · simp only [if_pos c6]
    by_cases c7 : beAt data 2 2 / 16 = 0 ∨ 256 < beAt data 2 2 / 16
    · simp only [if_pos c7]
    exact absurd ⟨by omega, by omega, by simpa using c3, by omega, by omega, by omega, by omega, by omega⟩ hno
  rw [List.map_append, hus]
  unfold beginUnmap unmapAllRemarks
  simp only [M.bind_run, kPageSize, after]
  rcases Unmap_run E cdb data buf (startPipe t).ws.e0 nsid (startPipe t).as.e0 (clean_e0 hc) w hd
    with ⟨hn, st, hst, hr⟩ | ⟨rs, hrs, h0, hr⟩ | ⟨rs, hrs, hl1, hl2, h0, ds, hdl, hra, hr⟩
  · rw [hr, hn]
    simp only
    obtain ⟨p', w', as, h1, h2, h3⟩ := talk_mode6 E cdb nsid { startPipe t with status := st, count := 1 } w w [] (.nil E w) (by simp)
    refine ⟨p', w', as, h1, h2, ?_⟩
    have h4 : List.map said (ModeSense6Log E cdb.tail (startPipe t).as.e0 4096 w) = modeRemarks false cdb true (as.getD 0 0) := by
      rw [← hz]; exact h3
    rw [h4, hrq _ (as.getD 0 0) hn]
  · rw [hr, hrs]
    simp only
    obtain ⟨p', w', as, h1, h2, h3⟩ := talk_mode6 E cdb nsid
      { startPipe t with status := .kFailure, count := 1, as := { (startPipe t).as with e0 := setAl E w } } w _ _ (.set E w) (by simp)
    have hzz : ((setAl E w).data_addr == 0) = true := by show (setA E w == 0) = true; rw [h0]; rfl
    have h00 : ([(setA E w).toNat] ++ as).getD 0 0 = 0 := by rw [h0]; rfl
    refine ⟨p', w', _, h1, h2, ?_⟩
    simp only [h00, if_true]
    rw [← hzz, h0]
    exact congrArg _ h3
  · have hm := set_mapped hg w h0 (16 * rs.length) (by omega)
    rw [hr hm, hrs]
    simp only
    obtain ⟨p', w', as, h1, h2, h3⟩ := talk_mode6 E cdb nsid
      { startPipe t with
        status := .kSuccess, count := 1
        ws := { (startPipe t).ws with e0 := { cmd := dsmCmd nsid rs.length (setA E w), buffer_len := 4096, is_admin := true } }
        as := { (startPipe t).as with e0 := setAl E w } } w
      { setW E w with mem := putRanges (setA E w).toNat ds (setW E w).mem } _ ((PagesAsked.set E w).congr rfl) (by simp)
    have hzz : ((setAl E w).data_addr == 0) = false := by show (setA E w == 0) = false; simpa using h0
    have h00 : ([(setA E w).toNat] ++ as).getD 0 0 = (setA E w).toNat := rfl
    have hne := setA_toNat_ne h0
    refine ⟨p', w', _, h1, h2, ?_⟩
    simp only [h00, if_neg hne]
    refine congrArg _ (h3.trans ?_)
    show modeRemarks false cdb ((setAl E w).data_addr == 0) _ = _
    rw [hzz]
    rfl

theorem switchLog_read (E : Env) (cdb : List Byte) (buf : Span) (nsid : U32) (p : Pipe) (w : World) (h : isRead (byte cdb 0)) :
    (beginSwitchLog E (cdb.headD 0) cdb.tail buf nsid p w).map said = readRemarks cdb buf.len := by
  rcases h with h | h | h | h
  · rw [opc_of_byte h (by decide)]; exact Read6_said cdb h buf
  · rw [opc_of_byte h (by decide)]; exact Read10_said cdb h p.ws.e0 nsid buf
  · rw [opc_of_byte h (by decide)]; exact Read12_said cdb h p.ws.e0 nsid buf
  · rw [opc_of_byte h (by decide)]; exact Read16_said cdb h p.ws.e0 nsid buf

theorem switchLog_write (E : Env) (cdb : List Byte) (buf : Span) (nsid : U32) (p : Pipe) (w : World) (h : isWrite (byte cdb 0)) :
    (beginSwitchLog E (cdb.headD 0) cdb.tail buf nsid p w).map said = writeRemarks cdb := by
  rcases h with h | h | h | h
  · rw [opc_of_byte h (by decide)]; exact Write6_said cdb h
  · rw [opc_of_byte h (by decide)]; exact Write10_said cdb h p.ws.e0 nsid buf
  · rw [opc_of_byte h (by decide)]; exact Write12_said cdb h p.ws.e0 nsid buf
  · rw [opc_of_byte h (by decide)]; exact Write16_said cdb h p.ws.e0 nsid buf

theorem switchLog_unknown (E : Env) (cdb : List Byte) (buf : Span) (nsid : U32) (p : Pipe) (w : World) (h : byte cdb 0 ∉ supported) :
    (beginSwitchLog E (cdb.headD 0) cdb.tail buf nsid p w).map said = [some (text! "Bad OpCode: " ++ hex (byte cdb 0))] := by
  have hne : ∀ k : Nat, k ∈ supported → cdb.headD 0 ≠ BitVec.ofNat 8 k := by
    intro k hk hh
    apply h
    rw [byte0_headD, hh, BitVec.toNat_ofNat, Nat.mod_eq_of_lt]
    · exact hk
    · exact (show ∀ k ∈ supported, k < 2 ^ 8 by decide) k hk
  unfold beginSwitchLog
  rw [if_neg (show ¬ cdb.headD 0 = Scsi.OpCode.kInquiry from hne 0x12 (by decide)),
    if_neg (show ¬ cdb.headD 0 = Scsi.OpCode.kUnmap from hne 0x42 (by decide)),
    if_neg (show ¬ cdb.headD 0 = Scsi.OpCode.kModeSense6 from hne 0x1a (by decide)),
    if_neg (show ¬ cdb.headD 0 = Scsi.OpCode.kModeSense10 from hne 0x5a (by decide)),
    if_neg (show ¬ cdb.headD 0 = Scsi.OpCode.kMaintenanceIn from hne 0xa3 (by decide)),
    if_neg (show ¬ cdb.headD 0 = Scsi.OpCode.kReportLuns from hne 0xa0 (by decide)),
    if_neg (show ¬ cdb.headD 0 = Scsi.OpCode.kReadCapacity10 from hne 0x25 (by decide)),
    if_neg (show ¬ cdb.headD 0 = Scsi.OpCode.kRequestSense from hne 0x03 (by decide)),
    if_neg (show ¬ cdb.headD 0 = Scsi.OpCode.kRead6 from hne 0x08 (by decide)),
    if_neg (show ¬ cdb.headD 0 = Scsi.OpCode.kRead10 from hne 0x28 (by decide)),
    if_neg (show ¬ cdb.headD 0 = Scsi.OpCode.kRead12 from hne 0xa8 (by decide)),
    if_neg (show ¬ cdb.headD 0 = Scsi.OpCode.kRead16 from hne 0x88 (by decide)),
    if_neg (show ¬ cdb.headD 0 = Scsi.OpCode.kSync10 from hne 0x35 (by decide)),
    if_neg (show ¬ cdb.headD 0 = Scsi.OpCode.kVerify10 from hne 0x2f (by decide)),
    if_neg (show ¬ cdb.headD 0 = Scsi.OpCode.kTestUnitReady from hne 0x00 (by decide)),
    if_neg (show ¬ cdb.headD 0 = Scsi.OpCode.kWrite6 from hne 0x0a (by decide)),
    if_neg (show ¬ cdb.headD 0 = Scsi.OpCode.kWrite10 from hne 0x2a (by decide)),
    if_neg (show ¬ cdb.headD 0 = Scsi.OpCode.kWrite12 from hne 0xaa (by decide)),
    if_neg (show ¬ cdb.headD 0 = Scsi.OpCode.kWrite16 from hne 0x8a (by decide))]
  show [said _] = _
  rw [byte0_headD]
  congr 1
  exact said_hex "translation.cc" 160 (text! "Bad OpCode: ") _ (by decide)

/-- **C115.** The texts which the debug callback gets during a call of `Begin` on an idle object are exactly `remarks`, in this order. -/
theorem C115_messages (E t w ptr cdb buf lun r t' w' data) (h : Began E t w ptr cdb buf lun r t' w')
    (hu : byte cdb 0 = 0x42 → GoodAllocator E ∧ w.mem.read buf.ptr buf.len = some data) :
    ∃ evs, w'.trace = evs ++ w.trace ∧
      (BeginLog E t ⟨ptr, cdb.length⟩ buf lun w).map said
        = remarks cdb buf.len data fun i => (pageAnswers evs).getD i 0 := by
  unfold BeginLog remarks
  rw [if_neg (show ¬ t.pipeline_status ≠ .kUninitialized from fun hh => hh h.idle.idle.1)]
  by_cases hne : cdb = []
  · subst hne
    rcases Begin_inv E t h.idle.idle w _ buf lun r t' w' h.call with hb | ⟨hb, -⟩
    · obtain ⟨-, rfl, rfl, rfl⟩ := hb
      refine ⟨[], rfl, ?_⟩
      rw [if_pos rfl, if_pos (show ([] : List Byte).length = 0 from rfl)]
      show [said _] = _
      rw [said_text _ _ _ (by decide)]
    · exact absurd rfl hb
  rw [if_neg (show ¬ cdb.length = 0 from fun hh => hne (List.length_eq_zero_iff.mp hh))]
  simp only [if_neg hne, after, load_ok h.stored, List.map_cons]
  rw [said_opening _ (cdb.headD 0).isLt, ← byte0_headD]
  -- it is enough to follow the `switch`
  suffices key : ∃ p w1 as, beginSwitch E (cdb.headD 0) cdb.tail buf (nsidOf lun) (startPipe t) w = .ok (p, w1) ∧
      PagesAsked E w w1 as ∧
      (beginSwitchLog E (cdb.headD 0) cdb.tail buf (nsidOf lun) (startPipe t) w).map said
        = complaints cdb buf.len data (as.getD · 0) by
    obtain ⟨p, w1, as, hs, ⟨evs, ht, hev⟩, hlog⟩ := key
    have e := h.ends hne hs
    obtain ⟨evs', h1, h2⟩ := finish_answers E p w w1 evs ht
    have hfun : (fun i => (pageAnswers evs').getD i 0) = (as.getD · 0) := by
      funext i
      rw [h2]
      rcases hev with ⟨-, g, g'⟩ | ⟨-, g⟩
      · rw [g]
        simp only [List.getD_eq_getElem?_getD]
        cases hi : as[i]? with
        | none => rfl
        | some x => rw [g' x (List.mem_of_getElem? hi)]; rfl
      · rw [g]
    refine ⟨evs', by rw [e.worldE]; exact h1, ?_⟩
    rw [hfun]
    exact congrArg _ hlog
  have hnil := PagesAsked.nil E w
  have hz : ((startPipe t).as.e0.data_addr == 0) = true := by rw [clean_e0 h.clean]; rfl
  rcases opcode_cases (byte cdb 0) with ho | ho | ho | ho | ho | ho | ho | ho | ho | ho | ho | ho | ho | ho
  · refine ⟨_, _, [], by rw [switch_unknown E cdb buf _ _ ho]; rfl, hnil, ?_⟩
    rw [switchLog_unknown E cdb buf _ _ w ho]
    unfold complaints
    have hr : ¬ isRead (byte cdb 0) := fun hh => ho (by rcases hh with hh | hh | hh | hh <;> rw [hh] <;> decide)
    have hw : ¬ isWrite (byte cdb 0) := fun hh => ho (by rcases hh with hh | hh | hh | hh <;> rw [hh] <;> decide)
    simp only [if_neg hr, if_neg hw]
    split <;> first | rfl | (rename_i hk; exact absurd (by rw [hk]; decide) ho)
  · obtain ⟨p', hsw, -⟩ := plan_read E cdb buf lun t ho
    refine ⟨p', w, [], by rw [hsw]; rfl, hnil, ?_⟩
    unfold complaints
    rw [if_pos ho]
    exact switchLog_read E cdb buf _ _ w ho
  · obtain ⟨p', hsw, -⟩ := plan_write E cdb buf lun t ho
    refine ⟨p', w, [], by rw [hsw]; rfl, hnil, ?_⟩
    have hr : ¬ isRead (byte cdb 0) := by unfold isRead; unfold isWrite at ho; omega
    unfold complaints
    rw [if_neg hr, if_pos ho]
    exact switchLog_write E cdb buf _ _ w ho
  all_goals have hr : ¬ isRead (byte cdb 0) := by unfold isRead; omega
  all_goals have hw : ¬ isWrite (byte cdb 0) := by unfold isWrite; omega
  all_goals unfold complaints
  all_goals simp only [if_neg hr, if_neg hw]
  · refine ⟨_, _, [], by rw [switch_tur E cdb buf _ _ ho]; rfl, hnil, ?_⟩
    rw [opc_of_byte ho (by decide), ho]
    rfl
  · refine ⟨_, _, [], by rw [switch_requestsense E cdb buf _ _ ho]; rfl, hnil, ?_⟩
    rw [opc_of_byte ho (by decide), ho]
    exact RequestSense_said cdb
  · obtain ⟨p', w', as, h1, h2, h3⟩ := talk_inquiry E cdb (nsidOf lun) (startPipe t) w h.clean
    refine ⟨p', w', as, by rw [switch_inquiry E cdb buf _ _ ho]; exact h1, h2, ?_⟩
    rw [opc_of_byte ho (by decide), ho]
    exact h3
  · obtain ⟨p', w', as, h1, h2, h3⟩ := talk_mode6 E cdb (nsidOf lun) (startPipe t) w w [] hnil (by rw [h.count0]; omega)
    refine ⟨p', w', as, by rw [switch_modesense6 E cdb buf _ _ ho]; exact h1, h2, ?_⟩
    rw [hz] at h3
    rw [opc_of_byte ho (by decide), ho]
    exact h3
  · obtain ⟨p', w', as, h1, h2, h3⟩ := talk_capacity E cdb (nsidOf lun) (startPipe t) w (clean_e0 h.clean)
    refine ⟨p', w', as, by rw [switch_readcapacity E cdb buf _ _ ho]; exact h1, h2, ?_⟩
    rw [opc_of_byte ho (by decide), ho]
    exact h3
  · refine ⟨_, _, [], by rw [switch_verify E cdb buf _ _ ho]; rfl, hnil, ?_⟩
    rw [opc_of_byte ho (by decide), ho]
    exact Verify_said cdb
  · refine ⟨_, _, [], by rw [switch_sync E cdb buf _ _ ho]; rfl, hnil, ?_⟩
    rw [opc_of_byte ho (by decide), ho]
    rfl
  · obtain ⟨hg, hd⟩ := hu ho
    obtain ⟨p', w', as, h1, h2, h3⟩ := talk_unmap E cdb buf data (nsidOf lun) t w hg h.clean hd
    refine ⟨p', w', as, by rw [switch_unmap E cdb buf _ _ ho]; exact h1, h2, ?_⟩
    rw [opc_of_byte ho (by decide), ho]
    exact h3
  · obtain ⟨p', w', as, h1, h2, h3⟩ := talk_mode10 E cdb (nsidOf lun) (startPipe t) w h.count0 (clean_e0 h.clean)
    refine ⟨p', w', as, by rw [switch_modesense10 E cdb buf _ _ ho]; exact h1, h2, ?_⟩
    rw [opc_of_byte ho (by decide), ho]
    exact h3
  · obtain ⟨p', w', as, h1, h2, h3⟩ := talk_luns E cdb (startPipe t) w w [] hnil
    refine ⟨p', w', as, by rw [switch_reportluns E cdb buf _ _ ho]; exact h1, h2, ?_⟩
    rw [hz] at h3
    rw [opc_of_byte ho (by decide), ho]
    refine (ReportLuns_said E cdb _ w).trans ?_
    rw [hz]
    exact h3
  · obtain ⟨p', w', as, h1, h2, h3⟩ := talk_maintenance E cdb (startPipe t) w w [] hnil
    refine ⟨p', w', as, by rw [switch_maintenance E cdb buf _ _ ho]; exact h1, h2, ?_⟩
    rw [hz] at h3
    rw [opc_of_byte ho (by decide), ho]
    exact h3

/-! ## Complaints and rejections -/

theorem rdProtect_none (p : Option Nat) : rdProtect p = none ↔ 5 < p.getD 0 := by
  match p with
  | none | some 0 | some 1 | some 2 | some 3 | some 4 | some 5 => simp [rdProtect]
  | some (n + 6) => simp [rdProtect]

theorem wrProtect_none (p : Option Nat) : wrProtect p = none ↔ 5 < p.getD 0 := by
  match p with
  | none | some 0 | some 1 | some 2 | some 3 | some 4 | some 5 => simp [wrProtect]
  | some (n + 6) => simp [wrProtect]

theorem readPlan_quiet (cdb : List Byte) (buf : Span) (nsid : Nat) :
    (readPlan cdb buf nsid).result = none ↔ readRemarks cdb buf.len ≠ [] := by
  unfold readPlan readRemarks
  cases decodeRw cdb with
  | none => simp
  | some rw_ =>
    simp only
    by_cases h0 : rw_.blocks = 0
    · simp [h0]
    by_cases h1 : 65535 < rw_.blocks
    · simp [h0, h1]
    rw [if_neg (by omega), if_neg h0, if_neg h1]
    have hp := rdProtect_none rw_.protect
    by_cases h2 : buf.len < rw_.blocks * 4096
    · rw [if_pos h2]
      cases rdProtect rw_.protect with
      | none => simp
      | some x => simp [h2]
    rw [if_neg h2]
    by_cases h3 : 5 < rw_.protect.getD 0
    · rw [if_pos h3, hp.mpr h3]
      simp
    · rw [if_neg h3]
      cases hr : rdProtect rw_.protect with
      | none => exact absurd (hp.mp hr) h3
      | some x => simp [h2]

theorem writePlan_quiet (cdb : List Byte) (buf : Span) (nsid : Nat) :
    (writePlan cdb buf nsid).result = none ↔ writeRemarks cdb ≠ [] := by
  unfold writePlan writeRemarks
  cases decodeRw cdb with
  | none => simp
  | some rw_ =>
    simp only
    have hp := wrProtect_none rw_.protect
    by_cases h0 : rw_.blocks = 0
    · rw [if_pos h0]
      cases wrProtect rw_.protect with
      | none => simp
      | some x => simp [h0]
    rw [if_neg h0]
    by_cases h3 : 5 < rw_.protect.getD 0
    · rw [if_pos h3, hp.mpr h3]
      simp
    · rw [if_neg h3]
      cases hr : wrProtect rw_.protect with
      | none => exact absurd (hp.mp hr) h3
      | some x => simp [h0]

theorem pageRemarks_quiet (cdb : List Byte) (hl : 6 ≤ cdb.length) : pageRemarks cdb = [] ↔ modeFieldsOk cdb := by
  unfold pageRemarks modeFieldsOk
  by_cases h1 : byte cdb 2 % 64 ∈ modePages
  · by_cases h2 : asksCaching (byte cdb 2 % 64) ∧ byte cdb 2 / 64 = 3
    · simp [h1, h2]
    · simp only [h1, not_true_eq_false, if_false, if_neg h2, true_iff]
      exact ⟨hl, trivial, fun g g' => h2 ⟨g, g'⟩⟩
  · simp [h1]

theorem modePlan_quiet (cdb : List Byte) (nsid : Nat) (held : Nat → Handed) (a : Nat → Nat) (before : List Handed) (k : Nat)
    (free : Bool) :
    (modePlan cdb nsid held a before k free).result = none ↔ modeRemarks false cdb free (a k) ≠ [] := by
  unfold modePlan modeRemarks
  simp only [Bool.false_eq_true, if_false]
  rcases Nat.lt_or_ge cdb.length 6 with hl | hl
  · simp [hl]
  have hl' : ¬ cdb.length < 6 := by omega
  simp only [if_neg hl']
  have hp := pageRemarks_quiet cdb hl
  by_cases hd : Spec.bit cdb 1 3 = true
  · simp only [if_pos hd, ne_eq, hp]
    by_cases hm : modeFieldsOk cdb <;> simp [hm]
  simp only [if_neg hd]
  by_cases hf : free = false
  · simp [hf]
  simp only [if_neg hf]
  by_cases ha : a k = 0
  · simp [ha]
  simp only [if_neg ha, ne_eq, hp]
  by_cases hm : modeFieldsOk cdb <;> simp [hm]

theorem lunsPlan_quiet (cdb : List Byte) (a : Nat → Nat) (k : Nat) (free : Bool) (n : Nat) :
    (lunsPlan cdb a k free n).result = none ↔ lunsRemarks cdb free (a k) ≠ [] := by
  unfold lunsPlan lunsRemarks
  by_cases h1 : cdb.length < 12
  · simp [h1]
  by_cases h2 : 2 < byte cdb 2
  · simp [h1, h2]
  by_cases h3 : free = false
  · simp [h1, h2, h3]
  by_cases h4 : a k = 0 <;> simp [h1, h2, h3, h4]

theorem maintenancePlan_quiet (cdb : List Byte) (a : Nat → Nat) (k : Nat) (free : Bool) (n : Nat)
    (h : (maintenancePlan cdb a k free n).result = none) : maintenanceRemarks cdb free (a k) ≠ [] := by
  unfold maintenancePlan at h
  have := (lunsPlan_quiet _ _ _ _ _).mp h
  unfold maintenanceRemarks
  intro hh
  exact this (List.append_eq_nil_iff.mp hh).2

theorem unmapPlan_quiet (cdb : List Byte) (nsid : Nat) (data : List Byte) (held : Nat → Handed) (a : Nat → Nat)
    (h : (unmapPlan cdb nsid data held a).result = none) : unmapAllRemarks cdb data a ≠ [] := by
  unfold unmapPlan at h
  unfold unmapAllRemarks
  intro hh
  have hh := (List.append_eq_nil_iff.mp hh).2
  split at h
  · rename_i hq
    rw [hq] at hh
    exact (modePlan_quiet _ _ _ _ _ _ _).mp h hh
  · rename_i rs hq
    rw [hq] at hh
    simp only at hh
    split at h
    · rename_i h0
      rw [if_pos h0] at hh
      exact (modePlan_quiet _ _ _ _ _ _ _).mp h hh
    · rename_i h0
      rw [if_neg h0] at hh
      exact (modePlan_quiet _ _ _ _ _ _ _).mp h hh

theorem mode10Plan_quiet (cdb : List Byte) (a : Nat → Nat) (h : (mode10Plan cdb a).result = none) : mode10Remarks cdb a ≠ [] := by
  unfold mode10Plan at h
  unfold mode10Remarks
  intro hh
  have hh := (List.append_eq_nil_iff.mp hh).2
  split at h
  · rename_i hl
    rw [if_pos (Or.inl hl)] at hh
    exact maintenancePlan_quiet _ _ _ _ _ h hh
  · rename_i hl
    split at h
    · rename_i hd
      rw [if_pos (Or.inr hd)] at hh
      exact maintenancePlan_quiet _ _ _ _ _ h hh
    · rename_i hd
      rw [if_neg (fun g => g.elim hl hd)] at hh
      exact maintenancePlan_quiet _ _ _ _ _ h hh

/-- A rejected command is complained about; only for UNMAP, MODE SENSE(10) and MAINTENANCE IN are there complaints about accepted ones. -/
theorem complaints_plan (cdb : List Byte) (buf : Span) (data : List Byte) (lun : U64) (held : Nat → Handed) (a : Nat → Nat) (hne : cdb ≠ []) :
    ((plan cdb buf data lun held a).result = none → complaints cdb buf.len data a ≠ []) ∧
    (byte cdb 0 ∉ [0x42, 0x5a, 0xa3] → complaints cdb buf.len data a ≠ [] → (plan cdb buf data lun held a).result = none) := by
  have iff_and : ∀ {A B C : Prop}, (A ↔ B) → (A → B) ∧ (C → B → A) := fun h => ⟨h.mp, fun _ => h.mpr⟩
  unfold plan complaints
  simp only [if_neg hne]
  by_cases hr : isRead (byte cdb 0)
  · simp only [if_pos hr]
    exact iff_and (readPlan_quiet _ _ _)
  by_cases hw : isWrite (byte cdb 0)
  · simp only [if_neg hr, if_pos hw]
    exact iff_and (writePlan_quiet _ _ _)
  simp only [if_neg hr, if_neg hw]
  rcases opcode_cases (byte cdb 0) with ho | ho | ho | ho | ho | ho | ho | ho | ho | ho | ho | ho | ho | ho
  · refine iff_and ?_
    split <;> first
      | (rename_i hk; exact absurd (by rw [hk]; decide) ho)
      | (split <;> first
          | (rename_i hk; exact absurd (by rw [hk]; decide) ho)
          | simp)
  · exact absurd ho hr
  · exact absurd ho hw
  all_goals rw [ho]
  · exact iff_and (by simp)
  · refine iff_and ?_
    simp only
    unfold senseRemarks
    split <;> simp
  · refine iff_and ?_
    simp only
    unfold inquiryPlan inquiryRemarks
    by_cases h1 : cdb.length < 6
    · simp [h1]
    by_cases h2 : a 0 = 0
    · simp [h1, h2]
    by_cases h3 : a 1 = 0 <;> simp [h1, h2, h3]
  · exact iff_and (modePlan_quiet _ _ _ _ _ _ _)
  · refine iff_and ?_
    simp only
    unfold capacityPlan capacityRemarks
    by_cases h1 : cdb.length < 10
    · simp [h1]
    by_cases h2 : Spec.bit cdb 9 2 = true
    · simp [h1, h2]
    by_cases h3 : a 0 = 0 <;> simp [h1, h2, h3]
  · refine iff_and ?_
    simp only
    unfold verifyPlan verifyRemarks
    by_cases h1 : cdb.length < 10
    · simp [h1]
    by_cases h2 : beAt cdb 7 2 = 0
    · simp [h1, h2]
    by_cases h3 : Spec.bit cdb 9 2 = true <;> simp [h1, h2, h3]
  · exact iff_and (by simp)
  · exact ⟨fun h => unmapPlan_quiet _ _ _ _ _ h, fun h => absurd (by decide) h⟩
  · exact ⟨fun h => mode10Plan_quiet _ _ h, fun h => absurd (by decide) h⟩
  · exact iff_and (lunsPlan_quiet _ _ _ _ _)
  · exact ⟨fun h => maintenancePlan_quiet _ _ _ _ _ h, fun h => absurd (by decide) h⟩

/-- **C115.** A command which `Begin` rejects is always complained about: something is logged besides the opening remark. -/
theorem C115_rejected (E t w ptr cdb buf lun r t' w' data) (h : Began E t w ptr cdb buf lun r t' w')
    (hu : byte cdb 0 = 0x42 → GoodAllocator E ∧ w.mem.read buf.ptr buf.len = some data) (hr : ¬ Accepted t') :
    (BeginLog E t ⟨ptr, cdb.length⟩ buf lun w).map said ≠ [opening (byte cdb 0)] := by
  obtain ⟨evs, h1, h2⟩ := C115_messages E t w ptr cdb buf lun r t' w' data h hu
  obtain ⟨evs', g1, g2⟩ := C78_begin E t w ptr cdb buf lun r t' w' data h hu
  have he : evs' = evs := List.append_cancel_right (g1.symm.trans h1)
  subst he
  rw [h2]
  unfold remarks
  by_cases hne : cdb = []
  · subst hne
    rw [if_pos rfl]
    decide +kernel
  · rw [if_neg hne]
    simp only at g2
    intro hh
    have := (complaints_plan cdb buf data lun (slots t) (fun i => (pageAnswers evs').getD i 0) hne).1
    apply this ?_ (List.cons.inj hh).2
    cases hq : (plan cdb buf data lun (slots t) fun i => (pageAnswers evs').getD i 0).result with
    | none => rfl
    | some cs =>
      rw [hq] at g2
      exact absurd g2.2.2.2.1 hr

/-- **C115**, full statement (false, see `C115_refuted`): besides the opening remark something is logged exactly if the command is rejected. -/
def C115_statement : Prop := ∀ E t w ptr cdb buf lun r t' w' data, Began E t w ptr cdb buf lun r t' w' →
  GoodAllocator E → w.mem.read buf.ptr buf.len = some data →
  (Accepted t' ↔ (BeginLog E t ⟨ptr, cdb.length⟩ buf lun w).map said = [opening (byte cdb 0)])

/-- **C115.** … which holds for all commands but UNMAP, MODE SENSE(10) and MAINTENANCE IN, where control falls through into the next command. -/
theorem C115_quiet_partial (E t w ptr cdb buf lun r t' w') (h : Began E t w ptr cdb buf lun r t' w')
    (ho : byte cdb 0 ∉ [0x42, 0x5a, 0xa3]) :
    Accepted t' ↔ (BeginLog E t ⟨ptr, cdb.length⟩ buf lun w).map said = [opening (byte cdb 0)] := by
  have hu : byte cdb 0 = 0x42 → GoodAllocator E ∧ w.mem.read buf.ptr buf.len = some [] := fun hh => absurd (by rw [hh]; decide) ho
  constructor
  · intro ha
    obtain ⟨evs, h1, h2⟩ := C115_messages E t w ptr cdb buf lun r t' w' [] h hu
    obtain ⟨evs', g1, g2⟩ := C78_begin E t w ptr cdb buf lun r t' w' [] h hu
    have he : evs' = evs := List.append_cancel_right (g1.symm.trans h1)
    subst he
    rw [h2]
    unfold remarks
    simp only at g2
    by_cases hne : cdb = []
    · subst hne
      exact absurd ha g2.2.2.2.1
    · rw [if_neg hne]
      congr 1
      have := (complaints_plan cdb buf [] lun (slots t) (fun i => (pageAnswers evs').getD i 0) hne).2 ho
      refine Classical.byContradiction fun hc => ?_
      rw [this hc] at g2
      exact g2.2.2.2.1 ha
  · intro hq
    refine Classical.byContradiction fun ha => ?_
    exact C115_rejected E t w ptr cdb buf lun r t' w' [] h hu ha hq

/-- A REPORT SUPPORTED OPERATION CODES command (MAINTENANCE IN) for READ(10). -/
def opcodesOfRead : List Byte := [0xa3, 0x0c, 0x01, 0x28, 0, 0, 0, 0, 0, 16, 0, 0]

/-- **C115** is false: MAINTENANCE IN is complained about and then accepted as REPORT LUNS. -/
theorem C115_refuted : ¬ C115_statement := by
  intro hs
  obtain ⟨r, t', w', h, ha⟩ := began_of boundedEnv Demo.ws ⟨Demo.mem opcodesOfRead unmapData, []⟩ 0x100 opcodesOfRead
    ⟨0x8000, 40⟩ 3 (fun _ t' => Accepted t') (by decide +kernel) (by decide +kernel)
  have := (hs _ _ _ _ _ _ _ _ _ _ unmapData h boundedEnv_good (by decide +kernel)).mp ha
  revert this
  decide +kernel

/-- **C115.** The formatting of a message has undefined behaviour exactly for the commands which reach REPORT LUNS with a bad SELECT REPORT
value; all other messages are defined. -/
theorem C115_undefined (E t w ptr cdb buf lun r t' w' data) (h : Began E t w ptr cdb buf lun r t' w')
    (hu : byte cdb 0 = 0x42 → GoodAllocator E ∧ w.mem.read buf.ptr buf.len = some data) :
    none ∈ (BeginLog E t ⟨ptr, cdb.length⟩ buf lun w).map said ↔
      byte cdb 0 ∈ [0x5a, 0xa0, 0xa3] ∧ 12 ≤ cdb.length ∧ 2 < byte cdb 2 := by
  obtain ⟨evs, h1, h2⟩ := C115_messages E t w ptr cdb buf lun r t' w' data h hu
  rw [h2]
  generalize (fun i => (pageAnswers evs).getD i 0) = a
  unfold remarks
  by_cases hne : cdb = []
  · subst hne
    simp [byte]
  rw [if_neg hne]
  have hluns : ∀ (free : Bool) (x : Nat), none ∈ lunsRemarks cdb free x ↔ 12 ≤ cdb.length ∧ 2 < byte cdb 2 := by
    intro free x
    unfold lunsRemarks slotInUse outOfPages
    by_cases h1 : cdb.length < 12
    · simp [h1]; omega
    by_cases h2 : 2 < byte cdb 2
    · simp [h1, h2]; omega
    by_cases h3 : free = false
    · simp [h1, h2, h3]
    by_cases h4 : x = 0 <;> simp [h1, h2, h3, h4]
  have hmaint : ∀ (free : Bool) (x : Nat), none ∈ maintenanceRemarks cdb free x ↔ 12 ≤ cdb.length ∧ 2 < byte cdb 2 := by
    intro free x
    unfold maintenanceRemarks
    rw [List.mem_append, hluns]
    constructor
    · rintro (g | g)
      · revert g
        split
        · simp
        · split <;> simp
      · exact g
    · exact Or.inr
  have hpage : none ∉ pageRemarks cdb := by
    unfold pageRemarks
    split
    · simp
    · split <;> simp
  have hmode : ∀ (ten free : Bool) (x : Nat), none ∉ modeRemarks ten cdb free x := by
    intro ten free x
    unfold modeRemarks slotInUse outOfPages
    by_cases g1 : cdb.length < (if ten = true then 10 else 6)
    · simp [g1]
    rw [if_neg g1]
    by_cases g2 : Spec.bit cdb 1 3 = true
    · simp only [g2, if_true]; exact hpage
    by_cases g3 : free = false
    · simp [g2, g3]
    by_cases g4 : x = 0
    · simp [g2, g3, g4]
    simp only [g2, g3, g4, if_false]; exact hpage
  have hop : none ≠ opening (byte cdb 0) := by unfold opening; simp
  rw [List.mem_cons, or_iff_right hop]
  unfold complaints
  by_cases hr : isRead (byte cdb 0)
  · rw [if_pos hr]
    have hno : ¬ byte cdb 0 ∈ [0x5a, 0xa0, 0xa3] := by
      rcases hr with g | g | g | g <;> rw [g] <;> decide
    simp only [hno, false_and, iff_false]
    unfold readRemarks
    split
    · simp
    split
    · simp
    split
    · simp
    split
    · simp
    split <;> simp
  by_cases hw : isWrite (byte cdb 0)
  · rw [if_neg hr, if_pos hw]
    have hno : ¬ byte cdb 0 ∈ [0x5a, 0xa0, 0xa3] := by
      rcases hw with g | g | g | g <;> rw [g] <;> decide
    simp only [hno, false_and, iff_false]
    unfold writeRemarks
    split
    · simp
    split
    · simp
    split <;> simp
  rw [if_neg hr, if_neg hw]
  split
  · simp [*]
  · rename_i ho
    unfold senseRemarks
    simp only [ho]
    split <;> simp
  · rename_i ho
    unfold inquiryRemarks outOfPages
    simp only [ho]
    split
    · simp
    · split <;> simp
  · rename_i ho
    simp only [ho, hmode]
    simp
  · rename_i ho
    unfold capacityRemarks outOfPages
    simp only [ho]
    split
    · simp
    split
    · simp
    split <;> simp
  · rename_i ho
    unfold verifyRemarks
    simp only [ho]
    split
    · simp
    split
    · simp
    split <;> simp
  · simp [*]
  · rename_i ho
    have hun : none ∉ unmapRemarks cdb data (a 0) := by
      unfold unmapRemarks outOfPages
      simp only
      repeat' split
      all_goals simp
    unfold unmapAllRemarks
    rw [List.mem_append, or_iff_right hun, ho]
    split
    · simp [hmode]
    · split <;> simp [hmode]
  · rename_i ho
    unfold mode10Remarks
    rw [List.mem_append, or_iff_right (hmode _ _ _), ho]
    split <;> rw [hmaint] <;> simp
  · rename_i ho
    rw [hluns, ho]
    simp
  · rename_i ho
    rw [hmaint, ho]
    simp
  · rename_i h1 h2 h3 h4 h5 h6 h7 h8 h9 h10 h11
    simp only [List.mem_cons, reduceCtorEq, List.not_mem_nil, or_false, false_iff]
    rintro ⟨g | g | g, -⟩
    · exact h9 g
    · exact h10 g
    · exact h11 g

/-- **C115.** A call of `Begin` on an object in use logs one message and nothing about the command. -/
theorem C115_busy (E : Env) (t : Translation) (cmd buf : Span) (lun : U64) (w : World) (h : t.pipeline_status ≠ .kUninitialized) :
    (BeginLog E t cmd buf lun w).map said = [some (text! "Invalid use of API: Begin called before complete or abort")] := by
  unfold BeginLog
  rw [if_pos h]
  show [said _] = _
  rw [said_text _ _ _ (by decide)]

/-! ## Examples -/

/-- An INQUIRY for which the second page is refused. -/
def inquiryPlain : List Byte := [0x12, 0, 0, 0, 36, 0]

/-- Concrete runs: a READ(10) with RDPROTECT 7 is rejected with two messages, MODE SENSE(6) of the caching page accepted with one. -/
example : ∃ r t' w', Began Demo.env (Translation.init Demo.ws) ⟨Demo.mem [0x28, 0xe0, 0, 0, 0, 9, 0, 0, 1, 0], []⟩ 0x100
    [0x28, 0xe0, 0, 0, 0, 9, 0, 0, 1, 0] Demo.data 3 r t' w' ∧ ¬ Accepted t' ∧
    (BeginLog Demo.env (Translation.init Demo.ws) ⟨0x100, 10⟩ Demo.data 3 ⟨Demo.mem [0x28, 0xe0, 0, 0, 0, 9, 0, 0, 1, 0], []⟩).map said
      = [some (text! "Translating command kRead10 with opcode 0x28"),
         some (text! "RDPROTECT with value 7 has no translation to PRINFO")] :=
  began_of _ _ _ _ _ _ _ (fun _ t' => ¬ Accepted t' ∧ _ = _) (by decide +kernel) (by decide +kernel)

example : ∃ r t' w', Began Demo.env (Translation.init Demo.ws) ⟨Demo.mem modeSense6Caching, []⟩ 0x100 modeSense6Caching
    Demo.data 3 r t' w' ∧ Accepted t' ∧
    (BeginLog Demo.env (Translation.init Demo.ws) ⟨0x100, 6⟩ Demo.data 3 ⟨Demo.mem modeSense6Caching, []⟩).map said
      = [some (text! "Translating command kModeSense6 with opcode 0x1a")] :=
  began_of _ _ _ _ _ _ _ (fun _ t' => Accepted t' ∧ _ = _) (by decide +kernel) (by decide +kernel)

end Scsi2Nvme
