import Verif.Proofs.Alloc
/-!
# Lemmas about the READ and WRITE translators
-/

namespace Scsi2Nvme
open Spec

theorem readValue_none {α : Type} {size : Nat} {dec : List Byte → α} {d : List Byte} (h : d.length < size) :
    readValue size dec d = none := by simp [readValue, h]

theorem readValue_some {α : Type} {size : Nat} {dec : List Byte → α} {d : List Byte} (h : size ≤ d.length) :
    readValue size dec d = some (dec (d.take size)) := by
  simp [readValue]; omega

/-- CDB field helpers for the concrete widths. -/
theorem field16 (cdb : List Byte) (N o : Nat) (k : Nat) (hk : o = 8 * k) (h : k + 2 ≤ N)
    (hl : N + 1 ≤ cdb.length) :
    (bswap 2 (getF (cdb.tail.take N) ⟨o⟩ : BitVec 16)).toNat = beAt cdb (k + 1) 2 := by
  subst hk; exact bswap_getF cdb N k 2 h hl

theorem field32 (cdb : List Byte) (N o : Nat) (k : Nat) (hk : o = 8 * k) (h : k + 4 ≤ N)
    (hl : N + 1 ≤ cdb.length) :
    (bswap 4 (getF (cdb.tail.take N) ⟨o⟩ : BitVec 32)).toNat = beAt cdb (k + 1) 4 := by
  subst hk; exact bswap_getF cdb N k 4 h hl

theorem field64 (cdb : List Byte) (N o : Nat) (k : Nat) (hk : o = 8 * k) (h : k + 8 ≤ N)
    (hl : N + 1 ≤ cdb.length) :
    (bswap 8 (getF (cdb.tail.take N) ⟨o⟩ : BitVec 64)).toNat = beAt cdb (k + 1) 8 := by
  subst hk; exact bswap_getF cdb N k 8 h hl

theorem field8 (cdb : List Byte) (N o : Nat) (k : Nat) (hk : o = 8 * k) (h : k < N) :
    (getF (cdb.tail.take N) ⟨o⟩ : BitVec 8).toNat = byte cdb (k + 1) := by
  subst hk; exact getF_byte cdb N k h

theorem fieldBits (cdb : List Byte) (N o w k r : Nat) (hk : o = 8 * k + r) (h : k < N)
    (hr : r + w ≤ 8) :
    (getF (cdb.tail.take N) ⟨o⟩ : BitVec w).toNat = byte cdb (k + 1) / 2 ^ r % 2 ^ w := by
  subst hk; exact getF_bits cdb N k r w h hr

theorem byte_lt (cdb : List Byte) (i : Nat) : byte cdb i < 256 := (cdb.getD i 0).isLt

/-- Top three bits of a CDB byte. -/
theorem fieldTop3 (cdb : List Byte) (N o k : Nat) (hk : o = 8 * k + 5) (h : k < N) :
    (getF (cdb.tail.take N) ⟨o⟩ : BitVec 3).toNat = byte cdb (k + 1) / 32 := by
  rw [fieldBits cdb N o 3 k 5 hk h (by omega)]
  have := byte_lt cdb (k + 1)
  omega

theorem fieldBit (cdb : List Byte) (N o k r : Nat) (hk : o = 8 * k + r) (h : k < N) (hr : r + 1 ≤ 8) :
    ((getF (cdb.tail.take N) ⟨o⟩ : BitVec 1) == 1) = Spec.bit cdb (k + 1) r := by
  have := fieldBits cdb N o 1 k r hk h hr
  unfold Spec.bit
  rw [Bool.eq_iff_iff]
  simp only [beq_iff_eq, decide_eq_true_eq]
  rw [Nat.pow_one] at this
  rw [← this]
  constructor
  · intro h; rw [h]; rfl
  · intro h; apply BitVec.eq_of_toNat_eq; rw [h]; rfl

theorem or_add (a b k : Nat) (hb : b < 2 ^ k) : a * 2 ^ k ||| b = a * 2 ^ k + b := by
  rw [← Nat.shiftLeft_eq, Nat.shiftLeft_add_eq_or_of_lt hb]

/-- Command dword 12 as a number. -/
theorem cdw12_toNat (tl : U16) (pr : Byte) (fua : Bool) (h : tl ≠ 0) (hp : pr.toNat < 16) :
    (Read.BuildCdw12 tl pr fua).toNat = (tl.toNat - 1) + 2 ^ 26 * pr.toNat + 2 ^ 30 * fua.toNat := by
  have ht := tl.isLt
  have h0 : tl.toNat ≠ 0 := fun hh => h (BitVec.eq_of_toNat_eq hh)
  unfold Read.BuildCdw12
  have e1 : ((if fua then 1#32 else 0#32) <<< 30).toNat = fua.toNat * 2 ^ 30 := by cases fua <;> rfl
  have e2 : (pr.setWidth 32 <<< 26).toNat = pr.toNat * 2 ^ 26 := by
    simp only [BitVec.toNat_shiftLeft, BitVec.toNat_setWidth]
    rw [Nat.mod_eq_of_lt (by omega), Nat.shiftLeft_eq, Nat.mod_eq_of_lt (by omega)]
  have e3 : (tl.setWidth 32 - 1).toNat = tl.toNat - 1 := by
    simp only [BitVec.toNat_sub, BitVec.toNat_setWidth, BitVec.ofNat_eq_ofNat, BitVec.toNat_ofNat]
    omega
  simp only [BitVec.toNat_or, e1, e2, e3]
  have s1 : fua.toNat * 2 ^ 30 ||| pr.toNat * 2 ^ 26 = (fua.toNat * 16 + pr.toNat) * 2 ^ 26 := by
    have := or_add fua.toNat (pr.toNat * 2 ^ 26) 30 (by omega)
    rw [this]; omega
  rw [s1, or_add _ _ 26 (by omega)]
  omega

theorem cdw12_write (tl : U16) (pr : Byte) (fua : Bool) :
    Write.BuildCdw12 tl pr fua = Read.BuildCdw12 tl pr fua := rfl

theorem BuildPrinfo_eq (b : Byte) :
    (Read.BuildPrinfo b).map (·.toNat)
      = (rdProtect (some b.toNat)).map (fun x => x.2 + 8 * x.1.toNat) := by
  unfold Read.BuildPrinfo rdProtect
  generalize b.toNat = n
  match n with
  | 0 | 1 | 2 | 3 | 4 | 5 => rfl
  | n + 6 => rfl

theorem BuildPRInfo_eq (b : Byte) :
    (Write.BuildPRInfo b).map (·.toNat)
      = (wrProtect (some b.toNat)).map (fun x => x.2 + 8 * x.1.toNat) := by
  unfold Write.BuildPRInfo wrProtect
  generalize b.toNat = n
  match n with
  | 0 | 1 | 2 | 3 | 4 | 5 => rfl
  | n + 6 => rfl

theorem rdProtect_lt {p : Option Nat} {pract : Bool} {prchk : Nat}
    (h : rdProtect p = some (pract, prchk)) : prchk < 8 := by
  unfold rdProtect at h
  split at h <;> simp_all <;> omega

theorem wrProtect_lt {p : Option Nat} {pract : Bool} {prchk : Nat}
    (h : wrProtect p = some (pract, prchk)) : prchk < 8 := by
  unfold wrProtect at h
  split at h <;> simp_all <;> omega

/-- The READ command the translator builds. -/
def readCmd (nsid lo hi c12 : U32) (ptr : U64) : Nvme.GenericQueueEntryCmd :=
  { opc := Nvme.NvmOpcode.kRead, nsid := nsid, prp1 := ptr, cdw_0 := lo, cdw_1 := hi, cdw_2 := c12 }

/-- What a READ translator returns for a decoded request. -/
def ReadOutcome (cdb : List Byte) (nsid : U32) (buf : Span) (r : StatusCode × NvmeCmdWrapper × U32) : Prop :=
  match decodeRw cdb with
  | none => r.1 ≠ .kSuccess
  | some rw =>
    match rdProtect rw.protect with
    | none => r.1 ≠ .kSuccess
    | some (pract, prchk) =>
      if 1 ≤ rw.blocks ∧ rw.blocks ≤ 65535 ∧ rw.blocks * 4096 ≤ buf.len then
        r.1 = .kSuccess ∧
        r.2.1.cmd.toBytes = readSqe nsid.toNat rw.lba rw.blocks prchk pract rw.fua
          ((BitVec.ofNat 64 buf.ptr : U64).toNat) ∧
        r.2.1.cmd.opc = 0x02 ∧ r.2.1.cmd.nsid = nsid ∧ r.2.1.cmd.prp1 = BitVec.ofNat 64 buf.ptr ∧
        r.2.1.is_admin = false ∧ r.2.1.buffer_len.toNat = rw.blocks * 4096 ∧
        r.2.2.toNat = rw.blocks * 4096
      else r.1 ≠ .kSuccess

theorem readCmd_toBytes (nsid lo hi c12 : U32) (ptr : U64) (lba blocks prchk : Nat) (pract fua : Bool)
    (h0 : lo.toNat = lba % 2 ^ 32) (h1 : hi.toNat = lba / 2 ^ 32)
    (h2 : c12.toNat = ioCdw12 blocks prchk pract fua) :
    (readCmd nsid lo hi c12 ptr).toBytes
      = readSqe nsid.toNat lba blocks prchk pract fua ptr.toNat := by
  unfold readCmd
  rw [toBytes_sqe, h0, h1, h2]
  rfl

theorem mul4096 (tl : U16) : (tl.setWidth 32 * kLbaSize : U32).toNat = tl.toNat * 4096 := by
  have := tl.isLt
  simp only [kLbaSize, BitVec.toNat_mul, BitVec.toNat_setWidth, BitVec.ofNat_eq_ofNat, BitVec.toNat_ofNat]
  omega

theorem LegacyRead_short (wr : NvmeCmdWrapper) (nsid : U32) (tl : U16) (buf : Span)
    (h : buf.len < tl.toNat * 4096) :
    (Read.LegacyRead wr nsid tl kLbaSize buf).1 = .kFailure := by
  unfold Read.LegacyRead
  rw [← mul4096] at h
  rw [if_pos h]

theorem LegacyRead_ok (wr : NvmeCmdWrapper) (nsid : U32) (tl : U16) (buf : Span)
    (h : tl.toNat * 4096 ≤ buf.len) :
    Read.LegacyRead wr nsid tl kLbaSize buf = (.kSuccess,
      { cmd := { opc := Nvme.NvmOpcode.kRead, nsid := nsid, prp1 := BitVec.ofNat 64 buf.ptr }
        buffer_len := tl.setWidth 32 * kLbaSize, is_admin := false }, tl.setWidth 32 * kLbaSize) := by
  unfold Read.LegacyRead
  rw [← mul4096] at h
  rw [if_neg (Nat.not_lt.mpr h)]

/-- Outcome of `Read`. -/
theorem Read_spec (rp : Byte) (fua : Bool) (tl : U32) (wr : NvmeCmdWrapper) (nsid : U32) (buf : Span)
    (al : U32) :
    match rdProtect (some rp.toNat) with
    | none => (Read.Read rp fua tl wr nsid kLbaSize buf al).1 ≠ .kSuccess
    | some (pract, prchk) =>
      if 1 ≤ tl.toNat ∧ tl.toNat ≤ 65535 ∧ tl.toNat * 4096 ≤ buf.len then
        ∃ c12 bl : U32, Read.Read rp fua tl wr nsid kLbaSize buf al = (.kSuccess,
          { cmd := readCmd nsid 0 0 c12 (BitVec.ofNat 64 buf.ptr)
            buffer_len := bl, is_admin := false }, bl)
          ∧ c12.toNat = ioCdw12 tl.toNat prchk pract fua ∧ bl.toNat = tl.toNat * 4096
      else (Read.Read rp fua tl wr nsid kLbaSize buf al).1 ≠ .kSuccess := by
  unfold Read.Read
  by_cases h0 : tl = 0
  · subst h0; simp; split <;> simp
  rw [if_neg h0]
  have h0' : tl.toNat ≠ 0 := fun hh => h0 (BitVec.eq_of_toNat_eq hh)
  by_cases h1 : tl > 0xffff#32
  · rw [if_pos h1]
    have : ¬ tl.toNat ≤ 65535 := by
      have : (0xffff#32).toNat < tl.toNat := h1
      simpa using this
    simp [this]
    split <;> simp
  rw [if_neg h1]
  have h1' : tl.toNat ≤ 65535 := by
    have : ¬ (0xffff#32).toNat < tl.toNat := h1
    simpa using this
  have htl : ((tl &&& 0xffff#32).setWidth 16 : U16).toNat = tl.toNat := by
    have h : ∀ x, x &&& 65535 = x % 2 ^ 16 := fun x => Nat.and_two_pow_sub_one_eq_mod x 16
    simp [h]; omega
  simp only
  generalize (tl &&& 0xffff#32).setWidth 16 = t16 at htl
  rw [← htl] at h0' h1' ⊢
  by_cases h2 : t16.toNat * 4096 ≤ buf.len
  · rw [LegacyRead_ok _ _ _ _ h2]
    have hp := BuildPrinfo_eq rp
    cases hb : Read.BuildPrinfo rp with
    | none =>
      rw [hb] at hp
      cases hr : rdProtect (some rp.toNat) with
      | none => simp
      | some x => rw [hr] at hp; simp at hp
    | some pr =>
      rw [hb] at hp
      cases hr : rdProtect (some rp.toNat) with
      | none => rw [hr] at hp; simp at hp
      | some x =>
        obtain ⟨pract, prchk⟩ := x
        rw [hr] at hp
        simp only [Option.map_some, Option.some.injEq] at hp
        have hlt := rdProtect_lt hr
        simp only
        rw [if_pos ⟨by omega, h1', h2⟩]
        refine ⟨_, _, rfl, ?_, mul4096 _⟩
        rw [htoll_def, cdw12_toNat _ _ _ (by intro h; simp [h] at h0') (by cases pract <;> simp at hp <;> omega),
          hp, ioCdw12]
        omega
  · have h3 := LegacyRead_short wr nsid t16 buf (by omega)
    generalize Read.LegacyRead wr nsid t16 kLbaSize buf = r at h3
    obtain ⟨a, b, c⟩ := r
    simp only at h3
    subst h3
    simp [h2]
    split <;> simp

theorem toNat_ofNat_mod (x : Nat) : (BitVec.ofNat 32 x).toNat = x % 2 ^ 32 := by simp

theorem field_lba6 (cdb : List Byte) (hl : 6 ≤ cdb.length) :
    byte cdb 1 / 2 ^ 0 % 2 ^ 5 * 2 ^ 16 + beAt cdb 2 2 = beAt cdb 1 3 % 2 ^ 21 := by
  match cdb, hl with
  | b0 :: b1 :: b2 :: b3 :: rest, _ =>
    simp only [beAt, byte, List.drop_succ_cons, List.drop_zero, List.take_succ_cons, List.take_zero, be,
      List.foldl_cons, List.foldl_nil, List.getD_cons_succ, List.getD_cons_zero]
    have := b1.isLt; have := b2.isLt; have := b3.isLt
    omega

theorem byte0_headD (cdb : List Byte) : byte cdb 0 = (cdb.headD 0).toNat := by
  cases cdb <;> rfl

theorem decodeRw_6 {cdb : List Byte} (h : byte cdb 0 / 32 = 0) : decodeRw cdb =
    if cdb.length < 6 then none
         else some { lba := beAt cdb 1 3 % 2 ^ 21
                     blocks := if byte cdb 4 = 0 then 256 else byte cdb 4
                     protect := none, fua := false } := by
  unfold decodeRw; simp only [h]

theorem decodeRw_10 {cdb : List Byte} (h : byte cdb 0 / 32 = 1) : decodeRw cdb =
    if cdb.length < 10 then none
         else some { lba := beAt cdb 2 4, blocks := beAt cdb 7 2
                     protect := some (byte cdb 1 / 32), fua := bit cdb 1 3 } := by
  unfold decodeRw; simp only [h]

theorem decodeRw_12 {cdb : List Byte} (h : byte cdb 0 / 32 = 5) : decodeRw cdb =
    if cdb.length < 12 then none
         else some { lba := beAt cdb 2 4, blocks := beAt cdb 6 4
                     protect := some (byte cdb 1 / 32), fua := bit cdb 1 3 } := by
  unfold decodeRw; simp only [h]

theorem decodeRw_16 {cdb : List Byte} (h : byte cdb 0 / 32 = 4) : decodeRw cdb =
    if cdb.length < 16 then none
         else some { lba := beAt cdb 2 8, blocks := beAt cdb 10 4
                     protect := some (byte cdb 1 / 32), fua := bit cdb 1 3 } := by
  unfold decodeRw; simp only [h]

/-- READ(10), READ(12), READ(16) share this: the tail of the translation. -/
theorem ReadOutcome_of_Read {cdb : List Byte} {nsid : U32} {buf : Span} {rw_ : Rw} {rp : Byte} {tl : U32}
    {wr : NvmeCmdWrapper} {al : U32} {lo hi : U32} {fua : Bool}
    {r : StatusCode × NvmeCmdWrapper × U32}
    (F : Nvme.GenericQueueEntryCmd → Nvme.GenericQueueEntryCmd)
    (hd : decodeRw cdb = some rw_) (hp : rw_.protect = some rp.toNat) (htl : tl.toNat = rw_.blocks)
    (hfua : rw_.fua = fua)
    (hlo : lo.toNat = rw_.lba % 2 ^ 32) (hhi : hi.toNat = rw_.lba / 2 ^ 32)
    (hF : ∀ c12 ptr, F (readCmd nsid 0 0 c12 ptr) = readCmd nsid lo hi c12 ptr)
    (hr : r = match Read.Read rp fua tl wr nsid kLbaSize buf al with
      | (.kSuccess, wr, al) => (.kSuccess, { wr with cmd := F wr.cmd }, al)
      | (st, wr, al) => (st, wr, al)) :
    ReadOutcome cdb nsid buf r := by
  subst hfua
  have hs := Read_spec rp rw_.fua tl wr nsid buf al
  unfold ReadOutcome
  rw [hd]
  simp only
  rw [hp]
  rw [htl] at hs
  generalize Read.Read rp rw_.fua tl wr nsid kLbaSize buf al = q at hs hr
  obtain ⟨st, wr', al'⟩ := q
  cases hpi : rdProtect (some rp.toNat) with
  | none =>
    rw [hpi] at hs
    simp only at hs ⊢
    subst hr
    cases st <;> simp_all
  | some x =>
    obtain ⟨pract, prchk⟩ := x
    rw [hpi] at hs
    simp only at hs ⊢
    split
    · rename_i hc
      rw [if_pos hc] at hs
      obtain ⟨c12, bl, he, hc12, hbl⟩ := hs
      simp only [Prod.mk.injEq] at he
      obtain ⟨rfl, rfl, rfl⟩ := he
      simp only [hF] at hr
      subst hr
      refine ⟨rfl, ?_, rfl, rfl, rfl, rfl, hbl, hbl⟩
      exact readCmd_toBytes nsid lo hi c12 _ rw_.lba rw_.blocks prchk pract rw_.fua hlo hhi hc12
    · rename_i hc
      rw [if_neg hc] at hs
      subst hr
      cases st <;> simp_all

theorem ReadOutcome_short {cdb : List Byte} {nsid : U32} {buf : Span}
    {r : StatusCode × NvmeCmdWrapper × U32} (hd : decodeRw cdb = none) (hr : r.1 ≠ .kSuccess) :
    ReadOutcome cdb nsid buf r := by
  unfold ReadOutcome; rw [hd]; exact hr

theorem Read10_spec (cdb : List Byte) (hop : byte cdb 0 = 0x28) (wr : NvmeCmdWrapper) (nsid : U32)
    (buf : Span) (al : U32) :
    ReadOutcome cdb nsid buf (Read.Read10ToNvme cdb.tail wr nsid kLbaSize buf al) := by
  have hd := decodeRw_10 (cdb := cdb) (by omega)
  unfold Read.Read10ToNvme
  by_cases hl : cdb.length < 10
  · rw [if_pos hl] at hd
    rw [readValue_none (by simp [Scsi.Read10Command.size]; omega)]
    exact ReadOutcome_short hd (by simp)
  · rw [if_neg hl] at hd
    rw [readValue_some (by simp [Scsi.Read10Command.size]; omega)]
    have f1 := fieldTop3 cdb 9 5 0 (by omega) (by omega)
    have f2 := fieldBit cdb 9 3 0 3 (by omega) (by omega) (by omega)
    have f3 := field16 cdb 9 48 6 (by omega) (by omega) (by omega)
    have f4 := field32 cdb 9 8 1 (by omega) (by omega) (by omega)
    simp only [Nat.reduceAdd, Nat.zero_add] at f1 f2 f3 f4
    have b1 := beAt_lt cdb 2 4
    have b2 := beAt_lt cdb 7 2
    have b3 := byte_lt cdb 1
    refine ReadOutcome_of_Read (fun c => { c with cdw_0 := bswap 4 (getF (cdb.tail.take 9) ⟨8⟩) })
      (lo := bswap 4 (getF (cdb.tail.take 9) ⟨8⟩)) (hi := 0) hd ?_ ?_ ?_ ?_ ?_ (fun _ _ => rfl) rfl
    · simp only [Option.some.injEq, BitVec.toNat_setWidth, Scsi.Read10Command.ofBytes,
        Scsi.Read10Command.size, Nat.reduceDiv, f1]; omega
    · rw [BitVec.toNat_setWidth]; simp only [Scsi.Read10Command.ofBytes, ntohs_def, f3,
        Scsi.Read10Command.size, Nat.reduceDiv]; omega
    · exact f2.symm
    · rw [f4]; simp only; omega
    · simp; omega

theorem Read12_spec (cdb : List Byte) (hop : byte cdb 0 = 0xa8) (wr : NvmeCmdWrapper) (nsid : U32)
    (buf : Span) (al : U32) :
    ReadOutcome cdb nsid buf (Read.Read12ToNvme cdb.tail wr nsid kLbaSize buf al) := by
  have hd := decodeRw_12 (cdb := cdb) (by omega)
  unfold Read.Read12ToNvme
  by_cases hl : cdb.length < 12
  · rw [if_pos hl] at hd
    rw [readValue_none (by simp [Scsi.Read12Command.size]; omega)]
    exact ReadOutcome_short hd (by simp)
  · rw [if_neg hl] at hd
    rw [readValue_some (by simp [Scsi.Read12Command.size]; omega)]
    have f1 := fieldTop3 cdb 11 5 0 (by omega) (by omega)
    have f2 := fieldBit cdb 11 3 0 3 (by omega) (by omega) (by omega)
    have f3 := field32 cdb 11 40 5 (by omega) (by omega) (by omega)
    have f4 := field32 cdb 11 8 1 (by omega) (by omega) (by omega)
    simp only [Nat.reduceAdd, Nat.zero_add] at f1 f2 f3 f4
    have b1 := beAt_lt cdb 2 4
    have b3 := byte_lt cdb 1
    refine ReadOutcome_of_Read (fun c => { c with cdw_0 := bswap 4 (getF (cdb.tail.take 11) ⟨8⟩) })
      (lo := bswap 4 (getF (cdb.tail.take 11) ⟨8⟩)) (hi := 0) hd ?_ ?_ ?_ ?_ ?_ (fun _ _ => rfl) rfl
    · simp only [Option.some.injEq, BitVec.toNat_setWidth, Scsi.Read12Command.ofBytes,
        Scsi.Read12Command.size, Nat.reduceDiv, f1]; omega
    · exact f3
    · exact f2.symm
    · rw [f4]; simp only; omega
    · simp; omega

theorem Read16_spec (cdb : List Byte) (hop : byte cdb 0 = 0x88) (wr : NvmeCmdWrapper) (nsid : U32)
    (buf : Span) (al : U32) :
    ReadOutcome cdb nsid buf (Read.Read16ToNvme cdb.tail wr nsid kLbaSize buf al) := by
  have hd := decodeRw_16 (cdb := cdb) (by omega)
  unfold Read.Read16ToNvme
  by_cases hl : cdb.length < 16
  · rw [if_pos hl] at hd
    rw [readValue_none (by simp [Scsi.Read16Command.size]; omega)]
    exact ReadOutcome_short hd (by simp)
  · rw [if_neg hl] at hd
    rw [readValue_some (by simp [Scsi.Read16Command.size]; omega)]
    have f1 := fieldTop3 cdb 15 5 0 (by omega) (by omega)
    have f2 := fieldBit cdb 15 3 0 3 (by omega) (by omega) (by omega)
    have f3 := field32 cdb 15 72 9 (by omega) (by omega) (by omega)
    have f4 := field64 cdb 15 8 1 (by omega) (by omega) (by omega)
    simp only [Nat.reduceAdd, Nat.zero_add] at f1 f2 f3 f4
    have b1 := beAt_lt cdb 2 8
    have b3 := byte_lt cdb 1
    refine ReadOutcome_of_Read (fun c => { c with
        cdw_0 := htoll ((ntohll (getF (cdb.tail.take 15) ⟨8⟩)).setWidth 32)
        cdw_1 := htoll ((ntohll (getF (cdb.tail.take 15) ⟨8⟩) >>> 32).setWidth 32) })
      (lo := htoll ((ntohll (getF (cdb.tail.take 15) ⟨8⟩)).setWidth 32))
      (hi := htoll ((ntohll (getF (cdb.tail.take 15) ⟨8⟩) >>> 32).setWidth 32)) hd
      ?_ ?_ ?_ ?_ ?_ (fun _ _ => rfl) rfl
    · simp only [Option.some.injEq, BitVec.toNat_setWidth, Scsi.Read16Command.ofBytes,
        Scsi.Read16Command.size, Nat.reduceDiv, f1]; omega
    · exact f3
    · exact f2.symm
    · rw [htoll_def, ntohll_def, BitVec.toNat_setWidth, f4]
    · rw [htoll_def, ntohll_def, BitVec.toNat_setWidth, BitVec.toNat_ushiftRight, f4,
        Nat.shiftRight_eq_div_pow]
      show beAt cdb 2 8 / 2 ^ 32 % 2 ^ 32 = beAt cdb 2 8 / 2 ^ 32
      omega

theorem lba6_toNat (cdb : List Byte) (hl : 6 ≤ cdb.length) :
    (((getF (cdb.tail.take 5) ⟨0⟩ : BitVec 5).setWidth 32 <<< 16)
      + (bswap 2 (getF (cdb.tail.take 5) ⟨8⟩ : BitVec 16)).setWidth 32 : U32).toNat
      = beAt cdb 1 3 % 2 ^ 21 := by
  have f1 := fieldBits cdb 5 0 5 0 0 (by omega) (by omega) (by omega)
  have f2 := field16 cdb 5 8 1 (by omega) (by omega) (by omega)
  have b2 := beAt_lt cdb 2 2
  rw [← field_lba6 cdb hl, BitVec.toNat_add, BitVec.toNat_shiftLeft, BitVec.toNat_setWidth,
    BitVec.toNat_setWidth, f1, f2, Nat.shiftLeft_eq]
  simp only [Nat.zero_add, Nat.reduceAdd] at *
  omega

theorem tl6_toNat (cdb : List Byte) (c : Byte) (hc : c.toNat = byte cdb 4) :
    (if c = 0 then 256#16 else c.setWidth 16).toNat = if byte cdb 4 = 0 then 256 else byte cdb 4 := by
  have := byte_lt cdb 4
  by_cases h : c = 0
  · rw [if_pos h, if_pos (by rw [← hc, h]; rfl)]; rfl
  · rw [if_neg h, if_neg (by rw [← hc]; intro h2; exact h (BitVec.eq_of_toNat_eq h2)),
      BitVec.toNat_setWidth, hc]
    omega

theorem Read6_spec (cdb : List Byte) (hop : byte cdb 0 = 0x08) (wr : NvmeCmdWrapper) (nsid : U32)
    (buf : Span) (al : U32) :
    ReadOutcome cdb nsid buf (Read.Read6ToNvme cdb.tail wr nsid kLbaSize buf al) := by
  have hd := decodeRw_6 (cdb := cdb) (by omega)
  unfold Read.Read6ToNvme
  by_cases hl : cdb.length < 6
  · rw [if_pos hl] at hd
    rw [readValue_none (by simp [Scsi.Read6Command.size]; omega)]
    exact ReadOutcome_short hd (by simp)
  · rw [if_neg hl] at hd
    rw [readValue_some (by simp [Scsi.Read6Command.size]; omega)]
    have f3 : (Scsi.Read6Command.ofBytes (cdb.tail.take Scsi.Read6Command.size)).transfer_length.toNat
        = byte cdb 4 := field8 cdb 5 24 3 (by omega) (by omega)
    have hlba := lba6_toNat cdb (by omega)
    change (((Scsi.Read6Command.ofBytes (cdb.tail.take Scsi.Read6Command.size)).logical_block_address_1.setWidth 32 <<< 16)
      + (ntohs (Scsi.Read6Command.ofBytes (cdb.tail.take Scsi.Read6Command.size)).logical_block_address_2).setWidth 32
        : U32).toNat = _ at hlba
    generalize Scsi.Read6Command.ofBytes (cdb.tail.take Scsi.Read6Command.size) = c at f3 hlba
    have ht := tl6_toNat cdb _ f3
    have b3 := byte_lt cdb 4
    have b1 := beAt_lt cdb 1 3
    simp only
    generalize (if c.transfer_length = 0 then 256#16 else c.transfer_length.setWidth 16) = tl at ht
    generalize (c.logical_block_address_1.setWidth 32 <<< 16)
          + (ntohs c.logical_block_address_2).setWidth 32 = lba at hlba
    unfold ReadOutcome
    rw [hd]
    simp only [rdProtect]
    rw [← ht]
    have hb : 1 ≤ tl.toNat ∧ tl.toNat ≤ 65535 := by rw [ht]; split <;> omega
    by_cases hc : tl.toNat * 4096 ≤ buf.len
    · rw [if_pos ⟨hb.1, hb.2, hc⟩, LegacyRead_ok _ _ _ _ hc]
      refine ⟨rfl, ?_, rfl, rfl, rfl, rfl, mul4096 _, mul4096 _⟩
      refine readCmd_toBytes nsid _ 0 _ _ _ _ _ _ _ ?_ ?_ ?_
      · rw [htoll_def, hlba]; omega
      · simp only [BitVec.ofNat_eq_ofNat, BitVec.toNat_ofNat]; omega
      · simp only [htoll_def, BitVec.toNat_sub, BitVec.toNat_setWidth, BitVec.ofNat_eq_ofNat, BitVec.toNat_ofNat,
          ioCdw12, Bool.toNat_false]
        omega
    · rw [if_neg (by omega)]
      have h3 := LegacyRead_short wr nsid tl buf (by omega)
      generalize Read.LegacyRead wr nsid tl kLbaSize buf = r at h3
      obtain ⟨a, b, c⟩ := r
      simp only at h3
      subst h3
      simp

/-! ## WRITE -/

/-- The WRITE command the translator builds. -/
def writeCmd (nsid lo hi c12 : U32) (ptr : U64) : Nvme.GenericQueueEntryCmd :=
  { opc := Nvme.NvmOpcode.kWrite, nsid := nsid, prp1 := ptr, cdw_0 := lo, cdw_1 := hi, cdw_2 := c12 }

theorem writeCmd_toBytes (nsid lo hi c12 : U32) (ptr : U64) (lba blocks prchk : Nat) (pract fua : Bool)
    (h0 : lo.toNat = lba % 2 ^ 32) (h1 : hi.toNat = lba / 2 ^ 32)
    (h2 : c12.toNat = ioCdw12 blocks prchk pract fua) :
    (writeCmd nsid lo hi c12 ptr).toBytes
      = writeSqe nsid.toNat lba blocks prchk pract fua ptr.toNat := by
  unfold writeCmd
  rw [toBytes_sqe, h0, h1, h2]
  rfl

/-- What a WRITE translator returns for a decoded request. `blocks % 65536` is what remains of the
transfer length. -/
def WriteOutcome (cdb : List Byte) (nsid : U32) (buf : Span) (r : StatusCode × NvmeCmdWrapper) : Prop :=
  match decodeRw cdb with
  | none => r.1 ≠ .kSuccess
  | some rw =>
    match wrProtect rw.protect with
    | none => r.1 ≠ .kSuccess
    | some (pract, prchk) =>
      if 1 ≤ rw.blocks then
        r.1 = .kSuccess ∧
        (∃ lo hi c12 : U32, r.2 = { cmd := writeCmd nsid lo hi c12 (BitVec.ofNat 64 buf.ptr)
                                    buffer_len := BitVec.ofNat 32 buf.len, is_admin := false } ∧
          lo.toNat = rw.lba % 2 ^ 32 ∧ hi.toNat = rw.lba / 2 ^ 32 ∧
          (1 ≤ rw.blocks % 65536 → c12.toNat = ioCdw12 (rw.blocks % 65536) prchk pract rw.fua) ∧
          (rw.blocks % 65536 = 0 → c12 = 0xffffffff))
      else r.1 ≠ .kSuccess

theorem Write_spec (rp : Byte) (fua : Bool) (tl : U32) (wr : NvmeCmdWrapper) (nsid : U32) (buf : Span) :
    match wrProtect (some rp.toNat) with
    | none => (Write.Write fua rp tl wr nsid buf).1 ≠ .kSuccess
    | some (pract, prchk) =>
      if 1 ≤ tl.toNat then
        ∃ c12 : U32, Write.Write fua rp tl wr nsid buf = (.kSuccess,
          { cmd := writeCmd nsid 0 0 c12 (BitVec.ofNat 64 buf.ptr)
            buffer_len := BitVec.ofNat 32 buf.len, is_admin := false })
          ∧ (1 ≤ tl.toNat % 65536 → c12.toNat = ioCdw12 (tl.toNat % 65536) prchk pract fua)
          ∧ (tl.toNat % 65536 = 0 → c12 = 0xffffffff)
      else (Write.Write fua rp tl wr nsid buf).1 ≠ .kSuccess := by
  unfold Write.Write
  by_cases h0 : tl = 0
  · subst h0; simp; split <;> simp
  rw [if_neg h0]
  have h0' : tl.toNat ≠ 0 := fun hh => h0 (BitVec.eq_of_toNat_eq hh)
  have htl : ((tl &&& 0xffff#32).setWidth 16 : U16).toNat = tl.toNat % 65536 := by
    have h : ∀ x, x &&& 65535 = x % 2 ^ 16 := fun x => Nat.and_two_pow_sub_one_eq_mod x 16
    simp [h]
  simp only [Write.LegacyWrite]
  generalize (tl &&& 0xffff#32).setWidth 16 = t16 at htl
  have hp := BuildPRInfo_eq rp
  cases hb : Write.BuildPRInfo rp with
  | none =>
    rw [hb] at hp
    cases hr : wrProtect (some rp.toNat) with
    | none => simp
    | some x => rw [hr] at hp; simp at hp
  | some pr =>
    rw [hb] at hp
    cases hr : wrProtect (some rp.toNat) with
    | none => rw [hr] at hp; simp at hp
    | some x =>
      obtain ⟨pract, prchk⟩ := x
      rw [hr] at hp
      simp only [Option.map_some, Option.some.injEq] at hp
      have hlt := wrProtect_lt hr
      simp only
      rw [if_pos (by omega)]
      refine ⟨_, rfl, ?_, ?_⟩
      · intro h1
        rw [htoll_def, cdw12_write, cdw12_toNat _ _ _ (by intro h; simp [h] at htl; omega)
          (by cases pract <;> simp at hp <;> omega), hp, ioCdw12, htl]
        omega
      · intro h1
        have : t16 = 0 := BitVec.eq_of_toNat_eq (by rw [htl, h1]; rfl)
        subst this
        rw [htoll_def]
        unfold Write.BuildCdw12
        have : ((0 : U16).setWidth 32 - 1 : U32) = BitVec.allOnes 32 := by decide
        rw [this, BitVec.or_allOnes]
        rfl

theorem WriteOutcome_short {cdb : List Byte} {nsid : U32} {buf : Span}
    {r : StatusCode × NvmeCmdWrapper} (hd : decodeRw cdb = none) (hr : r.1 ≠ .kSuccess) :
    WriteOutcome cdb nsid buf r := by
  unfold WriteOutcome; rw [hd]; exact hr

theorem WriteOutcome_of_Write {cdb : List Byte} {nsid : U32} {buf : Span} {rw_ : Rw} {rp : Byte} {tl : U32}
    {wr : NvmeCmdWrapper} {lo hi : U32} {fua : Bool}
    {r : StatusCode × NvmeCmdWrapper}
    (F : Nvme.GenericQueueEntryCmd → Nvme.GenericQueueEntryCmd)
    (hd : decodeRw cdb = some rw_) (hp : rw_.protect = some rp.toNat) (htl : tl.toNat = rw_.blocks)
    (hfua : rw_.fua = fua)
    (hlo : lo.toNat = rw_.lba % 2 ^ 32) (hhi : hi.toNat = rw_.lba / 2 ^ 32)
    (hF : ∀ c12 ptr, F (writeCmd nsid 0 0 c12 ptr) = writeCmd nsid lo hi c12 ptr)
    (hr : r = match Write.Write fua rp tl wr nsid buf with
      | (.kSuccess, wr) => (.kSuccess, { wr with cmd := F wr.cmd })
      | (st, wr) => (st, wr)) :
    WriteOutcome cdb nsid buf r := by
  subst hfua
  have hs := Write_spec rp rw_.fua tl wr nsid buf
  unfold WriteOutcome
  rw [hd]
  simp only
  rw [hp]
  rw [htl] at hs
  generalize Write.Write rw_.fua rp tl wr nsid buf = q at hs hr
  obtain ⟨st, wr'⟩ := q
  cases hpi : wrProtect (some rp.toNat) with
  | none =>
    rw [hpi] at hs
    simp only at hs ⊢
    subst hr
    cases st <;> simp_all
  | some x =>
    obtain ⟨pract, prchk⟩ := x
    rw [hpi] at hs
    simp only at hs ⊢
    split
    · rename_i hc
      rw [if_pos hc] at hs
      obtain ⟨c12, he, hc12⟩ := hs
      simp only [Prod.mk.injEq] at he
      obtain ⟨rfl, rfl⟩ := he
      simp only [hF] at hr
      subst hr
      exact ⟨rfl, lo, hi, c12, rfl, hlo, hhi, hc12⟩
    · rename_i hc
      rw [if_neg hc] at hs
      subst hr
      cases st <;> simp_all

theorem Write10_spec (cdb : List Byte) (hop : byte cdb 0 = 0x2a) (wr : NvmeCmdWrapper) (nsid : U32)
    (buf : Span) : WriteOutcome cdb nsid buf (Write.Write10ToNvme cdb.tail wr nsid buf) := by
  have hd := decodeRw_10 (cdb := cdb) (by omega)
  unfold Write.Write10ToNvme
  by_cases hl : cdb.length < 10
  · rw [if_pos hl] at hd
    rw [readValue_none (by simp [Scsi.Write10Command.size]; omega)]
    exact WriteOutcome_short hd (by simp)
  · rw [if_neg hl] at hd
    rw [readValue_some (by simp [Scsi.Write10Command.size]; omega)]
    have f1 := fieldTop3 cdb 9 5 0 (by omega) (by omega)
    have f2 := fieldBit cdb 9 3 0 3 (by omega) (by omega) (by omega)
    have f3 := field16 cdb 9 48 6 (by omega) (by omega) (by omega)
    have f4 := field32 cdb 9 8 1 (by omega) (by omega) (by omega)
    simp only [Nat.reduceAdd, Nat.zero_add] at f1 f2 f3 f4
    have b1 := beAt_lt cdb 2 4
    have b2 := beAt_lt cdb 7 2
    have b3 := byte_lt cdb 1
    refine WriteOutcome_of_Write (fun c => { c with cdw_0 := bswap 4 (getF (cdb.tail.take 9) ⟨8⟩) })
      (lo := bswap 4 (getF (cdb.tail.take 9) ⟨8⟩)) (hi := 0) hd ?_ ?_ ?_ ?_ ?_ (fun _ _ => rfl) rfl
    · simp only [Option.some.injEq, BitVec.toNat_setWidth, Scsi.Write10Command.ofBytes,
        Scsi.Write10Command.size, Nat.reduceDiv, f1]; omega
    · rw [BitVec.toNat_setWidth]; simp only [Scsi.Write10Command.ofBytes, ntohs_def, f3,
        Scsi.Write10Command.size, Nat.reduceDiv]; omega
    · exact f2.symm
    · rw [f4]; simp only; omega
    · simp; omega

theorem Write12_spec (cdb : List Byte) (hop : byte cdb 0 = 0xaa) (wr : NvmeCmdWrapper) (nsid : U32)
    (buf : Span) : WriteOutcome cdb nsid buf (Write.Write12ToNvme cdb.tail wr nsid buf) := by
  have hd := decodeRw_12 (cdb := cdb) (by omega)
  unfold Write.Write12ToNvme
  by_cases hl : cdb.length < 12
  · rw [if_pos hl] at hd
    rw [readValue_none (by simp [Scsi.Write12Command.size]; omega)]
    exact WriteOutcome_short hd (by simp)
  · rw [if_neg hl] at hd
    rw [readValue_some (by simp [Scsi.Write12Command.size]; omega)]
    have f1 := fieldTop3 cdb 11 5 0 (by omega) (by omega)
    have f2 := fieldBit cdb 11 3 0 3 (by omega) (by omega) (by omega)
    have f3 := field32 cdb 11 40 5 (by omega) (by omega) (by omega)
    have f4 := field32 cdb 11 8 1 (by omega) (by omega) (by omega)
    simp only [Nat.reduceAdd, Nat.zero_add] at f1 f2 f3 f4
    have b1 := beAt_lt cdb 2 4
    have b3 := byte_lt cdb 1
    refine WriteOutcome_of_Write (fun c => { c with cdw_0 := bswap 4 (getF (cdb.tail.take 11) ⟨8⟩) })
      (lo := bswap 4 (getF (cdb.tail.take 11) ⟨8⟩)) (hi := 0) hd ?_ ?_ ?_ ?_ ?_ (fun _ _ => rfl) rfl
    · simp only [Option.some.injEq, BitVec.toNat_setWidth, Scsi.Write12Command.ofBytes,
        Scsi.Write12Command.size, Nat.reduceDiv, f1]; omega
    · exact f3
    · exact f2.symm
    · rw [f4]; simp only; omega
    · simp; omega

theorem Write16_spec (cdb : List Byte) (hop : byte cdb 0 = 0x8a) (wr : NvmeCmdWrapper) (nsid : U32)
    (buf : Span) : WriteOutcome cdb nsid buf (Write.Write16ToNvme cdb.tail wr nsid buf) := by
  have hd := decodeRw_16 (cdb := cdb) (by omega)
  unfold Write.Write16ToNvme
  by_cases hl : cdb.length < 16
  · rw [if_pos hl] at hd
    rw [readValue_none (by simp [Scsi.Write16Command.size]; omega)]
    exact WriteOutcome_short hd (by simp)
  · rw [if_neg hl] at hd
    rw [readValue_some (by simp [Scsi.Write16Command.size]; omega)]
    have f1 := fieldTop3 cdb 15 5 0 (by omega) (by omega)
    have f2 := fieldBit cdb 15 3 0 3 (by omega) (by omega) (by omega)
    have f3 := field32 cdb 15 72 9 (by omega) (by omega) (by omega)
    have f4 := field64 cdb 15 8 1 (by omega) (by omega) (by omega)
    simp only [Nat.reduceAdd, Nat.zero_add] at f1 f2 f3 f4
    have b1 := beAt_lt cdb 2 8
    have b3 := byte_lt cdb 1
    refine WriteOutcome_of_Write (fun c => { c with
        cdw_0 := htoll ((ntohll (getF (cdb.tail.take 15) ⟨8⟩)).setWidth 32)
        cdw_1 := htoll ((ntohll (getF (cdb.tail.take 15) ⟨8⟩) >>> 32).setWidth 32) })
      (lo := htoll ((ntohll (getF (cdb.tail.take 15) ⟨8⟩)).setWidth 32))
      (hi := htoll ((ntohll (getF (cdb.tail.take 15) ⟨8⟩) >>> 32).setWidth 32)) hd
      ?_ ?_ ?_ ?_ ?_ (fun _ _ => rfl) rfl
    · simp only [Option.some.injEq, BitVec.toNat_setWidth, Scsi.Write16Command.ofBytes,
        Scsi.Write16Command.size, Nat.reduceDiv, f1]; omega
    · exact f3
    · exact f2.symm
    · rw [htoll_def, ntohll_def, BitVec.toNat_setWidth, f4]
    · rw [htoll_def, ntohll_def, BitVec.toNat_setWidth, BitVec.toNat_ushiftRight, f4,
        Nat.shiftRight_eq_div_pow]
      show beAt cdb 2 8 / 2 ^ 32 % 2 ^ 32 = beAt cdb 2 8 / 2 ^ 32
      omega

theorem Write6_spec (cdb : List Byte) (hop : byte cdb 0 = 0x0a) (wr : NvmeCmdWrapper) (nsid : U32)
    (buf : Span) : WriteOutcome cdb nsid buf (Write.Write6ToNvme cdb.tail wr nsid buf) := by
  have hd := decodeRw_6 (cdb := cdb) (by omega)
  unfold Write.Write6ToNvme
  by_cases hl : cdb.length < 6
  · rw [if_pos hl] at hd
    rw [readValue_none (by simp [Scsi.Write6Command.size]; omega)]
    exact WriteOutcome_short hd (by simp)
  · rw [if_neg hl] at hd
    rw [readValue_some (by simp [Scsi.Write6Command.size]; omega)]
    have f3 : (Scsi.Write6Command.ofBytes (cdb.tail.take Scsi.Write6Command.size)).transfer_length.toNat
        = byte cdb 4 := field8 cdb 5 24 3 (by omega) (by omega)
    have hlba := lba6_toNat cdb (by omega)
    change (((Scsi.Write6Command.ofBytes (cdb.tail.take Scsi.Write6Command.size)).logical_block_address_1.setWidth 32 <<< 16)
      + (ntohs (Scsi.Write6Command.ofBytes (cdb.tail.take Scsi.Write6Command.size)).logical_block_address_2).setWidth 32
        : U32).toNat = _ at hlba
    generalize Scsi.Write6Command.ofBytes (cdb.tail.take Scsi.Write6Command.size) = c at f3 hlba
    have ht := tl6_toNat cdb _ f3
    have b3 := byte_lt cdb 4
    have b1 := beAt_lt cdb 1 3
    simp only
    generalize (if c.transfer_length = 0 then 256#16 else c.transfer_length.setWidth 16) = tl at ht
    generalize (c.logical_block_address_1.setWidth 32 <<< 16)
          + (ntohs c.logical_block_address_2).setWidth 32 = lba at hlba
    unfold WriteOutcome
    rw [hd]
    simp only [wrProtect]
    rw [← ht]
    have hb : 1 ≤ tl.toNat ∧ tl.toNat ≤ 65535 := by rw [ht]; split <;> omega
    rw [if_pos hb.1]
    refine ⟨rfl, _, 0, _, rfl, ?_, ?_, ?_, ?_⟩
    · rw [htoll_def, hlba]; omega
    · simp only [BitVec.ofNat_eq_ofNat, BitVec.toNat_ofNat]; omega
    · intro _
      simp only [htoll_def, BitVec.toNat_sub, BitVec.toNat_setWidth, BitVec.ofNat_eq_ofNat, BitVec.toNat_ofNat,
        ioCdw12, Bool.toNat_false]
      omega
    · omega

end Scsi2Nvme
