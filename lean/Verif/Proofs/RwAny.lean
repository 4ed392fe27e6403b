import Verif.Proofs.Rw
/-!
# READ translators called with any block size (cf. `Proofs/Rw.lean`, where it is 4096)
-/

namespace Scsi2Nvme.AnyLba
open Spec

theorem mulL (L : U32) (tl : U16) : (tl.setWidth 32 * L : U32).toNat = tl.toNat * L.toNat % 2 ^ 32 := by
  have := tl.isLt
  rw [BitVec.toNat_mul, BitVec.toNat_setWidth, Nat.mod_eq_of_lt (show tl.toNat < 2 ^ 32 by omega)]

/-- What a READ translator returns for a decoded request. -/
def ReadOutcome (L : U32) (cdb : List Byte) (nsid : U32) (buf : Span) (r : StatusCode × NvmeCmdWrapper × U32) : Prop :=
  match decodeRw cdb with
  | none => r.1 ≠ .kSuccess
  | some rw =>
    match rdProtect rw.protect with
    | none => r.1 ≠ .kSuccess
    | some (pract, prchk) =>
      if 1 ≤ rw.blocks ∧ rw.blocks ≤ 65535 ∧ rw.blocks * L.toNat % 2 ^ 32 ≤ buf.len then
        r.1 = .kSuccess ∧
        r.2.1.cmd.toBytes = readSqe nsid.toNat rw.lba rw.blocks prchk pract rw.fua
          ((BitVec.ofNat 64 buf.ptr : U64).toNat) ∧
        r.2.1.cmd.opc = 0x02 ∧ r.2.1.cmd.nsid = nsid ∧ r.2.1.cmd.prp1 = BitVec.ofNat 64 buf.ptr ∧
        r.2.1.is_admin = false ∧ r.2.1.buffer_len.toNat = rw.blocks * L.toNat % 2 ^ 32 ∧
        r.2.2.toNat = rw.blocks * L.toNat % 2 ^ 32
      else r.1 ≠ .kSuccess

theorem LegacyRead_short (L : U32) (wr : NvmeCmdWrapper) (nsid : U32) (tl : U16) (buf : Span)
    (h : buf.len < tl.toNat * L.toNat % 2 ^ 32) :
    (Read.LegacyRead wr nsid tl L buf).1 = .kFailure := by
  unfold Read.LegacyRead
  rw [← mulL] at h
  rw [if_pos h]

theorem LegacyRead_ok (L : U32) (wr : NvmeCmdWrapper) (nsid : U32) (tl : U16) (buf : Span)
    (h : tl.toNat * L.toNat % 2 ^ 32 ≤ buf.len) :
    Read.LegacyRead wr nsid tl L buf = (.kSuccess,
      { cmd := { opc := Nvme.NvmOpcode.kRead, nsid := nsid, prp1 := BitVec.ofNat 64 buf.ptr }
        buffer_len := tl.setWidth 32 * L, is_admin := false }, tl.setWidth 32 * L) := by
  unfold Read.LegacyRead
  rw [← mulL] at h
  rw [if_neg (Nat.not_lt.mpr h)]

/-- Outcome of `Read`. -/
theorem Read_spec (L : U32) (rp : Byte) (fua : Bool) (tl : U32) (wr : NvmeCmdWrapper) (nsid : U32) (buf : Span)
    (al : U32) :
    match rdProtect (some rp.toNat) with
    | none => (Read.Read rp fua tl wr nsid L buf al).1 ≠ .kSuccess
    | some (pract, prchk) =>
      if 1 ≤ tl.toNat ∧ tl.toNat ≤ 65535 ∧ tl.toNat * L.toNat % 2 ^ 32 ≤ buf.len then
        ∃ c12 bl : U32, Read.Read rp fua tl wr nsid L buf al = (.kSuccess,
          { cmd := readCmd nsid 0 0 c12 (BitVec.ofNat 64 buf.ptr)
            buffer_len := bl, is_admin := false }, bl)
          ∧ c12.toNat = ioCdw12 tl.toNat prchk pract fua ∧ bl.toNat = tl.toNat * L.toNat % 2 ^ 32
      else (Read.Read rp fua tl wr nsid L buf al).1 ≠ .kSuccess := by
  unfold Read.Read
  by_cases h0 : tl = 0
  · subst h0; simp; split <;> simp
  rw [if_neg h0]
  have h0' : tl.toNat ≠ 0 := fun hh => h0 (BitVec.eq_of_toNat_eq hh)
  by_cases h1 : tl > 0xffff#32
  · rw [if_pos h1]
    have : ¬ tl.toNat ≤ 65535 := by
      have : (0xffff#32).toNat < tl.toNat := h1
      simpa using this
    simp [this]
    split <;> simp
  rw [if_neg h1]
  have h1' : tl.toNat ≤ 65535 := by
    have : ¬ (0xffff#32).toNat < tl.toNat := h1
    simpa using this
  have htl : ((tl &&& 0xffff#32).setWidth 16 : U16).toNat = tl.toNat := by
    have h : ∀ x, x &&& 65535 = x % 2 ^ 16 := fun x => Nat.and_two_pow_sub_one_eq_mod x 16
    simp [h]; omega
  simp only
  generalize (tl &&& 0xffff#32).setWidth 16 = t16 at htl
  rw [← htl] at h0' h1' ⊢
  by_cases h2 : t16.toNat * L.toNat % 2 ^ 32 ≤ buf.len
  · rw [LegacyRead_ok L _ _ _ _ h2]
    have hp := BuildPrinfo_eq rp
    cases hb : Read.BuildPrinfo rp with
    | none =>
      rw [hb] at hp
      cases hr : rdProtect (some rp.toNat) with
      | none => simp
      | some x => rw [hr] at hp; simp at hp
    | some pr =>
      rw [hb] at hp
      cases hr : rdProtect (some rp.toNat) with
      | none => rw [hr] at hp; simp at hp
      | some x =>
        obtain ⟨pract, prchk⟩ := x
        rw [hr] at hp
        simp only [Option.map_some, Option.some.injEq] at hp
        have hlt := rdProtect_lt hr
        simp only
        rw [if_pos ⟨by omega, h1', h2⟩]
        refine ⟨_, _, rfl, ?_, mulL L _⟩
        rw [htoll_def, cdw12_toNat _ _ _ (by intro h; simp [h] at h0') (by cases pract <;> simp at hp <;> omega),
          hp, ioCdw12]
        omega
  · have h3 := LegacyRead_short L wr nsid t16 buf (by omega)
    generalize Read.LegacyRead wr nsid t16 L buf = r at h3
    obtain ⟨a, b, c⟩ := r
    simp only at h3
    subst h3
    simp [h2]
    split <;> simp

/-- READ(10), READ(12), READ(16) share this: the tail of the translation. -/
theorem ReadOutcome_of_Read {L : U32} {cdb : List Byte} {nsid : U32} {buf : Span} {rw_ : Rw} {rp : Byte} {tl : U32}
    {wr : NvmeCmdWrapper} {al : U32} {lo hi : U32} {fua : Bool}
    {r : StatusCode × NvmeCmdWrapper × U32}
    (F : Nvme.GenericQueueEntryCmd → Nvme.GenericQueueEntryCmd)
    (hd : decodeRw cdb = some rw_) (hp : rw_.protect = some rp.toNat) (htl : tl.toNat = rw_.blocks)
    (hfua : rw_.fua = fua)
    (hlo : lo.toNat = rw_.lba % 2 ^ 32) (hhi : hi.toNat = rw_.lba / 2 ^ 32)
    (hF : ∀ c12 ptr, F (readCmd nsid 0 0 c12 ptr) = readCmd nsid lo hi c12 ptr)
    (hr : r = match Read.Read rp fua tl wr nsid L buf al with
      | (.kSuccess, wr, al) => (.kSuccess, { wr with cmd := F wr.cmd }, al)
      | (st, wr, al) => (st, wr, al)) :
    ReadOutcome L cdb nsid buf r := by
  subst hfua
  have hs := Read_spec L rp rw_.fua tl wr nsid buf al
  unfold ReadOutcome
  rw [hd]
  simp only
  rw [hp]
  rw [htl] at hs
  generalize Read.Read rp rw_.fua tl wr nsid L buf al = q at hs hr
  obtain ⟨st, wr', al'⟩ := q
  cases hpi : rdProtect (some rp.toNat) with
  | none =>
    rw [hpi] at hs
    simp only at hs ⊢
    subst hr
    cases st <;> simp_all
  | some x =>
    obtain ⟨pract, prchk⟩ := x
    rw [hpi] at hs
    simp only at hs ⊢
    split
    · rename_i hc
      rw [if_pos hc] at hs
      obtain ⟨c12, bl, he, hc12, hbl⟩ := hs
      simp only [Prod.mk.injEq] at he
      obtain ⟨rfl, rfl, rfl⟩ := he
      simp only [hF] at hr
      subst hr
      refine ⟨rfl, ?_, rfl, rfl, rfl, rfl, hbl, hbl⟩
      exact readCmd_toBytes nsid lo hi c12 _ rw_.lba rw_.blocks prchk pract rw_.fua hlo hhi hc12
    · rename_i hc
      rw [if_neg hc] at hs
      subst hr
      cases st <;> simp_all

theorem ReadOutcome_short {L : U32} {cdb : List Byte} {nsid : U32} {buf : Span}
    {r : StatusCode × NvmeCmdWrapper × U32} (hd : decodeRw cdb = none) (hr : r.1 ≠ .kSuccess) :
    ReadOutcome L cdb nsid buf r := by
  unfold ReadOutcome; rw [hd]; exact hr

theorem Read10_spec (L : U32) (cdb : List Byte) (hop : byte cdb 0 = 0x28) (wr : NvmeCmdWrapper) (nsid : U32)
    (buf : Span) (al : U32) :
    ReadOutcome L cdb nsid buf (Read.Read10ToNvme cdb.tail wr nsid L buf al) := by
  have hd := decodeRw_10 (cdb := cdb) (by omega)
  unfold Read.Read10ToNvme
  by_cases hl : cdb.length < 10
  · rw [if_pos hl] at hd
    rw [readValue_none (by simp [Scsi.Read10Command.size]; omega)]
    exact ReadOutcome_short hd (by simp)
  · rw [if_neg hl] at hd
    rw [readValue_some (by simp [Scsi.Read10Command.size]; omega)]
    have f1 := fieldTop3 cdb 9 5 0 (by omega) (by omega)
    have f2 := fieldBit cdb 9 3 0 3 (by omega) (by omega) (by omega)
    have f3 := field16 cdb 9 48 6 (by omega) (by omega) (by omega)
    have f4 := field32 cdb 9 8 1 (by omega) (by omega) (by omega)
    simp only [Nat.reduceAdd, Nat.zero_add] at f1 f2 f3 f4
    have b1 := beAt_lt cdb 2 4
    have b2 := beAt_lt cdb 7 2
    have b3 := byte_lt cdb 1
    refine ReadOutcome_of_Read (fun c => { c with cdw_0 := bswap 4 (getF (cdb.tail.take 9) ⟨8⟩) })
      (lo := bswap 4 (getF (cdb.tail.take 9) ⟨8⟩)) (hi := 0) hd ?_ ?_ ?_ ?_ ?_ (fun _ _ => rfl) rfl
    · simp only [Option.some.injEq, BitVec.toNat_setWidth, Scsi.Read10Command.ofBytes,
        Scsi.Read10Command.size, Nat.reduceDiv, f1]; omega
    · rw [BitVec.toNat_setWidth]; simp only [Scsi.Read10Command.ofBytes, ntohs_def, f3,
        Scsi.Read10Command.size, Nat.reduceDiv]; omega
    · exact f2.symm
    · rw [f4]; simp only; omega
    · simp; omega

theorem Read12_spec (L : U32) (cdb : List Byte) (hop : byte cdb 0 = 0xa8) (wr : NvmeCmdWrapper) (nsid : U32)
    (buf : Span) (al : U32) :
    ReadOutcome L cdb nsid buf (Read.Read12ToNvme cdb.tail wr nsid L buf al) := by
  have hd := decodeRw_12 (cdb := cdb) (by omega)
  unfold Read.Read12ToNvme
  by_cases hl : cdb.length < 12
  · rw [if_pos hl] at hd
    rw [readValue_none (by simp [Scsi.Read12Command.size]; omega)]
    exact ReadOutcome_short hd (by simp)
  · rw [if_neg hl] at hd
    rw [readValue_some (by simp [Scsi.Read12Command.size]; omega)]
    have f1 := fieldTop3 cdb 11 5 0 (by omega) (by omega)
    have f2 := fieldBit cdb 11 3 0 3 (by omega) (by omega) (by omega)
    have f3 := field32 cdb 11 40 5 (by omega) (by omega) (by omega)
    have f4 := field32 cdb 11 8 1 (by omega) (by omega) (by omega)
    simp only [Nat.reduceAdd, Nat.zero_add] at f1 f2 f3 f4
    have b1 := beAt_lt cdb 2 4
    have b3 := byte_lt cdb 1
    refine ReadOutcome_of_Read (fun c => { c with cdw_0 := bswap 4 (getF (cdb.tail.take 11) ⟨8⟩) })
      (lo := bswap 4 (getF (cdb.tail.take 11) ⟨8⟩)) (hi := 0) hd ?_ ?_ ?_ ?_ ?_ (fun _ _ => rfl) rfl
    · simp only [Option.some.injEq, BitVec.toNat_setWidth, Scsi.Read12Command.ofBytes,
        Scsi.Read12Command.size, Nat.reduceDiv, f1]; omega
    · exact f3
    · exact f2.symm
    · rw [f4]; simp only; omega
    · simp; omega

theorem Read16_spec (L : U32) (cdb : List Byte) (hop : byte cdb 0 = 0x88) (wr : NvmeCmdWrapper) (nsid : U32)
    (buf : Span) (al : U32) :
    ReadOutcome L cdb nsid buf (Read.Read16ToNvme cdb.tail wr nsid L buf al) := by
  have hd := decodeRw_16 (cdb := cdb) (by omega)
  unfold Read.Read16ToNvme
  by_cases hl : cdb.length < 16
  · rw [if_pos hl] at hd
    rw [readValue_none (by simp [Scsi.Read16Command.size]; omega)]
    exact ReadOutcome_short hd (by simp)
  · rw [if_neg hl] at hd
    rw [readValue_some (by simp [Scsi.Read16Command.size]; omega)]
    have f1 := fieldTop3 cdb 15 5 0 (by omega) (by omega)
    have f2 := fieldBit cdb 15 3 0 3 (by omega) (by omega) (by omega)
    have f3 := field32 cdb 15 72 9 (by omega) (by omega) (by omega)
    have f4 := field64 cdb 15 8 1 (by omega) (by omega) (by omega)
    simp only [Nat.reduceAdd, Nat.zero_add] at f1 f2 f3 f4
    have b1 := beAt_lt cdb 2 8
    have b3 := byte_lt cdb 1
    refine ReadOutcome_of_Read (fun c => { c with
        cdw_0 := htoll ((ntohll (getF (cdb.tail.take 15) ⟨8⟩)).setWidth 32)
        cdw_1 := htoll ((ntohll (getF (cdb.tail.take 15) ⟨8⟩) >>> 32).setWidth 32) })
      (lo := htoll ((ntohll (getF (cdb.tail.take 15) ⟨8⟩)).setWidth 32))
      (hi := htoll ((ntohll (getF (cdb.tail.take 15) ⟨8⟩) >>> 32).setWidth 32)) hd
      ?_ ?_ ?_ ?_ ?_ (fun _ _ => rfl) rfl
    · simp only [Option.some.injEq, BitVec.toNat_setWidth, Scsi.Read16Command.ofBytes,
        Scsi.Read16Command.size, Nat.reduceDiv, f1]; omega
    · exact f3
    · exact f2.symm
    · rw [htoll_def, ntohll_def, BitVec.toNat_setWidth, f4]
    · rw [htoll_def, ntohll_def, BitVec.toNat_setWidth, BitVec.toNat_ushiftRight, f4,
        Nat.shiftRight_eq_div_pow]
      show beAt cdb 2 8 / 2 ^ 32 % 2 ^ 32 = beAt cdb 2 8 / 2 ^ 32
      omega

theorem Read6_spec (L : U32) (cdb : List Byte) (hop : byte cdb 0 = 0x08) (wr : NvmeCmdWrapper) (nsid : U32)
    (buf : Span) (al : U32) :
    ReadOutcome L cdb nsid buf (Read.Read6ToNvme cdb.tail wr nsid L buf al) := by
  have hd := decodeRw_6 (cdb := cdb) (by omega)
  unfold Read.Read6ToNvme
  by_cases hl : cdb.length < 6
  · rw [if_pos hl] at hd
    rw [readValue_none (by simp [Scsi.Read6Command.size]; omega)]
    exact ReadOutcome_short hd (by simp)
  · rw [if_neg hl] at hd
    rw [readValue_some (by simp [Scsi.Read6Command.size]; omega)]
    have f3 : (Scsi.Read6Command.ofBytes (cdb.tail.take Scsi.Read6Command.size)).transfer_length.toNat
        = byte cdb 4 := field8 cdb 5 24 3 (by omega) (by omega)
    have hlba := lba6_toNat cdb (by omega)
    change (((Scsi.Read6Command.ofBytes (cdb.tail.take Scsi.Read6Command.size)).logical_block_address_1.setWidth 32 <<< 16)
      + (ntohs (Scsi.Read6Command.ofBytes (cdb.tail.take Scsi.Read6Command.size)).logical_block_address_2).setWidth 32
        : U32).toNat = _ at hlba
    generalize Scsi.Read6Command.ofBytes (cdb.tail.take Scsi.Read6Command.size) = c at f3 hlba
    have ht := tl6_toNat cdb _ f3
    have b3 := byte_lt cdb 4
    have b1 := beAt_lt cdb 1 3
    simp only
    generalize (if c.transfer_length = 0 then 256#16 else c.transfer_length.setWidth 16) = tl at ht
    generalize (c.logical_block_address_1.setWidth 32 <<< 16)
          + (ntohs c.logical_block_address_2).setWidth 32 = lba at hlba
    unfold ReadOutcome
    rw [hd]
    simp only [rdProtect]
    rw [← ht]
    have hb : 1 ≤ tl.toNat ∧ tl.toNat ≤ 65535 := by rw [ht]; split <;> omega
    by_cases hc : tl.toNat * L.toNat % 2 ^ 32 ≤ buf.len
    · rw [if_pos ⟨hb.1, hb.2, hc⟩, LegacyRead_ok L _ _ _ _ hc]
      refine ⟨rfl, ?_, rfl, rfl, rfl, rfl, mulL L _, mulL L _⟩
      refine readCmd_toBytes nsid _ 0 _ _ _ _ _ _ _ ?_ ?_ ?_
      · rw [htoll_def, hlba]; omega
      · simp only [BitVec.ofNat_eq_ofNat, BitVec.toNat_ofNat]; omega
      · simp only [htoll_def, BitVec.toNat_sub, BitVec.toNat_setWidth, BitVec.ofNat_eq_ofNat, BitVec.toNat_ofNat,
          ioCdw12, Bool.toNat_false]
        omega
    · rw [if_neg (by omega)]
      have h3 := LegacyRead_short L wr nsid tl buf (by omega)
      generalize Read.LegacyRead wr nsid tl L buf = r at h3
      obtain ⟨a, b, c⟩ := r
      simp only at h3
      subst h3
      simp


end Scsi2Nvme.AnyLba
