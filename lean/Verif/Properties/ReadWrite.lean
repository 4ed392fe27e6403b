import Verif.Proofs.BeginApi
/-!
# C18-C23: READ and WRITE
-/

namespace Scsi2Nvme
open Spec

/-! ## READ -/

theorem read_ends {E t w ptr cdb buf lun r t' w'} (h : Began E t w ptr cdb buf lun r t' w')
    (hop : isRead (byte cdb 0)) : ∃ x, ReadOutcome cdb (nsidOf lun) buf x ∧
      Ends E t ptr cdb (beginRead x (startPipe t)) w r t' w' := by
  obtain ⟨x, hx, e⟩ := switch_read E cdb buf (nsidOf lun) (startPipe t) hop
  exact ⟨x, hx, h.ends (isRead_ne hop) (by rw [e]; rfl)⟩

/-- **C18.** READ(6/10/12/16) translation: an accepted READ yields exactly one command, for the I/O queue:
the NVMe Read with the LBA, block count, FUA and protection bits of the command block, the namespace of the
LUN, and the address of the data buffer; the announced lengths are the block count times 4096.  No page is
allocated, memory is unchanged. -/
theorem C18_read (E t w ptr cdb buf lun r t' w') (h : Began E t w ptr cdb buf lun r t' w')
    (hop : isRead (byte cdb 0)) (ha : Accepted t') :
    ∃ rw pract prchk wr, decodeRw cdb = some rw ∧ rdProtect rw.protect = some (pract, prchk) ∧
      t'.GetNvmeWrappers = [wr] ∧
      wr.cmd.toBytes = readSqe (nsidOfLun lun) rw.lba rw.blocks prchk pract rw.fua (prpOf buf) ∧
      wr.is_admin = false ∧ wr.buffer_len.toNat = rw.blocks * 4096 ∧
      r.status = .kSuccess ∧ r.alloc_len.toNat = rw.blocks * 4096 ∧ w' = w := by
  obtain ⟨x, hx, e⟩ := read_ends h hop
  have hs := e.acc.mp ha
  unfold ReadOutcome at hx
  cases hd : decodeRw cdb with
  | none => rw [hd] at hx; exact absurd hs hx
  | some rw_ =>
    rw [hd] at hx
    simp only at hx
    cases hp : rdProtect rw_.protect with
    | none => rw [hp] at hx; exact absurd hs hx
    | some y =>
      obtain ⟨pract, prchk⟩ := y
      rw [hp] at hx
      simp only at hx
      split at hx
      · obtain ⟨-, hb, -, -, -, had, hbl, hal⟩ := hx
        refine ⟨rw_, pract, prchk, x.2.1, rfl, hp, e.cmds hs, ?_, had, hbl, by rw [e.resp],
          by rw [e.resp]; exact hal, e.world hs⟩
        rw [hb, nsidOf_toNat, prp_toNat]
      · exact absurd hs hx

/-- **C19.** READ acceptance: a READ is accepted exactly if the command block is complete, the protection
code is at most 5, the block count is between 1 and 65535 and the data buffer can hold the blocks. -/
theorem C19_read_accepted (E t w ptr cdb buf lun r t' w') (h : Began E t w ptr cdb buf lun r t' w')
    (hop : isRead (byte cdb 0)) :
    Accepted t' ↔ ∃ rw, decodeRw cdb = some rw ∧ (∀ c, rw.protect = some c → c ≤ 5) ∧
      1 ≤ rw.blocks ∧ rw.blocks ≤ 65535 ∧ rw.blocks * 4096 ≤ buf.len := by
  obtain ⟨x, hx, e⟩ := read_ends h hop
  rw [e.acc]
  change x.1 = .kSuccess ↔ _
  unfold ReadOutcome at hx
  cases hd : decodeRw cdb with
  | none =>
    rw [hd] at hx
    constructor
    · intro hs; exact absurd hs hx
    · rintro ⟨_, h, _⟩; cases h
  | some rw_ =>
    rw [hd] at hx
    simp only at hx
    cases hp : rdProtect rw_.protect with
    | none =>
      rw [hp] at hx
      constructor
      · intro hs; exact absurd hs hx
      · rintro ⟨_, h, h5, _⟩
        cases h
        cases hq : rw_.protect with
        | none => rw [hq] at hp; cases hp
        | some c =>
          have := h5 c hq
          rw [hq] at hp
          have : c = 0 ∨ c = 1 ∨ c = 2 ∨ c = 3 ∨ c = 4 ∨ c = 5 := by omega
          rcases this with rfl | rfl | rfl | rfl | rfl | rfl <;> cases hp
    | some y =>
      rw [hp] at hx
      simp only at hx
      split at hx
      · rename_i hc
        refine ⟨fun _ => ⟨rw_, rfl, ?_, hc⟩, fun _ => hx.1⟩
        intro c hq
        rw [hq] at hp
        rcases Nat.lt_or_ge 5 c with h6 | h6
        · match c, h6 with
          | n + 6, _ => cases hp
        · exact h6
      · rename_i hc
        constructor
        · intro hs; exact absurd hs hx
        · rintro ⟨_, h, _, hc'⟩
          cases h
          exact absurd hc' hc

/-- **C20.** READ never overruns the buffer: the number of bytes the device will transfer, computed from the
emitted command (number of blocks, 0's based, in bytes 48-49), is the announced length and fits in the
caller's buffer. -/
theorem C20_read_fits (E t w ptr cdb buf lun r t' w') (h : Began E t w ptr cdb buf lun r t' w')
    (hop : isRead (byte cdb 0)) (wr : NvmeCmdWrapper) (hwr : wr ∈ t'.GetNvmeWrappers) :
    (leAt wr.cmd.toBytes 48 2 + 1) * 4096 = wr.buffer_len.toNat ∧ wr.buffer_len.toNat ≤ buf.len ∧
      leAt wr.cmd.toBytes 24 8 = prpOf buf := by
  have ha : Accepted t' := by
    obtain ⟨x, hx, e⟩ := read_ends h hop
    rw [e.acc]
    apply Decidable.byContradiction
    intro hn
    rw [e.none hn] at hwr
    cases hwr
  obtain ⟨rw_, hd, hc, hb1, hb2, hb3⟩ := (C19_read_accepted E t w ptr cdb buf lun r t' w' h hop).mp ha
  obtain ⟨rw', pract, prchk, wr', hd', -, hcmds, hbytes, -, hlen, -⟩ :=
    C18_read E t w ptr cdb buf lun r t' w' h hop ha
  rw [hd] at hd'
  cases hd'
  rw [hcmds] at hwr
  simp only [List.mem_cons, List.not_mem_nil, or_false] at hwr
  subst hwr
  rw [hbytes, hlen]
  refine ⟨?_, hb3, ?_⟩
  · have e : leAt (readSqe (nsidOfLun lun) rw_.lba rw_.blocks prchk pract rw_.fua (prpOf buf)) 48 2
        = ioCdw12 rw_.blocks prchk pract rw_.fua % 65536 := by
      unfold readSqe sqe leAt be le zeros
      simp [List.range, List.range.loop]
      omega
    rw [e]
    have e2 : ioCdw12 rw_.blocks prchk pract rw_.fua % 65536 = rw_.blocks - 1 := by
      unfold ioCdw12
      omega
    rw [e2]
    congr 1
    omega
  · have hp : prpOf buf < 2 ^ 64 := Nat.mod_lt _ (by decide)
    generalize prpOf buf = q at hp
    unfold readSqe sqe leAt be le zeros
    simp [List.range, List.range.loop]
    omega

/-- The hypotheses of C18-C20 are met by a READ(10) of two blocks at block 5 with FUA for LUN 3; the emitted
command is the expected one. -/
example : ∃ r t' w', Began Demo.env (Translation.init Demo.ws) ⟨Demo.mem Demo.read10, []⟩ 0x100 Demo.read10
    Demo.data 3 r t' w' ∧ isRead (byte Demo.read10 0) ∧ Accepted t' ∧ r.alloc_len = 8192 ∧
      t'.GetNvmeWrappers.map (fun wr => wr.cmd.toBytes) = [readSqe 4 5 2 7 true true 0x8000] :=
  began_of _ _ _ _ _ _ _ (fun r t' => _ ∧ Accepted t' ∧ r.alloc_len = 8192 ∧ _ = _)
    (by decide +kernel) (by decide +kernel)

/-! ## WRITE -/

theorem write_ends {E t w ptr cdb buf lun r t' w'} (h : Began E t w ptr cdb buf lun r t' w')
    (hop : isWrite (byte cdb 0)) : ∃ x, WriteOutcome cdb (nsidOf lun) buf x ∧
      Ends E t ptr cdb (beginWrite x (startPipe t)) w r t' w' := by
  obtain ⟨x, hx, e⟩ := switch_write E cdb buf (nsidOf lun) (startPipe t) hop
  exact ⟨x, hx, h.ends (isWrite_ne hop) (by rw [e]; rfl)⟩

/-- What an accepted WRITE should yield (C21): exactly one command, for the I/O queue: the NVMe Write with
the LBA, block count, FUA and protection bits of the command block, the namespace of the LUN, the address of
the data buffer. -/
def writeTranslated (cdb : List Byte) (buf : Span) (lun : U64) (r : BeginResponse) (t' : Translation) : Prop :=
  ∃ rw pract prchk wr, decodeRw cdb = some rw ∧ wrProtect rw.protect = some (pract, prchk) ∧
    t'.GetNvmeWrappers = [wr] ∧
    wr.cmd.toBytes = writeSqe (nsidOfLun lun) rw.lba rw.blocks prchk pract rw.fua (prpOf buf) ∧
    wr.is_admin = false ∧ wr.buffer_len.toNat = buf.len % 2 ^ 32 ∧ r.alloc_len = 0

/-- **C21**, full statement (false, see `C21_refuted`). -/
def C21_statement : Prop := ∀ E t w ptr cdb buf lun r t' w', Began E t w ptr cdb buf lun r t' w' →
  isWrite (byte cdb 0) → Accepted t' → writeTranslated cdb buf lun r t'

theorem writeCmd_toBytes' (nsid lo hi c12 : U32) (ptr : U64) (lba blocks prchk : Nat) (pract fua : Bool)
    (h0 : lo.toNat = lba % 2 ^ 32) (h1 : hi.toNat = lba / 2 ^ 32)
    (h2 : c12.toNat = ioCdw12 blocks prchk pract fua) :
    (writeCmd nsid lo hi c12 ptr).toBytes
      = writeSqe nsid.toNat lba blocks prchk pract fua ptr.toNat := by
  unfold writeCmd
  rw [toBytes_sqe, h0, h1, h2]
  rfl

/-- WRITE, every accepted command: the block count of the command is taken modulo 65536; a multiple of
65536 turns command dword 12 into FFFFFFFFh. -/
theorem C21_write_all (E t w ptr cdb buf lun r t' w') (h : Began E t w ptr cdb buf lun r t' w')
    (hop : isWrite (byte cdb 0)) (ha : Accepted t') :
    ∃ rw pract prchk wr, decodeRw cdb = some rw ∧ wrProtect rw.protect = some (pract, prchk) ∧ 1 ≤ rw.blocks ∧
      t'.GetNvmeWrappers = [wr] ∧
      wr.cmd.toBytes = (if rw.blocks % 65536 = 0 then
          sqe 0x01 (nsidOfLun lun) (prpOf buf) (rw.lba % 2 ^ 32) (rw.lba / 2 ^ 32) 0xffffffff
        else writeSqe (nsidOfLun lun) rw.lba (rw.blocks % 65536) prchk pract rw.fua (prpOf buf)) ∧
      wr.is_admin = false ∧ wr.buffer_len.toNat = buf.len % 2 ^ 32 ∧
      r = ⟨.kSuccess, 0⟩ ∧ w' = w := by
  obtain ⟨x, hx, e⟩ := write_ends h hop
  have hs := e.acc.mp ha
  unfold WriteOutcome at hx
  cases hd : decodeRw cdb with
  | none => rw [hd] at hx; exact absurd hs hx
  | some rw_ =>
    rw [hd] at hx
    simp only at hx
    cases hp : wrProtect rw_.protect with
    | none => rw [hp] at hx; exact absurd hs hx
    | some y =>
      obtain ⟨pract, prchk⟩ := y
      rw [hp] at hx
      simp only at hx
      split at hx
      · rename_i hb
        obtain ⟨-, lo, hi, c12, hwr, h0, h1, h2, h3⟩ := hx
        refine ⟨rw_, pract, prchk, x.2, rfl, hp, hb, e.cmds hs, ?_, by rw [hwr], ?_, ?_, e.world hs⟩
        · rw [hwr]
          simp only
          split
          · rename_i hz
            unfold writeCmd
            rw [toBytes_sqe, h0, h1, h3 hz, nsidOf_toNat, prp_toNat]
            rfl
          · rw [writeCmd_toBytes' _ _ _ _ _ rw_.lba _ _ _ _ h0 h1 (h2 (by omega)), nsidOf_toNat, prp_toNat]
        · rw [hwr]; simp only [BitVec.toNat_ofNat]
        · rw [e.resp]; rfl
      · exact absurd hs hx

/-- **C21** for block counts up to 65535 (all WRITE(6) and WRITE(10)); the missing part, larger counts of
WRITE(12) and WRITE(16), is false: `C21_refuted`. -/
theorem C21_write_partial (E t w ptr cdb buf lun r t' w') (h : Began E t w ptr cdb buf lun r t' w')
    (hop : isWrite (byte cdb 0)) (ha : Accepted t')
    (hb : ∀ rw, decodeRw cdb = some rw → rw.blocks ≤ 65535) : writeTranslated cdb buf lun r t' := by
  obtain ⟨rw_, pract, prchk, wr, hd, hp, h1, hc, hbytes, had, hl, hr, -⟩ :=
    C21_write_all E t w ptr cdb buf lun r t' w' h hop ha
  have := hb rw_ hd
  refine ⟨rw_, pract, prchk, wr, hd, hp, hc, ?_, had, hl, by rw [hr]⟩
  rw [hbytes, Nat.mod_eq_of_lt (by omega), if_neg (by omega)]

/-- A WRITE(12) of 65537 blocks at block 0. -/
def write12Huge : List Byte := [0xaa, 0, 0, 0, 0, 0, 0, 1, 0, 1, 0, 0]

/-- C21 does not hold: a WRITE(12) of 65537 blocks is accepted and becomes an NVMe Write of one block. -/
theorem C21_refuted : ¬ C21_statement := by
  intro hall
  obtain ⟨r, t', w', hb, hf⟩ := began_of Demo.env Demo.ws ⟨Demo.mem write12Huge, []⟩ 0x100 write12Huge
    Demo.data 0 (fun r t' => Accepted t' ∧
      t'.GetNvmeWrappers.map (fun wr => wr.cmd.toBytes) = [writeSqe 1 0 1 0 true false 0x8000])
    (by decide +kernel) (by decide +kernel)
  obtain ⟨ha, hc⟩ := hf
  obtain ⟨rw_, pract, prchk, wr, hd, hp, hc', hbytes, -⟩ :=
    hall _ _ _ _ _ _ _ _ _ _ hb (by decide) ha
  rw [hc'] at hc
  simp only [List.map_cons, List.map_nil, List.cons.injEq, and_true] at hc
  rw [hbytes] at hc
  have hd' : decodeRw write12Huge = some ⟨0, 65537, some 0, false⟩ := by decide +kernel
  rw [hd'] at hd
  cases hd
  have hp' : wrProtect (some 0) = some (true, 0) := rfl
  rw [hp'] at hp
  cases hp
  revert hc
  decide +kernel

/-- **C22.** WRITE acceptance: a WRITE is accepted exactly if the command block is complete, the protection
code is at most 5 and the block count is not zero. -/
theorem C22_write_accepted (E t w ptr cdb buf lun r t' w') (h : Began E t w ptr cdb buf lun r t' w')
    (hop : isWrite (byte cdb 0)) :
    Accepted t' ↔ ∃ rw, decodeRw cdb = some rw ∧ (∀ c, rw.protect = some c → c ≤ 5) ∧ 1 ≤ rw.blocks := by
  obtain ⟨x, hx, e⟩ := write_ends h hop
  rw [e.acc]
  change x.1 = .kSuccess ↔ _
  unfold WriteOutcome at hx
  cases hd : decodeRw cdb with
  | none =>
    rw [hd] at hx
    constructor
    · intro hs; exact absurd hs hx
    · rintro ⟨_, h, _⟩; cases h
  | some rw_ =>
    rw [hd] at hx
    simp only at hx
    cases hp : wrProtect rw_.protect with
    | none =>
      rw [hp] at hx
      constructor
      · intro hs; exact absurd hs hx
      · rintro ⟨_, h, h5, _⟩
        cases h
        cases hq : rw_.protect with
        | none => rw [hq] at hp; cases hp
        | some c =>
          have := h5 c hq
          rw [hq] at hp
          have : c = 0 ∨ c = 1 ∨ c = 2 ∨ c = 3 ∨ c = 4 ∨ c = 5 := by omega
          rcases this with rfl | rfl | rfl | rfl | rfl | rfl <;> cases hp
    | some y =>
      rw [hp] at hx
      simp only at hx
      split at hx
      · rename_i hc
        refine ⟨fun _ => ⟨rw_, rfl, ?_, hc⟩, fun _ => hx.1⟩
        intro c hq
        rw [hq] at hp
        rcases Nat.lt_or_ge 5 c with h6 | h6
        · match c, h6 with
          | n + 6, _ => cases hp
        · exact h6
      · rename_i hc
        constructor
        · intro hs; exact absurd hs hx
        · rintro ⟨_, h, _, hc'⟩
          cases h
          exact absurd hc' hc

/-- **C23**, full statement (false, see `C23_refuted`): the bytes the device will fetch for an accepted
WRITE fit in the caller's data-out buffer. -/
def C23_statement : Prop := ∀ E t w ptr cdb buf lun r t' w', Began E t w ptr cdb buf lun r t' w' →
  isWrite (byte cdb 0) → ∀ wr ∈ t'.GetNvmeWrappers, (leAt wr.cmd.toBytes 48 2 + 1) * 4096 ≤ buf.len

/-- A WRITE(10) of two blocks. -/
def write10 : List Byte := [0x2a, 0, 0, 0, 0, 9, 0, 0, 2, 0]

/-- C23 does not hold: a WRITE(10) of two blocks with a data-out buffer of one block is accepted. -/
theorem C23_refuted : ¬ C23_statement := by
  intro hall
  obtain ⟨r, t', w', hb, hf⟩ := began_of Demo.env Demo.ws ⟨Demo.mem write10, []⟩ 0x100 write10
    ⟨0x8000, 4096⟩ 0 (fun r t' => t'.GetNvmeWrappers.map (fun wr => leAt wr.cmd.toBytes 48 2) = [1])
    (by decide +kernel) (by decide +kernel)
  have hc := hf
  have := hall _ _ _ _ _ _ _ _ _ _ hb (by decide)
  cases hw : t'.GetNvmeWrappers with
  | nil => rw [hw] at hc; cases hc
  | cons wr l =>
    rw [hw] at hc
    simp only [List.map_cons, List.cons.injEq] at hc
    have := this wr (by rw [hw]; simp)
    rw [hc.1] at this
    revert this
    decide

/-- **C23**, what does hold: the device fetches what the command block asks for, so the transfer stays inside
every data-out buffer that holds the requested blocks (at most 65535). The library itself does not check. -/
theorem C23_write_fits_partial (E t w ptr cdb buf lun r t' w') (h : Began E t w ptr cdb buf lun r t' w')
    (hop : isWrite (byte cdb 0))
    (hbuf : ∀ rw, decodeRw cdb = some rw → rw.blocks ≤ 65535 ∧ rw.blocks * 4096 ≤ buf.len)
    (wr : NvmeCmdWrapper) (hwr : wr ∈ t'.GetNvmeWrappers) :
    (leAt wr.cmd.toBytes 48 2 + 1) * 4096 ≤ buf.len ∧ leAt wr.cmd.toBytes 24 8 = prpOf buf := by
  have ha : Accepted t' := by
    obtain ⟨x, hx, e⟩ := write_ends h hop
    rw [e.acc]
    apply Decidable.byContradiction
    intro hn
    rw [e.none hn] at hwr
    cases hwr
  obtain ⟨rw_, pract, prchk, wr', hd, hp, hc, hbytes, -, -, -⟩ :=
    C21_write_partial E t w ptr cdb buf lun r t' w' h hop ha fun rw_ h => (hbuf rw_ h).1
  obtain ⟨rw', hd', -, h1⟩ := (C22_write_accepted E t w ptr cdb buf lun r t' w' h hop).mp ha
  rw [hd] at hd'
  cases hd'
  obtain ⟨hb1, hb2⟩ := hbuf rw_ hd
  rw [hc] at hwr
  simp only [List.mem_cons, List.not_mem_nil, or_false] at hwr
  subst hwr
  rw [hbytes]
  refine ⟨?_, ?_⟩
  · have e : leAt (writeSqe (nsidOfLun lun) rw_.lba rw_.blocks prchk pract rw_.fua (prpOf buf)) 48 2
        = ioCdw12 rw_.blocks prchk pract rw_.fua % 65536 := by
      unfold writeSqe sqe leAt be le zeros
      simp [List.range, List.range.loop]
      omega
    have e2 : ioCdw12 rw_.blocks prchk pract rw_.fua % 65536 = rw_.blocks - 1 := by
      unfold ioCdw12
      omega
    rw [e, e2]
    have : rw_.blocks - 1 + 1 = rw_.blocks := by omega
    rw [this]
    exact hb2
  · have hp : prpOf buf < 2 ^ 64 := Nat.mod_lt _ (by decide)
    generalize prpOf buf = q at hp
    unfold writeSqe sqe leAt be le zeros
    simp [List.range, List.range.loop]
    omega

/-- The hypotheses of C21-C23 are met by a WRITE(10). -/
example : ∃ r t' w', Began Demo.env (Translation.init Demo.ws) ⟨Demo.mem write10, []⟩ 0x100 write10
    Demo.data 3 r t' w' ∧ isWrite (byte write10 0) ∧ Accepted t' ∧
      (decodeRw write10).map (·.blocks) = some 2 ∧
      t'.GetNvmeWrappers.map (fun wr => wr.cmd.toBytes) = [writeSqe 4 9 2 0 true false 0x8000] :=
  began_of _ _ _ _ _ _ _ (fun _ t' => _ ∧ Accepted t' ∧ _ = _ ∧ _ = _)
    (by decide +kernel) (by decide +kernel)

end Scsi2Nvme
