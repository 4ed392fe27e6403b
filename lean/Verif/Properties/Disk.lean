import Verif.Proofs.Disk
import Verif.Proofs.Demos
/-!
# C59: the block store, end to end
-/

namespace Scsi2Nvme
open Spec Engine

/-- **C59.** The engine with an ideal device of 4096-byte blocks, driven by any history of READ and WRITE commands over
any LUNs, is an array of disks: every command is answered, and as the user of such an array expects.  LUN `l` is
namespace `l + 1`. -/
theorem C59_block_store (cap : Nat → Nat) (E : Env) (d : Disk) (tr : List Event) (qs : List Request)
    (hv : ∀ q ∈ qs, q.Valid) :
    ∃ rs d', serve E (idealDevice cap) d tr qs = .ok (rs, d') ∧
      Behaves (fun l => cap (l + 1)) (fun l a => d (l + 1) a) qs rs (fun l a => d' (l + 1) a) := by
  induction qs generalizing d tr with
  | nil => exact ⟨[], d, rfl, .nil⟩
  | cons q qs ih =>
    obtain ⟨r, d1, w1, h1, h2⟩ := ideal_step cap E d q tr (hv q (List.mem_cons_self ..))
    obtain ⟨rs, d', h3, h4⟩ := ih d1 w1.trace fun q hq => hv q (List.mem_cons_of_mem _ hq)
    exact ⟨(r, w1.mem) :: rs, d', by simp only [serve, h1, h3], .cons h2 h4⟩

/-! ## Consequences for the user -/

theorem Disk.read_write_self (d : Disk) (k pos : Nat) (bs : List Byte) : (d.write k pos bs).read k pos bs.length = bs := by
  apply List.ext_getElem?
  intro i
  unfold Disk.read Disk.write
  rw [List.getElem?_map]
  by_cases hi : i < bs.length
  · rw [List.getElem?_range hi]
    simp only [Option.map_some]
    rw [if_pos (by simp; omega), Nat.add_sub_cancel_left, List.getD_eq_getElem?_getD, List.getElem?_eq_getElem hi]
    rfl
  · rw [List.getElem?_eq_none (by simpa using hi), List.getElem?_eq_none (by omega)]
    rfl

theorem Disk.read_write_other (d : Disk) (k pos k' pos' n : Nat) (bs : List Byte)
    (h : k' ≠ k ∨ pos' + n ≤ pos ∨ pos + bs.length ≤ pos') : (d.write k pos bs).read k' pos' n = d.read k' pos' n := by
  unfold Disk.read Disk.write
  apply List.map_congr_left
  intro i hi
  rw [List.mem_range] at hi
  rw [if_neg (by omega)]

theorem Spec.Behaves.append {cap d qs rs d' qs'} (h : Behaves cap d (qs ++ qs') rs d') :
    ∃ rs1 rs2 d1, rs = rs1 ++ rs2 ∧ Behaves cap d qs rs1 d1 ∧ Behaves cap d1 qs' rs2 d' := by
  induction qs generalizing d rs with
  | nil => exact ⟨[], rs, d, rfl, .nil, h⟩
  | cons q qs ih =>
    cases h with
    | cons h1 h2 =>
      obtain ⟨rs1, rs2, d1, rfl, h3, h4⟩ := ih h2
      exact ⟨_ :: rs1, rs2, d1, rfl, .cons h1 h3, h4⟩

theorem Spec.Behaves.length {cap d qs rs d'} (h : Behaves cap d qs rs d') : rs.length = qs.length := by
  induction h with
  | nil => rfl
  | cons _ _ ih => simp [ih]

theorem read_not_write {n : Nat} (h : isRead n) (h' : isWrite n) : False := by
  unfold isRead at h
  unfold isWrite at h'
  omega

theorem asks_unique {q : Request} {cap lba n lba' n' : Nat} (h : q.asks cap lba n) (h' : q.asks cap lba' n') :
    lba' = lba ∧ n' = n := by
  obtain ⟨rw1, e1, -, rfl, rfl, -⟩ := h
  obtain ⟨rw2, e2, -, rfl, rfl, -⟩ := h'
  rw [e1] at e2
  cases e2
  exact ⟨rfl, rfl⟩

/-- The request does not write any of the blocks `lba … lba+n-1` of the LUN. -/
def Request.sparing (q : Request) (cap : Nat → Nat) (lun lba n : Nat) : Prop :=
  isWrite (byte q.cdb 0) → q.lun.toNat = lun → ∀ lba' n', q.asks (cap lun) lba' n' → lba' + n' ≤ lba ∨ lba + n ≤ lba'

theorem Spec.Behaves.keeps {cap d qs rs d'} (h : Behaves cap d qs rs d') (lun lba n : Nat)
    (hs : ∀ q ∈ qs, Request.sparing q cap lun lba n) :
    Disk.read d' lun (4096 * lba) (4096 * n) = Disk.read d lun (4096 * lba) (4096 * n) := by
  induction h with
  | nil => rfl
  | @cons d q r m d1 qs rs d2 h t ih =>
    rw [ih fun q hq => hs q (List.mem_cons_of_mem _ hq)]
    cases h with
    | read => rfl
    | failed => rfl
    | @write lba' n' bs op h good data =>
      apply Disk.read_write_other
      by_cases hl : q.lun.toNat = lun
      · have := hs q (List.mem_cons_self ..) op hl lba' n' (by rw [← hl]; exact h)
        have hlen := read_length data
        omega
      · exact .inl fun e => hl e.symm

/-- **C59**, the last write is read: let a history contain a correct WRITE of some blocks of a LUN, then commands not
writing any of them, and then a correct READ of the same blocks.  Both are answered with GOOD, and the data buffer of
the READ holds what the data buffer of the WRITE held. -/
theorem C59_read_last_write (cap : Nat → Nat) (E : Env) (d : Disk) (tr : List Event) (pre mid : List Request)
    (W R : Request) (hv : ∀ q ∈ pre ++ W :: (mid ++ [R]), q.Valid) (lba n : Nat)
    (hW : isWrite (byte W.cdb 0)) (hWa : W.asks (cap (W.lun.toNat + 1)) lba n)
    (hR : isRead (byte R.cdb 0)) (hRa : R.asks (cap (W.lun.toNat + 1)) lba n) (hlun : R.lun = W.lun)
    (hmid : ∀ q ∈ mid, Request.sparing q (fun l => cap (l + 1)) W.lun.toNat lba n) :
    ∃ rs d', serve E (idealDevice cap) d tr (pre ++ W :: (mid ++ [R])) = .ok (rs, d') ∧
      ∃ rW mW rR mR bs, rs[pre.length]? = some (rW, mW) ∧ rs.getLast? = some (rR, mR) ∧
        rW.return_code = 0 ∧ rR.return_code = 0 ∧
        W.mem.read W.data (4096 * n) = some bs ∧ mR.read R.data (4096 * n) = some bs := by
  obtain ⟨rs, d', h1, h2⟩ := C59_block_store cap E d tr _ hv
  refine ⟨rs, d', h1, ?_⟩
  clear h1 hv
  generalize (fun l a => d' (l + 1) a) = dd at h2
  obtain ⟨rs1, rs2, d1, rfl, b1, b2⟩ := h2.append
  have l1 : rs1.length = pre.length := b1.length
  cases b2 with
  | @cons _ _ rW mW d2 _ rs3 _ hw b3 =>
    obtain ⟨rs4, rs5, d3, rfl, b4, b5⟩ := b3.append
    cases b5 with
    | @cons _ _ rR mR d4 _ _ _ hr b6 =>
      cases b6 with
      | nil =>
        cases hw with
        | read op => exact absurd hW fun h => read_not_write op h
        | failed h => exact absurd hWa (h lba n)
        | @write lbaW nW bs op hwa goodW dataW =>
          obtain ⟨rfl, rfl⟩ := asks_unique hWa hwa
          cases hr with
          | write op => exact absurd op fun h => read_not_write hR h
          | failed h => rw [hlun] at h; exact absurd hRa (h _ _)
          | @read lbaR nR opR hra goodR lenR dataR =>
            rw [hlun] at hra dataR
            obtain ⟨rfl, rfl⟩ := asks_unique hRa hra
            refine ⟨rW, mW, rR, mR, bs, ?_, ?_, goodW, goodR, dataW, ?_⟩
            · rw [List.getElem?_append_right (by omega), l1, Nat.sub_self]
              rfl
            · rw [← List.cons_append, ← List.append_assoc]
              exact List.getLast?_concat
            · rw [dataR, b4.keeps _ _ _ hmid]
              have hlen := read_length dataW
              rw [← hlen]
              rw [Disk.read_write_self]

/-! ## The hypotheses are met -/

/-- A request for LUN 3 with the given command block, data buffer of two blocks. -/
def demoRequest (cdb : List Byte) : Request :=
  { mem := Demo.mem cdb (List.replicate 8192 0x5a), ws := Demo.ws, ptr := 0x100, cdb := cdb, lun := 3, sense := 0x400, senseLen := 32
    data := 0x8000, dataLen := 8192, isIn := true }

theorem demoRequest_valid (cdb : List Byte) (hl : cdb.length < 100) (hop : isRead (byte cdb 0) ∨ isWrite (byte cdb 0))
    (hm : ∀ rw, decodeRw cdb = some rw → rw.blocks ≤ 2) : (demoRequest cdb).Valid where
  stored := by
    refine read_eq_some.mpr ⟨rfl, fun i hi => ?_⟩
    change Demo.mem cdb _ (0x100 + i) = _
    have hi : i < cdb.length := hi
    unfold Demo.mem
    rw [if_neg (by omega), if_pos (by omega), Nat.add_sub_cancel_left]
    rfl
  short := by change cdb.length < 65536; omega
  op := hop
  sense := by
    intro i hi
    change (Demo.mem cdb _ (0x400 + i)).isSome
    have hi : i < 32 := hi
    unfold Demo.mem
    rw [if_neg (by omega), if_neg (by omega), if_neg (by omega), if_pos (by omega)]
    rfl
  data := by
    intro i hi
    change (Demo.mem cdb _ (0x8000 + i)).isSome
    have hi : i < 8192 := hi
    unfold Demo.mem
    rw [if_neg (by omega), if_neg (by omega), if_neg (by omega), if_neg (by omega), if_neg (by omega),
      if_pos (by rw [List.length_replicate]; omega)]
    rw [Nat.add_sub_cancel_left, List.getElem?_replicate, if_pos hi]
    rfl
  space := by change 0x8000 + 8192 ≤ 2 ^ 64; decide
  apart := by
    intro a ha hb
    change inRange 0x8000 8192 a at hb
    change inRange 0x100 cdb.length a at ha
    unfold inRange at ha hb
    omega
  lun := by change 3 + 1 < 2 ^ 32; decide
  matching := by
    intro _ rw_ h
    have := hm rw_ h
    change _ ≤ 8192
    omega

/-- WRITE(10) of blocks 9 and 10, WRITE(10) of block 11, READ(16) of blocks 9 and 10. -/
example : let W := demoRequest [0x2a, 0, 0, 0, 0, 9, 0, 0, 2, 0]
    let V := demoRequest [0x2a, 0, 0, 0, 0, 11, 0, 0, 1, 0]
    let R := demoRequest [0x88, 0, 0, 0, 0, 0, 0, 0, 0, 9, 0, 0, 0, 2, 0, 0]
    (∀ q ∈ [] ++ W :: ([V] ++ [R]), q.Valid) ∧ isWrite (byte W.cdb 0) ∧ W.asks 100 9 2 ∧ isRead (byte R.cdb 0) ∧
      R.asks 100 9 2 ∧ R.lun = W.lun ∧ ∀ q ∈ [V], Request.sparing q (fun _ => 100) 3 9 2 := by
  have dec : ∀ cdb, decodeRw (demoRequest cdb).cdb = decodeRw cdb := fun _ => rfl
  refine ⟨?_, by decide, ?_, by decide, ?_, rfl, ?_⟩
  · intro q hq
    simp only [List.nil_append, List.cons_append, List.mem_cons, List.not_mem_nil, or_false] at hq
    rcases hq with rfl | rfl | rfl <;> exact demoRequest_valid _ (by decide) (by decide) (by intro rw_ h; revert h; decide +revert)
  · exact ⟨⟨9, 2, some 0, false⟩, by decide +kernel, by intro c h; cases h; decide, rfl, rfl, by decide, by decide, by decide⟩
  · exact ⟨⟨9, 2, some 0, false⟩, by decide +kernel, by intro c h; cases h; decide, rfl, rfl, by decide, by decide, by decide⟩
  · intro q hq
    simp only [List.mem_cons, List.not_mem_nil, or_false] at hq
    subst hq
    rintro - - lba n ⟨rw_, h, -, rfl, rfl, -⟩
    have : decodeRw [0x2a, 0, 0, 0, 0, 11, 0, 0, 1, 0] = some ⟨11, 1, some 0, false⟩ := by decide +kernel
    change decodeRw [0x2a, 0, 0, 0, 0, 11, 0, 0, 1, 0] = _ at h
    rw [this] at h
    cases h
    exact .inr (by decide)

end Scsi2Nvme
