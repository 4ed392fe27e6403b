import Verif.Proofs.Mem
import Verif.Spec.Wire
/-!
# Links between the byte-position specification and the structure layouts of the model
-/

namespace Scsi2Nvme
open Spec

theorem Spec.be_append (a : List Byte) (b : Byte) : be (a ++ [b]) = 256 * be a + b.toNat := by
  simp [be, List.foldl_append]

theorem Spec.be_eq (bs : List Byte) : be bs = leNat bs.reverse := by
  rw [← List.reverse_reverse bs]
  generalize bs.reverse = cs
  rw [List.reverse_reverse]
  induction cs with
  | nil => rfl
  | cons c cs ih => rw [List.reverse_cons, be_append, ih, leNat]; omega

theorem Spec.le_eq (k n : Nat) : le k n = leBytes k n := by
  induction k generalizing n with
  | zero => rfl
  | succ k ih =>
    unfold le
    rw [List.range_succ_eq_map, List.map_cons, List.map_map, leBytes, ← ih]
    simp only [Nat.pow_zero, Nat.div_one, le]
    congr 1
    apply List.map_congr_left
    intro i _
    simp [Nat.pow_succ, Nat.div_div_eq_div_mul, Nat.mul_comm]

@[simp] theorem Spec.le_length (k n : Nat) : (le k n).length = k := by simp [le]
@[simp] theorem Spec.beBytes_length (k n : Nat) : (beBytes k n).length = k := by simp [beBytes]
@[simp] theorem Spec.zeros_length (k : Nat) : (zeros k).length = k := by simp [zeros]

theorem Spec.be_lt (bs : List Byte) : be bs < 256 ^ bs.length := by
  rw [be_eq]; simpa using leNat_lt bs.reverse

theorem Spec.be_beBytes (k n : Nat) : be (beBytes k n) = n % 256 ^ k := by
  rw [be_eq, beBytes, le_eq, List.reverse_reverse, leNat_leBytes]

theorem Spec.beAt_lt (bs : List Byte) (p l : Nat) : beAt bs p l < 256 ^ l := by
  have := be_lt ((bs.drop p).take l)
  refine Nat.lt_of_lt_of_le this (Nat.pow_le_pow_right (by omega) ?_)
  simp; omega

theorem Spec.leAt_eq (bs : List Byte) (p l : Nat) : leAt bs p l = leNat ((bs.drop p).take l) := by
  rw [leAt, be_eq, List.reverse_reverse]

theorem leBytes_zero (k : Nat) : leBytes k 0 = zeros k := by
  induction k with
  | zero => rfl
  | succ k ih => rw [leBytes, Nat.zero_div, ih]; rfl

/-! ## Fields of a structure read from the CDB -/

/-- The bytes seen by a field of a structure of `N` bytes read after the opcode. -/
theorem tail_slice (cdb : List Byte) (N k n : Nat) (h : k + n ≤ N) :
    ((cdb.tail.take N).drop k).take n = (cdb.drop (k + 1)).take n := by
  rw [← List.drop_one, List.drop_take, List.take_take, List.drop_drop]
  congr 1
  · omega
  · congr 1; omega

theorem tail_getD (cdb : List Byte) (N k : Nat) (h : k < N) :
    (cdb.tail.take N).getD k 0 = cdb.getD (k + 1) 0 := by
  simp [List.getD, h, List.getElem?_tail]

/-- A byte aligned field after the byte swap is the big endian number at its position in the CDB. -/
theorem bswap_getF (cdb : List Byte) (N k n : Nat) (h : k + n ≤ N) (hl : N + 1 ≤ cdb.length) :
    (bswap n (getF (cdb.tail.take N) ⟨8 * k⟩)).toNat = beAt cdb (k + 1) n := by
  rw [getF_aligned, tail_slice _ _ _ _ h, bswap_ofNat _ _ (by simp; omega), BitVec.toNat_ofNat, beAt,
    be_eq, two_pow_eight_mul]
  apply Nat.mod_eq_of_lt
  have := leNat_lt ((cdb.drop (k+1)).take n).reverse
  rw [List.length_reverse, List.length_take, Nat.min_eq_left (by simp; omega)] at this
  exact this

/-- A byte field. -/
theorem getF_byte (cdb : List Byte) (N k : Nat) (h : k < N) :
    (getF (cdb.tail.take N) ⟨8 * k⟩ : BitVec 8).toNat = byte cdb (k + 1) := by
  have := getF_sub (cdb.tail.take N) k 0 8 (by omega)
  rw [Nat.add_zero] at this
  rw [this, tail_getD _ _ _ h]
  simp [byte]

/-- A sub-byte field. -/
theorem getF_bits (cdb : List Byte) (N k r w : Nat) (h : k < N) (hr : r + w ≤ 8) :
    (getF (cdb.tail.take N) ⟨8 * k + r⟩ : BitVec w).toNat = byte cdb (k + 1) / 2 ^ r % 2 ^ w := by
  rw [getF_sub _ _ _ _ hr, tail_getD _ _ _ h]
  simp [byte]

theorem isLittleEndian_little : isLittleEndian .little = true := by decide +kernel
theorem isLittleEndian_big : isLittleEndian .big = false := by decide +kernel

theorem htonllE_little (v : U64) : htonllE .little v = bswap_64 v := by
  unfold htonllE
  rw [if_pos isLittleEndian_little]
  simp only [htonlE, bswap_32, bswap_64]
  apply BitVec.eq_of_toNat_eq
  have e1 : (v >>> 32).setWidth 32 = (BitVec.ofNat (8*4) (leNat ((leBytes 8 v.toNat).drop 4)) : BitVec (8 * 4)) := by
    apply BitVec.eq_of_toNat_eq
    rw [leBytes_drop, leNat_leBytes]
    have := v.isLt
    simp [Nat.shiftRight_eq_div_pow]
  have e2 : (v &&& 0xFFFFFFFF#64).setWidth 32 = (BitVec.ofNat (8*4) (leNat ((leBytes 8 v.toNat).take 4)) : BitVec (8 * 4)) := by
    apply BitVec.eq_of_toNat_eq
    rw [leBytes_take _ _ _ (by omega), leNat_leBytes]
    have := v.isLt
    have h : ∀ x, x &&& 4294967295 = x % 2 ^ 32 := fun x => Nat.and_two_pow_sub_one_eq_mod x 32
    simp [h]
  rw [e1, e2, bswap_ofNat _ _ (by simp), bswap_ofNat _ _ (by simp), bswap_toNat]
  have hs : leBytes 8 v.toNat = (leBytes 8 v.toNat).take 4 ++ (leBytes 8 v.toNat).drop 4 := by
    rw [List.take_append_drop]
  rw [hs]
  generalize h1 : (leBytes 8 v.toNat).take 4 = a
  generalize h2 : (leBytes 8 v.toNat).drop 4 = b
  have la : a.length = 4 := by rw [← h1]; simp
  have lb : b.length = 4 := by rw [← h2]; simp
  rw [List.take_left' la, List.drop_left' la, List.reverse_append, leNat_append]
  have ha := leNat_lt a.reverse
  have hb := leNat_lt b.reverse
  simp only [List.length_reverse, la, lb] at ha hb ⊢
  rw [BitVec.toNat_or]
  simp only [BitVec.toNat_shiftLeft, BitVec.toNat_setWidth, BitVec.toNat_ofNat]
  generalize leNat a.reverse = x at *
  generalize leNat b.reverse = y at *
  rw [Nat.mod_eq_of_lt (show x < 2 ^ (8*4) by omega), Nat.mod_eq_of_lt (show y < 2 ^ (8*4) by omega),
    Nat.mod_eq_of_lt (show x < 2 ^ 64 by omega), Nat.mod_eq_of_lt (show y < 2 ^ 64 by omega),
    Nat.shiftLeft_eq, Nat.mod_eq_of_lt (show x * 2 ^ 32 < 2 ^ 64 by omega),
    ← Nat.shiftLeft_eq, ← Nat.shiftLeft_add_eq_or_of_lt (show y < 2 ^ 32 by omega), Nat.shiftLeft_eq]
  omega

@[simp] theorem ntohs_def (v : U16) : ntohs v = bswap 2 v := rfl
@[simp] theorem htons_def (v : U16) : htons v = bswap 2 v := rfl
@[simp] theorem ntohl_def (v : U32) : ntohl v = bswap 4 v := rfl
@[simp] theorem htonl_def (v : U32) : htonl v = bswap 4 v := rfl
@[simp] theorem ntohll_def (v : U64) : ntohll v = bswap 8 v := htonllE_little v
@[simp] theorem htonll_def (v : U64) : htonll v = bswap 8 v := htonllE_little v
@[simp] theorem htols_def (v : U16) : htols v = v := by
  unfold htols htolsE
  rw [show host = .little from rfl, if_pos isLittleEndian_little]
@[simp] theorem htoll_def (v : U32) : htoll v = v := by
  unfold htoll htollE
  rw [show host = .little from rfl, if_pos isLittleEndian_little]
@[simp] theorem htolll_def (v : U64) : htolll v = v := by
  unfold htolll htolllE
  rw [show host = .little from rfl, if_pos isLittleEndian_little]
@[simp] theorem bswap_16_def (v : U16) : bswap_16 v = bswap 2 v := rfl
@[simp] theorem bswap_32_def (v : U32) : bswap_32 v = bswap 4 v := rfl
@[simp] theorem bswap_64_def (v : U64) : bswap_64 v = bswap 8 v := rfl

/-- The bytes a big endian conversion produces in memory. -/
theorem leBytes_bswap_be (n : Nat) (v : BitVec (8 * n)) :
    leBytes n (bswap n v).toNat = beBytes n v.toNat := by
  rw [leBytes_bswap, beBytes, le_eq]

theorem leBytes_bswap_2 (v : U16) : leBytes 2 (bswap 2 v).toNat = beBytes 2 v.toNat := leBytes_bswap_be 2 v
theorem leBytes_bswap_4 (v : U32) : leBytes 4 (bswap 4 v).toNat = beBytes 4 v.toNat := leBytes_bswap_be 4 v
theorem leBytes_bswap_8 (v : U64) : leBytes 8 (bswap 8 v).toNat = beBytes 8 v.toNat := leBytes_bswap_be 8 v

/-! ## The command image -/

theorem GenericQueueEntryCmd_toBytes (c : Nvme.GenericQueueEntryCmd) :
    c.toBytes = leBytes 1 c.opc.toNat
      ++ leBytes 1 (c.fuse.toNat + 4 * c.rsvd1.toNat + 64 * c.psdt.toNat)
      ++ leBytes 2 c.cid.toNat ++ leBytes 4 c.nsid.toNat ++ leBytes 4 c.rsvd2.toNat
      ++ leBytes 4 c.rsvd3.toNat ++ leBytes 8 c.mptr.toNat ++ leBytes 8 c.prp1.toNat
      ++ leBytes 8 c.prp2.toNat ++ leBytes 4 c.cdw_0.toNat ++ leBytes 4 c.cdw_1.toNat
      ++ leBytes 4 c.cdw_2.toNat ++ leBytes 4 c.cdw_3.toNat ++ leBytes 4 c.cdw_4.toNat
      ++ leBytes 4 c.cdw_5.toNat := by
  have h1 := c.opc.isLt; have h2 := c.fuse.isLt; have h3 := c.rsvd1.isLt; have h4 := c.psdt.isLt
  have h5 := c.cid.isLt; have h6 := c.nsid.isLt; have h7 := c.rsvd2.isLt; have h8 := c.rsvd3.isLt
  have h9 := c.mptr.isLt; have h10 := c.prp1.isLt; have h11 := c.prp2.isLt
  have h12 := c.cdw_0.isLt; have h13 := c.cdw_1.isLt; have h14 := c.cdw_2.isLt
  have h15 := c.cdw_3.isLt; have h16 := c.cdw_4.isLt; have h17 := c.cdw_5.isLt
  unfold Nvme.GenericQueueEntryCmd.toBytes
  simp only [packBits, Nat.zero_add, Nat.reduceAdd, Nat.reduceDiv, Nat.reduceMod, Nat.pow_zero,
    Nat.mul_one, Nat.reducePow, Nat.div_one]
  simp only [leBytes, List.nil_append, List.append_nil, List.append_assoc]
  rw [Nat.div_eq_of_lt (show c.opc.toNat < 256 by omega)]
  simp only [Nat.zero_add]
  rw [Nat.div_eq_of_lt (show (c.fuse.toNat + c.rsvd1.toNat * 4 + c.psdt.toNat * 64) < 256 by omega)]
  simp only [Nat.zero_add]
  rw [Nat.div_eq_of_lt (show c.cid.toNat < 65536 by omega)]
  simp only [Nat.zero_add]
  rw [Nat.div_eq_of_lt (show c.nsid.toNat < 4294967296 by omega)]
  simp only [Nat.zero_add]
  rw [Nat.div_eq_of_lt (show c.rsvd2.toNat < 4294967296 by omega)]
  simp only [Nat.zero_add]
  rw [Nat.div_eq_of_lt (show c.rsvd3.toNat < 4294967296 by omega)]
  simp only [Nat.zero_add]
  rw [Nat.div_eq_of_lt (show c.mptr.toNat < 18446744073709551616 by omega)]
  simp only [Nat.zero_add]
  rw [Nat.div_eq_of_lt (show c.prp1.toNat < 18446744073709551616 by omega)]
  simp only [Nat.zero_add]
  rw [Nat.div_eq_of_lt (show c.prp2.toNat < 18446744073709551616 by omega)]
  simp only [Nat.zero_add]
  rw [Nat.div_eq_of_lt (show c.cdw_0.toNat < 4294967296 by omega)]
  simp only [Nat.zero_add]
  rw [Nat.div_eq_of_lt (show c.cdw_1.toNat < 4294967296 by omega)]
  simp only [Nat.zero_add]
  rw [Nat.div_eq_of_lt (show c.cdw_2.toNat < 4294967296 by omega)]
  simp only [Nat.zero_add]
  rw [Nat.div_eq_of_lt (show c.cdw_3.toNat < 4294967296 by omega)]
  simp only [Nat.zero_add]
  rw [Nat.div_eq_of_lt (show c.cdw_4.toNat < 4294967296 by omega)]
  simp only [Nat.zero_add, Nat.mul_comm]

/-- Commands in which only the opcode, namespace, PRP1 and dwords 10-12 are set. -/
theorem toBytes_sqe (opc : Byte) (nsid : U32) (prp1 : U64) (c0 c1 c2 : U32) :
    ({ opc := opc, nsid := nsid, prp1 := prp1, cdw_0 := c0, cdw_1 := c1, cdw_2 := c2 } :
      Nvme.GenericQueueEntryCmd).toBytes
    = sqe opc.toNat nsid.toNat prp1.toNat c0.toNat c1.toNat c2.toNat := by
  rw [GenericQueueEntryCmd_toBytes]
  simp only [sqe, le_eq, BitVec.ofNat_eq_ofNat, BitVec.toNat_ofNat, Nat.zero_mod,
    Nat.mul_zero, Nat.add_zero, leBytes_zero, zeros, List.append_assoc]
  simp [List.replicate]

end Scsi2Nvme
