import Verif.Properties.Capacity
import Verif.Properties.ReadWrite
import Verif.Spec.Prp
/-!
# C88, C89: the geometry told to the initiator and to the controller
-/

namespace Scsi2Nvme
open Spec

/-! ## C88: block length -/

/-- **C88**, full statement (false, see `C88_refuted`): the block length returned by READ CAPACITY(10) of a logical
unit is the one READ commands of this unit transfer. -/
def C88_statement : Prop := ∀ (x : Ran) (ns : List Byte), GoodAllocator x.E → Asked x 0x25 ns →
  9 ≤ lbads ns → lbads ns ≤ 31 → 8 ≤ x.din.len →
  ∀ E t w ptr cdb buf r t' w', Began E t w ptr cdb buf x.lun r t' w' → isRead (byte cdb 0) → Accepted t' →
  ∃ last b rw, last.length = 4 ∧ b < 2 ^ 32 ∧ x.wrote x.din.ptr (last ++ beBytes 4 b) ∧ decodeRw cdb = some rw ∧
    r.alloc_len.toNat = rw.blocks * b

/-- **C88 (partial).** READ CAPACITY(10) returns the block length of the namespace, and every accepted READ announces
(and its NVMe command has a buffer of) 4096 bytes a block: the two agree exactly on namespaces with blocks of 4096
bytes.  Missing: all others, where they never agree. -/
theorem C88_exact_partial (x : Ran) (ns : List Byte) (hg : GoodAllocator x.E) (hx : Asked x 0x25 ns)
    (h9 : 9 ≤ lbads ns) (h31 : lbads ns ≤ 31) (hl : 8 ≤ x.din.len)
    (E t w ptr cdb buf r t' w') (h : Began E t w ptr cdb buf x.lun r t' w') (hop : isRead (byte cdb 0))
    (ha : Accepted t') :
    ∃ last rw wr, last.length = 4 ∧ x.wrote x.din.ptr (last ++ beBytes 4 (2 ^ lbads ns)) ∧ decodeRw cdb = some rw ∧
      t'.GetNvmeWrappers = [wr] ∧ leAt wr.cmd.toBytes 48 2 + 1 = rw.blocks ∧
      r.alloc_len.toNat = rw.blocks * 4096 ∧ wr.buffer_len.toNat = rw.blocks * 4096 ∧
      (r.alloc_len.toNat = rw.blocks * 2 ^ lbads ns ↔ lbads ns = 12) := by
  have hw := (C44_read_capacity_data x ns hg hx).2
  rw [if_pos ⟨h9, h31, hl⟩] at hw
  obtain ⟨rw_, hd, -, hb1, hb2, hb3⟩ := (C19_read_accepted E t w ptr cdb buf x.lun r t' w' h hop).mp ha
  obtain ⟨rw', pract, prchk, wr, hd', -, hc, hbytes, -, hlen, -, hal, -⟩ :=
    C18_read E t w ptr cdb buf x.lun r t' w' h hop ha
  rw [hd] at hd'
  cases hd'
  have hblk : leAt wr.cmd.toBytes 48 2 + 1 = rw_.blocks := by
    rw [hbytes]
    have e : leAt (readSqe (nsidOfLun x.lun) rw_.lba rw_.blocks prchk pract rw_.fua (prpOf buf)) 48 2
        = ioCdw12 rw_.blocks prchk pract rw_.fua % 65536 := by
      unfold readSqe sqe leAt be le zeros
      simp [List.range, List.range.loop]
      omega
    rw [e]
    unfold ioCdw12
    omega
  refine ⟨_, rw_, wr, by simp [beBytes], hw, hd, hc, hblk, hal, hlen, ?_⟩
  rw [hal]
  constructor
  · intro e
    have e2 : 2 ^ 12 = 2 ^ lbads ns := Nat.eq_of_mul_eq_mul_left (by omega) e
    exact ((Nat.pow_right_inj (by decide : 1 < 2)).mp e2).symm
  · intro e; rw [e]

/-- A READ(10) of two blocks is accepted. -/
theorem read10_began : ∃ r t' w', Began Demo.env (Translation.init Demo.ws) ⟨Demo.mem Demo.read10, []⟩
    0x100 Demo.read10 Demo.data 1 r t' w' ∧ Accepted t' ∧ r.alloc_len = 8192 ∧ t'.GetNvmeWrappers.length = 1 ∧
      ∀ wr ∈ t'.GetNvmeWrappers, wr.cmd.toBytes = readSqe 2 5 2 7 true true 0x8000 :=
  began_of _ _ _ _ _ _ _ (fun r t' => Accepted t' ∧ r.alloc_len = 8192 ∧ t'.GetNvmeWrappers.length = 1 ∧
    ∀ wr ∈ t'.GetNvmeWrappers, wr.cmd.toBytes = readSqe 2 5 2 7 true true 0x8000)
    (by decide +kernel) (by decide +kernel)

/-- **C88 is false.** A namespace with blocks of 512 bytes: READ CAPACITY tells 512, READ transfers 4096 a block. -/
theorem C88_refuted : ¬ C88_statement := by
  intro hall
  obtain ⟨x, h1, h2, h3, h6, h4, h5⟩ := Demo.rc_demo Demo.smallNs (by decide +kernel) 8 (by decide)
  obtain ⟨r, t', w', hb, ha, hl, -⟩ := read10_began
  rw [← h6] at hb
  have hlen : 8 ≤ x.din.len := by rw [h3]; decide
  obtain ⟨last, b, rw_, hla, hbb, hw, hd, he⟩ := hall x _ h1 h2 (by decide +kernel) (by decide +kernel) hlen
    _ _ _ _ _ _ _ _ _ hb (by decide +kernel) ha
  have hd' : decodeRw Demo.read10 = some ⟨5, 2, some 0, true⟩ := by decide +kernel
  rw [hd'] at hd
  cases hd
  rw [hl] at he
  have hb4 : b = 4096 := by
    have e8 : (8192 : U32).toNat = 8192 := by decide
    have e2 : (⟨5, 2, some 0, true⟩ : Rw).blocks = 2 := rfl
    rw [e8, e2] at he
    omega
  subst hb4
  have b' := (C44_read_capacity_data x _ h1 h2).2
  rw [if_pos ⟨by decide +kernel, by decide +kernel, hlen⟩] at b'
  rw [h3] at hw b'
  have e := demo_same h1 (by decide) h4 h5 hw b' 6 (by decide)
  have e1 : (last ++ beBytes 4 4096).getD 6 0 = (beBytes 4 4096).getD 2 0 := by
    rw [List.getD_eq_getElem?_getD, List.getElem?_append_right (by omega), hla]
    rfl
  rw [e1] at e
  revert e
  decide +kernel

/-- The hypotheses of C88 are met, with blocks of 512 and of 4096 bytes. -/
example : (∃ x ns, GoodAllocator x.E ∧ Asked x 0x25 ns ∧ x.lun = 1 ∧ lbads ns = 9 ∧ 8 ≤ x.din.len) ∧
    (∃ x ns, GoodAllocator x.E ∧ Asked x 0x25 ns ∧ x.lun = 1 ∧ lbads ns = 12 ∧ 8 ≤ x.din.len) := by
  constructor
  · obtain ⟨x, h1, h2, h3, h4, -⟩ := Demo.rc_demo Demo.smallNs (by decide +kernel) 8 (by decide)
    exact ⟨x, _, h1, h2, h4, by decide +kernel, by rw [h3]; decide⟩
  · obtain ⟨x, h1, h2, h3, h4, -⟩ := Demo.rc_demo ([0x00, 0x10] ++ zeros 128 ++ [12]) (by decide +kernel) 8 (by decide)
    exact ⟨x, _, h1, h2, h4, by decide +kernel, by rw [h3]; decide⟩

/-! ## C89: physical region pages -/

theorem sqe_prp1 (op nsid p c10 c11 c12 : Nat) (hp : p < 2 ^ 64) : prp1 (sqe op nsid p c10 c11 c12) = p := by
  unfold prp1 sqe leAt be le zeros
  simp [List.range, List.range.loop]
  omega

theorem sqe_prp2 (op nsid p c10 c11 c12 : Nat) : prp2 (sqe op nsid p c10 c11 c12) = 0 := by
  unfold prp2 sqe leAt be le zeros
  simp [List.range, List.range.loop]

theorem sqe_transferred (op nsid p c10 c11 c12 : Nat) :
    transferred (sqe op nsid p c10 c11 c12) = c12 % 65536 + 1 := by
  unfold transferred sqe leAt be le zeros
  simp [List.range, List.range.loop]
  omega

/-- **C89**, full statement (false, see `C89_refuted`): the commands handed out for READ and WRITE tell the controller
where all the bytes of the transfer are. -/
def C89_statement : Prop := ∀ E t w ptr cdb buf lun r t' w', Began E t w ptr cdb buf lun r t' w' →
  isRead (byte cdb 0) ∨ isWrite (byte cdb 0) →
  ∀ wr ∈ t'.GetNvmeWrappers, describesAll wr.cmd.toBytes (transferred wr.cmd.toBytes * 4096)

theorem describes_sqe (op nsid p c10 c11 c12 : Nat) (hp : p < 2 ^ 64) :
    describesAll (sqe op nsid p c10 c11 c12) (transferred (sqe op nsid p c10 c11 c12) * 4096)
      ↔ transferred (sqe op nsid p c10 c11 c12) = 1 ∧ p % 4096 = 0 := by
  unfold describesAll firstPage
  rw [sqe_prp1 _ _ _ _ _ _ hp, sqe_prp2, sqe_transferred]
  simp only [ne_eq, not_true_eq_false, or_false]
  omega

/-- **C89 (partial).** Exactly: every command handed out for READ or WRITE has the address of the data buffer as PRP1
and none as PRP2, so all of the transfer is described if and only if it is one block of 4096 bytes and the buffer is
aligned to 4096 bytes.  Missing: everything larger, of which the controller is told the first page only. -/
theorem C89_exact_partial (E t w ptr cdb buf lun r t' w') (h : Began E t w ptr cdb buf lun r t' w')
    (hop : isRead (byte cdb 0) ∨ isWrite (byte cdb 0)) (wr : NvmeCmdWrapper) (hwr : wr ∈ t'.GetNvmeWrappers) :
    prp1 wr.cmd.toBytes = prpOf buf ∧ prp2 wr.cmd.toBytes = 0 ∧
    (describesAll wr.cmd.toBytes (transferred wr.cmd.toBytes * 4096)
      ↔ transferred wr.cmd.toBytes = 1 ∧ prpOf buf % 4096 = 0) := by
  have hp : prpOf buf < 2 ^ 64 := Nat.mod_lt _ (by decide)
  have key : ∃ op nsid c10 c11 c12, wr.cmd.toBytes = sqe op nsid (prpOf buf) c10 c11 c12 := by
    rcases hop with hop | hop
    · have ha : Accepted t' := by
        obtain ⟨x, hx, e⟩ := read_ends h hop
        rw [e.acc]
        apply Decidable.byContradiction
        intro hn
        rw [e.none hn] at hwr
        cases hwr
      obtain ⟨rw_, pract, prchk, wr', -, -, hc, hbytes, -⟩ := C18_read E t w ptr cdb buf lun r t' w' h hop ha
      rw [hc] at hwr
      simp only [List.mem_cons, List.not_mem_nil, or_false] at hwr
      subst hwr
      exact ⟨_, _, _, _, _, hbytes⟩
    · have ha : Accepted t' := by
        obtain ⟨x, hx, e⟩ := write_ends h hop
        rw [e.acc]
        apply Decidable.byContradiction
        intro hn
        rw [e.none hn] at hwr
        cases hwr
      obtain ⟨rw_, pract, prchk, wr', -, -, -, hc, hbytes, -⟩ := C21_write_all E t w ptr cdb buf lun r t' w' h hop ha
      rw [hc] at hwr
      simp only [List.mem_cons, List.not_mem_nil, or_false] at hwr
      subst hwr
      split at hbytes
      · exact ⟨_, _, _, _, _, hbytes⟩
      · exact ⟨_, _, _, _, _, hbytes⟩
  obtain ⟨op, nsid, c10, c11, c12, e⟩ := key
  rw [e]
  exact ⟨sqe_prp1 _ _ _ _ _ _ hp, sqe_prp2 _ _ _ _ _ _, describes_sqe _ _ _ _ _ _ hp⟩

/-- **C89 is false.** The READ(10) of two blocks into an aligned buffer. -/
theorem C89_refuted : ¬ C89_statement := by
  intro hall
  obtain ⟨r, t', w', hb, ha, -, hl, hc⟩ := read10_began
  match hw : t'.GetNvmeWrappers, hl with
  | [wr], _ =>
    have hm : wr ∈ t'.GetNvmeWrappers := by rw [hw]; simp
    have h1 := hall _ _ _ _ _ _ _ _ _ _ hb (.inl (by decide +kernel)) wr hm
    have h2 := ((C89_exact_partial _ _ _ _ _ _ _ _ _ _ hb (.inl (by decide +kernel)) wr hm).2.2.mp h1).1
    rw [hc wr hm] at h2
    revert h2
    decide +kernel

/-- A READ(6) of one block into an aligned buffer is described completely. -/
example : ∃ r t' w', Began Demo.env (Translation.init Demo.ws) ⟨Demo.mem [0x08, 0, 0, 5, 1, 0], []⟩
    0x100 [0x08, 0, 0, 5, 1, 0] Demo.data 1 r t' w' ∧ t'.GetNvmeWrappers.length = 1 ∧
      ∀ wr ∈ t'.GetNvmeWrappers, transferred wr.cmd.toBytes = 1 :=
  began_of _ _ _ _ _ _ _ (fun r t' => t'.GetNvmeWrappers.length = 1 ∧
    ∀ wr ∈ t'.GetNvmeWrappers, transferred wr.cmd.toBytes = 1) (by decide +kernel) (by decide +kernel)

end Scsi2Nvme
