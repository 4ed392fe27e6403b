import Verif.Properties.InquiryPages3
/-!
# READ CAPACITY(10) data (C44, C45)
-/

namespace Scsi2Nvme
open Spec

/-- A run of the given operation code in which the device answered all commands successfully and left `page` where
the first command points to. -/
structure Asked (x : Ran) (op : Nat) (page : List Byte) : Prop where
  opcode : byte x.cdb 0 = op
  ok : x.succeeded
  page : x.page 0 page

theorem Spec.Ran.capacityRun {x : Ran} {ns : List Byte} (h : Asked x 0x25 ns) :
    ∃ wm, x.w3 = abortW x.E x.t1 wm ∧ x.good ∧
      if 9 ≤ lbads ns ∧ lbads ns ≤ 31 ∧ 8 ≤ x.din.len
      then wm = { x.w2 with mem := x.w2.mem.put x.din.ptr (capacity (min (nsze ns) 0xffffffff) (2 ^ lbads ns)) }
      else wm = x.w2 := by
  obtain ⟨st, wm, hw, hg, hs⟩ := x.switch h.ok
  refine ⟨wm, hw, hg, ?_⟩
  obtain ⟨p, w1, e, hc, hcase⟩ := rc_cases x.began h.opcode
  have hst := e.acc.mp h.ok.1
  rcases hcase with ⟨-, hn, -⟩ | ⟨-, -, -, hn, -⟩ | ⟨-, -, n0, -, -, e0, -, -⟩
  · exact absurd hst hn
  · exact absurd hst hn
  have r0 := x.page0 h.page
  rw [opc_of_byte h.opcode (by decide)] at hs
  unfold completeSwitch at hs
  rw [if_neg (by decide), if_neg (by decide), if_neg (by decide), if_neg (by decide), if_neg (by decide),
    if_neg (by decide), if_neg (by decide), if_pos (by decide)] at hs
  rw [e.wss] at hs r0
  unfold ReadCapacity.ReadCapacity10ToScsi at hs
  simp only [SafePointerCast_4096] at hs
  have z0 : p.ws.e0.cmd.prp1.toNat ≠ 0 := by
    rw [e0]; intro hh; exact n0 (BitVec.eq_of_toNat_eq hh)
  rw [if_neg z0] at hs
  simp only [M.bind_run, load_ok r0] at hs
  rw [capacity_eq] at hs
  rw [lbads_eq] at hs
  by_cases c1 : lbads ns < 9
  · rw [if_pos c1] at hs
    rw [if_neg (by omega)]
    simp only [M.pure_run, Except.ok.injEq, Prod.mk.injEq] at hs
    exact hs.2.symm
  rw [if_neg c1] at hs
  by_cases c2 : lbads ns > 31
  · rw [if_pos c2] at hs
    rw [if_neg (by omega)]
    simp only [M.pure_run, Except.ok.injEq, Prod.mk.injEq] at hs
    exact hs.2.symm
  rw [if_neg c2] at hs
  have hl : ∀ a b, (capacity a b).length = 8 := by
    intro a b
    unfold capacity beBytes
    simp only [List.length_append, List.length_reverse, le_eq, leBytes_length]
  rcases write'_status hs with ⟨a, -, b⟩ | ⟨a, -, b⟩
  · rw [hl] at a
    rw [if_pos ⟨by omega, by omega, a⟩]
    exact b
  · rw [hl] at a
    rw [if_neg (by omega)]
    exact b

/-- **C44.** READ CAPACITY(10): if the LBA data size of the namespace is 2^9 to 2^31 and the buffer has at least 8
bytes, the size in blocks (at most FFFFFFFFh) and the block length are written, big endian, and nothing else;
otherwise nothing. -/
theorem C44_read_capacity_data (x : Ran) (ns : List Byte) (hg : GoodAllocator x.E) (h : Asked x 0x25 ns) :
    x.good ∧ if 9 ≤ lbads ns ∧ lbads ns ≤ 31 ∧ 8 ≤ x.din.len
      then x.wrote x.din.ptr (beBytes 4 (min (nsze ns) 0xffffffff) ++ beBytes 4 (2 ^ lbads ns))
      else x.wroteNothing := by
  obtain ⟨wm, hw, hgd, hr⟩ := Ran.capacityRun h
  refine ⟨hgd, ?_⟩
  split
  · rename_i c
    rw [if_pos c] at hr
    exact x.wrote_of hg hw hr
  · rename_i c
    rw [if_neg c] at hr
    exact x.wroteNothing_of hg hw hr

namespace Demo

/-- READ CAPACITY(10). -/
def readCap : List Byte := [0x25, 0, 0, 0, 0, 0, 0, 0, 0, 0]

/-- READ CAPACITY(10) with the given Identify page and data buffer size. -/
theorem rc_demo (p0 : List Byte) (h0 : p0.length ≤ 4096) (len : Nat) (hl : len ≤ 0x8000) :
    ∃ x : Ran, GoodAllocator x.E ∧ Asked x 0x25 (pad p0) ∧
      x.din = ⟨0x8000, len⟩ ∧ x.lun = 1 ∧ x.w = ⟨mem readCap [], []⟩ ∧ x.w2 = ⟨mem2 readCap p0 [], []⟩ := by
  have hc : readCap.length ≤ 0x300 := by decide
  obtain ⟨x, e1, e2, e3, e4, e5, e6, e7, -, a, b⟩ := demo_run env.junk readCap hc 1 p0 [] [cpl 0 0] len hl
    (fun t1 => Accepted t1 ∧ t1.GetNvmeWrappers = [identifyWr (nsidOf 1) 0 0x100000#64]) (by
      intro r t1 w1 hb
      obtain ⟨p, w1', e, hcn, hcase⟩ := rc_cases hb rfl
      obtain ⟨q0, -⟩ := pages_stack env.junk readCap hc
      rw [q0] at hcase
      rcases hcase with ⟨hh, -⟩ | ⟨-, -, hh, -⟩ | ⟨-, -, -, hs, -, e0, -, -⟩
      · exact absurd hh (by decide)
      · exact absurd hh (by decide)
      have hm : t1.GetNvmeWrappers = [identifyWr (nsidOf 1) 0 0x100000#64] := by
        rw [e.cmds hs, hcn, take_one, e0]
      refine ⟨⟨e.acc.mpr hs, hm⟩, ?_, ⟨fun hh => absurd hh (by decide), fun hh => absurd hh (by decide),
        fun hh => absurd hh (by decide)⟩⟩
      intro wr hwr _
      rw [hm] at hwr
      simp only [List.mem_cons, List.not_mem_nil, or_false] at hwr
      rw [prp1_bytes]
      rcases hwr with rfl
      exact acc_page0 _ _ _)
  refine ⟨x, e1 ▸ stack_good _, ⟨by rw [e2]; rfl, ⟨a, ?_, ?_⟩, ⟨identifyWr (nsidOf 1) 0 0x100000#64, ?_, ?_⟩⟩, e7, e3, e4, e5⟩
  · unfold Ran.answered Ran.cmds
    rw [e6, b]
    rfl
  · rw [e6]
    simp only [List.forall_mem_cons, List.not_mem_nil, false_implies, implies_true, and_true]
    decide
  · unfold Ran.cmds; rw [b]; rfl
  · rw [prp1_bytes, e5]; exact read_page0 _ _ _ h0

/-- Identify data of a namespace of 1000h blocks of 512 bytes. -/
def smallNs : List Byte := [0x00, 0x10] ++ zeros 128 ++ [9]

end Demo

/-- Met by a namespace of 1000h blocks of 512 bytes. -/
example : ∃ x ns, GoodAllocator x.E ∧ Asked x 0x25 ns ∧ lbads ns = 9 ∧ nsze ns = 0x1000 ∧ 8 ≤ x.din.len := by
  obtain ⟨x, h1, h2, h3, -⟩ := Demo.rc_demo Demo.smallNs (by decide +kernel) 8 (by decide)
  exact ⟨x, _, h1, h2, by decide +kernel, by decide +kernel, by rw [h3]; decide⟩

/-- **C45**, full statement (false, see `C45_refuted`): the address returned is the one of the last block, or
FFFFFFFFh if this does not fit. -/
def C45_statement : Prop := ∀ (x : Ran) (ns : List Byte), GoodAllocator x.E → Asked x 0x25 ns →
  0 < nsze ns → 9 ≤ lbads ns → lbads ns ≤ 31 → 8 ≤ x.din.len →
  x.wrote x.din.ptr (beBytes 4 (min (nsze ns - 1) 0xffffffff) ++ beBytes 4 (2 ^ lbads ns))

/-- **C45**, the part that holds: namespaces of 2^32 blocks and more.  What is missing: for all smaller ones the
number of blocks is returned instead of the last address. -/
theorem C45_last_lba_partial (x : Ran) (ns : List Byte) (hg : GoodAllocator x.E) (h : Asked x 0x25 ns)
    (hn : 2 ^ 32 ≤ nsze ns) (h9 : 9 ≤ lbads ns) (h31 : lbads ns ≤ 31) (hl : 8 ≤ x.din.len) :
    x.wrote x.din.ptr (beBytes 4 (min (nsze ns - 1) 0xffffffff) ++ beBytes 4 (2 ^ lbads ns)) := by
  have := (C44_read_capacity_data x ns hg h).2
  rw [if_pos ⟨h9, h31, hl⟩, Nat.min_eq_right (by omega)] at this
  rw [Nat.min_eq_right (by omega)]
  exact this

/-- Met by a namespace of 2^32 blocks. -/
example : ∃ x ns, GoodAllocator x.E ∧ Asked x 0x25 ns ∧ 2 ^ 32 ≤ nsze ns ∧ lbads ns = 9 ∧ 8 ≤ x.din.len := by
  obtain ⟨x, h1, h2, h3, -⟩ := Demo.rc_demo ([0, 0, 0, 0, 1] ++ zeros 125 ++ [9]) (by decide +kernel) 8 (by decide)
  exact ⟨x, _, h1, h2, by decide +kernel, by decide +kernel, by rw [h3]; decide⟩

/-- C45 does not hold: 1000h instead of 0FFFh is returned. -/
theorem C45_refuted : ¬ C45_statement := by
  intro hall
  obtain ⟨x, h1, h2, h3, -, h4, h5⟩ := Demo.rc_demo Demo.smallNs (by decide +kernel) 8 (by decide)
  have a := hall x _ h1 h2 (by decide +kernel) (by decide +kernel) (by decide +kernel) (by rw [h3]; decide)
  have b := (C44_read_capacity_data x _ h1 h2).2
  rw [if_pos ⟨by decide +kernel, by decide +kernel, by rw [h3]; decide⟩] at b
  rw [h3] at a b
  exact absurd (demo_same h1 (by decide) h4 h5 a b 2 (by decide)) (by decide +kernel)

end Scsi2Nvme
