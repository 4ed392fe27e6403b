import Verif.Properties.InquiryPages2
/-!
# INQUIRY data, continued (C38-C43, C66)
-/

namespace Scsi2Nvme
open Spec

/-- The bytes of the data buffer of the demo (zero before). -/
theorem demo_byte {x : Ran} (hg : GoodAllocator x.E) {cdb p0 p1 : List Byte} (hc : cdb.length ≤ 0x300)
    (h4 : x.w = ⟨Demo.mem cdb [], []⟩) (h5 : x.w2 = ⟨Demo.mem2 cdb p0 p1, []⟩)
    {bs : List Byte} (h : x.wrote 0x8000 bs) (i : Nat) (hi : i < 0x8000) :
    x.w3.mem (0x8000 + i) = some (bs.getD i 0) := by
  rw [x.wrote_at hg h _ (Demo.demo_data hc h4 _ (by omega) (by omega))]
  rcases Nat.lt_or_ge i bs.length with hl | hl
  · rw [put_inside hl, List.getD_eq_getElem?_getD, List.getElem?_eq_getElem hl]; rfl
  · rw [put_outside (by omega), h5]
    change Demo.mem2 cdb p0 p1 (0x8000 + i) = _
    rw [Demo.mem2_data _ _ _ hc _ (by omega) (by omega), List.getD_eq_getElem?_getD, List.getElem?_eq_none hl]
    rfl

/-- Two descriptions of what was written agree. -/
theorem demo_same {x : Ran} (hg : GoodAllocator x.E) {cdb p0 p1 : List Byte} (hc : cdb.length ≤ 0x300)
    (h4 : x.w = ⟨Demo.mem cdb [], []⟩) (h5 : x.w2 = ⟨Demo.mem2 cdb p0 p1, []⟩)
    {bs bs' : List Byte} (h : x.wrote 0x8000 bs) (h' : x.wrote 0x8000 bs') (i : Nat) (hi : i < 0x8000) :
    bs.getD i 0 = bs'.getD i 0 := by
  have e := demo_byte hg hc h4 h5 h i hi
  rw [demo_byte hg hc h4 h5 h' i hi] at e
  exact (Option.some.inj e).symm

theorem inq_short (e p : Byte) : (Demo.inq e p).length ≤ 0x300 := by unfold Demo.inq; simp

theorem Spec.Ran.wroteNothing_at {x : Ran} (h : x.wroteNothing) (p : Nat) : x.wrote p [] := by
  obtain ⟨evs, a, b⟩ := h
  exact ⟨evs, a, fun q hq => by rw [b q hq, put_nil, put_nil]⟩

/-! ## C38 -/

/-- **C38**, full statement (false, see `C38_refuted`): page 83h consists of a VPD head with the length of the rest
and the designator for the NGUID, or the EUI-64 if there is no NGUID; without identifier nothing is written. -/
def C38_statement : Prop := ∀ (x : Ran) (ns ctrl : List Byte), GoodAllocator x.E → Inquired x true 0x83 ns ctrl →
  match identifier ns with
  | none => x.wroteNothing
  | some id => 8 + id.length ≤ x.din.len → x.wrote x.din.ptr (vpdHead 0x83 (4 + id.length) ++ designator id)

/-- **C38**, the part that holds: the designator for the right identifier is written, and nothing if there is no
identifier or no room.  What is missing: the head has 3 bytes instead of 4, so the designator is found at byte 3, and
the length it contains is one less than the length of the designator. -/
theorem C38_device_id_partial (x : Ran) (ns ctrl : List Byte) (hg : GoodAllocator x.E) (h : Inquired x true 0x83 ns ctrl) :
    x.good ∧ match identifier ns with
    | none => x.wroteNothing
    | some id => if 7 + id.length ≤ x.din.len
        then x.wrote x.din.ptr ([0x00, 0x83] ++ le 1 (3 + id.length) ++ designator id) else x.wroteNothing := by
  obtain ⟨st, wm, hw, hgd, hr⟩ := inquired_run h
  refine ⟨hgd, ?_⟩
  change Inquiry.TranslateDeviceIdentificationVpd ns x.din x.w2 = .ok (st, wm) at hr
  have := deviceId_inv (x.page_length h.ns) hr
  split
  · rename_i hi
    rw [hi] at this
    exact x.wroteNothing_of hg hw this.2
  · rename_i id hi
    rw [hi] at this
    rcases this with ⟨a, -, b⟩ | ⟨a, -, b⟩
    · rw [if_neg (by omega)]
      exact x.wroteNothing_of hg hw b
    · rw [if_pos a]
      exact x.wrote_of hg hw b

/-- Identify Namespace data with the EUI-64 11…11h. -/
def someEui : List Byte := zeros 120 ++ List.replicate 8 0x11

/-- Met by an EUI-64. -/
example : ∃ x ns ctrl, GoodAllocator x.E ∧ Inquired x true 0x83 ns ctrl ∧ identifier ns = some (List.replicate 8 0x11) ∧
    7 + 8 ≤ x.din.len := by
  obtain ⟨x, -, h1, h2, h3, -⟩ := Demo.inq_demo Demo.env.junk 1 0x83 someEui [] (by decide +kernel) (by decide) 64 (by decide)
  exact ⟨x, _, _, h1, h2, by decide +kernel, by rw [h3]; decide⟩

/-- C38 does not hold. -/
theorem C38_refuted : ¬ C38_statement := by
  intro hall
  obtain ⟨x, -, h1, h2, h3, -, h4, h5⟩ :=
    Demo.inq_demo Demo.env.junk 1 0x83 someEui [] (by decide +kernel) (by decide) 64 (by decide)
  have a := hall x _ _ h1 h2
  have b := (C38_device_id_partial x _ _ h1 h2).2
  rw [show identifier (Demo.pad someEui) = some (List.replicate 8 0x11) by decide +kernel] at a b
  simp only [List.length_replicate] at a b
  rw [if_pos (by rw [h3]; decide), h3] at b
  rw [h3] at a
  exact absurd (demo_same h1 (inq_short _ _) h4 h5 (a (by decide)) b 2 (by decide)) (by decide +kernel)

/-! ## C39, C40 -/

/-- **C39**, full statement (false, see `C39_refuted`): a buffer of at least 14 bytes receives the 14 bytes of page
86h; nothing is said about its head (C42) and its SPT field (C40). -/
def C39_statement : Prop := ∀ (x : Ran) (ns ctrl : List Byte), GoodAllocator x.E → Inquired x true 0x86 ns ctrl →
  14 ≤ x.din.len → ∃ spt, spt < 8 ∧ ∃ head, head.length = 4 ∧ x.wrote x.din.ptr (head ++ extendedBody ns ctrl spt)

/-- **C39**, the part that holds: the content of page 86h is as prescribed for every namespace which supports
protection information.  What is missing: the page is not written at all for a namespace which does not. -/
theorem C39_extended_inquiry_partial (x : Ran) (ns ctrl : List Byte) (hg : GoodAllocator x.E)
    (h : Inquired x true 0x86 ns ctrl) :
    x.good ∧
    if (supportsType1 ns || supportsType2 ns || supportsType3 ns) = true ∧ 14 ≤ x.din.len
    then ∃ spt, spt < 8 ∧ ∃ head, head.length = 4 ∧ x.wrote x.din.ptr (head ++ extendedBody ns ctrl spt)
    else x.wroteNothing := by
  obtain ⟨hgd, ho⟩ := extended_outcome hg h
  refine ⟨hgd, ?_⟩
  have key : ∀ a b c, (spt c b a).isSome = (a || b || c) := by decide
  rw [← key]
  cases hs : spt (supportsType3 ns) (supportsType2 ns) (supportsType1 ns) with
  | none =>
    rw [hs] at ho
    rw [if_neg (by simp)]
    exact ho
  | some s =>
    rw [hs] at ho
    by_cases h14 : 14 ≤ x.din.len
    · rw [if_pos ⟨rfl, h14⟩]
      simp only [if_pos h14] at ho
      exact ⟨s, ho.1, _, rfl, ho.2⟩
    · rw [if_neg (fun h => h14 h.2)]
      simp only [if_neg h14] at ho
      exact ho.2

/-- Met by a namespace supporting types 1 and 3, with protection enabled. -/
example : ∃ x ns ctrl, GoodAllocator x.E ∧ Inquired x true 0x86 ns ctrl ∧ supportsType1 ns = true ∧
    supportsType3 ns = true ∧ protection ns = true ∧ 14 ≤ x.din.len := by
  obtain ⟨x, -, h1, h2, h3, -⟩ := Demo.inq_demo Demo.env.junk 1 0x86 (zeros 28 ++ [0x05, 0x01]) [] (by decide +kernel) (by decide) 64 (by decide)
  exact ⟨x, _, _, h1, h2, by decide +kernel, by decide +kernel, by decide +kernel, by rw [h3]; decide⟩

/-- C39 does not hold: nothing is written for a namespace without protection information. -/
theorem C39_refuted : ¬ C39_statement := by
  intro hall
  obtain ⟨x, -, h1, h2, h3, -, h4, h5⟩ := Demo.inq_demo Demo.env.junk 1 0x86 [] [] (by decide) (by decide) 64 (by decide)
  obtain ⟨s, -, head, hl, a⟩ := hall x _ _ h1 h2 (by rw [h3]; decide)
  have b := (C39_extended_inquiry_partial x _ _ h1 h2).2
  rw [if_neg (fun h => absurd h.1 (by decide +kernel))] at b
  rw [h3] at a
  have e := demo_same h1 (inq_short _ _) h4 h5 a (Ran.wroteNothing_at b _) 7 (by decide)
  rw [List.getD_eq_getElem?_getD, List.getElem?_append_right (by omega), hl] at e
  have e' : (0x01 : Byte) = 0 := e
  exact absurd e' (by decide)

/-- The SPT field of what is in the data buffer after `Complete` (bits 3-5 of byte 4). -/
def sptWritten (x : Ran) (s : Nat) : Prop := ∃ b : Byte, x.w3.mem (x.din.ptr + 4) = some b ∧ b.toNat / 8 % 8 = s

/-- **C40**, full statement (false, see `C40_refuted`): the SPT field returned for page 86h is the code of the set of
supported protection types.  (The data buffer is accessible from the beginning.) -/
def C40_statement : Prop := ∀ (x : Ran) (ns ctrl : List Byte) (s : Nat), GoodAllocator x.E → Inquired x true 0x86 ns ctrl →
  14 ≤ x.din.len → accessible x.w.mem x.din →
  spt (supportsType1 ns) (supportsType2 ns) (supportsType3 ns) = some s → sptWritten x s

/-- The SPT field is the code of the set of types with 1 and 3 exchanged. -/
theorem spt_written (x : Ran) (ns ctrl : List Byte) (s : Nat) (hg : GoodAllocator x.E)
    (h : Inquired x true 0x86 ns ctrl) (hl : 14 ≤ x.din.len) (ha : accessible x.w.mem x.din)
    (hs : spt (supportsType3 ns) (supportsType2 ns) (supportsType1 ns) = some s) : sptWritten x s := by
  obtain ⟨-, ho⟩ := extended_outcome hg h
  rw [hs] at ho
  simp only [if_pos hl] at ho
  refine ⟨_, (x.wrote_get hg ho.2 4 ?_ (ha 4 (by omega))).trans rfl, ?_⟩
  · rw [List.length_append]
    change 4 < 4 + _
    unfold extendedBody
    simp only [List.length_append, le_eq, leBytes_length]
    omega
  · have hs8 := ho.1
    rw [BitVec.toNat_ofNat]
    cases protection ns <;> simp only [Bool.toNat_false, Bool.toNat_true] <;> omega

/-- **C40**, the part that holds: the SPT field is right if the namespace supports both or none of the types 1 and 3.
What is missing: for all other sets the types 1 and 3 are confused. -/
theorem C40_spt_partial (x : Ran) (ns ctrl : List Byte) (s : Nat) (hg : GoodAllocator x.E)
    (h : Inquired x true 0x86 ns ctrl) (hl : 14 ≤ x.din.len) (ha : accessible x.w.mem x.din)
    (hs : spt (supportsType1 ns) (supportsType2 ns) (supportsType3 ns) = some s)
    (hsym : supportsType1 ns = supportsType3 ns) : sptWritten x s := by
  refine spt_written x ns ctrl s hg h hl ha ?_
  rw [hsym] at hs ⊢
  exact hs

theorem demo_acc {x : Ran} {cdb : List Byte} (hc : cdb.length ≤ 0x300) (h4 : x.w = ⟨Demo.mem cdb [], []⟩) {len : Nat}
    (h3 : x.din = ⟨0x8000, len⟩) (hl : len ≤ 0x8000) : accessible x.w.mem x.din := by
  intro i hi
  rw [h3] at hi ⊢
  have hi : i < len := hi
  exact Demo.demo_data hc h4 _ (by simp only; omega) (by simp only; omega)

/-- Met by a namespace supporting all types. -/
example : ∃ x ns ctrl, GoodAllocator x.E ∧ Inquired x true 0x86 ns ctrl ∧ 14 ≤ x.din.len ∧ accessible x.w.mem x.din ∧
    spt (supportsType1 ns) (supportsType2 ns) (supportsType3 ns) = some 7 ∧ supportsType1 ns = supportsType3 ns := by
  obtain ⟨x, -, h1, h2, h3, -, h4, h5⟩ :=
    Demo.inq_demo Demo.env.junk 1 0x86 (zeros 28 ++ [0x07]) [] (by decide +kernel) (by decide) 64 (by decide)
  exact ⟨x, _, _, h1, h2, by rw [h3]; decide, demo_acc (inq_short _ _) h4 h3 (by decide), by decide +kernel, by decide +kernel⟩

/-- C40 does not hold: type 1 is reported as type 3. -/
theorem C40_refuted : ¬ C40_statement := by
  intro hall
  obtain ⟨x, -, h1, h2, h3, -, h4, h5⟩ :=
    Demo.inq_demo Demo.env.junk 1 0x86 (zeros 28 ++ [0x01]) [] (by decide +kernel) (by decide) 64 (by decide)
  have ha := demo_acc (inq_short _ _) h4 h3 (by decide)
  obtain ⟨b, a1, a2⟩ := hall x _ _ 0 h1 h2 (by rw [h3]; decide) ha (by decide +kernel)
  obtain ⟨c, b1, b2⟩ := spt_written x _ _ 4 h1 h2 (by rw [h3]; decide) ha (by decide +kernel)
  rw [a1] at b1
  cases b1
  omega

/-! ## C41, C43, C66 -/

theorem blockLimitsBody_length (ctrl : List Byte) : (blockLimitsBody ctrl).length = 60 := by
  unfold blockLimitsBody zeros beBytes
  simp only [List.length_append, List.length_cons, List.length_nil, List.length_replicate, le_eq, leBytes_length,
    List.length_reverse]

/-- **C41.** Page B0h: if the buffer has at least 64 bytes, the limits are written to bytes 4-63 (after a head, see
C42), and nothing else; otherwise nothing. -/
theorem C41_block_limits (x : Ran) (ns ctrl : List Byte) (hg : GoodAllocator x.E) (h : Inquired x true 0xb0 ns ctrl) :
    x.good ∧ if 64 ≤ x.din.len then ∃ head, head.length = 4 ∧ x.wrote x.din.ptr (head ++ blockLimitsBody ctrl)
      else x.wroteNothing := by
  obtain ⟨st, wm, hw, hgd, hr⟩ := inquired_run h
  refine ⟨hgd, ?_⟩
  change Inquiry.TranslateBlockLimitsVpd ctrl x.din x.w2 = .ok (st, wm) at hr
  have hl : ([0x00, 0xb0, 0x3c, 0x00] ++ blockLimitsBody ctrl).length = 64 := by
    rw [List.length_append, blockLimitsBody_length]; rfl
  rcases write'_status hr with ⟨a, -, b⟩ | ⟨a, -, b⟩
  · rw [blockLimits_eq] at a b
    rw [hl] at a
    rw [if_pos a]
    exact ⟨_, rfl, x.wrote_of hg hw b⟩
  · rw [blockLimits_eq, hl] at a
    rw [if_neg (by omega)]
    exact x.wroteNothing_of hg hw b

/-- Met by a controller with MDTS 5, deallocation and fused compare and write. -/
example : ∃ x ns ctrl, GoodAllocator x.E ∧ Inquired x true 0xb0 ns ctrl ∧ 64 ≤ x.din.len ∧ maxTransfer ctrl = 32 ∧
    deallocates ctrl = true ∧ fusedCompareWrite ctrl = true := by
  obtain ⟨x, -, h1, h2, h3, -⟩ := Demo.inq_demo Demo.env.junk 1 0xb0 [] (zeros 77 ++ [5] ++ zeros 442 ++ [4, 0, 1])
    (by decide +kernel) (by decide +kernel) 64 (by decide)
  exact ⟨x, _, _, h1, h2, by rw [h3]; decide, by decide +kernel, by decide +kernel, by decide +kernel⟩

/-- The head of page B0h. -/
theorem blockLimits_head (x : Ran) (ns ctrl : List Byte) (hg : GoodAllocator x.E) (h : Inquired x true 0xb0 ns ctrl)
    (hl : 64 ≤ x.din.len) : x.wrote x.din.ptr ([0x00, 0xb0, 0x3c, 0x00] ++ blockLimitsBody ctrl) := by
  obtain ⟨st, wm, hw, hgd, hr⟩ := inquired_run h
  change Inquiry.TranslateBlockLimitsVpd ctrl x.din x.w2 = .ok (st, wm) at hr
  have hl' : ([0x00, 0xb0, 0x3c, 0x00] ++ blockLimitsBody ctrl).length = 64 := by
    rw [List.length_append, blockLimitsBody_length]; rfl
  rcases write'_status hr with ⟨a, -, b⟩ | ⟨a, -, b⟩
  · rw [blockLimits_eq] at b
    exact x.wrote_of hg hw b
  · rw [blockLimits_eq, hl'] at a
    omega

/-- **C43.** Page B2h: if the buffer has at least 64 bytes, the 8 bytes of `provisioningPage` are written, followed by
56 zero bytes, and nothing else; otherwise nothing. -/
theorem C43_provisioning (x : Ran) (ns ctrl : List Byte) (hg : GoodAllocator x.E) (h : Inquired x true 0xb2 ns ctrl) :
    x.good ∧ if 64 ≤ x.din.len then x.wrote x.din.ptr (provisioningPage ns ctrl ++ zeros 56) else x.wroteNothing := by
  obtain ⟨st, wm, hw, hgd, hr⟩ := inquired_run h
  refine ⟨hgd, ?_⟩
  change Inquiry.TranslateLogicalBlockProvisioningVpd ctrl ns x.din x.w2 = .ok (st, wm) at hr
  have hl : (provisioningPage ns ctrl ++ zeros 56).length = 64 := by
    unfold provisioningPage vpdHead zeros beBytes
    simp only [List.length_append, List.length_cons, List.length_nil, List.length_replicate, le_eq, leBytes_length,
      List.length_reverse]
  rcases write'_status hr with ⟨a, -, b⟩ | ⟨a, -, b⟩
  · rw [provisioning_eq] at a b
    rw [hl] at a
    rw [if_pos a]
    exact x.wrote_of hg hw b
  · rw [provisioning_eq, hl] at a
    rw [if_neg (by omega)]
    exact x.wroteNothing_of hg hw b

/-- Met by a thin provisioned namespace. -/
example : ∃ x ns ctrl, GoodAllocator x.E ∧ Inquired x true 0xb2 ns ctrl ∧ 64 ≤ x.din.len ∧ provisioningType ns ctrl = 2 := by
  obtain ⟨x, -, h1, h2, h3, -⟩ := Demo.inq_demo Demo.env.junk 1 0xb2 (zeros 24 ++ [1]) (zeros 520 ++ [4])
    (by decide +kernel) (by decide +kernel) 64 (by decide)
  exact ⟨x, _, _, h1, h2, by rw [h3]; decide, by decide +kernel⟩

/-- **C66**, full statement (false, see `C66_refuted`): page B1h has the page code B1h, the big endian length 3Ch, the
big endian medium rotation rate 0001h (non-rotating medium) and no nominal form factor. -/
def C66_statement : Prop := ∀ (x : Ran) (ns ctrl : List Byte), GoodAllocator x.E → Inquired x true 0xb1 ns ctrl →
  64 ≤ x.din.len → ∃ rest, x.wrote x.din.ptr ([0x00, 0xb1, 0x00, 0x3c, 0x00, 0x01, 0x00, 0x00] ++ rest)

/-- **C66**, what is written instead, whatever the device reports.  Missing: page code, length and rotation rate are
wrong (83h, 3C00h and 0100h). -/
theorem C66_characteristics_partial (x : Ran) (ns ctrl : List Byte) (hg : GoodAllocator x.E)
    (h : Inquired x true 0xb1 ns ctrl) :
    x.good ∧ if 9 ≤ x.din.len then x.wrote x.din.ptr [0x00, 0x83, 0x3c, 0x00, 0x01, 0x00, 0x00, 0x00, 0x00]
      else x.wroteNothing := by
  obtain ⟨st, wm, hw, hgd, hr⟩ := inquired_run h
  refine ⟨hgd, ?_⟩
  change Inquiry.TranslateBlockDeviceCharacteristicsVpd x.din x.w2 = .ok (st, wm) at hr
  rcases write'_status hr with ⟨a, -, b⟩ | ⟨a, -, b⟩
  · rw [characteristics_eq] at a b
    rw [if_pos (show 9 ≤ x.din.len from a)]
    exact x.wrote_of hg hw b
  · rw [characteristics_eq] at a
    rw [if_neg (show ¬ 9 ≤ x.din.len from Nat.not_le.mpr a)]
    exact x.wroteNothing_of hg hw b

/-- C66 does not hold. -/
theorem C66_refuted : ¬ C66_statement := by
  intro hall
  obtain ⟨x, -, h1, h2, h3, -, h4, h5⟩ := Demo.inq_demo Demo.env.junk 1 0xb1 [] [] (by decide) (by decide) 64 (by decide)
  obtain ⟨rest, a⟩ := hall x _ _ h1 h2 (by rw [h3]; decide)
  have b := (C66_characteristics_partial x _ _ h1 h2).2
  rw [if_pos (by rw [h3]; decide), h3] at b
  rw [h3] at a
  have e := demo_same h1 (inq_short _ _) h4 h5 a b 1 (by decide)
  have e' : (0xb1 : Byte) = 0x83 := e
  exact absurd e' (by decide)

/-! ## C42 -/

/-- The number of bytes a VPD page has after its head of four bytes. -/
def definedLength (page : Nat) (ns : List Byte) : Nat :=
  if page = 0x00 then 7
  else if page = 0x80 then if nguid ns ≠ zeros 16 then 40 else if eui64 ns ≠ zeros 8 then 20 else 30
  else if page = 0x83 then 4 + ((identifier ns).getD []).length
  else if page = 0xb2 then 4 else 0x3c

/-- What `Complete` placed at the start of the data buffer, if anything, begins with the head `head`. -/
def Spec.Ran.headed (x : Ran) (head : List Byte) : Prop :=
  x.wroteNothing ∨ ∃ bs, x.wrote x.din.ptr bs ∧ bs.take 4 = head

/-- **C42**, full statement (false, see `C42_refuted`): every VPD page written begins with device type 0, the requested
page code and the big endian length of the rest. -/
def C42_statement : Prop := ∀ (x : Ran) (page : Nat) (ns ctrl : List Byte), GoodAllocator x.E →
  Inquired x true page ns ctrl → x.headed (vpdHead page (definedLength page ns))

/-- **C42**, the part that holds: pages 00h, 80h, B2h and all unlisted pages.  What is missing: the heads of the pages
83h, 86h, B0h and B1h are wrong. -/
theorem C42_heads_partial (x : Ran) (page : Nat) (ns ctrl : List Byte) (hg : GoodAllocator x.E)
    (h : Inquired x true page ns ctrl) (hp : page ∉ [0x83, 0x86, 0xb0, 0xb1]) :
    x.headed (vpdHead page (definedLength page ns)) := by
  simp only [List.mem_cons, List.not_mem_nil, or_false, not_or] at hp
  by_cases c0 : page = 0x00
  · subst c0
    have := (C35_page_list x ns ctrl hg h).2
    have hv : vpdHead 0 (definedLength 0 ns) = [0x00, 0x00, 0x00, 0x07] := by
      unfold definedLength
      rw [if_pos rfl]
      decide +kernel
    rw [hv]
    by_cases l1 : 11 ≤ x.din.len
    · rw [if_pos l1] at this
      exact Or.inr ⟨_, this, rfl⟩
    · rw [if_neg l1] at this
      by_cases l2 : 4 ≤ x.din.len
      · rw [if_pos l2] at this
        exact Or.inr ⟨_, this, rfl⟩
      · rw [if_neg l2] at this
        exact Or.inl this
  by_cases c1 : page = 0x80
  · subst c1
    have := (serial_outcome hg h).2
    have hs := (productSerial_shape (x.E.junk x.w2) ctrl ns (nsidOf x.lun) (x.page_length h.ns) (x.page_length h.ctrl)).1
    unfold definedLength
    rw [if_neg (by decide), if_pos rfl, ← hs]
    simp only at this
    by_cases l1 : 44 ≤ x.din.len
    · rw [if_pos l1] at this
      exact Or.inr ⟨_, this, List.take_left' rfl⟩
    · rw [if_neg l1] at this
      by_cases l2 : 4 ≤ x.din.len
      · rw [if_pos l2] at this
        exact Or.inr ⟨_, this, List.take_of_length_le (Nat.le_refl 4)⟩
      · rw [if_neg l2] at this
        exact Or.inl this
  by_cases c2 : page = 0xb2
  · subst c2
    have := (C43_provisioning x ns ctrl hg h).2
    by_cases l1 : 64 ≤ x.din.len
    · rw [if_pos l1] at this
      refine Or.inr ⟨_, this, ?_⟩
      unfold provisioningPage
      simp only [List.append_assoc]
      have hd : definedLength 0xb2 ns = 4 := by
        unfold definedLength
        rw [if_neg (by decide), if_neg (by decide), if_neg (by decide), if_pos rfl]
      rw [hd]
      exact List.take_left' (by decide +kernel)
    · rw [if_neg l1] at this
      exact Or.inl this
  exact Or.inl (C35_unlisted x page ns ctrl hg h (by simp; omega)).2

/-- Met by page 80h. -/
example : ∃ x ns ctrl, GoodAllocator x.E ∧ Inquired x true 0x80 ns ctrl := by
  obtain ⟨x, -, h1, h2, -⟩ := Demo.inq_demo Demo.env.junk 1 0x80 [] [] (by decide) (by decide) 64 (by decide)
  exact ⟨x, _, _, h1, h2⟩

/-- C42 does not hold: the length of page B0h is 3C00h instead of 003Ch. -/
theorem C42_refuted : ¬ C42_statement := by
  intro hall
  obtain ⟨x, -, h1, h2, h3, -, h4, h5⟩ := Demo.inq_demo Demo.env.junk 1 0xb0 [] [] (by decide) (by decide) 64 (by decide)
  have b := blockLimits_head x _ _ h1 h2 (by rw [h3]; decide)
  rw [h3] at b
  rcases hall x _ _ _ h1 h2 with a | ⟨bs, a, ht⟩
  · have e : (0xb0 : Byte) = 0 := demo_same h1 (inq_short _ _) h4 h5 b (Ran.wroteNothing_at a _) 1 (by decide)
    exact absurd e (by decide)
  · rw [h3] at a
    have e : bs.getD 2 0 = (0x3c : Byte) := demo_same h1 (inq_short _ _) h4 h5 a b 2 (by decide)
    have e2 : (bs.take 4).getD 2 0 = bs.getD 2 0 := by
      simp only [List.getD_eq_getElem?_getD, List.getElem?_take]; rfl
    rw [ht, e] at e2
    exact absurd e2 (by decide +kernel)

end Scsi2Nvme
