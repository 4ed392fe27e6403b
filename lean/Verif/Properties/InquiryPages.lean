import Verif.Proofs.Demos
/-!
# INQUIRY data (C34-C43)

In all theorems: `x` is one INQUIRY command from `Begin` to `Complete` (`Inquired`), the device left `ns` and `ctrl`
in the two Identify pages, the allocator is well-behaved.  `x.din` is the data-in buffer.
-/

namespace Scsi2Nvme
open Spec

theorem inquired_run {x : Ran} {e : Bool} {page : Nat} {ns ctrl : List Byte} (h : Inquired x e page ns ctrl) :
    ∃ st wm, x.w3 = abortW x.E x.t1 wm ∧ x.good ∧
      inquiryRun x.E e page (nsidOf x.lun) ns ctrl x.din x.w2 = .ok (st, wm) := by
  have := x.inquiry h.ok h.opcode h.ns h.ctrl
  rw [h.evpd, h.code] at this
  exact this

/-! ## C34 -/

/-- **C34.** Standard INQUIRY (EVPD = 0): the 36 bytes of `standardInquiry` are written to the data buffer, and
nothing else, if it has at least 36 bytes; otherwise nothing is written. -/
theorem C34_standard_inquiry (x : Ran) (page : Nat) (ns ctrl : List Byte) (hg : GoodAllocator x.E)
    (h : Inquired x false page ns ctrl) :
    x.good ∧ if 36 ≤ x.din.len then x.wrote x.din.ptr (standardInquiry ns ctrl) else x.wroteNothing := by
  obtain ⟨st, wm, hw, hgd, hr⟩ := inquired_run h
  refine ⟨hgd, ?_⟩
  change Inquiry.TranslateStandardInquiry ctrl ns x.din x.w2 = .ok (st, wm) at hr
  obtain ⟨ok, h1, -⟩ := write_status hr
  have hl : (Inquiry.standardInquiryData ctrl ns).toBytes.length = 96 := Scsi.InquiryData.toBytes_length _
  rcases WriteValue_inv h1 with ⟨a, -, -, -, b⟩ | ⟨a, -, b⟩
  · rw [if_pos a]
    rw [standardInquiry_eq ns ctrl (x.page_length h.ctrl)] at b
    exact x.wrote_of hg hw b
  · rw [if_neg (by omega)]
    exact x.wroteNothing_of hg hw b

/-- 36 bytes. -/
theorem C34_length (ns ctrl : List Byte) (h : ctrl.length = 4096) : (standardInquiry ns ctrl).length = 36 := by
  unfold standardInquiry slice
  simp only [List.length_append, List.length_cons, List.length_nil, List.length_take, List.length_drop, h,
    revision_length, show (ascii "NVMe    ").length = 8 from rfl]
  omega

/-- The hypotheses of C34 are met, and the result can be read back: model number "Model…", firmware revision
"1.23 b ". -/
example : ∃ x ns ctrl, GoodAllocator x.E ∧ Inquired x false 0 ns ctrl ∧ 36 ≤ x.din.len ∧
    x.w3.mem (x.din.ptr + 35) = some 0x62 := by
  obtain ⟨x, -, h1, h2, h3, -, h4, -⟩ := Demo.inq_demo Demo.env.junk 0 0 []
    (zeros 24 ++ ascii "Model" ++ zeros 35 ++ ascii "1.23 b ") (by decide) (by decide +kernel) 96 (by decide)
  refine ⟨x, _, _, h1, h2, by rw [h3]; decide, ?_⟩
  have := (C34_standard_inquiry x _ _ _ h1 h2).2
  rw [if_pos (by rw [h3]; decide)] at this
  rw [x.wrote_get h1 this 35 (by rw [C34_length _ _ (x.page_length h2.ctrl)]; decide)
    (by rw [h3]; exact Demo.demo_data (by decide) h4 _ (by decide) (by decide))]
  decide +kernel

/-! ## C35 -/

/-- **C35**, the page list: VPD page 00h is written completely if the buffer has at least 11 bytes, its 4-byte head
alone if it has at least 4, nothing otherwise. -/
theorem C35_page_list (x : Ran) (ns ctrl : List Byte) (hg : GoodAllocator x.E) (h : Inquired x true 0x00 ns ctrl) :
    x.good ∧
      if 11 ≤ x.din.len then x.wrote x.din.ptr ([0x00, 0x00, 0x00, 0x07] ++ [0x00, 0x80, 0x83, 0x86, 0xb0, 0xb1, 0xb2])
      else if 4 ≤ x.din.len then x.wrote x.din.ptr [0x00, 0x00, 0x00, 0x07] else x.wroteNothing := by
  obtain ⟨st, wm, hw, hgd, hr⟩ := inquired_run h
  refine ⟨hgd, ?_⟩
  change Inquiry.TranslateSupportedVpdPages x.din x.w2 = .ok (st, wm) at hr
  unfold Inquiry.TranslateSupportedVpdPages at hr
  rw [supportedVpd_eq.1, supportedVpd_eq.2] at hr
  rcases writeHeaderAndBody_inv (by decide) (by decide) hr with ⟨a, -, b⟩ | ⟨a, a', -, b⟩ | ⟨a, -, b⟩
  · rw [if_neg (by omega), if_neg (by omega)]
    exact x.wroteNothing_of hg hw b
  · have a'' : x.din.len < 11 := a'
    rw [if_neg (by omega), if_pos a]
    exact x.wrote_of hg hw b
  · rw [if_pos (show 11 ≤ x.din.len from a)]
    exact x.wrote_of hg hw b

/-- **C35**, other pages: a request for a page not in the list changes nothing. -/
theorem C35_unlisted (x : Ran) (page : Nat) (ns ctrl : List Byte) (hg : GoodAllocator x.E)
    (h : Inquired x true page ns ctrl) (hp : page ∉ [0x00, 0x80, 0x83, 0x86, 0xb0, 0xb1, 0xb2]) :
    x.good ∧ x.wroteNothing := by
  obtain ⟨st, wm, hw, hgd, hr⟩ := inquired_run h
  refine ⟨hgd, ?_⟩
  simp only [List.mem_cons, List.not_mem_nil, or_false, not_or] at hp
  unfold inquiryRun at hr
  rw [if_pos rfl, if_neg hp.1, if_neg hp.2.1, if_neg hp.2.2.1, if_neg hp.2.2.2.1, if_neg hp.2.2.2.2.1,
    if_neg hp.2.2.2.2.2.1, if_neg hp.2.2.2.2.2.2] at hr
  simp only [M.pure_run, Except.ok.injEq, Prod.mk.injEq] at hr
  exact x.wroteNothing_of hg hw hr.2.symm

/-- Met by the (unlisted) page B6h, and the list is written for page 00h. -/
example : (∃ x ns ctrl, GoodAllocator x.E ∧ Inquired x true 0xb6 ns ctrl) ∧
    ∃ x ns ctrl, GoodAllocator x.E ∧ Inquired x true 0x00 ns ctrl ∧ x.din.len = 5 := by
  obtain ⟨x, -, h1, h2, -⟩ := Demo.inq_demo Demo.env.junk 1 0xb6 [] [] (by decide) (by decide) 96 (by decide)
  obtain ⟨y, -, g1, g2, g3, -⟩ := Demo.inq_demo Demo.env.junk 1 0 [] [] (by decide) (by decide) 5 (by decide)
  exact ⟨⟨x, _, _, h1, h2⟩, ⟨y, _, _, g1, g2, by rw [g3]⟩⟩

/-- **C35**, full statement (false, see `C35_refuted`): unlisted pages are not answered, and every listed page is
answered, with its page code in byte 1, if the buffer is large enough. -/
def C35_statement : Prop := ∀ (x : Ran) (page : Nat) (ns ctrl : List Byte), GoodAllocator x.E →
  Inquired x true page ns ctrl → 64 ≤ x.din.len →
  if page ∈ [0x00, 0x80, 0x83, 0x86, 0xb0, 0xb1, 0xb2]
  then ∃ bs, 4 ≤ bs.length ∧ byte bs 1 = page ∧ x.wrote x.din.ptr bs else x.wroteNothing

/-- What page 86h looks like in every case. -/
theorem extended_outcome {x : Ran} {ns ctrl : List Byte} (hg : GoodAllocator x.E) (h : Inquired x true 0x86 ns ctrl) :
    x.good ∧ match spt (supportsType3 ns) (supportsType2 ns) (supportsType1 ns) with
      | none => x.wroteNothing
      | some s => s < 8 ∧
        if 14 ≤ x.din.len then x.wrote x.din.ptr ([0x00, 0x86, 0x3c, 0x00] ++ extendedBody ns ctrl s)
        else x.wroteNothing := by
  obtain ⟨st, wm, hw, hgd, hr⟩ := inquired_run h
  refine ⟨hgd, ?_⟩
  change Inquiry.TranslateExtendedInquiryDataVpd ns ctrl x.din x.w2 = .ok (st, wm) at hr
  unfold Inquiry.TranslateExtendedInquiryDataVpd at hr
  rw [GetSpt_eq] at hr
  have hlt : ∀ a b c s, spt a b c = some s → s < 8 := by
    intro a b c s
    cases a <;> cases b <;> cases c <;> simp [spt] <;> omega
  cases hs : spt (supportsType3 ns) (supportsType2 ns) (supportsType1 ns) with
  | none =>
    rw [hs] at hr
    simp only [Option.map_none, M.pure_run, Except.ok.injEq, Prod.mk.injEq] at hr
    exact x.wroteNothing_of hg hw hr.2.symm
  | some s =>
    have h8 := hlt _ _ _ _ hs
    rw [hs] at hr
    refine ⟨h8, ?_⟩
    simp only [Option.map_some] at hr
    have hl : ([0x00, 0x86, 0x3c, 0x00] ++ extendedBody ns ctrl s).length = 14 := by
      unfold extendedBody zeros
      simp only [List.length_append, le_eq, leBytes_length, List.length_cons, List.length_nil, List.length_replicate]
    rcases write'_status hr with ⟨a, -, b⟩ | ⟨a, -, b⟩
    · rw [extended_eq ns ctrl s h8] at a b
      rw [hl] at a
      rw [if_pos a]
      exact x.wrote_of hg hw b
    · rw [extended_eq ns ctrl s h8, hl] at a
      rw [if_neg (by omega)]
      exact x.wroteNothing_of hg hw b

/-- If nothing was written, the data buffer of the demo is still zero. -/
theorem demo_nothing {x : Ran} (hg : GoodAllocator x.E) {e p : Byte} {p0 p1 : List Byte}
    (h4 : x.w = ⟨Demo.mem (Demo.inq e p) [], []⟩) (h5 : x.w2 = ⟨Demo.mem2 (Demo.inq e p) p0 p1, []⟩)
    (h : x.wroteNothing) (i : Nat) (hi : i < 0x8000) : x.w3.mem (0x8000 + i) = some 0 := by
  have hc : (Demo.inq e p).length ≤ 0x300 := by unfold Demo.inq; simp
  rw [x.wrote_at hg h _ (Demo.demo_data hc h4 _ (by omega) (by omega)), put_nil, h5]
  simp only
  rw [Demo.mem2_data _ _ _ hc _ (by omega) (by omega)]

/-- Byte `i` of what was written to the data buffer of the demo. -/
theorem demo_get {x : Ran} (hg : GoodAllocator x.E) {e p : Byte} (h4 : x.w = ⟨Demo.mem (Demo.inq e p) [], []⟩)
    {bs : List Byte} (h : x.wrote 0x8000 bs) (i : Nat) (hl : i < bs.length) (hi : i < 0x8000) :
    x.w3.mem (0x8000 + i) = bs[i]? := by
  have hc : (Demo.inq e p).length ≤ 0x300 := by unfold Demo.inq; simp
  exact x.wrote_get hg h i hl (Demo.demo_data hc h4 _ (by omega) (by omega))

/-- C35 does not hold: page 86h is listed but not answered for a namespace without protection information. -/
theorem C35_refuted : ¬ C35_statement := by
  intro hall
  obtain ⟨x, -, h1, h2, h3, -, h4, h5⟩ := Demo.inq_demo Demo.env.junk 1 0x86 [] [] (by decide) (by decide) 64 (by decide)
  have := hall x 0x86 _ _ h1 h2 (by rw [h3]; decide)
  rw [if_pos (by decide)] at this
  obtain ⟨bs, b1, b2, b3⟩ := this
  have hn := (extended_outcome h1 h2).2
  rw [show spt (supportsType3 (Demo.pad [])) (supportsType2 (Demo.pad [])) (supportsType1 (Demo.pad [])) = none by
    decide +kernel] at hn
  have hz := demo_nothing h1 h4 h5 hn 1 (by decide)
  rw [h3] at b3
  have hg := demo_get h1 h4 b3 1 (by omega) (by decide)
  rw [hz] at hg
  rw [byte_of_get hg.symm] at b2
  cases b2

/-! ## C36, C37 -/

/-- The identifier the serial number is made of has no leading zero digits: both halves of the NGUID, or the EUI-64,
have 16 significant hexadecimal digits; nothing is required if both are zero. -/
def fullDigits (ns : List Byte) : Prop :=
  if nguid ns ≠ zeros 16 then 16 ^ 15 ≤ leAt ns 104 8 ∧ 16 ^ 15 ≤ leAt ns 112 8
  else if eui64 ns ≠ zeros 8 then 16 ^ 15 ≤ leAt ns 120 8 else True

/-- The serial number is one of three. -/
theorem serial_length (ns ctrl : List Byte) (n : Nat) (hc : ctrl.length = 4096) :
    (serial ns ctrl n).length = if nguid ns ≠ zeros 16 then 40 else if eui64 ns ≠ zeros 8 then 20 else 30 := by
  have hg : ∀ m, (groups (hex 16 m)).length = 19 := by
    intro m
    unfold groups slice
    simp only [List.length_append, List.length_take, List.length_drop, hex_length,
      show (ascii "_").length = 1 from rfl]
    rfl
  unfold serial
  split
  · simp only [List.length_append, hg, show (ascii "_").length = 1 from rfl, show (ascii ".").length = 1 from rfl]
  · split
    · simp only [List.length_append, hg, show (ascii ".").length = 1 from rfl]
    · simp only [slice, List.length_append, List.length_take, List.length_drop, hc, hex_length,
        show (ascii "_").length = 1 from rfl, show (ascii ".").length = 1 from rfl]
      rfl

theorem productSerial_full (j : Nat → Byte) (ctrl ns : List Byte) (nsid : U32) (hl : ns.length = 4096)
    (hc : ctrl.length = 4096) (hf : fullDigits ns) :
    Inquiry.productSerial j ctrl ns nsid
      = ((serial ns ctrl nsid.toNat).length, serial ns ctrl nsid.toNat ++ zeros (40 - (serial ns ctrl nsid.toNat).length)) := by
  rw [serial_length ns ctrl _ hc]
  unfold fullDigits at hf
  unfold serial
  by_cases c1 : nguid ns ≠ zeros 16
  · simp only [if_pos c1] at hf ⊢
    rw [productSerial_nguid j ctrl ns nsid hl c1 hf.1 hf.2]
    simp only [Nat.sub_self, zeros, List.replicate_zero, List.append_nil]
  · simp only [if_neg c1] at hf ⊢
    simp only [ne_eq, Decidable.not_not] at c1
    by_cases c2 : eui64 ns ≠ zeros 8
    · simp only [if_pos c2] at hf ⊢
      rw [productSerial_eui j ctrl ns nsid hl c1 c2 hf]
    · simp only [if_neg c2]
      simp only [ne_eq, Decidable.not_not] at c2
      rw [productSerial_sn j ctrl ns nsid hl hc c1 c2]

theorem serialHead (n : Nat) (h : n = 40 ∨ n = 20 ∨ n = 30) :
    ({ page_code := Scsi.PageCode.kUnitSerialNumber, page_length := BitVec.ofNat 8 n } : Scsi.UnitSerialNumber).toBytes
      = vpdHead 0x80 n := by
  rcases h with rfl | rfl | rfl
  · exact serialHead_eq.1
  · exact serialHead_eq.2.1
  · exact serialHead_eq.2.2

theorem insertNumbers_length (n : Nat) (ps hx : List Byte) : (Inquiry.insertNumbers n ps hx).length = ps.length := by
  induction n generalizing ps hx with
  | zero => rfl
  | succ n ih =>
    cases ps with
    | nil => rfl
    | cons p ps => unfold Inquiry.insertNumbers; split <;> simp [ih]

/-- What page 80h looks like in every case: 40, 20 or 30 in the length field and 40 bytes. -/
theorem productSerial_shape (j : Nat → Byte) (ctrl ns : List Byte) (nsid : U32) (hl : ns.length = 4096)
    (hc : ctrl.length = 4096) :
    (Inquiry.productSerial j ctrl ns nsid).1
      = (if nguid ns ≠ zeros 16 then 40 else if eui64 ns ≠ zeros 8 then 20 else 30) ∧
    (Inquiry.productSerial j ctrl ns nsid).2.length = 40 := by
  by_cases c1 : nguid ns ≠ zeros 16
  · simp only [if_pos c1]
    unfold Inquiry.productSerial
    simp only [if_pos ((nguid_nz ns hl).mpr c1), insertNumbers_length]
    exact ⟨trivial, by decide⟩
  · simp only [if_neg c1]
    simp only [ne_eq, Decidable.not_not] at c1
    by_cases c2 : eui64 ns ≠ zeros 8
    · simp only [if_pos c2]
      unfold Inquiry.productSerial
      simp only [if_neg (fun h => (nguid_nz ns hl).mp h c1), if_pos ((eui64_nz ns hl).mpr c2), insertNumbers_length]
      exact ⟨trivial, by decide⟩
    · simp only [if_neg c2]
      simp only [ne_eq, Decidable.not_not] at c2
      rw [productSerial_sn j ctrl ns nsid hl hc c1 c2]
      refine ⟨rfl, ?_⟩
      have := serial_length ns ctrl nsid.toNat hc
      unfold serial at this
      simp only [ne_eq, c1, c2, not_true, if_false] at this
      rw [List.length_append, this]
      rfl

/-- The three possible outcomes of page 80h. -/
theorem serial_outcome {x : Ran} {ns ctrl : List Byte} (hg : GoodAllocator x.E) (h : Inquired x true 0x80 ns ctrl) :
    x.good ∧
      (let r := Inquiry.productSerial (x.E.junk x.w2) ctrl ns (nsidOf x.lun)
       if 44 ≤ x.din.len then x.wrote x.din.ptr (vpdHead 0x80 r.1 ++ r.2)
       else if 4 ≤ x.din.len then x.wrote x.din.ptr (vpdHead 0x80 r.1) else x.wroteNothing) := by
  obtain ⟨st, wm, hw, hgd, hr⟩ := inquired_run h
  refine ⟨hgd, ?_⟩
  change Inquiry.TranslateUnitSerialNumberVpd x.E ctrl ns (nsidOf x.lun) x.din x.w2 = .ok (st, wm) at hr
  unfold Inquiry.TranslateUnitSerialNumberVpd at hr
  simp only [M.bind_run, M.get_run] at hr
  obtain ⟨s1, s2⟩ := productSerial_shape (x.E.junk x.w2) ctrl ns (nsidOf x.lun) (x.page_length h.ns) (x.page_length h.ctrl)
  simp only
  generalize Inquiry.productSerial (x.E.junk x.w2) ctrl ns (nsidOf x.lun) = r at hr s1 s2
  rw [serialHead r.1 (by rw [s1]; split; exact Or.inl rfl; split; exact Or.inr (Or.inl rfl); exact Or.inr (Or.inr rfl))] at hr
  have hne : r.2 ≠ [] := by intro h0; rw [h0] at s2; cases s2
  rcases writeHeaderAndBody_inv (by rfl) hne hr with ⟨a, -, b⟩ | ⟨a, a', -, b⟩ | ⟨a, -, b⟩
  · rw [if_neg (by omega), if_neg (by omega)]
    exact x.wroteNothing_of hg hw b
  · rw [if_neg (by omega), if_pos a]
    exact x.wrote_of hg hw b
  · rw [if_pos (by omega)]
    exact x.wrote_of hg hw b

/-- **C36**, full statement (false, see `C36_refuted`): a buffer of at least 44 bytes receives the serial number
page. -/
def C36_statement : Prop := ∀ (x : Ran) (ns ctrl : List Byte), GoodAllocator x.E → Inquired x true 0x80 ns ctrl →
  44 ≤ x.din.len → x.wrote x.din.ptr (serialPage ns ctrl (nsidOfLun x.lun))

/-- **C36**, the part that holds: the serial number page is correct if the identifier has no leading zero digits
(`fullDigits`); buffers of 4 to 43 bytes receive the head only, smaller ones nothing.  What is missing: identifiers
with leading zeros, which are formatted wrongly. -/
theorem C36_serial_partial (x : Ran) (ns ctrl : List Byte) (hg : GoodAllocator x.E) (h : Inquired x true 0x80 ns ctrl)
    (hf : fullDigits ns) :
    x.good ∧ if 44 ≤ x.din.len then x.wrote x.din.ptr (serialPage ns ctrl (nsidOfLun x.lun))
      else if 4 ≤ x.din.len then x.wrote x.din.ptr ((serialPage ns ctrl (nsidOfLun x.lun)).take 4) else x.wroteNothing := by
  have := serial_outcome hg h
  rw [productSerial_full _ ctrl ns _ (x.page_length h.ns) (x.page_length h.ctrl) hf, nsidOf_toNat] at this
  unfold serialPage
  have ht : (vpdHead 0x80 (serial ns ctrl (nsidOfLun x.lun)).length
      ++ (serial ns ctrl (nsidOfLun x.lun) ++ zeros (40 - (serial ns ctrl (nsidOfLun x.lun)).length))).take 4
      = vpdHead 0x80 (serial ns ctrl (nsidOfLun x.lun)).length := List.take_left' rfl
  simp only [ht]
  exact this

instance (ns : List Byte) : Decidable (fullDigits ns) := by unfold fullDigits; infer_instance

/-- The hypotheses of `C36_serial_partial` are met by an NGUID. -/
example : ∃ x ns ctrl, GoodAllocator x.E ∧ Inquired x true 0x80 ns ctrl ∧ nguid ns ≠ zeros 16 ∧ fullDigits ns ∧
    44 ≤ x.din.len := by
  obtain ⟨x, -, h1, h2, h3, -⟩ := Demo.inq_demo Demo.env.junk 1 0x80 (zeros 104 ++ List.replicate 16 0x12) []
    (by decide +kernel) (by decide) 96 (by decide)
  exact ⟨x, _, _, h1, h2, by decide +kernel, by decide +kernel, by rw [h3]; decide⟩

/-- They are met by a namespace without identifiers. -/
example : ∃ x ns ctrl, GoodAllocator x.E ∧ Inquired x true 0x80 ns ctrl ∧ nguid ns = zeros 16 ∧ fullDigits ns ∧
    44 ≤ x.din.len := by
  obtain ⟨y, -, g1, g2, g3, -⟩ := Demo.inq_demo Demo.env.junk 1 0x80 [] [] (by decide) (by decide) 96 (by decide)
  exact ⟨y, _, _, g1, g2, by decide +kernel, by decide +kernel, by rw [g3]; decide⟩

/-- Identify Namespace data with the EUI-64 123h. -/
def shortEui : List Byte := zeros 120 ++ [0x23, 0x01]

/-- What is written for this EUI-64. -/
theorem shortEui_serial (j : Nat → Byte) (ctrl : List Byte) (nsid : U32) :
    Inquiry.productSerial j ctrl (Demo.pad shortEui) nsid = (20,
      ascii "0000_0123_" ++ [0, j 9, j 10, j 11] ++ ascii "_" ++ [j 12, j 13, j 14, j 15] ++ ascii "." ++ zeros 20) := by
  unfold Inquiry.productSerial
  rw [if_neg (by decide +kernel), if_pos (by decide +kernel)]
  rw [show Inquiry.sprintf08x (htolll (getF (Demo.pad shortEui) Nvme.IdentifyNamespace.eui64)).toNat
    = ascii "00000123" ++ [0] by decide +kernel]
  rw [show Inquiry.underscores 20 = [0, 0, 0, 0, 0x5f, 0, 0, 0, 0, 0x5f, 0, 0, 0, 0, 0x5f, 0, 0, 0, 0, 0x2e] ++ zeros 20 by
    decide +kernel]
  rfl

/-- C36 does not hold: an EUI-64 with leading zero digits is not printed with 16 digits. -/
theorem C36_refuted : ¬ C36_statement := by
  intro hall
  obtain ⟨x, -, h1, h2, h3, -, h4, h5⟩ := Demo.inq_demo Demo.env.junk 1 0x80 shortEui [] (by decide) (by decide) 64 (by decide)
  have hw := hall x _ _ h1 h2 (by rw [h3]; decide)
  have hd : ∀ n, (serialPage (Demo.pad shortEui) (Demo.pad []) n)
      = vpdHead 0x80 20 ++ (groups (hex 16 0x123) ++ ascii "." ++ zeros 20) := by
    intro n
    unfold serialPage serial
    rw [if_neg (by decide +kernel), if_pos (by decide +kernel),
      show leAt (Demo.pad shortEui) 120 8 = 0x123 by decide +kernel]
    rfl
  have ho := (serial_outcome h1 h2).2
  simp only [shortEui_serial] at ho
  rw [if_pos (by rw [h3]; decide)] at ho
  rw [h3] at ho hw
  rw [hd] at hw
  have e1 := demo_get h1 h4 hw 11 (by decide) (by decide)
  have e2 := demo_get h1 h4 ho 11 (by simp [vpdHead, le_eq, beBytes, ascii, zeros]) (by decide)
  rw [e1] at e2
  revert e2
  rw [show (vpdHead 0x80 20 ++ (groups (hex 16 0x123) ++ ascii "." ++ zeros 20))[11]? = some 0x30 by decide +kernel]
  intro e2
  have e3 : some (0x30 : Byte) = some 0x32 := e2
  cases e3

end Scsi2Nvme
