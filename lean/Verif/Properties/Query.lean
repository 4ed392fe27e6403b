import Verif.Properties.EngineExact
import Verif.Spec.Controller
/-!
# C82: information commands through the engine
-/

namespace Scsi2Nvme
open Spec Engine

variable {σ : Type}

/-! ## Fields of the commands -/

theorem identify_fields (n c a : Nat) (hn : n < 2 ^ 32) (hc : c < 256) (ha : a < 2 ^ 64) :
    byte (identifySqe n c a) 0 = 6 ∧ leAt (identifySqe n c a) 4 4 = n ∧ byte (identifySqe n c a) 40 = c ∧
      leAt (identifySqe n c a) 24 8 = a := by
  unfold identifySqe
  refine ⟨byte0_sqe _ _ _ _ _ _ (by decide), nsid_sqe _ _ _ _ _ _ hn, ?_, ?_⟩
  · rw [byte40_sqe]; omega
  · unfold sqe leAt be le zeros
    simp [List.range, List.range.loop]
    omega

theorem features_fields (n sel : Nat) (hn : n < 2 ^ 32) (hs : sel < 4) :
    byte (getFeaturesSqe n 6 sel) 0 = 0x0a ∧ leAt (getFeaturesSqe n 6 sel) 4 4 = n ∧ byte (getFeaturesSqe n 6 sel) 40 = 6 ∧
      byte (getFeaturesSqe n 6 sel) 41 % 8 = sel := by
  unfold getFeaturesSqe
  refine ⟨byte0_sqe _ _ _ _ _ _ (by decide), nsid_sqe _ _ _ _ _ _ hn, ?_, ?_⟩
  · rw [byte40_sqe]; omega
  · unfold sqe byte le zeros
    simp [List.range, List.range.loop]
    omega

/-! ## The commands -/

/-- The commands of an information command: Identify into a page which was not accessible before, or Get Features. -/
def Informs (w : World) (wr : NvmeCmdWrapper) : Prop :=
  wr.is_admin = true ∧ ((byte wr.cmd.toBytes 0 = 0x06 ∧ ∀ a, inRange (leAt wr.cmd.toBytes 24 8) 4096 a → w.mem a = none) ∨
    byte wr.cmd.toBytes 0 = 0x0a)

theorem informs_identify {E : Env} (hg : GoodAllocator E) {w : World} (h : setA E w ≠ 0) (n c : U32) :
    Informs w (identifyWr n c (setA E w)) := by
  refine ⟨rfl, .inl ⟨identifyWr_op _ _ _, ?_⟩⟩
  rw [prp1_bytes]
  rcases set_good hg w with ⟨h0, -⟩ | ⟨-, -, h1, -⟩
  · exact absurd h0 h
  · exact fun a ha => (h1 a ha).1

theorem informs_features {w : World} {cdb : List Byte} {n : Nat} {fs : List NvmeCmdWrapper}
    (hf : fs.map (fun wr => (wr.cmd.toBytes, wr.is_admin)) = cachingCmds n cdb) : ∀ wr ∈ fs, Informs w wr := by
  intro x hx
  have : (x.cmd.toBytes, x.is_admin) ∈ fs.map (fun wr => (wr.cmd.toBytes, wr.is_admin)) := List.mem_map.mpr ⟨x, hx, rfl⟩
  rw [hf] at this
  unfold cachingCmds at this
  split at this
  · simp only [List.mem_cons, List.not_mem_nil, or_false, Prod.mk.injEq] at this
    refine ⟨this.2, .inr ?_⟩
    rw [this.1]
    exact byte0_sqe _ _ _ _ _ _ (by decide)
  · cases this

/-- The device does what is expected of it. -/
theorem controller_polite {D : Device σ} {ident feature} (hC : Controller D ident feature) {E ws w ptr cdb buf lun r t1 w1}
    (h : Began E (Translation.init ws) w ptr cdb buf lun r t1 w1) (hi : ∀ wr ∈ t1.GetNvmeWrappers, Informs w wr) :
    Polite D ptr cdb.length (submits E ws w ptr cdb buf lun) := by
  have key : ∀ sub, submits E ws w ptr cdb buf lun sub → ∃ wr ∈ t1.GetNvmeWrappers, sub = submissionOf wr := by
    rintro sub ⟨r', t', w', hb, hx⟩
    have := h.call
    rw [hb] at this
    cases this
    exact hx
  have stored : ∀ a, inRange ptr cdb.length a → (w.mem a).isSome := by
    intro a ha
    have := read_isSome.mp (show (w.mem.read ptr cdb.length).isSome by rw [h.stored]; rfl) (a - ptr) (by unfold inRange at ha; omega)
    rwa [show ptr + (a - ptr) = a by unfold inRange at ha; omega] at this
  constructor
  · intro sub hs s m a ha
    obtain ⟨wr, hw, rfl⟩ := key sub hs
    obtain ⟨h1, ⟨h2, -⟩ | h2⟩ := hi wr hw
    · rw [hC.identify s m (submissionOf wr) h1 h2]
      simp only
      unfold Mem.put
      split
      · rename_i hc
        rw [List.getElem?_eq_getElem (by omega)]
        rfl
      · exact ha
    · rw [hC.features s m (submissionOf wr) h1 h2]
      exact ha
  · intro sub hs s m a ha
    obtain ⟨wr, hw, rfl⟩ := key sub hs
    obtain ⟨h1, ⟨h2, h3⟩ | h2⟩ := hi wr hw
    · rw [hC.identify s m (submissionOf wr) h1 h2]
      have hno : ¬ inRange (leAt (submissionOf wr).cmd 24 8) 4096 a := by
        intro hh
        have := h3 a hh
        have h4 := stored a ha
        rw [this] at h4
        cases h4
      refine put_outside ?_
      rw [hC.size]
      unfold inRange at hno
      omega
    · rw [hC.features s m (submissionOf wr) h1 h2]

/-! ## The dialog -/

theorem dialog_identify {D : Device σ} {ident feature} (hC : Controller D ident feature) {s m wr subs cs s' m' n c a}
    (h : Dialog D s m (submissionOf wr :: subs) cs s' m') (had : wr.is_admin = true) (hi : wr.cmd.toBytes = identifySqe n c a)
    (hn : n < 2 ^ 32) (hc : c < 256) (ha : a < 2 ^ 64) :
    ∃ cs', cs = success 0 :: cs' ∧ Dialog D s (m.put a (ident n c)) subs cs' s' m' := by
  obtain ⟨f1, f2, f3, f4⟩ := identify_fields n c a hn hc ha
  have e := hC.identify s m (submissionOf wr) had (by change byte wr.cmd.toBytes 0 = _; rw [hi]; exact f1)
  have e2 : leAt (submissionOf wr).cmd 24 8 = a := by change leAt wr.cmd.toBytes 24 8 = _; rw [hi]; exact f4
  have e3 : leAt (submissionOf wr).cmd 4 4 = n := by change leAt wr.cmd.toBytes 4 4 = _; rw [hi]; exact f2
  have e4 : byte (submissionOf wr).cmd 40 = c := by change byte wr.cmd.toBytes 40 = _; rw [hi]; exact f3
  rw [e2, e3, e4] at e
  cases h with
  | cons h =>
    rw [e] at h ⊢
    exact ⟨_, rfl, h⟩

theorem dialog_features {D : Device σ} {ident feature} (hC : Controller D ident feature) {s m wr subs cs s' m' n sel}
    (h : Dialog D s m (submissionOf wr :: subs) cs s' m') (had : wr.is_admin = true) (hi : wr.cmd.toBytes = getFeaturesSqe n 6 sel)
    (hn : n < 2 ^ 32) (hc : sel < 4) :
    ∃ cs', cs = success (feature n 6 sel) :: cs' ∧ Dialog D s m subs cs' s' m' := by
  obtain ⟨f1, f2, f3, f4⟩ := features_fields n sel hn hc
  have e := hC.features s m (submissionOf wr) had (by change byte wr.cmd.toBytes 0 = _; rw [hi]; exact f1)
  have e3 : leAt (submissionOf wr).cmd 4 4 = n := by change leAt wr.cmd.toBytes 4 4 = _; rw [hi]; exact f2
  have e4 : byte (submissionOf wr).cmd 40 = 6 := by change byte wr.cmd.toBytes 40 = _; rw [hi]; exact f3
  have e5 : byte (submissionOf wr).cmd 41 % 8 = sel := by change byte wr.cmd.toBytes 41 % 8 = _; rw [hi]; exact f4
  rw [e3, e4, e5] at e
  cases h with
  | cons h =>
    rw [e] at h ⊢
    exact ⟨_, rfl, h⟩

theorem success_ok (n : Nat) : (cplStatus (success n)).status = 0 := by
  have : (success n).sct = 0 ∧ (success n).sc = 0 := ⟨rfl, rfl⟩
  unfold cplStatus
  rw [this.1, this.2]
  decide

/-! ## C82 -/

/-- What is established for one information command: it is accepted, announces `q.len`, its commands inform, and the
dialog over them ends with `q`'s pages in place. -/
structure Informed (D : Device σ) (w w1 : World) (r : BeginResponse) (t1 : Translation) (cdb : List Byte) (q : Query) : Prop where
  acc : Accepted t1
  len : r.alloc_len.toNat = q.len
  all : ∀ wr ∈ t1.GetNvmeWrappers, Informs w wr
  ends : ∀ s m cs s' m', Dialog D s m (t1.GetNvmeWrappers.map submissionOf) cs s' m' → s' = s ∧
    (∀ c ∈ cs, ∃ n, c = success n) ∧ (cs.map fun c => c.cdw0.toNat).getD 0 0 = q.dw0 % 2 ^ 32 ∧
    (∀ a, (w.mem a).isSome → m' a = m a) ∧
    (readsPage cdb = true → pageAt m' (t1.GetNvmeWrappers.map handed) 0 = q.page0) ∧
    (byte cdb 0 = 0x12 → pageAt m' (t1.GetNvmeWrappers.map handed) 1 = q.page1)

theorem pageAt_identify {m : Mem} {l : List NvmeCmdWrapper} {i : Nat} {wr : NvmeCmdWrapper} {a : Nat} {bs : List Byte}
    (hi : l[i]? = some wr) (ha : leAt wr.cmd.toBytes 24 8 = a) (hr : m.read a 4096 = some bs) : pageAt m (l.map handed) i = bs := by
  unfold pageAt
  rw [List.getElem?_map, hi]
  simp only [Option.map_some, handed]
  rw [ha, hr]
  rfl

/-- One Identify command, followed by nothing. -/
theorem informed_one {D : Device σ} {ident feature} (hC : Controller D ident feature) {E : Env} (hg : GoodAllocator E) {w w1 : World}
    {r t1} {cdb : List Byte} {n c : U32} (hc : c.toNat < 256) {len : Nat} (hacc : Accepted t1) (hlen : r.alloc_len.toNat = len)
    (hA : setA E w ≠ 0) (hcm : t1.GetNvmeWrappers = [identifyWr n c (setA E w)]) (hne : byte cdb 0 ≠ 0x12) (p1 : List Byte) :
    Informed D w w1 r t1 cdb ⟨len, ident n.toNat c.toNat, p1, 0⟩ := by
  have hinf := informs_identify hg hA n c
  refine ⟨hacc, hlen, ?_, ?_⟩
  · intro wr hwr
    rw [hcm] at hwr
    rw [List.mem_singleton.mp hwr]
    exact hinf
  · intro s m cs s' m' h
    rw [hcm] at h
    obtain ⟨cs', e, g⟩ := dialog_identify hC h rfl (identifyCmd_toBytes n c (setA E w)) n.isLt hc (setA E w).isLt
    clear h
    obtain ⟨rfl, rfl, rfl⟩ := Spec.Dialog.zero g
    subst e
    refine ⟨rfl, ?_, rfl, ?_, fun _ => ?_, fun h => absurd h hne⟩
    · intro c hc
      exact ⟨0, List.mem_singleton.mp hc⟩
    · intro a ha
      refine put_outside ?_
      rw [hC.size]
      rcases hinf.2 with ⟨-, h3⟩ | h3
      · rw [prp1_bytes] at h3
        have hno : ¬ inRange (setA E w).toNat 4096 a := by
          intro hh
          have h4 := h3 a hh
          rw [h4] at ha
          cases ha
        unfold inRange at hno
        omega
      · rw [identifyWr_op] at h3
        cases h3
    · rw [hcm]
      refine pageAt_identify (i := 0) rfl (prp1_bytes _) ?_
      have := read_put_self (m := m) (p := (setA E w).toNat) (bs := ident n.toNat c.toNat)
      rw [hC.size] at this
      exact this

theorem outside_fresh {w : World} {p a : Nat} (h : ∀ x, inRange p 4096 x → w.mem x = none) (ha : (w.mem a).isSome) :
    a < p ∨ p + 4096 ≤ a := by
  have hno : ¬ inRange p 4096 a := by
    intro hh
    rw [h a hh] at ha
    cases ha
  unfold inRange at hno
  omega

theorem informed_inquiry {D : Device σ} {ident feature} (hC : Controller D ident feature) {E : Env} (hg : GoodAllocator E)
    {t w ptr cdb buf lun r t1 w1} (h : Began E t w ptr cdb buf lun r t1 w1) (hop : byte cdb 0 = 0x12)
    (hacc : Accepted t1) : Informed D w w1 r t1 cdb ⟨beAt cdb 3 2, ident (nsidOfLun lun) 0, ident 0 1, 0⟩ := by
  obtain ⟨hal, a0, a1, wr0, wr1, ha0, ha1, hcm, hi0, hi1, hd0, hd1, -⟩ := C33_inquiry E t w ptr cdb buf lun r t1 w1 h hop hacc
  obtain ⟨wr0', wr1', hcm', hf0, hf1, hdis⟩ := C33_inquiry_pages E t w ptr cdb buf lun r t1 w1 h hg hop hacc
  rw [hcm] at hcm'
  simp only [List.cons.injEq, and_true] at hcm'
  obtain ⟨rfl, rfl⟩ := hcm'
  have hp0 : wr0.cmd.prp1.toNat = leAt wr0.cmd.toBytes 24 8 := (prp1_bytes _).symm
  have hp1 : wr1.cmd.prp1.toNat = leAt wr1.cmd.toBytes 24 8 := (prp1_bytes _).symm
  -- the addresses
  obtain ⟨b0, hb0⟩ : ∃ b, b = wr0.cmd.prp1.toNat := ⟨_, rfl⟩
  obtain ⟨b1, hb1⟩ : ∃ b, b = wr1.cmd.prp1.toNat := ⟨_, rfl⟩
  have hlt0 : b0 < 2 ^ 64 := by rw [hb0]; exact wr0.cmd.prp1.isLt
  have hlt1 : b1 < 2 ^ 64 := by rw [hb1]; exact wr1.cmd.prp1.isLt
  have hs0 : wr0.cmd.toBytes = identifySqe (nsidOfLun lun) 0 b0 := by
    obtain ⟨p, w', e, hc, hcase⟩ := inquiry_cases h hop
    have hs := e.acc.mp hacc
    rcases hcase with ⟨-, hn, -⟩ | ⟨-, -, hn, -⟩ | ⟨-, -, -, hn, -⟩ | ⟨-, -, -, -, -, e0, e1, -, -⟩
    · exact absurd hs hn
    · exact absurd hs hn
    · exact absurd hs hn
    · have hm := e.cmds hs
      rw [hc, hcm] at hm
      have : wr0 = p.ws.e0 := by have := congrArg List.head? hm; simpa [Arr3.toList] using this
      rw [hb0, this, e0, ← nsidOf_toNat]
      exact identifyCmd_toBytes _ _ _
  have hs1 : wr1.cmd.toBytes = identifySqe 0 1 b1 := by
    obtain ⟨p, w', e, hc, hcase⟩ := inquiry_cases h hop
    have hs := e.acc.mp hacc
    rcases hcase with ⟨-, hn, -⟩ | ⟨-, -, hn, -⟩ | ⟨-, -, -, hn, -⟩ | ⟨-, -, -, -, -, e0, e1, -, -⟩
    · exact absurd hs hn
    · exact absurd hs hn
    · exact absurd hs hn
    · have hm := e.cmds hs
      rw [hc, hcm, take_two] at hm
      have : wr1 = p.ws.e1 := by simp only [List.cons.injEq, and_true] at hm; exact hm.2
      rw [hb1, this, e1]
      exact identifyCmd_toBytes _ _ _
  rw [← hb0] at hf0 hdis hp0
  rw [← hb1] at hf1 hdis hp1
  refine ⟨hacc, hal, ?_, ?_⟩
  · intro wr hwr
    rw [hcm] at hwr
    simp only [List.mem_cons, List.not_mem_nil, or_false] at hwr
    rcases hwr with rfl | rfl
    · refine ⟨hd0, .inl ⟨by rw [hs0]; exact (identify_fields _ _ _ (nsidOfLun_lt lun) (by decide) hlt0).1, ?_⟩⟩
      rw [← hp0]; exact fun a ha => (hf0 a ha).1
    · refine ⟨hd1, .inl ⟨by rw [hs1]; exact (identify_fields _ _ _ (by decide) (by decide) hlt1).1, ?_⟩⟩
      rw [← hp1]; exact fun a ha => (hf1 a ha).1
  · intro s m cs s' m' hD
    rw [hcm] at hD
    obtain ⟨cs1, e, g⟩ := dialog_identify hC hD hd0 hs0 (nsidOfLun_lt lun) (by decide) hlt0
    obtain ⟨cs2, e', g'⟩ := dialog_identify hC g hd1 hs1 (by decide) (by decide) hlt1
    clear hD g
    obtain ⟨rfl, rfl, rfl⟩ := Spec.Dialog.zero g'
    subst e'
    subst e
    have r1 : ((m.put b0 (ident (nsidOfLun lun) 0)).put b1 (ident 0 1)).read b1 4096 = some (ident 0 1) := by
      have := read_put_self (m := m.put b0 (ident (nsidOfLun lun) 0)) (p := b1) (bs := ident 0 1)
      rw [hC.size] at this
      exact this
    have r0 : ((m.put b0 (ident (nsidOfLun lun) 0)).put b1 (ident 0 1)).read b0 4096 = some (ident (nsidOfLun lun) 0) := by
      have := read_put_self (m := m) (p := b0) (bs := ident (nsidOfLun lun) 0)
      rw [hC.size] at this
      rw [← this]
      refine read_congr fun i hi => put_outside ?_
      rw [hC.size]
      have hno : ¬ inRange b1 4096 (b0 + i) := fun hh => hdis (b0 + i) ⟨⟨Nat.le_add_right _ _, by omega⟩, hh⟩
      unfold inRange at hno
      omega
    refine ⟨rfl, ?_, rfl, ?_, fun _ => ?_, fun _ => ?_⟩
    · intro c hc
      simp only [List.mem_cons, List.not_mem_nil, or_false, or_self] at hc
      exact ⟨0, hc⟩
    · intro a ha
      rw [put_outside, put_outside]
      · rw [hC.size]; exact outside_fresh (fun x hx => (hf0 x hx).1) ha
      · rw [hC.size]; exact outside_fresh (fun x hx => (hf1 x hx).1) ha
    · rw [hcm]
      exact pageAt_identify (i := 0) rfl hp0.symm r0
    · rw [hcm]
      exact pageAt_identify (i := 1) rfl hp1.symm r1

theorem informed_mode {D : Device σ} {ident feature} (hC : Controller D ident feature) {E : Env} (hg : GoodAllocator E)
    {t w ptr cdb buf lun r t1 w1} (h : Began E t w ptr cdb buf lun r t1 w1) (hop : byte cdb 0 = 0x1a)
    (hacc : Accepted t1) (hn : Spec.bit cdb 1 3 = false ∨ asksCaching (byte cdb 2 % 64)) :
    Informed D w w1 r t1 cdb (if Spec.bit cdb 1 3 = false then ⟨byte cdb 4, ident (nsidOfLun lun) 0, [], 0⟩
      else ⟨byte cdb 4, [], [], feature (nsidOfLun lun) 6 (selectFor (byte cdb 2 / 64))⟩) := by
  have hsel : selectFor (byte cdb 2 / 64) < 4 := by
    unfold selectFor
    split
    · omega
    · split <;> omega
  have hal : ∀ p : Pipe, p.alloc_len = BitVec.ofNat 32 (byte cdb 4) → r = ⟨.kSuccess, p.alloc_len⟩ → r.alloc_len.toNat = byte cdb 4 := by
    intro p h1 h2
    rw [h2, h1]
    exact ofNat32_byte cdb 4
  have h12 : byte cdb 0 ≠ 0x12 := by omega
  -- a Get Features at the end
  have feat : ∀ fs : List NvmeCmdWrapper, fs.map (fun wr => (wr.cmd.toBytes, wr.is_admin)) = cachingCmds (nsidOfLun lun) cdb →
      ∀ s m cs s' m', Dialog D s m (fs.map submissionOf) cs s' m' → s' = s ∧ m' = m ∧
        cs = if asksCaching (byte cdb 2 % 64) then [success (feature (nsidOfLun lun) 6 (selectFor (byte cdb 2 / 64)))] else [] := by
    intro fs hfs s m cs s' m' hD
    unfold cachingCmds at hfs
    split at hfs
    · rename_i hc
      obtain ⟨wr, rfl⟩ : ∃ wr, fs = [wr] := List.length_eq_one_iff.mp (by simpa using congrArg List.length hfs)
      simp only [List.map_cons, List.map_nil, List.cons.injEq, Prod.mk.injEq, and_true] at hfs
      obtain ⟨cs', e, g⟩ := dialog_features hC hD hfs.2 hfs.1 (nsidOfLun_lt lun) hsel
      clear hD
      obtain ⟨rfl, rfl, rfl⟩ := Spec.Dialog.zero g
      exact ⟨rfl, rfl, by rw [e, if_pos hc]⟩
    · rename_i hc
      have : fs = [] := List.map_eq_nil_iff.mp hfs
      subst this
      obtain ⟨rfl, rfl, rfl⟩ := Spec.Dialog.zero hD
      exact ⟨rfl, rfl, by rw [if_neg hc]⟩
  obtain ⟨p, w', e, hcase⟩ := ms_cases h hop
  have hs := e.acc.mp hacc
  rcases hcase with ⟨-, hh, -⟩ | ⟨-, hd, hst, hw, hcn, -, -, hl4⟩ | ⟨-, -, -, hh, -⟩ | ⟨-, hd, hA, hst, hw, hcn, -, -, hl4⟩
  · exact absurd hs hh
  · have hok : ∀ ws n, (msPage (attrsOf6 cdb) (nsidOf lun) ws n).1 = .kSuccess := fun ws n =>
      (msPage_ok cdb (nsidOf lun) ws n).mpr ((msPage_ok cdb (nsidOf lun) _ _).mp (hst ▸ hs))
    obtain ⟨fs, f1, f2⟩ := msPage_cmds cdb lun t.nvme_wrappers 0 (by omega) (hok _ _)
    have hcm : t1.GetNvmeWrappers = fs := by rw [e.cmds hs, hw, hcn, f1, List.take_zero, List.nil_append]
    have hac : asksCaching (byte cdb 2 % 64) := by
      rcases hn with hn | hn
      · rw [hd] at hn; cases hn
      · exact hn
    rw [if_neg (by rw [hd]; decide)]
    refine ⟨e.acc.mpr hs, hal p hl4 e.resp, ?_, ?_⟩
    · rw [hcm]; exact informs_features f2
    · intro s m cs s' m' hD
      rw [hcm] at hD
      obtain ⟨rfl, rfl, hcs⟩ := feat fs f2 _ _ _ _ _ hD
      rw [if_pos hac] at hcs
      refine ⟨rfl, ?_, ?_, fun _ _ => rfl, fun hrp => ?_, fun hh => absurd hh h12⟩
      · intro c hc
        rw [hcs] at hc
        exact ⟨_, List.mem_singleton.mp hc⟩
      · rw [hcs]
        simp only [List.map_cons, List.getD_cons_zero, success, BitVec.toNat_ofNat]
      · unfold readsPage at hrp
        simp only [hd, hop, decide_eq_true_eq] at hrp
        simp at hrp
  · exact absurd hs hh
  · have hok : ∀ ws n, (msPage (attrsOf6 cdb) (nsidOf lun) ws n).1 = .kSuccess := fun ws n =>
      (msPage_ok cdb (nsidOf lun) ws n).mpr ((msPage_ok cdb (nsidOf lun) _ _).mp (hst ▸ hs))
    obtain ⟨fs, f1, f2⟩ := msPage_cmds cdb lun (t.nvme_wrappers.put 0 (identifyWr (nsidOf lun) 0 (setA E w))) 1 (by omega) (hok _ _)
    have hcm : t1.GetNvmeWrappers = identifyWr (nsidOf lun) 0 (setA E w) :: fs := by
      rw [e.cmds hs, hw, hcn, f1]; rfl
    have hinf := informs_identify hg hA (nsidOf lun) 0
    rw [if_pos hd]
    refine ⟨e.acc.mpr hs, hal p hl4 e.resp, ?_, ?_⟩
    · intro wr hwr
      rw [hcm] at hwr
      rcases List.mem_cons.mp hwr with rfl | hwr
      · exact hinf
      · exact informs_features f2 wr hwr
    · intro s m cs s' m' hD
      rw [hcm] at hD
      obtain ⟨cs', e1, g⟩ := dialog_identify hC hD rfl (identifyCmd_toBytes (nsidOf lun) 0 (setA E w)) (nsidOf lun).isLt (by decide)
        (setA E w).isLt
      clear hD
      obtain ⟨rfl, hm, hcs⟩ := feat fs f2 _ _ _ _ _ g
      have hm' : m' = m.put (setA E w).toNat (ident (nsidOfLun lun) 0) := by rw [hm, ← nsidOf_toNat]; rfl
      clear g
      subst e1
      refine ⟨rfl, ?_, rfl, ?_, fun _ => ?_, fun hh => absurd hh h12⟩
      · intro c hc
        rcases List.mem_cons.mp hc with rfl | hc
        · exact ⟨0, rfl⟩
        · rw [hcs] at hc
          split at hc
          · exact ⟨_, List.mem_singleton.mp hc⟩
          · cases hc
      · intro a ha
        rw [hm']
        refine put_outside ?_
        rw [hC.size]
        rcases hinf.2 with ⟨-, h3⟩ | h3
        · rw [prp1_bytes] at h3
          exact outside_fresh h3 ha
        · rw [identifyWr_op] at h3
          cases h3
      · rw [hcm, hm']
        refine pageAt_identify (i := 0) rfl (prp1_bytes _) ?_
        have := read_put_self (m := m) (p := (setA E w).toNat) (bs := ident (nsidOfLun lun) 0)
        rw [hC.size] at this
        exact this

/-- If no page was refused during the call, none was refused during `Begin`. -/
theorem served_granted (x : Served σ) (hG : ∃ evs, x.w'.trace = evs ++ x.w.trace ∧ pagesGranted x.E evs) :
    ∃ r t1 w1, Began x.E (Translation.init x.ws) x.w x.ptr x.cdb x.buf x.lun r t1 w1 ∧
      ∀ evs, w1.trace = evs ++ x.w.trace → pagesGranted x.E evs := by
  obtain ⟨r, t1, w1, hB, -, h⟩ := served_began x
  refine ⟨r, t1, w1, hB, fun evs he => ?_⟩
  obtain ⟨all, e1, e2, e3⟩ := hG
  have : ∃ ds, x.w'.trace = ds ++ w1.trace := by
    rcases h with ⟨hl, hr, hs, hw⟩ | ⟨hl, cs, m, c, t2, hD, hc, hok, hr⟩
    · exact ⟨[], by rw [hw]; rfl⟩
    · obtain ⟨ds, h1, -⟩ := Complete_grows (began_wf hB) hc
      exact ⟨ds, h1⟩
  obtain ⟨ds, hd⟩ := this
  rw [he, ← List.append_assoc, e1] at hd
  have := List.append_cancel_right hd
  rw [this, refused_append] at e3
  exact ⟨e2, fun hh => e3 (.inr hh)⟩

/-- An information command is accepted if the allocator refused no page. -/
theorem query_accepted {E t w ptr cdb buf lun r t1 w1} (hB : Began E t w ptr cdb buf lun r t1 w1) {ident feature} {q : Query}
    (hq : query cdb (nsidOfLun lun) ident feature = some q) (hG : ∀ evs, w1.trace = evs ++ w.trace → pagesGranted E evs) : Accepted t1 := by
  unfold query at hq
  split at hq
  · rename_i ho
    split at hq
    · rename_i h6
      obtain ⟨evs, e1, e2⟩ := C33_inquiry_accepted _ _ _ _ _ _ _ _ _ _ hB ho
      exact e2.mpr ⟨h6, hG evs e1⟩
    · cases hq
  · rename_i ho
    split at hq
    · rename_i hc
      obtain ⟨evs, e1, e2⟩ := (C44_read_capacity_commands _ _ _ _ _ _ _ _ _ _ hB ho).1
      exact e2.mpr ⟨hc.1, hc.2, hG evs e1⟩
    · cases hq
  · rename_i ho
    split at hq
    · rename_i hc
      obtain ⟨evs, e1, e2⟩ := (C46_report_luns_commands _ _ _ _ _ _ _ _ _ _ hB ho).1
      exact e2.mpr ⟨hc.1, hc.2, hG evs e1⟩
    · cases hq
  · rename_i ho
    split at hq
    · rename_i hc
      obtain ⟨evs, e1, e2⟩ := (C49_mode_sense6 _ _ _ _ _ _ _ _ _ _ hB ho).1
      exact e2.mpr ⟨hc.1, hc.2.2.1, hc.2.2.2, fun _ => hG evs e1⟩
    · cases hq
  · cases hq

/-- What is established for an information command which was accepted. -/
theorem query_informed {D : Device σ} {ident feature} (hC : Controller D ident feature) {E : Env} (hg : GoodAllocator E)
    {t w ptr cdb buf lun r t1 w1} (hB : Began E t w ptr cdb buf lun r t1 w1) {q : Query}
    (hq : query cdb (nsidOfLun lun) ident feature = some q) (hacc : Accepted t1) :
    byte cdb 0 ≠ 0x42 ∧ Informed D w w1 r t1 cdb q := by
  unfold query at hq
  split at hq
  · rename_i ho
    split at hq
    · cases hq
      exact ⟨by omega, informed_inquiry hC hg hB ho hacc⟩
    · cases hq
  · rename_i ho
    split at hq
    · cases hq
      refine ⟨by omega, ?_⟩
      obtain ⟨p, w', e, hcn, hcase⟩ := rc_cases hB ho
      rcases hcase with ⟨-, hh, -⟩ | ⟨-, -, -, hh, -⟩ | ⟨-, -, h0, hs, -, e0, -, hal⟩
      · exact absurd (e.acc.mp hacc) hh
      · exact absurd (e.acc.mp hacc) hh
      · have := informed_one (w1 := w1) (r := r) (t1 := t1) (cdb := cdb) (c := 0) hC hg (by decide) (e.acc.mpr hs) (len := 8) (by rw [e.resp, hal]; rfl) h0
          (n := nsidOf lun) (by rw [e.cmds hs, hcn, take_one, e0]) (by omega) []
        rw [nsidOf_toNat] at this
        exact this
    · cases hq
  · rename_i ho
    split at hq
    · cases hq
      refine ⟨by omega, ?_⟩
      obtain ⟨p, w', e, hcn, hcase⟩ := rl_api_cases hB ho
      rcases hcase with ⟨-, hh, -⟩ | ⟨-, -, -, hh, -⟩ | ⟨-, -, h0, hs, -, e0, -, hal⟩
      · exact absurd (e.acc.mp hacc) hh
      · exact absurd (e.acc.mp hacc) hh
      · exact informed_one (w1 := w1) (r := r) (t1 := t1) (cdb := cdb) (n := 0) (c := 2) hC hg (by decide) (e.acc.mpr hs) (len := beAt cdb 6 4)
          (by rw [e.resp, hal]; exact ofNat32_beAt4 _ _) h0
          (by rw [e.cmds hs, hcn, take_one, e0]) (by omega) []
    · cases hq
  · rename_i ho
    refine ⟨by omega, ?_⟩
    split at hq
    · split at hq
      · rename_i hd
        have := informed_mode hC hg hB ho hacc (.inl hd)
        rw [if_pos hd] at this
        cases hq
        exact this
      · rename_i hd
        split at hq
        · rename_i hac
          have := informed_mode hC hg hB ho hacc (.inr hac)
          rw [if_neg hd] at this
          cases hq
          exact this
        · cases hq
    · cases hq
  · cases hq

/-! ## Completions which are defined -/

theorem steady_of {cdb : List Byte} (h : byte cdb 0 ≠ 0x1a ∧ byte cdb 0 ≠ 0x5a) (page : List Byte) : steady cdb page :=
  ⟨fun h1 => absurd h1 h.1, fun h1 => absurd h1 h.2⟩

/-- The completion of an accepted `steady` command is defined. -/
theorem steady_safe {E t w ptr cdb buf lun r t1 w1} (h : Began E t w ptr cdb buf lun r t1 w1) (ha : Accepted t1)
    {page : List Byte} (hs : steady cdb page) {w2 : World} {din : Span} (hl : din.len ≤ r.alloc_len.toNat)
    (hp : byte cdb 0 = 0x1a → Spec.bit cdb 1 3 = false → ∀ pg, firstPage t1 w2.mem pg → pg = page) : ¬ Faulty cdb t1 w2 din := by
  intro hf
  have ten : byte cdb 0 = 0x5a → False := by
    intro h5
    have h1 := (fallthrough_luns h (Or.inr h5) ha).1
    have h2 := hs.2 h5
    omega
  cases hf with
  | noCompletion h1 h2 =>
    obtain ⟨-, _, -, hcm⟩ := (C49_mode_sense6 _ _ _ _ _ _ _ _ _ _ h h1).2.1 ha
    rw [h2] at hcm
    have h3 := hs.1 h1
    cases hd : Spec.bit cdb 1 3 with
    | true =>
      rw [hd, if_pos rfl] at h3
      rw [if_pos h3] at hcm
      simp at hcm
    | false =>
      rw [if_pos hd] at hcm
      simp at hcm
  | shift6 pg h1 h2 h3 h4 h5 =>
    have hal := ((C49_mode_sense6 _ _ _ _ _ _ _ _ _ _ h h1).2.1 ha).1
    have h6 := hs.1 h1
    rw [h2, if_neg (by simp)] at h6
    rw [hp h1 h2 pg h4] at h5
    omega
  | noReturn h1 h2 h3 => exact ten h1
  | shift10 page h1 h2 h3 h4 h5 => exact ten h1
  | noReturnDescriptor h1 h2 h3 => exact ten h1

/-- The first page of an accepted MODE SENSE(6) without DBD is the Identify data of the namespace, if the device is a controller. -/
theorem first_page {D : Device σ} {ident feature} (hC : Controller D ident feature) {E : Env} (hg : GoodAllocator E)
    {t w ptr cdb buf lun r t1 w1} (hB : Began E t w ptr cdb buf lun r t1 w1) (ha : Accepted t1) (hop : byte cdb 0 = 0x1a)
    (hd : Spec.bit cdb 1 3 = false) {s m cs s' m'} (hD : Dialog D s m (t1.GetNvmeWrappers.map submissionOf) cs s' m') :
    ∀ pg, firstPage t1 m' pg → pg = ident (nsidOfLun lun) 0 := by
  rintro pg ⟨wr, h1, h2⟩
  obtain ⟨hl, hm, hc, -⟩ := (C49_mode_sense6 _ _ _ _ _ _ _ _ _ _ hB hop).1.choose_spec.2.mp ha
  have hq : query cdb (nsidOfLun lun) ident feature = some ⟨byte cdb 4, ident (nsidOfLun lun) 0, [], 0⟩ := by
    unfold query
    rw [hop]
    simp only
    rw [if_pos ⟨hl, hl, hm, hc⟩, if_pos hd]
  have hi := ((query_informed hC hg hB hq ha).2.ends _ _ _ _ _ hD).2.2.2.2.1 (by unfold readsPage; simp [hop, hd])
  have h3 : pageAt m' (t1.GetNvmeWrappers.map handed) 0 = pg := by
    unfold pageAt
    rw [List.getElem?_map, ← List.head?_eq_getElem?, h1]
    simp only [Option.map_some, handed]
    rw [h2]; rfl
  exact h3.symm.trans hi

/-- **C82.** Information commands through the engine: over a controller which executes Identify and Get Features, and
if the allocator refuses no page during the call, every INQUIRY, READ CAPACITY(10), REPORT LUNS and MODE SENSE(6) which
`query` covers and whose allocation length fits in the data buffer is answered with GOOD; the state of the device is
unchanged; and of the memory of the caller exactly the bytes of `reply` are changed, made of the controller's data for
the LUN's namespace.  (`stack` is the uninitialised stack memory which reaches the answer of VPD page 80h.) -/
theorem C82_information (x : Served σ) (hg : GoodAllocator x.E) (ident feature)
    (hC : Controller x.D ident feature) (hb : accessible x.w.mem x.buf)
    (hG : ∃ evs, x.w'.trace = evs ++ x.w.trace ∧ pagesGranted x.E evs) (q : Query)
    (hq : query x.cdb (nsidOfLun x.lun) ident feature = some q) (hl : q.len ≤ x.dataLen.toNat) :
    x.resp = ⟨0, q.len⟩ ∧ x.s' = x.s ∧ ∃ stack : List Byte, stack.length = 33 ∧ ∀ a, (x.w.mem a).isSome →
      x.w'.mem a = x.w.mem.put (if x.isIn then x.data else 0) (reply x.cdb (nsidOfLun x.lun) (if x.isIn then q.len else 0)
        stack q.page0 q.page1 (q.dw0 % 2 ^ 32)) a := by
  obtain ⟨r, t1, w1, hB, hG⟩ := served_granted x hG
  obtain ⟨h42, hinf⟩ := query_informed hC hg hB hq (query_accepted hB hq hG)
  obtain ⟨evs, m1, ⟨r', t', hB'⟩, hk, -, hrest⟩ := C80_engine x hg (controller_polite hC hB hinf.all) hb [] (fun h => absurd h h42)
  have hcall := hB'.call
  rw [hB.call] at hcall
  simp only [Except.ok.injEq, Prod.mk.injEq] at hcall
  obtain ⟨⟨rfl, rfl⟩, rfl⟩ := hcall
  obtain ⟨evs', ht, -, -, hal, hres⟩ := C78_begin _ _ _ _ _ _ _ _ _ _ [] hB (fun h => absurd h h42)
  have : evs' = evs := (List.append_cancel_right ht).symm
  subst this
  generalize (plan x.cdb x.buf [] x.lun (slots (Translation.init x.ws)) fun i => (pageAnswers evs').getD i 0) = pl at hal hres hrest
  have hr : pl.result = some (t1.GetNvmeWrappers.map handed) := by
    split at hres
    · exact absurd hinf.acc hres.1
    · rename_i cs e
      rw [e, hres.2]
  rw [hinf.len] at hal
  rw [if_neg (by rw [← hal]; omega)] at hrest
  obtain ⟨cs, m, hD, hend⟩ := hrest
  rw [hr, Option.getD_some] at hD hend
  have hmap : (t1.GetNvmeWrappers.map handed).map submitted = t1.GetNvmeWrappers.map submissionOf := by
    rw [List.map_map]
    apply List.map_congr_left
    intro wr _
    exact (submissionOf_handed wr).symm
  rw [hmap] at hD
  obtain ⟨hs, hcs, hdw, hkeep, hp0, hp1⟩ := hinf.ends _ _ _ _ _ hD
  have hlen : cs.length = (t1.GetNvmeWrappers.map handed).length := by rw [hD.length, List.length_map, List.length_map]
  unfold outcome at hend
  rw [if_neg (by rw [Option.getD_some]; exact not_not_intro hlen)] at hend
  have hfind : cs.find? (fun c => (cplStatus c).status ≠ 0) = none := by
    rw [List.find?_eq_none]
    intro c hc
    obtain ⟨n, rfl⟩ := hcs c hc
    simp [success_ok]
  simp only [hfind, hdw, ← hal] at hend
  obtain ⟨e1, e2⟩ := hend
  refine ⟨e1, hs, (List.range 33).map (x.E.junk ⟨m, evs' ++ x.w.trace⟩), by rw [List.length_map, List.length_range], fun a ha => ?_⟩
  rw [e2 a ha]
  have hreply : ∀ st p0 p1, (readsPage x.cdb = true → p0 = q.page0) → (byte x.cdb 0 = 0x12 → p1 = q.page1) →
      reply x.cdb (nsidOfLun x.lun) (if x.isIn = true then q.len else 0) st p0 p1 (q.dw0 % 2 ^ 32)
        = reply x.cdb (nsidOfLun x.lun) (if x.isIn = true then q.len else 0) st q.page0 q.page1 (q.dw0 % 2 ^ 32) := by
    intro st p0 p1 g0 g1
    unfold readsPage at g0
    simp only [decide_eq_true_eq] at g0
    unfold reply
    split
    · rfl
    · rename_i ho; rw [g0 (.inl ho), g1 ho]
    · rename_i ho
      cases hd : Spec.bit x.cdb 1 3
      · rw [g0 (.inr (.inr (.inr ⟨ho, hd⟩)))]
      · rfl
    · rename_i ho; rw [g0 (.inr (.inl ho))]
    · rfl
    · rename_i ho; rw [g0 (.inr (.inr (.inl ho)))]
    · rfl
    · rfl
  rw [hreply _ _ _ hp0 hp1]
  unfold Mem.put
  rw [hkeep a ha, hk a ha]

/-! ## A concrete call -/

/-- A controller which executes Identify and Get Features. -/
def demoController (ident : Nat → Nat → List Byte) (feature : Nat → Nat → Nat → Nat) : Device Unit := fun s m sub =>
  if sub.is_admin = true ∧ byte sub.cmd 0 = 0x06 then
    (s, m.put (leAt sub.cmd 24 8) (ident (leAt sub.cmd 4 4) (byte sub.cmd 40)), success 0)
  else if sub.is_admin = true ∧ byte sub.cmd 0 = 0x0a then
    (s, m, success (feature (leAt sub.cmd 4 4) (byte sub.cmd 40) (byte sub.cmd 41 % 8)))
  else (s, m, success 0)

theorem demoController_ok (ident feature) (h : ∀ n c, (ident n c).length = 4096) :
    Controller (demoController ident feature) ident feature where
  identify := fun s m sub h1 h2 => by unfold demoController; rw [if_pos ⟨h1, h2⟩]
  features := fun s m sub h1 h2 => by unfold demoController; rw [if_neg (by omega), if_pos ⟨h1, h2⟩]
  size := h

/-- The hypotheses of C82 are met by INQUIRY, for any controller data. -/
example (ident : Nat → Nat → List Byte) (feature : Nat → Nat → Nat → Nat) (hs : ∀ n c, (ident n c).length = 4096) :
    ∃ (x : Served Unit) (q : Query), GoodAllocator x.E ∧ Controller x.D ident feature ∧ accessible x.w.mem x.buf ∧
      (∃ evs, x.w'.trace = evs ++ x.w.trace ∧ pagesGranted x.E evs) ∧
      query x.cdb (nsidOfLun x.lun) ident feature = some q ∧ q.len ≤ x.dataLen.toNat ∧ q.page0 = ident 2 0 := by
  obtain ⟨r, t1, w1, hB, hacc⟩ := began_of boundedEnv Demo.ws ⟨Demo.mem Demo.inquiry, []⟩ 0x100 Demo.inquiry ⟨0x8000, 96⟩ 1
    (fun _ t' => Accepted t') (by decide +kernel) (by decide +kernel)
  have hC := demoController_ok ident feature hs
  have hinf := informed_inquiry hC boundedEnv_good hB (by decide) hacc
  have hpol := controller_polite hC hB hinf.all
  have o1 : byte Demo.inquiry 0 ≠ 0x1a ∧ byte Demo.inquiry 0 ≠ 0x5a := by decide
  have o2 : ¬ byte Demo.inquiry 0 = 0x42 := by decide
  have o3 : byte Demo.inquiry 0 = 0x12 := by decide
  have o4 : 96 ≤ (96 : U16).toNat := by decide
  let y := demoIssued (demoController ident feature) () Demo.inquiry (by decide) 1 96
  have hr : y.Ready := demoIssued_ready _ _ _ _ _ _ (by decide) hpol
  obtain ⟨⟨⟨r', s'⟩, w'⟩, e⟩ := C81_returns y hr o1
  let x : Served Unit := ⟨y.E, y.D, y.s, y.ws, y.w, y.ptr, y.cdb, y.lun, y.sense, y.senseLen, y.data, y.dataLen, y.isIn, r', s',
    w', y.stored, y.short, e⟩
  obtain ⟨evs, m1, ⟨r2, t2, hB2⟩, -, ⟨ds, hd, hdd⟩, -⟩ := C80_engine x hr.good hr.polite hr.data [] (fun h => absurd h o2)
  refine ⟨x, ⟨96, ident 2 0, ident 0 1, 0⟩, hr.good, hC, hr.data, ⟨ds ++ evs, by rw [hd, List.append_assoc], ?_⟩, rfl, o4, rfl⟩
  obtain ⟨evs', e1, e2⟩ := C33_inquiry_accepted _ _ _ _ _ _ _ _ _ _ hB2 o3
  have hh := hB.call.symm.trans hB2.call
  simp only [Except.ok.injEq, Prod.mk.injEq] at hh
  obtain ⟨⟨rfl, rfl⟩, rfl⟩ := hh
  have : evs' = evs := (List.append_cancel_right e1).symm
  subst this
  obtain ⟨g1, g2⟩ := (e2.mp hacc).2
  refine ⟨g1, ?_⟩
  rw [refused_append]
  rintro (⟨ps, n, -, hm⟩ | hm)
  · obtain ⟨a, k, e⟩ := hdd _ hm
    cases e
  · exact g2 hm

end Scsi2Nvme
