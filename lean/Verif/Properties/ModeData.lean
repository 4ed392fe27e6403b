import Verif.Properties.Simple
/-!
# MODE SENSE(6) data (C50, C51)
-/

namespace Scsi2Nvme
open Spec ModeSense

/-! ## Structures to bytes -/

theorem leBytes_3_bswap (b : U32) : leBytes 3 (((bswap 4 b) >>> 8).setWidth 24 : BitVec 24).toNat = beBytes 3 b.toNat := by
  have h := leBytes_bswap_4 b
  rw [BitVec.toNat_setWidth, BitVec.toNat_ushiftRight, Nat.shiftRight_eq_div_pow, show (2 : Nat) ^ 24 = 256 ^ 3 from rfl,
    leBytes_mod, show (2 : Nat) ^ 8 = 256 from rfl]
  have e : leBytes 4 (bswap 4 b).toNat = (BitVec.ofNat 8 (bswap 4 b).toNat) :: leBytes 3 ((bswap 4 b).toNat / 256) := rfl
  rw [e] at h
  have e2 : beBytes 4 b.toNat = BitVec.ofNat 8 (b.toNat / 256 ^ 3) :: beBytes 3 b.toNat := rfl
  rw [e2] at h
  exact (List.cons.inj h).2

theorem shortDescriptor_eq (ns : List Byte) (n l : Nat) (hn : n = ncap ns) (v : U64) (hv : v.toNat = n) (hl : l = lbads ns) :
    ({ number_of_blocks := htonl ((htolll v).setWidth 32)
       logical_block_length := ((htonl (1#32 <<< l)) >>> 8).setWidth 24 } : Scsi.ShortLbaBlockDescriptor).toBytes
      = shortDescriptor ns := by
  rw [htolll_id]
  have e1 : leBytes 4 (htonl (v.setWidth 32)).toNat = beBytes 4 (ncap ns) := by
    rw [show htonl (v.setWidth 32) = bswap 4 (v.setWidth 32) from rfl, leBytes_bswap_4, BitVec.toNat_setWidth, hv, hn]
    unfold beBytes
    rw [le_eq, le_eq, show (2 : Nat) ^ 32 = 256 ^ 4 from rfl, leBytes_mod]
  have e2 : leBytes 3 (((htonl (1#32 <<< l)) >>> 8).setWidth 24 : BitVec 24).toNat = beBytes 3 (2 ^ lbads ns) := by
    rw [show htonl (1#32 <<< l) = bswap 4 (1#32 <<< l) from rfl, leBytes_3_bswap, BitVec.toNat_shiftLeft,
      show (1#32).toNat = 1 from rfl, Nat.shiftLeft_eq, Nat.one_mul, hl]
    unfold beBytes
    rw [le_eq, le_eq]
    have : leBytes 3 (2 ^ lbads ns % 2 ^ 32) = leBytes 3 (2 ^ lbads ns) := by
      rw [← leBytes_mod 3 (2 ^ lbads ns % 2 ^ 32), ← leBytes_mod 3 (2 ^ lbads ns),
        Nat.mod_mod_of_dvd _ (by decide)]
    rw [this]
  unfold shortDescriptor
  rw [← e1, ← e2]
  have hA := (htonl (v.setWidth 32)).isLt
  have hB := (((htonl (1#32 <<< l)) >>> 8).setWidth 24 : BitVec 24).isLt
  simp only [Scsi.ShortLbaBlockDescriptor.toBytes]
  generalize (htonl (v.setWidth 32)).toNat = x at *
  generalize (((htonl (1#32 <<< l)) >>> 8).setWidth 24 : BitVec 24).toNat = y at *
  refine (packBits_groups [[(32, x)], [(8, 0)], [(24, y)]] ?_).trans ?_
  · simp only [List.forall_mem_cons, List.not_mem_nil, false_implies, implies_true, and_true, packWidth, Nat.reduceAdd,
      Nat.reduceDiv, Nat.reduceMul]
    exact ⟨hA, by decide, hB⟩
  · simp only [packWidth, packVal, List.map_cons, List.map_nil, List.flatten_cons, List.flatten_nil,
      List.append_nil, Nat.reduceDiv, Nat.mul_zero, Nat.add_zero]
    rw [List.append_assoc]
    rfl

theorem caching_eq (g : U32) :
    ({ kCachingModePage with wce := (1#32 &&& g).setWidth 1 } : Scsi.CachingModePage).toBytes
      = cachingPage (decide (g.toNat % 2 = 1)) := by
  have h : ((1#32 &&& g).setWidth 1 : BitVec 1) = if g.toNat % 2 = 1 then 1 else 0 := by
    apply BitVec.eq_of_toNat_eq
    rw [BitVec.toNat_setWidth, BitVec.toNat_and, show (1#32).toNat = 1 from rfl, Nat.one_and_eq_mod_two]
    split <;> rename_i h
    · rw [h]; rfl
    · rw [show g.toNat % 2 = 0 by omega]; rfl
  rw [h]
  by_cases hg : g.toNat % 2 = 1
  · rw [if_pos hg, decide_eq_true hg]; decide +kernel
  · rw [if_neg hg, decide_eq_false hg]; decide +kernel

theorem control_eq : kControlModePage.toBytes = controlPage := by decide +kernel
theorem power_eq : kPowerConditionModePage.toBytes = powerPage := by decide +kernel

/-! ## A sequence of structures -/

/-- `m` writes the structures `ss`, one after the other, as long as they fit into `buf`. -/
def Writes (P : World → Prop) (buf : Span) (ss : List (List Byte)) (m : M α) : Prop :=
  ∀ w a w', P w → m w = .ok (a, w') → w' = { w with mem := w.mem.put buf.ptr (fitting buf.len ss) }

theorem fitting_zero (ss : List (List Byte)) (h : ∀ s ∈ ss, 0 < s.length) : fitting 0 ss = [] := by
  cases ss with
  | nil => rfl
  | cons s ss =>
    unfold fitting
    rw [if_neg]
    have := h s (List.mem_cons_self ..)
    omega

theorem put_empty (w : World) (p : Nat) : { w with mem := w.mem.put p [] } = w := by rw [put_nil]

/-- One structure, then the rest. -/
theorem Writes.cons {P : World → Prop} {buf : Span} {s : List Byte} {ss : List (List Byte)} {α : Type} {m : M α} {d : M α}
    {k : Nat} (hk : k = s.length) (hss : ∀ s ∈ ss, 0 < s.length)
    (hP : ∀ w bs, P w → bs.length ≤ buf.len → P { w with mem := w.mem.put buf.ptr bs })
    (hm : Writes P (buf.subspan k) ss m) (hd : ∀ w a w', d w = .ok (a, w') → w' = w) :
    Writes P buf (s :: ss) (do let ok ← WriteValue' s buf; if ok then m else d) := by
  intro w a w' hw h
  simp only [M.bind_run] at h
  cases hv : WriteValue' s buf w with
  | error e => rw [hv] at h; cases h
  | ok y =>
    obtain ⟨ok, w1⟩ := y
    rw [hv] at h
    simp only at h
    unfold fitting
    rcases WriteValue'_inv hv with ⟨h1, rfl, -, rfl⟩ | ⟨h1, rfl, rfl⟩
    · rw [if_pos rfl] at h
      rw [if_pos h1]
      have := hm _ _ _ (hP w s hw h1) h
      rw [this]
      simp only
      rcases Nat.lt_or_ge k buf.len with h2 | h2
      · rw [subspan_lt h2, hk, put_append]
      · rw [subspan_ge h2]
        simp only
        rw [show buf.len - s.length = 0 by omega, fitting_zero ss hss, put_nil, List.append_nil]
    · rw [if_neg (by decide)] at h
      rw [if_neg (by omega), put_empty]
      exact hd _ _ _ h

/-- The last structure. -/
theorem Writes.one {P : World → Prop} {buf : Span} {s : List Byte} : Writes P buf [s] (WriteValue' s buf) := by
  intro w a w' hw h
  unfold fitting
  rcases WriteValue'_inv h with ⟨h1, rfl, -, rfl⟩ | ⟨h1, rfl, rfl⟩
  · rw [if_pos h1]
    unfold fitting
    rw [List.append_nil]
  · rw [if_neg (by omega), put_empty]

theorem Writes.ignore {P : World → Prop} {buf : Span} {ss : List (List Byte)} {α β : Type} {m : M α} {b : β}
    (hm : Writes P buf ss m) : Writes P buf ss (do let _ ← m; pure b) := by
  intro w a w' hw h
  simp only [M.bind_run] at h
  cases hv : m w with
  | error e => rw [hv] at h; cases h
  | ok y =>
    obtain ⟨y, w1⟩ := y
    rw [hv] at h
    simp only [M.pure_run, Except.ok.injEq, Prod.mk.injEq] at h
    rw [← h.2]
    exact hm _ _ _ hw hv

theorem pagesFor_pos (page : Nat) (wce : Bool) : ∀ s ∈ pagesFor page wce, 0 < s.length := by
  have hc : 0 < (cachingPage wce).length := by cases wce <;> decide +kernel
  have hp : 0 < powerPage.length := by decide +kernel
  have hk : 0 < controlPage.length := by decide +kernel
  unfold pagesFor
  intro s hs
  split at hs
  · simp only [List.mem_cons, List.not_mem_nil, or_false] at hs; subst hs; exact hc
  split at hs
  · simp only [List.mem_cons, List.not_mem_nil, or_false] at hs; subst hs; exact hk
  split at hs
  · simp only [List.mem_cons, List.not_mem_nil, or_false] at hs; subst hs; exact hp
  · simp only [List.mem_cons, List.not_mem_nil, or_false] at hs
    rcases hs with rfl | rfl | rfl
    · exact hc
    · exact hk
    · exact hp

theorem page_eq {p : BitVec 6} {k : Nat} (hk : p.toNat = k) (_ : k < 64) : p = BitVec.ofNat 6 k := by
  apply BitVec.eq_of_toNat_eq; rw [hk, BitVec.toNat_ofNat]; omega

theorem WritePageData_writes (P : World → Prop) (page : BitVec 6) (g : U32) (buf : Span) (hp : page.toNat ∈ modePages)
    (hP : ∀ w p bs, P w → buf.ptr ≤ p → p + bs.length ≤ buf.ptr + buf.len → P { w with mem := w.mem.put p bs })
    (hP0 : ∀ w p, P w → P { w with mem := w.mem.put p [] }) :
    Writes P buf (pagesFor page.toNat (decide (g.toNat % 2 = 1))) (WritePageData page g buf) := by
  have hcl : Scsi.CachingModePage.size = (cachingPage (decide (g.toNat % 2 = 1))).length := by
    rw [← caching_eq, Scsi.CachingModePage.toBytes_length]
  have hkl : Scsi.ControlModePage.size = controlPage.length := by decide +kernel
  simp only [modePages, List.mem_cons, List.not_mem_nil, or_false] at hp
  unfold WritePageData
  simp only [caching_eq, control_eq, power_eq]
  rcases hp with hp | hp | hp | hp
  · rw [page_eq hp (by decide), if_pos (by decide)]
    exact .one
  · rw [page_eq hp (by decide), if_neg (by decide), if_pos (by decide)]
    exact .one
  · rw [page_eq hp (by decide), if_neg (by decide), if_neg (by decide), if_pos (by decide)]
    exact .one
  · rw [page_eq hp (by decide), if_neg (by decide), if_neg (by decide), if_neg (by decide), if_pos (by decide)]
    have hp38 : 0 < powerPage.length := by decide +kernel
    have hk38 : 0 < controlPage.length := by decide +kernel
    refine .cons hcl ?_ (fun w bs h1 h2 => hP w _ bs h1 (Nat.le_refl _) (by omega)) ?_ ?_
    · intro s hs
      simp only [List.mem_cons, List.not_mem_nil, or_false] at hs
      rcases hs with rfl | rfl
      · exact hk38
      · exact hp38
    · refine .cons hkl ?_ ?_ .one ?_
      · intro s hs
        simp only [List.mem_cons, List.not_mem_nil, or_false] at hs
        rcases hs with rfl
        exact hp38
      · intro w bs h1 h2
        rcases Nat.lt_or_ge Scsi.CachingModePage.size buf.len with h3 | h3
        · rw [subspan_lt h3] at h2 ⊢
          simp only at h2 ⊢
          exact hP w _ bs h1 (by omega) (by omega)
        · rw [subspan_ge h3] at h2 ⊢
          simp only at h2
          have : bs = [] := List.length_eq_zero_iff.mp (by omega)
          rw [this]
          exact hP0 w _ h1
      · intro w a w' h
        simp only [M.pure_run, Except.ok.injEq, Prod.mk.injEq] at h
        exact h.2.symm
    · intro w a w' h
      simp only [M.pure_run, Except.ok.injEq, Prod.mk.injEq] at h
      exact h.2.symm

theorem shortDescriptor_length (ns : List Byte) : (shortDescriptor ns).length = 8 := by
  unfold shortDescriptor
  simp only [List.length_append, beBytes_length, List.length_cons, List.length_nil]

theorem cachingPage_length (wce : Bool) : (cachingPage wce).length = 20 := by cases wce <;> decide +kernel

theorem pages_length (page : Nat) (h : page ∈ modePages) (wce : Bool) : (pagesFor page wce).flatten.length
    = if page = 0x08 then 20 else if page = 0x0a then 12 else if page = 0x1a then 40 else 72 := by
  have hp : powerPage.length = 40 := by decide +kernel
  have hk : controlPage.length = 12 := by decide +kernel
  simp only [modePages, List.mem_cons, List.not_mem_nil, or_false] at h
  unfold pagesFor
  rcases h with rfl | rfl | rfl | rfl <;>
    simp only [↓reduceIte, Nat.reduceEqDiff, List.flatten_cons, List.flatten_nil, List.append_nil, List.length_append,
      cachingPage_length, hp, hk, Nat.reduceAdd]

/-- The head of the answer. -/
def modeHead (dbd : Bool) (page : Nat) : List Byte :=
  le 1 ((if dbd then 3 else 11) + (if page = 0x08 then 20 else if page = 0x0a then 12 else if page = 0x1a then 40 else 72))
    ++ [0x00, 0x10] ++ le 1 (if dbd then 0 else 8)

theorem modeStructures_none (page : Nat) (h : page ∈ modePages) (wce : Bool) :
    modeStructures none page wce = modeHead true page :: pagesFor page wce := by
  unfold modeStructures modeHead
  simp only [Option.map_none, Option.toList_none, List.nil_append, pages_length page h, Option.isSome_none,
    Bool.false_eq_true, if_false, if_true]

theorem modeStructures_some (ns : List Byte) (page : Nat) (h : page ∈ modePages) (wce : Bool) :
    modeStructures (some ns) page wce = modeHead false page :: shortDescriptor ns :: pagesFor page wce := by
  unfold modeStructures modeHead
  simp only [Option.map_some, Option.toList_some, List.cons_append, List.nil_append, List.flatten_cons, List.length_append,
    shortDescriptor_length, pages_length page h, Option.isSome_some, Bool.false_eq_true, if_false, if_true, ← Nat.add_assoc]

theorem header_eq (a : CommonCmdAttributes) (hl : a.llbaa = false) (hp : a.page_code.toNat ∈ modePages) :
    ({ mode_data_length := (GetModeDataLength a false).setWidth 8
       dpofua := 0b01
       bdl := if a.dbd then 0 else BitVec.ofNat 8 Scsi.ShortLbaBlockDescriptor.size } : Scsi.ModeParameter6Header).toBytes
      = modeHead a.dbd a.page_code.toNat := by
  obtain ⟨pc, c, dbd, ll⟩ := a
  simp only at hl hp
  subst hl
  simp only [modePages, List.mem_cons, List.not_mem_nil, or_false] at hp
  rcases hp with hp | hp | hp | hp <;> rw [page_eq hp (by decide)] <;> cases dbd <;>
    · revert c; decide +kernel

/-- MODE SENSE(6), DBD = 1. -/
theorem ModeSense6_dbd (a : CommonCmdAttributes) (hl : a.llbaa = false) (hp : a.page_code.toNat ∈ modePages)
    (hd : a.dbd = true) (g : U32) (i : Nvme.GenericQueueEntryCmd) (buf : Span) :
    Writes (fun _ => True) buf (modeStructures none a.page_code.toNat (decide (g.toNat % 2 = 1)))
      (ModeSenseToScsi a false g i buf) := by
  unfold ModeSenseToScsi WriteMode6Header
  rw [if_neg (by decide)]
  simp only [header_eq a hl hp]
  rw [modeStructures_none _ hp, hd]
  have hlen : Scsi.ModeParameter6Header.size = (modeHead true a.page_code.toNat).length := by
    unfold modeHead
    simp only [le_eq, List.length_append, leBytes_length, List.length_cons, List.length_nil]
    rfl
  refine .cons hlen (pagesFor_pos _ _) (fun _ _ _ _ => trivial) ?_ ?_
  · unfold modeSenseBody
    rw [if_pos hd]
    exact .ignore (WritePageData_writes _ _ _ _ hp (fun _ _ _ _ _ _ => trivial) (fun _ _ _ => trivial))
  · intro w a w' h
    simp only [M.pure_run, Except.ok.injEq, Prod.mk.injEq] at h
    exact h.2.symm

/-- Reading the page is not affected by writes into `buf`. -/
theorem page_stable {page : List Byte} {ptr : Nat} {buf : Span} (hd : ∀ a, inRange ptr 4096 a → ¬ inSpan buf a)
    (w : World) (p : Nat) (bs : List Byte) (h : w.mem.read ptr 4096 = some page) (h1 : buf.ptr ≤ p)
    (h2 : p + bs.length ≤ buf.ptr + buf.len) :
    ({ w with mem := w.mem.put p bs } : World).mem.read ptr 4096 = some page := by
  rw [← h]
  apply read_congr
  intro i hi
  have := hd (ptr + i) ⟨by omega, by omega⟩
  unfold inSpan at this
  apply put_outside
  omega

theorem subspan_inside (buf : Span) (k : Nat) (a : Nat) (h : inSpan (buf.subspan k) a) : inSpan buf a := by
  rcases Nat.lt_or_ge k buf.len with h1 | h1
  · rw [subspan_lt h1] at h
    unfold inSpan at h ⊢
    simp only at h
    omega
  · rw [subspan_ge h1] at h
    unfold inSpan at h
    simp only at h
    omega

/-- MODE SENSE(6), DBD = 0. -/
theorem ModeSense6_bd (a : CommonCmdAttributes) (hl : a.llbaa = false) (hp : a.page_code.toNat ∈ modePages)
    (hdb : a.dbd = false) (g : U32) (i : Nvme.GenericQueueEntryCmd) (buf : Span) (page : List Byte)
    (hd : ∀ a, inRange i.prp1.toNat 4096 a → ¬ inSpan buf a) :
    Writes (fun w => w.mem.read i.prp1.toNat 4096 = some page) buf
      (modeStructures (some page) a.page_code.toNat (decide (g.toNat % 2 = 1))) (ModeSenseToScsi a false g i buf) := by
  unfold ModeSenseToScsi WriteMode6Header
  rw [if_neg (by decide)]
  simp only [header_eq a hl hp]
  rw [modeStructures_some _ _ hp, hdb]
  have hlen : Scsi.ModeParameter6Header.size = (modeHead false a.page_code.toNat).length := by
    unfold modeHead
    simp only [le_eq, List.length_append, leBytes_length, List.length_cons, List.length_nil]
    rfl
  have hpos : ∀ s ∈ shortDescriptor page :: pagesFor a.page_code.toNat (decide (g.toNat % 2 = 1)), 0 < s.length := by
    intro s hs
    rcases List.mem_cons.mp hs with rfl | hs
    · rw [shortDescriptor_length]; decide
    · exact pagesFor_pos _ _ s hs
  refine .cons hlen hpos (fun w bs h1 h2 => page_stable hd w _ bs h1 (Nat.le_refl _) (by omega)) ?_ ?_
  rotate_left
  · intro w a w' h
    simp only [M.pure_run, Except.ok.injEq, Prod.mk.injEq] at h
    exact h.2.symm
  generalize hB : buf.subspan Scsi.ModeParameter6Header.size = B
  have hd' : ∀ a, inRange i.prp1.toNat 4096 a → ¬ inSpan B a := by
    intro a ha hb
    rw [← hB] at hb
    exact hd a ha (subspan_inside _ _ _ hb)
  unfold modeSenseBody
  rw [if_neg (by rw [hdb]; decide)]
  intro w b w' hw h
  unfold WriteBlockDescriptor at h
  simp only [M.bind_run, load_ok hw] at h
  rw [hl] at h
  simp only [Bool.false_eq_true, if_false, M.bind_run] at h
  unfold shiftLbads at h
  by_cases h32 : (getF page (Nvme.IdentifyNamespace.lbads (getF page Nvme.IdentifyNamespace.flbas_format).toNat)).toNat ≥ 32
  · rw [if_pos h32] at h
    cases h
  rw [if_neg h32] at h
  simp only [M.pure_run] at h
  rw [if_pos (show isLittleEndian host = true from rfl)] at h
  rw [shortDescriptor_eq page _ _ rfl _ (ncap_eq page) (lbads_eq page)] at h
  have key := Writes.cons (P := fun w => w.mem.read i.prp1.toNat 4096 = some page) (buf := B) (s := shortDescriptor page)
    (ss := pagesFor a.page_code.toNat (decide (g.toNat % 2 = 1)))
    (m := do let _ ← WritePageData a.page_code g (B.subspan Scsi.ShortLbaBlockDescriptor.size); pure StatusCode.kSuccess)
    (d := pure StatusCode.kSuccess) (k := Scsi.ShortLbaBlockDescriptor.size)
    (by rw [shortDescriptor_length]; rfl) (pagesFor_pos _ _)
    (fun w bs h1 h2 => page_stable hd' w _ bs h1 (Nat.le_refl _) (by omega))
    (.ignore (WritePageData_writes _ _ _ _ hp
      (fun w p bs h1 h2 h3 => page_stable (fun a ha hb => hd' a ha (subspan_inside _ _ _ hb)) w p bs h1 h2 h3)
      (fun w p h1 => by
        change (w.mem.put p []).read _ _ = _
        rw [put_nil]; exact h1)))
    (by
      intro w a w' h
      simp only [M.pure_run, Except.ok.injEq, Prod.mk.injEq] at h
      exact h.2.symm)
  apply key w b w' hw
  simp only [M.bind_run]
  cases hv : WriteValue' (shortDescriptor page) B w with
  | error e => rw [hv] at h; cases h
  | ok y =>
    obtain ⟨ok, w1⟩ := y
    rw [hv] at h
    simp only at h
    rw [← h]

/-! ## C50 -/

theorem Spec.Ran.modeRun {x : Ran} (hop : byte x.cdb 0 = 0x1a) (hs : x.succeeded) :
    ∃ c cs wm st, x.cpl = c :: cs ∧ x.w3 = abortW x.E x.t1 wm ∧ x.good ∧ byte x.cdb 2 % 64 ∈ modePages ∧
      ModeSenseToScsi (attrsOf6 x.cdb) false c.cdw0 x.t1.nvme_wrappers.e0.cmd x.din x.w2 = .ok (st, wm) := by
  obtain ⟨st, wm, hw, hgd, hsw⟩ := x.switch hs
  obtain ⟨evs, -, hacc⟩ := (C49_mode_sense6 _ _ _ _ _ _ _ _ _ _ x.began hop).1
  obtain ⟨hlen, hpg, -⟩ := hacc.mp hs.1
  rw [opc_of_byte hop (by decide)] at hsw
  unfold completeSwitch at hsw
  rw [if_neg (by decide), if_neg (by decide), if_pos (by decide)] at hsw
  cases hc : x.cpl with
  | nil => rw [hc] at hsw; cases hsw
  | cons c cs =>
    rw [hc] at hsw
    change (do
      let _ ← ModeSense6ToScsi x.cdb.tail x.t1.nvme_wrappers.e0.cmd c.cdw0 x.din
      pure x.t1.pipeline_status : M StatusCode) x.w2 = _ at hsw
    simp only [M.bind_run] at hsw
    unfold ModeSense6ToScsi at hsw
    rw [readValue_some (by rw [List.length_tail]; simp only [Scsi.ModeSense6Command.size]; omega)] at hsw
    simp only at hsw
    cases hv : ModeSenseToScsi (attrsOf6 x.cdb) false c.cdw0 x.t1.nvme_wrappers.e0.cmd x.din x.w2 with
    | error e =>
      unfold attrsOf6 at hv
      rw [hv] at hsw; cases hsw
    | ok y =>
      obtain ⟨st', w'⟩ := y
      have hv' := hv
      unfold attrsOf6 at hv
      rw [hv] at hsw
      simp only [M.pure_run, Except.ok.injEq, Prod.mk.injEq] at hsw
      rw [hsw.2] at hv'
      exact ⟨c, cs, wm, st', rfl, hw, hgd, hpg, hv'⟩

/-- **C50**, DBD = 1: GOOD status; the header and the mode pages asked for are written, as many of them as fit, and
nothing else.  WCE is taken from the first completion. -/
theorem C50_mode_sense_pages (x : Ran) (hg : GoodAllocator x.E) (hop : byte x.cdb 0 = 0x1a) (hs : x.succeeded)
    (hd : Spec.bit x.cdb 1 3 = true) :
    x.good ∧ ∃ c, x.cpl[0]? = some c ∧
      x.wrote x.din.ptr (fitting x.din.len (modeStructures none (byte x.cdb 2 % 64) (decide (c.cdw0.toNat % 2 = 1)))) := by
  obtain ⟨c, cs, wm, st, hc, hw, hgd, hpg, h⟩ := x.modeRun hop hs
  refine ⟨hgd, c, by rw [hc]; rfl, x.wrote_of hg hw ?_⟩
  have := ModeSense6_dbd (attrsOf6 x.cdb) rfl (by rw [attrsOf6_page]; exact hpg) (by rw [attrsOf6_dbd]; exact hd)
    c.cdw0 x.t1.nvme_wrappers.e0.cmd x.din _ _ _ trivial h
  rw [attrsOf6_page] at this
  exact this

/-- The Identify page of an accepted MODE SENSE(6) with DBD = 0 is new memory. -/
theorem modePage_fresh (x : Ran) (hg : GoodAllocator x.E) (hop : byte x.cdb 0 = 0x1a) (hs : Accepted x.t1)
    (hd : Spec.bit x.cdb 1 3 = false) :
    x.t1.nvme_wrappers.e0 = identifyWr (nsidOf x.lun) 0 (setA x.E x.w) ∧ setA x.E x.w ≠ 0 ∧
      ∀ a, inRange (setA x.E x.w).toNat 4096 a → x.w.mem a = none := by
  obtain ⟨p, w1', e, hcase⟩ := ms_cases x.began hop
  have hst := e.acc.mp hs
  rcases hcase with ⟨-, hn, -⟩ | ⟨-, hh, -⟩ | ⟨-, -, -, hn, -⟩ | ⟨-, -, hA, -, hws, hcnt, -⟩
  · exact absurd hst hn
  · rw [hd] at hh; cases hh
  · exact absurd hst hn
  · refine ⟨?_, hA, ?_⟩
    · rw [e.wss, hws]
      unfold msPage
      split
      · split <;> rfl
      · split <;> rfl
    · rcases set_good hg x.w with ⟨h0, -⟩ | ⟨-, -, h1, -⟩
      · exact absurd h0 hA
      · exact fun a ha => (h1 a ha).1

/-- **C50**, DBD = 0: header, short block descriptor and mode pages. -/
theorem C50_mode_sense_data (x : Ran) (hg : GoodAllocator x.E) (ns : List Byte) (h : Asked x 0x1a ns)
    (hd : Spec.bit x.cdb 1 3 = false) (hb : accessible x.w.mem x.din) :
    x.good ∧ ∃ c, x.cpl[0]? = some c ∧ x.wrote x.din.ptr
      (fitting x.din.len (modeStructures (some ns) (byte x.cdb 2 % 64) (decide (c.cdw0.toNat % 2 = 1)))) := by
  obtain ⟨c, cs, wm, st, hc, hw, hgd, hpg, hr⟩ := x.modeRun h.opcode h.ok
  obtain ⟨he0, -, hfresh⟩ := modePage_fresh x hg h.opcode h.ok.1 hd
  refine ⟨hgd, c, by rw [hc]; rfl, x.wrote_of hg hw ?_⟩
  have := ModeSense6_bd (attrsOf6 x.cdb) rfl (by rw [attrsOf6_page]; exact hpg) (by rw [attrsOf6_dbd]; exact hd)
    c.cdw0 x.t1.nvme_wrappers.e0.cmd x.din ns (by
      intro a ha hi
      rw [he0] at ha
      have h1 := hfresh a ha
      have h2 := hb (a - x.din.ptr) (by unfold inSpan at hi; omega)
      rw [show x.din.ptr + (a - x.din.ptr) = a by unfold inSpan at hi; omega, h1] at h2
      cases h2) _ _ _ (x.page0 h.page) hr
  rw [attrsOf6_page] at this
  exact this

/-- In a large enough buffer everything is written. -/
theorem fitting_all (ss : List (List Byte)) (len : Nat) (h : ss.flatten.length ≤ len) : fitting len ss = ss.flatten := by
  induction ss generalizing len with
  | nil => rfl
  | cons s ss ih =>
    rw [List.flatten_cons, List.length_append] at h
    unfold fitting
    rw [if_pos (by omega), ih _ (by omega), List.flatten_cons]

/-- **C50**: the mode data length (byte 0 of the answer) is the number of the bytes that follow. -/
theorem C50_mode_data_length (ns : Option (List Byte)) (page : Nat) (hp : page ∈ modePages) (wce : Bool) :
    byte (modeStructures ns page wce).flatten 0 + 1 = (modeStructures ns page wce).flatten.length := by
  have hb : ∀ (n : Nat) (l : List Byte), n < 256 → byte (le 1 n ++ l) 0 = n := by
    intro n l hn
    change (BitVec.ofNat 8 (n / 256 ^ 0)).toNat = n
    rw [BitVec.toNat_ofNat, Nat.pow_zero, Nat.div_one]
    omega
  have hpl := pages_length page hp wce
  have : (pagesFor page wce).flatten.length ≤ 72 := by rw [hpl]; split <;> (try split) <;> (try split) <;> omega
  unfold modeStructures
  simp only [List.flatten_cons, List.append_assoc, List.length_append]
  cases ns with
  | none =>
    simp only [Option.map_none, Option.toList_none, List.nil_append]
    rw [hb _ _ (by omega)]
    simp only [le_eq, leBytes_length, List.length_cons, List.length_nil]
    omega
  | some ns =>
    simp only [Option.map_some, Option.toList_some, List.cons_append, List.nil_append, List.flatten_cons,
      List.length_append, shortDescriptor_length]
    rw [hb _ _ (by omega)]
    simp only [le_eq, leBytes_length, List.length_cons, List.length_nil]
    omega

/-- **C50**, large buffers (96 bytes): everything is written. -/
theorem C50_mode_sense_all (ns : Option (List Byte)) (page : Nat) (hp : page ∈ modePages) (wce : Bool) (len : Nat)
    (hl : 96 ≤ len) : fitting len (modeStructures ns page wce) = (modeStructures ns page wce).flatten := by
  apply fitting_all
  have hpl := pages_length page hp wce
  have : (pagesFor page wce).flatten.length ≤ 72 := by rw [hpl]; split <;> (try split) <;> (try split) <;> omega
  unfold modeStructures
  simp only [List.flatten_cons, List.append_assoc, List.length_append]
  cases ns with
  | none =>
    simp only [Option.map_none, Option.toList_none, List.nil_append, le_eq, leBytes_length, List.length_cons, List.length_nil]
    omega
  | some ns =>
    simp only [Option.map_some, Option.toList_some, List.cons_append, List.nil_append, List.flatten_cons,
      List.length_append, shortDescriptor_length, le_eq, leBytes_length, List.length_cons, List.length_nil]
    omega

/-! ## Concrete runs -/

/-- The commands of an accepted MODE SENSE(6) with DBD = 0 for the caching page. -/
theorem modeCmds {E t w ptr cdb buf lun r t' w'} (h : Began E t w ptr cdb buf lun r t' w') (hop : byte cdb 0 = 0x1a)
    (ha : Accepted t') (hd : Spec.bit cdb 1 3 = false) (hc : asksCaching (byte cdb 2 % 64)) :
    ∃ wr, t'.GetNvmeWrappers = [identifyWr (nsidOf lun) 0 (setA E w), wr] ∧ byte wr.cmd.toBytes 0 = 0x0a := by
  obtain ⟨p, w1', e, hcase⟩ := ms_cases h hop
  have hst := e.acc.mp ha
  have he0 : p.ws.e0 = identifyWr (nsidOf lun) 0 (setA E w) := by
    rcases hcase with ⟨-, hn, -⟩ | ⟨-, hh, -⟩ | ⟨-, -, -, hn, -⟩ | ⟨-, -, hA, -, hws, hcnt, -⟩
    · exact absurd hst hn
    · rw [hd] at hh; cases hh
    · exact absurd hst hn
    · rw [hws]
      unfold msPage
      split
      · split <;> rfl
      · split <;> rfl
  obtain ⟨-, a, -, hm⟩ := (C49_mode_sense6 _ _ _ _ _ _ _ _ _ _ h hop).2.1 ha
  rw [if_pos hd, if_pos hc] at hm
  have hcm := e.cmds hst
  cases hL : t'.GetNvmeWrappers with
  | nil => rw [hL] at hm; cases hm
  | cons y l =>
    cases l with
    | nil => have := congrArg List.length hm; rw [hL] at this; simp at this
    | cons z l =>
      cases l with
      | nil =>
        rw [hL] at hm
        simp only [List.map_cons, List.map_nil, List.cons_append, List.nil_append, List.cons.injEq, Prod.mk.injEq] at hm
        refine ⟨z, ?_, by rw [hm.2.1.1]; rfl⟩
        rw [hL] at hcm
        have : y = p.ws.e0 := by
          match hk : p.count with
          | 0 => rw [hk] at hcm; cases hcm
          | k + 1 =>
            rw [hk] at hcm
            exact (List.cons.inj hcm).1
        rw [this, he0]
      | cons u l => have := congrArg List.length hm; rw [hL] at this; simp at this

namespace Demo

/-- MODE SENSE(6) for the given page, DBD = 0. -/
def modeSense (page : Byte) : List Byte := [0x1a, 0, page, 0, 96, 0]

/-- MODE SENSE(6) for the caching page with block descriptor: `g` and `g'` are the results (command specific dword) of
Identify and Get Features. -/
theorem ms_demo (p0 : List Byte) (h0 : p0.length ≤ 4096) (hlb : lbads (pad p0) < 32) (len : Nat) (hl : len ≤ 0x8000)
    (g g' : U32) :
    ∃ x : Ran, GoodAllocator x.E ∧ Asked x 0x1a (pad p0) ∧ x.cdb = modeSense 0x08 ∧
      x.din = ⟨0x8000, len⟩ ∧ x.cpl = [{ cdw0 := g }, { cdw0 := g' }] ∧ x.w = ⟨mem (modeSense 0x08) [], []⟩ ∧
      x.w2 = ⟨mem2 (modeSense 0x08) p0 [], []⟩ ∧
      ∃ wr, x.cmds = [identifyWr (nsidOf 1) 0 0x100000#64, wr] ∧ byte wr.cmd.toBytes 0 = 0x0a := by
  have hc : (modeSense 0x08).length ≤ 0x300 := by decide
  obtain ⟨q0, -⟩ := pages_stack env.junk (modeSense 0x08) hc
  obtain ⟨x, e1, e2, e3, e4, e5, e6, e7, -, a, wr, b, b2⟩ := demo_run env.junk (modeSense 0x08) hc 1 p0 []
    [{ cdw0 := g }, { cdw0 := g' }] len hl
    (fun t1 => Accepted t1 ∧ ∃ wr, t1.GetNvmeWrappers = [identifyWr (nsidOf 1) 0 0x100000#64, wr] ∧ byte wr.cmd.toBytes 0 = 0x0a) (by
      intro r t1 w1 hb
      have hacc : Accepted t1 := by
        obtain ⟨p, w1', e, hcase⟩ := ms_cases hb rfl
        rw [q0] at hcase
        rcases hcase with ⟨hh, -⟩ | ⟨-, hh, -⟩ | ⟨-, -, hh, -⟩ | ⟨-, -, -, hs, -⟩
        · exact absurd hh (by decide)
        · exact absurd hh (by decide)
        · exact absurd hh (by decide)
        · exact e.acc.mpr (hs.trans ((msPage_ok (modeSense 0x08) _ _ _).mpr (by decide)))
      obtain ⟨wr, hm, h0a⟩ := modeCmds hb rfl hacc (by decide) (by decide)
      rw [q0] at hm
      refine ⟨⟨hacc, wr, hm, h0a⟩, ?_, ⟨fun hh => absurd hh (by decide), fun _ hh => ?_, fun _ _ wr' page hwr' hr => ?_⟩⟩
      · intro wr' hwr' h06
        rw [hm] at hwr'
        simp only [List.mem_cons, List.not_mem_nil, or_false] at hwr'
        rcases hwr' with rfl | rfl
        · rw [prp1_bytes]
          exact acc_page0 _ _ _
        · rw [h0a] at h06; exact absurd h06 (by decide)
      · rw [hm] at hh; cases hh
      · rw [hm] at hwr'
        simp only [List.head?_cons, Option.some.injEq] at hwr'
        subst hwr'
        rw [prp1_bytes] at hr
        have := read_page0 (modeSense 0x08) p0 [] h0
        change (mem2 (modeSense 0x08) p0 []).read 0x100000 4096 = some page at hr
        rw [this] at hr
        cases hr
        exact hlb)
  refine ⟨x, e1 ▸ stack_good _, ⟨by rw [e2]; rfl, ⟨a, ?_, ?_⟩, ⟨identifyWr (nsidOf 1) 0 0x100000#64, ?_, ?_⟩⟩, e2, e7, e6, e4, e5,
    wr, b, b2⟩
  · unfold Ran.answered Ran.cmds
    rw [e6, b]
    rfl
  · rw [e6]
    simp only [List.forall_mem_cons, List.not_mem_nil, false_implies, implies_true, and_true]
    exact ⟨⟨rfl, rfl⟩, ⟨rfl, rfl⟩⟩
  · unfold Ran.cmds; rw [b]; rfl
  · rw [prp1_bytes, e5]; exact read_page0 _ _ _ h0

end Demo

/-- The hypotheses of C50 are met: DBD = 0, a namespace of 1000h blocks, a buffer of 40 bytes. -/
example : ∃ x ns, GoodAllocator x.E ∧ Asked x 0x1a ns ∧ Spec.bit x.cdb 1 3 = false ∧ accessible x.w.mem x.din ∧
    x.din.len = 40 := by
  obtain ⟨x, h1, h2, h3, h4, -, h5, -⟩ := Demo.ms_demo Demo.smallNs (by decide +kernel) (by decide +kernel) 40 (by decide) 0 1
  refine ⟨x, _, h1, h2, by rw [h3]; decide, ?_, by rw [h4]⟩
  rw [h4]
  intro i hi
  have hi : i < 40 := hi
  exact Demo.demo_data (by decide) h5 _ (by simp only; omega) (by simp only; omega)

/-- DBD = 1. -/
example : ∃ x : Ran, GoodAllocator x.E ∧ byte x.cdb 0 = 0x1a ∧ x.succeeded ∧ Spec.bit x.cdb 1 3 = true := by
  have hc : ([0x1a, 8, 0x3f, 0, 96, 0] : List Byte).length ≤ 0x300 := by decide
  obtain ⟨x, e1, e2, e3, e4, e5, e6, e7, -, a, wr, b, b2⟩ := Demo.demo_run Demo.env.junk [0x1a, 8, 0x3f, 0, 96, 0] hc 1 [] []
    [{ cdw0 := 1 }] 96 (by decide)
    (fun t1 => Accepted t1 ∧ ∃ wr, t1.GetNvmeWrappers = [wr] ∧ byte wr.cmd.toBytes 0 = 0x0a) (by
      intro r t1 w1 hb
      have hacc : Accepted t1 := by
        obtain ⟨evs, h1, h2⟩ := (C49_mode_sense6 _ _ _ _ _ _ _ _ _ _ hb rfl).1
        exact h2.mpr ⟨by decide, by decide, by decide, fun hh => absurd hh (by decide)⟩
      obtain ⟨-, a, -, hm⟩ := (C49_mode_sense6 _ _ _ _ _ _ _ _ _ _ hb rfl).2.1 hacc
      rw [if_neg (by decide), if_pos (by decide)] at hm
      obtain ⟨wr, hL, hf⟩ : ∃ wr, t1.GetNvmeWrappers = [wr] ∧ byte wr.cmd.toBytes 0 = 0x0a := by
        cases hL : t1.GetNvmeWrappers with
        | nil => rw [hL] at hm; cases hm
        | cons y l =>
          cases l with
          | nil =>
            rw [hL] at hm
            simp only [List.map_cons, List.map_nil, List.nil_append, List.cons.injEq, Prod.mk.injEq] at hm
            exact ⟨y, rfl, by rw [hm.1.1]; rfl⟩
          | cons u l => have := congrArg List.length hm; rw [hL] at this; simp at this
      refine ⟨⟨hacc, wr, hL, hf⟩, ?_, ⟨fun hh => absurd hh (by decide), fun _ hh => ?_, fun _ hh => absurd hh (by decide)⟩⟩
      · intro wr' hwr' h06
        rw [hL] at hwr'
        simp only [List.mem_cons, List.not_mem_nil, or_false] at hwr'
        rw [hwr', hf] at h06
        exact absurd h06 (by decide)
      · rw [hL] at hh; cases hh)
  refine ⟨x, e1 ▸ Demo.stack_good _, by rw [e2]; rfl, ⟨a, ?_, ?_⟩, by rw [e2]; decide⟩
  · unfold Ran.answered Ran.cmds
    rw [e6, b]
    rfl
  · rw [e6]
    simp only [List.forall_mem_cons, List.not_mem_nil, false_implies, implies_true, and_true]
    exact ⟨rfl, rfl⟩

/-! ## C51 -/

/-- The position of the byte with the WCE bit (bit 2 of byte 2 of the caching page) in the answer. -/
def wceAt (cdb : List Byte) : Nat := (if Spec.bit cdb 1 3 then 4 else 12) + 2

/-- WCE as reported to the initiator. -/
def reportsWce (x : Ran) (wce : Prop) : Prop :=
  ∃ b : Byte, x.w3.mem (x.din.ptr + wceAt x.cdb) = some b ∧ (b.toNat / 4 % 2 = 1 ↔ wce)

/-- **C51**, full statement (false, see `C51_refuted`): WCE is bit 0 of the result of Get Features. -/
def C51_statement : Prop := ∀ (x : Ran), GoodAllocator x.E → byte x.cdb 0 = 0x1a → x.succeeded →
  asksCaching (byte x.cdb 2 % 64) → accessible x.w.mem x.din → 96 ≤ x.din.len →
  (Spec.bit x.cdb 1 3 = false → ∃ ns, x.page 0 ns) →
  ∀ (i : Nat) (wr : NvmeCmdWrapper) (c : Nvme.GenericQueueEntryCpl), x.cmds[i]? = some wr → byte wr.cmd.toBytes 0 = 0x0a → x.cpl[i]? = some c →
    reportsWce x (c.cdw0.toNat % 2 = 1)

theorem pagesFor_caching (page : Nat) (h : asksCaching page) (wce : Bool) : ∃ rest, pagesFor page wce = cachingPage wce :: rest := by
  unfold asksCaching at h
  unfold pagesFor
  rcases h with rfl | rfl
  · exact ⟨[], rfl⟩
  · exact ⟨[controlPage, powerPage], rfl⟩

theorem wce_get (wce : Bool) (A : List Byte) (B : List Byte) :
    ∃ b : Byte, (A ++ (cachingPage wce ++ B))[A.length + 2]? = some b ∧ (b.toNat / 4 % 2 = 1 ↔ wce = true) := by
  rw [List.getElem?_append_right (by omega), Nat.add_sub_cancel_left,
    List.getElem?_append_left (by rw [cachingPage_length]; omega)]
  cases wce
  · exact ⟨0x80, by decide +kernel, by decide⟩
  · exact ⟨0x84, by decide +kernel, by decide⟩

/-- What is reported: bit 0 of the result of the first NVMe command. -/
theorem C51_wce_first_partial (x : Ran) (hg : GoodAllocator x.E) (hop : byte x.cdb 0 = 0x1a) (hs : x.succeeded)
    (hc : asksCaching (byte x.cdb 2 % 64)) (hb : accessible x.w.mem x.din) (hl : 96 ≤ x.din.len)
    (hp : Spec.bit x.cdb 1 3 = false → ∃ ns, x.page 0 ns) (c : Nvme.GenericQueueEntryCpl) (hcpl : x.cpl[0]? = some c) :
    reportsWce x (c.cdw0.toNat % 2 = 1) := by
  have hm : byte x.cdb 2 % 64 ∈ modePages := by
    rcases hc with h | h <;> rw [h] <;> decide
  have key : ∀ (o : Option (List Byte)), o.isSome = !Spec.bit x.cdb 1 3 →
      x.wrote x.din.ptr (fitting x.din.len (modeStructures o (byte x.cdb 2 % 64) (decide (c.cdw0.toNat % 2 = 1)))) →
      reportsWce x (c.cdw0.toNat % 2 = 1) := by
    intro o ho hw
    rw [C50_mode_sense_all o _ hm _ _ hl] at hw
    obtain ⟨rest, hrest⟩ := pagesFor_caching _ hc (decide (c.cdw0.toNat % 2 = 1))
    have : ∃ A, A.length = (if Spec.bit x.cdb 1 3 then 4 else 12) ∧
        (modeStructures o (byte x.cdb 2 % 64) (decide (c.cdw0.toNat % 2 = 1))).flatten
          = A ++ (cachingPage (decide (c.cdw0.toNat % 2 = 1)) ++ rest.flatten) := by
      have hh : ∀ d p, (modeHead d p).length = 4 := by
        intro d p
        unfold modeHead
        simp only [le_eq, List.length_append, leBytes_length, List.length_cons, List.length_nil]
      cases o with
      | none =>
        rw [modeStructures_none _ hm, hrest]
        have : Spec.bit x.cdb 1 3 = true := by simpa using ho.symm
        rw [this]
        exact ⟨modeHead true (byte x.cdb 2 % 64), hh _ _, by simp only [List.flatten_cons]⟩
      | some ns =>
        rw [modeStructures_some _ _ hm, hrest]
        have : Spec.bit x.cdb 1 3 = false := by simpa using ho.symm
        rw [this]
        refine ⟨modeHead false (byte x.cdb 2 % 64) ++ shortDescriptor ns, ?_, by simp only [List.flatten_cons, List.append_assoc]⟩
        rw [List.length_append, hh, shortDescriptor_length]
        rfl
    obtain ⟨A, hA, hfl⟩ := this
    obtain ⟨b, hb1, hb2⟩ := wce_get (decide (c.cdw0.toNat % 2 = 1)) A rest.flatten
    rw [hfl] at hw
    have hlt : A.length + 2 < (A ++ (cachingPage (decide (c.cdw0.toNat % 2 = 1)) ++ rest.flatten)).length := by
      rw [List.length_append, List.length_append, cachingPage_length]
      omega
    refine ⟨b, ?_, by rw [hb2, decide_eq_true_eq]⟩
    unfold wceAt
    rw [← hA, ← hb1]
    exact x.wrote_get hg hw _ hlt (hb _ (by
      have : A.length ≤ 12 := by rw [hA]; split <;> omega
      omega))
  by_cases hd : Spec.bit x.cdb 1 3 = true
  · obtain ⟨-, c', hc', hw⟩ := C50_mode_sense_pages x hg hop hs hd
    rw [hcpl] at hc'
    cases hc'
    exact key none (by rw [hd]; rfl) hw
  · have hd' : Spec.bit x.cdb 1 3 = false := by simpa using hd
    obtain ⟨ns, hns⟩ := hp hd'
    obtain ⟨-, c', hc', hw⟩ := C50_mode_sense_data x hg ns ⟨hop, hs, hns⟩ hd' hb
    rw [hcpl] at hc'
    cases hc'
    exact key (some ns) (by rw [hd']; rfl) hw

/-- **C51**, the part that holds: DBD = 1, where Get Features is the only NVMe command. -/
theorem C51_wce_partial (x : Ran) (hg : GoodAllocator x.E) (hop : byte x.cdb 0 = 0x1a) (hs : x.succeeded)
    (hc : asksCaching (byte x.cdb 2 % 64)) (hb : accessible x.w.mem x.din) (hl : 96 ≤ x.din.len)
    (hd : Spec.bit x.cdb 1 3 = true) (i : Nat) (wr : NvmeCmdWrapper) (c : Nvme.GenericQueueEntryCpl)
    (hwr : x.cmds[i]? = some wr) (_hop : byte wr.cmd.toBytes 0 = 0x0a) (hcpl : x.cpl[i]? = some c) :
    reportsWce x (c.cdw0.toNat % 2 = 1) := by
  obtain ⟨-, a, -, hm⟩ := (C49_mode_sense6 _ _ _ _ _ _ _ _ _ _ x.began hop).2.1 hs.1
  rw [if_neg (by rw [hd]; decide), if_pos hc] at hm
  have hlen : x.cmds.length = 1 := by
    have := congrArg List.length hm
    rw [List.length_map] at this
    exact this
  have hi : i = 0 := by
    rcases Nat.lt_or_ge i 1 with h | h
    · omega
    · rw [List.getElem?_eq_none (by omega)] at hwr; cases hwr
  rw [hi] at hcpl
  exact C51_wce_first_partial x hg hop hs hc hb hl (fun hh => by rw [hd] at hh; cases hh) c hcpl

/-- C51 does not hold: the write cache is on, Get Features says so, and WCE = 0 is reported. -/
theorem C51_refuted : ¬ C51_statement := by
  intro hall
  obtain ⟨x, h1, h2, h3, h4, h6, h5, -, wr, hm, hwr⟩ := Demo.ms_demo Demo.smallNs (by decide +kernel) (by decide +kernel) 96
    (by decide) 0 1
  have hb : accessible x.w.mem x.din := by
    rw [h4]
    intro i hi
    have hi : i < 96 := hi
    exact Demo.demo_data (by decide) h5 _ (by simp only; omega) (by simp only; omega)
  obtain ⟨b, hb1, hb2⟩ := hall x h1 h2.opcode h2.ok (by rw [h3]; decide) hb (by rw [h4]; decide) (fun _ => ⟨_, h2.page⟩) 1 wr { cdw0 := 1 }
    (by rw [hm]; rfl) hwr (by rw [h6]; rfl)
  obtain ⟨b', hb1', hb2'⟩ := C51_wce_first_partial x h1 h2.opcode h2.ok (by rw [h3]; decide) hb (by rw [h4]; decide) (fun _ => ⟨_, h2.page⟩)
    { cdw0 := 0 } (by rw [h6]; rfl)
  rw [hb1] at hb1'
  cases hb1'
  have := hb2'.mp (hb2.mpr (by decide))
  exact absurd this (by decide)

end Scsi2Nvme
