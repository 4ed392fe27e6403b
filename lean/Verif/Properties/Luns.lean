import Verif.Properties.Capacity
/-!
# REPORT LUNS data (C46, C47)
-/

namespace Scsi2Nvme
open Spec

/-! ## The namespace list -/

/-- The ids from position `i` on. -/
def idsFrom (page : List Byte) (i n : Nat) : List Nat := (List.range n).map fun k => leAt page (4 * (i + k)) 4

theorem idsFrom_succ (page : List Byte) (i n : Nat) :
    idsFrom page i (n + 1) = leAt page (4 * i) 4 :: idsFrom page (i + 1) n := by
  unfold idsFrom
  rw [List.range_succ_eq_map, List.map_cons, List.map_map]
  congr 1
  apply List.map_congr_left
  intro k _
  simp only [Function.comp]
  rw [show i + (k + 1) = i + 1 + k by omega]

theorem GetNsListLength_eq (page : List Byte) (n i : Nat) :
    ReportLuns.GetNsListLength n (page.drop (4 * i)) = ((idsFrom page i n).takeWhile (· ≠ 0)).length := by
  induction n generalizing i with
  | zero => rfl
  | succ n ih =>
    unfold ReportLuns.GetNsListLength
    rw [idsFrom_succ, leAt_eq, List.drop_drop, show 4 * i + 4 = 4 * (i + 1) by omega, ih]
    by_cases h : leNat ((page.drop (4 * i)).take 4) = 0
    · rw [if_pos h, List.takeWhile_cons_of_neg (by simp [h])]; rfl
    · rw [if_neg h, List.takeWhile_cons_of_pos (by simp [h])]; rfl

theorem nsids_eq (page : List Byte) : nsids page = (idsFrom page 0 1024).takeWhile (· ≠ 0) := by
  unfold nsids idsFrom
  simp only [Nat.zero_add]

theorem nsids_length (page : List Byte) : ReportLuns.GetNsListLength 1024 page = (nsids page).length := by
  rw [nsids_eq, ← GetNsListLength_eq]; rfl

theorem takeWhile_take {α} (p : α → Bool) (l : List α) : l.takeWhile p = l.take (l.takeWhile p).length := by
  induction l with
  | nil => rfl
  | cons a l ih =>
    rw [List.takeWhile_cons]
    split
    · rw [List.length_cons, List.take_succ_cons, ← ih]
    · rfl

theorem nsids_get (page : List Byte) (i : Nat) (h : i < (nsids page).length) :
    (nsids page)[i]? = some (leAt page (4 * i) 4) ∧ leAt page (4 * i) 4 ≠ 0 := by
  have hle : (nsids page).length ≤ 1024 := by
    rw [← nsids_length]; exact GetNsListLength_le 1024 page
  have e : (nsids page)[i]? = some (leAt page (4 * i) 4) := by
    rw [nsids_eq] at h ⊢
    rw [takeWhile_take, List.getElem?_take, if_pos h]
    unfold idsFrom
    rw [List.getElem?_map, List.getElem?_range (by rw [nsids_eq] at hle; omega)]
    simp
  refine ⟨e, ?_⟩
  have hm : leAt page (4 * i) 4 ∈ nsids page := List.mem_of_getElem? e
  have : ∀ n ∈ nsids page, n ≠ 0 := by
    intro n hn
    rw [nsids_eq] at hn
    have hall : ((idsFrom page 0 1024).takeWhile (· ≠ 0)).all (· ≠ 0) = true := List.all_takeWhile
    simpa using List.all_eq_true.mp hall n hn
  exact this _ hm

/-! ## The loop -/

theorem lun_bytes (n : Nat) (h0 : n ≠ 0) (hn : n < 2 ^ 32) :
    leBytes 8 (htonll ((htoll (BitVec.ofNat 32 n) - 1).setWidth 64)).toNat = beBytes 8 (n - 1) := by
  have e : ((htoll (BitVec.ofNat 32 n) - 1).setWidth 64 : U64).toNat = n - 1 := by
    change ((BitVec.ofNat 32 n - 1).setWidth 64 : U64).toNat = n - 1
    rw [BitVec.toNat_setWidth, BitVec.toNat_sub, BitVec.toNat_ofNat]
    have : (1 : U32).toNat = 1 := rfl
    omega
  rw [← e]
  generalize ((htoll (BitVec.ofNat 32 n) - 1).setWidth 64 : U64) = v
  rw [htonll_def]
  exact leBytes_bswap_be 8 v

/-- The loop writes LUN `i`, …, `i+n-1`. -/
theorem writeLuns_inv {page : List Byte} {ptr : Nat} {buf : Span} (hd : ∀ a, inRange ptr 4096 a → ¬ inSpan buf a)
    (n i : Nat) {w w' : World} (hr : w.mem.read ptr 4096 = some page) (hi : i + n ≤ (nsids page).length)
    (hb : 8 + 8 * (i + n) ≤ buf.len) (h : ReportLuns.writeLuns ptr buf i n w = .ok ((), w')) :
    w' = { w with mem := w.mem.put (buf.ptr + (8 + 8 * i)) (((((nsids page).map (· - 1)).drop i).take n).map (beBytes 8)).flatten } := by
  have hle : (nsids page).length ≤ 1024 := by
    rw [← nsids_length]; exact GetNsListLength_le 1024 page
  induction n generalizing i w with
  | zero =>
    unfold ReportLuns.writeLuns at h
    simp only [M.pure_run, Except.ok.injEq, Prod.mk.injEq, true_and] at h
    rw [List.take_zero, List.map_nil, List.flatten_nil, put_nil, h]
  | succ n ih =>
    unfold ReportLuns.writeLuns at h
    obtain ⟨g1, g2⟩ := nsids_get page i (by omega)
    simp only [M.bind_run] at h
    rw [load_ok (read_sub hr (4 * i) 4 (by omega))] at h
    simp only at h
    rw [← leAt_eq, lun_bytes _ g2 (by have := leAt_lt page (4 * i) 4; simpa using this),
      subspan_lt (by omega)] at h
    have l8 : ∀ m, (beBytes 8 m).length = 8 := by
      intro m; unfold beBytes; rw [List.length_reverse, le_eq, leBytes_length]
    cases hw : WriteValue' (beBytes 8 (leAt page (4 * i) 4 - 1)) ⟨buf.ptr + (8 + i * 8), buf.len - (8 + i * 8)⟩ w with
    | error e => rw [hw] at h; cases h
    | ok x =>
      obtain ⟨ok, w1⟩ := x
      rw [hw] at h
      rcases WriteValue'_inv hw with ⟨a, rfl, -, rfl⟩ | ⟨a, -⟩
      rotate_left
      · rw [l8] at a
        simp only at a
        omega
      simp only [if_pos] at h
      have := ih (i + 1) (w := { w with mem := w.mem.put (buf.ptr + (8 + i * 8)) (beBytes 8 (leAt page (4 * i) 4 - 1)) }) (by
          rw [← hr]
          apply read_congr
          intro k hk
          have hdis := hd (ptr + k) ⟨by omega, by omega⟩
          unfold inSpan at hdis
          apply put_outside
          rw [l8]
          omega) (by omega) (by omega) h
      rw [this]
      simp only
      have hsplit : ((((nsids page).map (· - 1)).drop i).take (n + 1))
          = (leAt page (4 * i) 4 - 1) :: (((nsids page).map (· - 1)).drop (i + 1)).take n := by
        have hlt : i < ((nsids page).map (· - 1)).length := by rw [List.length_map]; omega
        have := List.getElem?_eq_getElem hlt
        rw [List.getElem?_map, g1] at this
        rw [List.drop_eq_getElem_cons hlt, List.take_succ_cons, ← Option.some.inj this]
      rw [hsplit, List.map_cons, List.flatten_cons, ← put_append, l8]
      rw [show 8 + i * 8 = 8 + 8 * i by omega, show buf.ptr + (8 + 8 * (i + 1)) = buf.ptr + (8 + 8 * i) + 8 by omega]

theorem luns_flatten_length (l : List Nat) : ((l.map (beBytes 8)).flatten).length = 8 * l.length := by
  induction l with
  | nil => rfl
  | cons a l ih =>
    rw [List.map_cons, List.flatten_cons, List.length_append, ih]
    unfold beBytes
    rw [List.length_reverse, le_eq, leBytes_length, List.length_cons]
    omega

theorem rlpd_eq (v : U32) : ({ list_byte_length := htonl v } : Scsi.ReportLunsParamData).toBytes
    = beBytes 4 v.toNat ++ zeros 4 := by
  have eA : leBytes 4 (htonl v).toNat = beBytes 4 v.toNat := leBytes_bswap_4 v
  rw [← eA, show zeros 4 = leBytes 4 0 from rfl]
  have hA := (htonl v).isLt
  simp only [Scsi.ReportLunsParamData.toBytes]
  generalize (htonl v).toNat = x at *
  refine (packBits_groups [[(32, x)], [(32, 0)]] ?_).trans ?_
  · simp only [List.forall_mem_cons, List.not_mem_nil, false_implies, implies_true, and_true, packWidth, Nat.reduceAdd,
      Nat.reduceDiv, Nat.reduceMul]
    exact ⟨hA, by decide⟩
  · simp only [packWidth, packVal, List.map_cons, List.map_nil, List.flatten_cons, List.flatten_nil,
      List.append_nil, Nat.reduceDiv, Nat.mul_zero, Nat.add_zero]

/-- The number of LUNs that fit, as the code computes it. -/
def room (len : Nat) : Nat := (len - 8) % 2 ^ 32 / 8

theorem ReportLunsToScsi_inv {page : List Byte} {cmd : Nvme.GenericQueueEntryCmd} {buf : Span} {w w' : World}
    {st : StatusCode} (h0 : cmd.prp1.toNat ≠ 0)
    (hd : ∀ a, inRange cmd.prp1.toNat 4096 a → ¬ inSpan buf a)
    (hr : w.mem.read cmd.prp1.toNat 4096 = some page) (hlen : 8 ≤ buf.len)
    (h : ReportLuns.ReportLunsToScsi cmd buf w = .ok (st, w')) :
    w' = { w with mem := w.mem.put buf.ptr (lunList (((nsids page).map (· - 1)).take (room buf.len))) } := by
  unfold ReportLuns.ReportLunsToScsi at h
  simp only [SafePointerCast_4096] at h
  rw [if_neg (show ¬ buf.len < Scsi.ReportLunsParamData.size by simp only [Scsi.ReportLunsParamData.size]; omega),
    if_neg h0] at h
  simp only [M.bind_run, load_ok hr] at h
  have hnn : ∀ v : U32, ntohl (htonl v) = v := fun v => bswap_bswap 4 v
  rw [show Nvme.kIdentifyNsListMaxLength = 1024 from rfl, nsids_length, hnn] at h
  have hle : (nsids page).length ≤ 1024 := by
    rw [← nsids_length]; exact GetNsListLength_le 1024 page
  -- the number of LUNs reported
  rw [sizeSub_le (b := Scsi.ReportLunsParamData.size) hlen] at h
  have hal : (BitVec.ofNat 32 (buf.len - Scsi.ReportLunsParamData.size)).toNat = (buf.len - 8) % 2 ^ 32 := by
    rw [BitVec.toNat_ofNat]; rfl
  generalize BitVec.ofNat 32 (buf.len - Scsi.ReportLunsParamData.size) = al at h hal
  have hlbl : (al - BitVec.ofNat 32 (al.toNat % 8)).toNat = al.toNat / 8 * 8 := by
    have h1 : (BitVec.ofNat 32 (al.toNat % 8)).toNat = al.toNat % 8 := by rw [BitVec.toNat_ofNat]; omega
    have := al.isLt
    rw [BitVec.toNat_sub, h1]
    omega
  have hcnt : (BitVec.ofNat 32 ((nsids page).length * 8)).toNat = (nsids page).length * 8 := by
    rw [BitVec.toNat_ofNat]; omega
  have hroom : room buf.len = al.toNat / 8 := by unfold room; rw [hal]
  rw [hroom]
  have hbl : al.toNat ≤ buf.len - 8 := by rw [hal]; exact Nat.mod_le _ _
  have key : ∃ v k : Nat, v = 8 * k ∧ k = min (nsids page).length (al.toNat / 8) ∧
      (do
        let ok ← WriteValue' (beBytes 4 v ++ zeros 4) buf
        if ok = true then do ReportLuns.writeLuns cmd.prp1.toNat buf 0 k; pure StatusCode.kSuccess
          else pure StatusCode.kSuccess : M StatusCode) w = .ok (st, w') := by
    by_cases hc : (nsids page).length * 8 > al.toNat
    · refine ⟨al.toNat / 8 * 8, al.toNat / 8, by omega, by omega, ?_⟩
      rw [hcnt] at h
      simp only [decide_eq_true hc, if_true, rlpd_eq, hlbl] at h
      rw [show al.toNat / 8 * 8 / 8 = al.toNat / 8 by omega] at h
      simp only [M.bind_run]
      exact h
    · refine ⟨(nsids page).length * 8, (nsids page).length, by omega, by omega, ?_⟩
      rw [hcnt] at h
      simp only [decide_eq_false hc, Bool.false_eq_true, if_false, rlpd_eq, hcnt] at h
      simp only [M.bind_run]
      exact h
  obtain ⟨v, k, hv, hk, h⟩ := key
  simp only [M.bind_run] at h
  have l8 : (beBytes 4 v ++ zeros 4).length = 8 := by
    unfold beBytes zeros
    simp only [List.length_append, List.length_reverse, le_eq, leBytes_length, List.length_replicate]
  have hkl : (((nsids page).map (· - 1)).take (al.toNat / 8)) = (((nsids page).map (· - 1)).drop 0).take k := by
    rw [List.drop_zero, hk]
    rcases Nat.le_total (nsids page).length (al.toNat / 8) with h1 | h1
    · rw [Nat.min_eq_left h1, List.take_of_length_le (by rw [List.length_map]; exact h1),
        List.take_of_length_le (by rw [List.length_map]; omega)]
    · rw [Nat.min_eq_right h1]
  have hlk : ((((nsids page).map (· - 1)).drop 0).take k).length = k := by
    rw [List.length_take, List.drop_zero, List.length_map]; omega
  cases hw : WriteValue' (beBytes 4 v ++ zeros 4) buf w with
  | error e => rw [hw] at h; cases h
  | ok x =>
    obtain ⟨ok, w1⟩ := x
    rw [hw] at h
    rcases WriteValue'_inv hw with ⟨-, rfl, -, rfl⟩ | ⟨a, -⟩
    rotate_left
    · omega
    simp only [if_pos, M.bind_run] at h
    generalize hW : ({ w with mem := w.mem.put buf.ptr (beBytes 4 v ++ zeros 4) } : World) = W at h
    cases hl : ReportLuns.writeLuns cmd.prp1.toNat buf 0 k W with
    | error e => rw [hl] at h; cases h
    | ok x =>
      obtain ⟨u, w2⟩ := x
      rw [hl] at h
      simp only [M.pure_run, Except.ok.injEq, Prod.mk.injEq] at h
      have := writeLuns_inv hd k 0 (page := page) (w := W) (w' := w2) (by
        rw [← hr, ← hW]
        apply read_congr
        intro i hi
        have hdis := hd (cmd.prp1.toNat + i) ⟨by omega, by omega⟩
        unfold inSpan at hdis
        apply put_outside
        rw [l8]
        omega) (by omega) (by omega) hl
      rw [← h.2, this, ← hW]
      simp only
      unfold lunList
      rw [hkl, hlk, ← hv, ← put_append (a := beBytes 4 v ++ zeros 4), l8]

/-! ## C46 -/

theorem Spec.Ran.lunsRun {x : Ran} {page : List Byte} (hg : GoodAllocator x.E) (h : Asked x 0xa0 page)
    (hb : accessible x.w.mem x.din) :
    ∃ wm, x.w3 = abortW x.E x.t1 wm ∧ x.good ∧
      if 8 ≤ x.din.len
      then wm = { x.w2 with mem := x.w2.mem.put x.din.ptr (lunList (((nsids page).map (· - 1)).take (room x.din.len))) }
      else wm = x.w2 := by
  obtain ⟨st, wm, hw, hgd, hs⟩ := x.switch h.ok
  refine ⟨wm, hw, hgd, ?_⟩
  obtain ⟨p, w1, e, hc, hcase⟩ := rl_api_cases x.began h.opcode
  have hst := e.acc.mp h.ok.1
  rcases hcase with ⟨-, hn, -⟩ | ⟨-, -, -, hn, -⟩ | ⟨-, -, n0, -, -, e0, -, -⟩
  · exact absurd hst hn
  · exact absurd hst hn
  have r0 := x.page0 h.page
  rw [opc_of_byte h.opcode (by decide)] at hs
  unfold completeSwitch at hs
  rw [if_neg (by decide), if_neg (by decide), if_neg (by decide), if_neg (by decide), if_neg (by decide),
    if_pos (by decide)] at hs
  rw [e.wss] at hs r0
  have z0 : p.ws.e0.cmd.prp1.toNat ≠ 0 := by
    rw [e0]; intro hh; exact n0 (BitVec.eq_of_toNat_eq hh)
  have hdis : ∀ a, inRange p.ws.e0.cmd.prp1.toNat 4096 a → ¬ inSpan x.din a := by
    intro a hr hi
    rw [e0] at hr
    rcases set_good hg x.w with ⟨h0, -⟩ | ⟨-, -, h1, -⟩
    · exact n0 h0
    · have := hb (a - x.din.ptr) (by unfold inSpan at hi; omega)
      rw [show x.din.ptr + (a - x.din.ptr) = a by unfold inSpan at hi; omega, (h1 a hr).1] at this
      cases this
  by_cases c : 8 ≤ x.din.len
  · rw [if_pos c]
    exact ReportLunsToScsi_inv z0 hdis r0 c hs
  · rw [if_neg c]
    unfold ReportLuns.ReportLunsToScsi at hs
    simp only [SafePointerCast_4096] at hs
    rw [if_pos (show x.din.len < Scsi.ReportLunsParamData.size by simp only [Scsi.ReportLunsParamData.size]; omega)] at hs
    simp only [M.pure_run, Except.ok.injEq, Prod.mk.injEq] at hs
    exact hs.2.symm

/-- **C46**, full statement (false for buffers of 4 GiB and more, see `C46_refuted`): REPORT LUNS returns the LUNs
(namespace id minus one) of all namespaces in the active namespace list, in order, as many as fit into the buffer. -/
def C46_statement : Prop := ∀ (x : Ran) (page : List Byte), GoodAllocator x.E → Asked x 0xa0 page →
  accessible x.w.mem x.din → 8 ≤ x.din.len →
  x.wrote x.din.ptr (lunList (((nsids page).map (· - 1)).take ((x.din.len - 8) / 8)))

/-- **C46**, every buffer size: what the translator returns exactly.  The room behind the head is counted modulo
2^32. -/
theorem C46_report_luns_exact (x : Ran) (page : List Byte) (hg : GoodAllocator x.E) (h : Asked x 0xa0 page)
    (hb : accessible x.w.mem x.din) :
    x.good ∧ if 8 ≤ x.din.len
      then x.wrote x.din.ptr (lunList (((nsids page).map (· - 1)).take ((x.din.len - 8) % 2 ^ 32 / 8)))
      else x.wroteNothing := by
  obtain ⟨wm, hw, hgd, hr⟩ := Ran.lunsRun hg h hb
  refine ⟨hgd, ?_⟩
  split
  · rename_i c
    rw [if_pos c] at hr
    exact x.wrote_of hg hw hr
  · rename_i c
    rw [if_neg c] at hr
    exact x.wroteNothing_of hg hw hr

/-- **C46**, the part that holds: buffers of less than 2^32 + 8 bytes. -/
theorem C46_report_luns_data_partial (x : Ran) (page : List Byte) (hg : GoodAllocator x.E) (h : Asked x 0xa0 page)
    (hb : accessible x.w.mem x.din) (hl : 8 ≤ x.din.len) (hu : x.din.len < 2 ^ 32 + 8) :
    x.wrote x.din.ptr (lunList (((nsids page).map (· - 1)).take ((x.din.len - 8) / 8))) := by
  have := (C46_report_luns_exact x page hg h hb).2
  rw [if_pos hl, Nat.mod_eq_of_lt (by omega)] at this
  exact this

namespace Demo

/-- REPORT LUNS. -/
def reportLuns : List Byte := [0xa0, 0, 0, 0, 0, 0, 0, 0, 0x10, 0, 0, 0]

/-- REPORT LUNS with the given namespace list and data buffer size. -/
theorem rl_demo (p0 : List Byte) (h0 : p0.length ≤ 4096) (len : Nat) (hl : len ≤ 0x8000) :
    ∃ x : Ran, GoodAllocator x.E ∧ Asked x 0xa0 (pad p0) ∧
      x.din = ⟨0x8000, len⟩ ∧ x.lun = 1 ∧ x.w = ⟨mem reportLuns [], []⟩ ∧ x.w2 = ⟨mem2 reportLuns p0 [], []⟩ := by
  have hc : reportLuns.length ≤ 0x300 := by decide
  obtain ⟨x, e1, e2, e3, e4, e5, e6, e7, -, a, b⟩ := demo_run env.junk reportLuns hc 1 p0 [] [cpl 0 0] len hl
    (fun t1 => Accepted t1 ∧ t1.GetNvmeWrappers = [identifyWr 0 2 0x100000#64]) (by
      intro r t1 w1 hb
      obtain ⟨p, w1', e, hcn, hcase⟩ := rl_api_cases hb rfl
      obtain ⟨q0, -⟩ := pages_stack env.junk reportLuns hc
      rw [q0] at hcase
      rcases hcase with ⟨hh, -⟩ | ⟨-, -, hh, -⟩ | ⟨-, -, -, hs, -, e0, -, -⟩
      · exact absurd hh (by decide)
      · exact absurd hh (by decide)
      have hm : t1.GetNvmeWrappers = [identifyWr 0 2 0x100000#64] := by
        rw [e.cmds hs, hcn, take_one, e0]
      refine ⟨⟨e.acc.mpr hs, hm⟩, ?_, ⟨fun hh => absurd hh (by decide), fun hh => absurd hh (by decide),
        fun hh => absurd hh (by decide)⟩⟩
      intro wr hwr _
      rw [hm] at hwr
      simp only [List.mem_cons, List.not_mem_nil, or_false] at hwr
      rw [prp1_bytes]
      rcases hwr with rfl
      exact acc_page0 _ _ _)
  refine ⟨x, e1 ▸ stack_good _, ⟨by rw [e2]; rfl, ⟨a, ?_, ?_⟩, ⟨identifyWr 0 2 0x100000#64, ?_, ?_⟩⟩, e7, e3, e4, e5⟩
  · unfold Ran.answered Ran.cmds
    rw [e6, b]
    rfl
  · rw [e6]
    simp only [List.forall_mem_cons, List.not_mem_nil, false_implies, implies_true, and_true]
    decide
  · unfold Ran.cmds; rw [b]; rfl
  · rw [prp1_bytes, e5]; exact read_page0 _ _ _ h0

/-- A list of the namespaces 1, 3 and 2^32 - 2. -/
def threeNs : List Byte := [1, 0, 0, 0, 3, 0, 0, 0, 0xfe, 0xff, 0xff, 0xff]

theorem threeNs_nsids : nsids (pad threeNs) = [1, 3, 0xfffffffe] := by
  unfold nsids
  rw [show (1024 : Nat) = 4 + 1020 from rfl, List.range_add, List.map_append]
  have e : (List.range 4).map (fun i => leAt (pad threeNs) (4 * i) 4) = [1, 3, 0xfffffffe, 0] := by decide +kernel
  rw [e]
  rfl

end Demo

/-- Met by a list of three namespaces and a buffer of 16 bytes, which has room for only one of them. -/
example : ∃ x page, GoodAllocator x.E ∧ Asked x 0xa0 page ∧ accessible x.w.mem x.din ∧ 8 ≤ x.din.len ∧
    x.din.len < 2 ^ 32 + 8 ∧ nsids page = [1, 3, 0xfffffffe] ∧ (x.din.len - 8) / 8 = 1 := by
  obtain ⟨x, h1, h2, h3, -, h4, h5⟩ := Demo.rl_demo Demo.threeNs (by decide) 16 (by decide)
  refine ⟨x, _, h1, h2, ?_, by rw [h3]; decide, by rw [h3]; decide, Demo.threeNs_nsids, by rw [h3]; rfl⟩
  rw [h3]
  intro i hi
  have hi : i < 16 := hi
  exact Demo.demo_data (by decide) h4 _ (by simp only; omega) (by simp only; omega)

/-! ## C47 -/

theorem luns_slice (l : List Nat) (i : Nat) (n : Nat) (h : l[i]? = some n) :
    (((l.map (beBytes 8)).flatten).drop (8 * i)).take 8 = beBytes 8 n := by
  induction l generalizing i with
  | nil => cases h
  | cons a l ih =>
    rw [List.map_cons, List.flatten_cons]
    cases i with
    | zero =>
      rw [List.getElem?_cons_zero] at h
      cases h
      rw [Nat.mul_zero, List.drop_zero, List.take_append_of_le_length (by rw [beBytes_length]; omega),
        List.take_of_length_le (by rw [beBytes_length]; omega)]
    | succ i =>
      rw [List.getElem?_cons_succ] at h
      rw [List.drop_append, List.drop_of_length_le (by rw [beBytes_length]; omega), List.nil_append, beBytes_length,
        show 8 * (i + 1) - 8 = 8 * i by omega]
      exact ih i h

/-- The `i`-th LUN as the initiator reads it from the data buffer after `Complete`. -/
theorem reported_lun (x : Ran) (page : List Byte) (hg : GoodAllocator x.E) (h : Asked x 0xa0 page)
    (hb : accessible x.w.mem x.din) (hu : x.din.len < 2 ^ 32 + 8) (i : Nat) (n : Nat) (hn : (nsids page)[i]? = some n)
    (hi : 8 + 8 * (i + 1) ≤ x.din.len) : x.w3.mem.read (x.din.ptr + (8 + 8 * i)) 8 = some (beBytes 8 (n - 1)) := by
  have hw := C46_report_luns_data_partial x page hg h hb (by omega) hu
  have hlt : i < (nsids page).length := by
    rcases Nat.lt_or_ge i (nsids page).length with h | h
    · exact h
    · rw [List.getElem?_eq_none h] at hn; cases hn
  generalize hL : ((nsids page).map (· - 1)).take ((x.din.len - 8) / 8) = L at hw
  have hLi : L[i]? = some (n - 1) := by
    rw [← hL, List.getElem?_take, if_pos (by omega), List.getElem?_map, hn]; rfl
  have hLl : i < L.length := by
    rcases Nat.lt_or_ge i L.length with h | h
    · exact h
    · rw [List.getElem?_eq_none h] at hLi; cases hLi
  have hLr : L.length ≤ (x.din.len - 8) / 8 := by rw [← hL, List.length_take]; exact Nat.min_le_left _ _
  have hll : (lunList L).length = 8 + 8 * L.length := by
    unfold lunList zeros
    rw [List.length_append, List.length_append, luns_flatten_length, beBytes_length, List.length_replicate]
  have hr := x.wrote_read hg hw (by
    intro k hk
    have hk : k < (lunList L).length := hk
    exact hb k (by omega))
  have := read_sub hr (8 + 8 * i) 8 (by rw [hll]; omega)
  rw [this]
  unfold lunList
  rw [List.drop_append, List.drop_of_length_le (by simp [zeros]), List.nil_append,
    show 8 + 8 * i - (beBytes 4 (8 * L.length) ++ zeros 4).length = 8 * i by simp [zeros], luns_slice L i _ hLi]

/-- **C47**, full statement (false, see `C47_refuted`): take the `i`-th LUN from the data returned by REPORT LUNS and
translate any command for this LUN, on any object, at any time: the NVMe commands that address a namespace address the
`i`-th namespace of the list the device returned. -/
def C47_statement : Prop := ∀ (x : Ran) (page : List Byte), GoodAllocator x.E → Asked x 0xa0 page →
  accessible x.w.mem x.din → x.din.len < 2 ^ 32 + 8 → ∀ i n, (nsids page)[i]? = some n → 8 + 8 * (i + 1) ≤ x.din.len →
  ∃ bs, x.w3.mem.read (x.din.ptr + (8 + 8 * i)) 8 = some bs ∧
    ∀ E t w ptr cdb buf r t' w', Began E t w ptr cdb buf (BitVec.ofNat 64 (be bs)) r t' w' →
      ∀ wr ∈ t'.GetNvmeWrappers, addressesNamespace wr.cmd.toBytes → leAt wr.cmd.toBytes 4 4 = n

/-- **C47**, the part that holds: all commands other than VERIFY(10) and UNMAP. -/
theorem C47_round_trip_partial (x : Ran) (page : List Byte) (hg : GoodAllocator x.E) (h : Asked x 0xa0 page)
    (hb : accessible x.w.mem x.din) (hu : x.din.len < 2 ^ 32 + 8) (i n : Nat) (hn : (nsids page)[i]? = some n)
    (hi : 8 + 8 * (i + 1) ≤ x.din.len) :
    ∃ bs, x.w3.mem.read (x.din.ptr + (8 + 8 * i)) 8 = some bs ∧
      ∀ E t w ptr cdb buf r t' w', Began E t w ptr cdb buf (BitVec.ofNat 64 (be bs)) r t' w' →
        byte cdb 0 ≠ 0x42 → byte cdb 0 ≠ 0x2f →
        ∀ wr ∈ t'.GetNvmeWrappers, addressesNamespace wr.cmd.toBytes → leAt wr.cmd.toBytes 4 4 = n := by
  refine ⟨_, reported_lun x page hg h hb hu i n hn hi, ?_⟩
  intro E t w ptr cdb buf r t' w' hbg h42 h2f wr hwr ha
  have hlt : i < (nsids page).length := by
    rcases Nat.lt_or_ge i (nsids page).length with h | h
    · exact h
    · rw [List.getElem?_eq_none h] at hn; cases hn
  obtain ⟨g1, g2⟩ := nsids_get page i hlt
  rw [g1] at hn
  cases hn
  have hlt := leAt_lt page (4 * i) 4
  rw [be_beBytes] at hbg
  have e : (BitVec.ofNat 64 ((leAt page (4 * i) 4 - 1) % 256 ^ 8) : U64).toNat = leAt page (4 * i) 4 - 1 := by
    rw [BitVec.toNat_ofNat]
    generalize leAt page (4 * i) 4 = v at *
    omega
  have := C30_namespace_partial E t w ptr cdb buf _ r t' w' hbg h42 h2f (by rw [e]; omega) wr hwr ha
  rw [this, e]
  omega

/-- **C47** for the number alone: the LUN reported for any namespace id stands for that namespace. -/
theorem C47_lun_of_nsid (n : Nat) (h0 : 0 < n) (hn : n < 2 ^ 32) : nsidOfLun (BitVec.ofNat 64 (n - 1)) = n := by
  unfold nsidOfLun
  rw [BitVec.toNat_ofNat]
  omega

/-- C47 does not hold: VERIFY(10) for the LUN reported for namespace 1 addresses namespace 0. -/
theorem C47_refuted : ¬ C47_statement := by
  intro hall
  obtain ⟨x, h1, h2, h3, -, h4, h5⟩ := Demo.rl_demo Demo.threeNs (by decide) 16 (by decide)
  have hacc : accessible x.w.mem x.din := by
    rw [h3]
    intro i hi
    have hi : i < 16 := hi
    exact Demo.demo_data (by decide) h4 _ (by simp only; omega) (by simp only; omega)
  have hn : (nsids (Demo.pad Demo.threeNs))[0]? = some 1 := by rw [Demo.threeNs_nsids]; rfl
  obtain ⟨bs, hr, hh⟩ := hall x _ h1 h2 hacc (by rw [h3]; decide) 0 1 hn (by rw [h3]; decide)
  rw [reported_lun x _ h1 h2 hacc (by rw [h3]; decide) 0 1 hn (by rw [h3]; decide)] at hr
  cases hr
  obtain ⟨r, t', w', hb, hf⟩ := began_of Demo.env Demo.ws ⟨Demo.mem verify10, []⟩ 0x100 verify10
    Demo.data (BitVec.ofNat 64 (be (beBytes 8 (1 - 1)))) (fun _ t' => t'.GetNvmeWrappers.map (fun wr => byte wr.cmd.toBytes 0) = [5])
    (by decide +kernel) (by decide +kernel)
  have h1 := hh _ _ _ _ _ _ _ _ _ hb
  have h2 := C26_verify_namespace_partial _ _ _ _ _ _ _ _ _ _ hb (by decide)
  cases hw : t'.GetNvmeWrappers with
  | nil => rw [hw] at hf; cases hf
  | cons x l =>
    rw [hw] at hf
    simp only [List.map_cons, List.cons.injEq] at hf
    have hm : x ∈ t'.GetNvmeWrappers := by rw [hw]; simp
    have := h1 x hm (by unfold addressesNamespace; rw [hf.1]; exact fun h => absurd h.1 (by decide))
    rw [h2 x hm] at this
    revert this
    decide

/-- Met by the second LUN (LUN 2, namespace 3) of three. -/
example : ∃ x page, GoodAllocator x.E ∧ Asked x 0xa0 page ∧ accessible x.w.mem x.din ∧ x.din.len < 2 ^ 32 + 8 ∧
    (nsids page)[1]? = some 3 ∧ 8 + 8 * (1 + 1) ≤ x.din.len := by
  obtain ⟨x, h1, h2, h3, -, h4, h5⟩ := Demo.rl_demo Demo.threeNs (by decide) 32 (by decide)
  refine ⟨x, _, h1, h2, ?_, by rw [h3]; decide, by rw [Demo.threeNs_nsids]; rfl, by rw [h3]; decide⟩
  rw [h3]
  intro i hi
  have hi : i < 32 := hi
  exact Demo.demo_data (by decide) h4 _ (by simp only; omega) (by simp only; omega)

/-! ## C46 with 4 GiB -/

namespace Demo

/-- Memory of a machine with all of the address space from 2^40 on in use. -/
def bigMem (m : Mem) : Mem := fun a => if 2 ^ 40 ≤ a then some 0 else m a

theorem big_page (w : World) (hm : w.mem = bigMem (mem reportLuns [])) (ht : w.trace = []) :
    setA (stack env.junk) w = 0x100000#64 := by
  have hps : (4096 : U32).toNat * (1 : U16).toNat = 4096 := by decide
  have hany : ((List.range 4096).any fun i => (w.mem (0x100000 + i)).isSome) = false := by
    rw [List.any_eq_false]
    intro i hi
    rw [hm]
    unfold bigMem
    have := List.mem_range.mp hi
    rw [if_neg (by omega), mem_high _ _ (by omega) (by decide)]
    simp
  unfold setA allocRes stack boundedEnv
  simp only [hps, ht, allocs, Nat.mul_zero, Nat.add_zero, hany, Bool.false_eq_true, or_false]
  rw [if_neg (by rintro (h | h); exact absurd h (by decide); exact absurd h (by decide))]

/-- REPORT LUNS with a buffer of 2^32 + 8 bytes. -/
theorem big_demo : ∃ x : Ran, GoodAllocator x.E ∧ Asked x 0xa0 (pad threeNs) ∧ accessible x.w.mem x.din ∧
    x.din = ⟨2 ^ 40, 2 ^ 32 + 8⟩ := by
  have hc : reportLuns.length ≤ 0x300 := by decide
  have hlow : ∀ (m : Mem) (p n : Nat), p + n ≤ 2 ^ 40 → (bigMem m).read p n = m.read p n := by
    intro m p n h
    apply read_congr
    intro i hi
    unfold bigMem
    rw [if_neg (by omega)]
  have hcdb : (bigMem (mem reportLuns [])).read 0x100 reportLuns.length = some reportLuns := by
    rw [hlow _ _ _ (by decide)]; exact read_cdb reportLuns
  obtain ⟨r, t1, w1, hb⟩ : ∃ r t1 w1, Began (stack env.junk) (Translation.init ws) ⟨bigMem (mem reportLuns []), []⟩ 0x100
      reportLuns ⟨0, 0⟩ 1 r t1 w1 := by
    obtain ⟨r, t1, w1, e⟩ := Begin_defined (stack_good env.junk) (IdleObject_init ws).idle
      ⟨bigMem (mem reportLuns []), []⟩ ⟨0x100, reportLuns.length⟩ ⟨0, 0⟩ 1 (by
        intro i hi
        exact (read_isSome (m := bigMem (mem reportLuns []))).mp (by rw [hcdb]; rfl) i hi)
      (by intro i hi; exact absurd hi (by simp))
    exact ⟨r, t1, w1, IdleObject_init ws, hcdb, e⟩
  obtain ⟨p, w1', e, hcn, hcase⟩ := rl_api_cases hb rfl
  rw [big_page _ rfl rfl] at hcase
  rcases hcase with ⟨hh, -⟩ | ⟨-, -, hh, -⟩ | ⟨-, -, -, hs, -, e0, -, -⟩
  · exact absurd hh (by decide)
  · exact absurd hh (by decide)
  have hm : t1.GetNvmeWrappers = [identifyWr 0 2 0x100000#64] := by
    rw [e.cmds hs, hcn, take_one, e0]
  have hbig : ∀ m : Mem, accessible (bigMem m) ⟨2 ^ 40, 2 ^ 32 + 8⟩ := by
    intro m i _
    simp only
    unfold bigMem
    rw [if_pos (by omega)]
    rfl
  have hkept : (bigMem (mem2 reportLuns threeNs [])).read 0x100 reportLuns.length = some reportLuns := by
    rw [hlow _ _ _ (by decide)]; exact read_cdb2 reportLuns threeNs [] hc
  have hp : Pending (stack env.junk) (Translation.init ws) ⟨bigMem (mem reportLuns []), []⟩ 0x100 reportLuns ⟨0, 0⟩ 1 r t1 w1
      ⟨bigMem (mem2 reportLuns threeNs []), []⟩ ⟨2 ^ 40, 2 ^ 32 + 8⟩ ⟨0, 0⟩ := by
    refine ⟨hb, hkept, hbig _, hbig _, fun i hi => absurd hi (by simp), ?_⟩
    intro wr hwr _
    rw [hm] at hwr
    simp only [List.mem_cons, List.not_mem_nil, or_false] at hwr
    rw [prp1_bytes]
    rcases hwr with rfl
    intro i hi
    have hi : i < 4096 := hi
    have := acc_page0 reportLuns threeNs [] i hi
    change ((bigMem _) (0x100000 + i)).isSome
    unfold bigMem
    rw [if_neg (by omega)]
    exact this
  obtain ⟨c, t2, w3, hcall⟩ := C10_complete_safe_partial _ _ _ _ _ _ _ _ _ _ _ _ _ [cpl 0 0] (stack_good _) hp
    ⟨fun hh => absurd hh (by decide), fun hh => absurd hh (by decide), fun hh => absurd hh (by decide)⟩
  refine ⟨⟨_, _, _, _, _, _, _, _, _, _, hb, _, hkept, _, _, _, _, _, _, hcall⟩, stack_good _,
    ⟨rfl, ⟨e.acc.mpr hs, ?_, ?_⟩, ⟨identifyWr 0 2 0x100000#64, ?_, ?_⟩⟩, hbig _, rfl⟩
  · unfold Ran.answered Ran.cmds
    simp only
    rw [hm]
    rfl
  · simp only [List.forall_mem_cons, List.not_mem_nil, false_implies, implies_true, and_true]
    decide
  · unfold Ran.cmds; simp only; rw [hm]; rfl
  · rw [prp1_bytes]
    simp only
    exact (hlow _ _ _ (by decide)).trans (read_page0 _ _ _ (by decide))

end Demo

/-- C46 does not hold: three namespaces and a buffer of 2^32 + 8 bytes, and the list returned is empty. -/
theorem C46_refuted : ¬ C46_statement := by
  intro hall
  obtain ⟨x, h1, h2, h3, h4⟩ := Demo.big_demo
  have a := hall x _ h1 h2 h3 (by rw [h4]; decide)
  have b := (C46_report_luns_exact x _ h1 h2 h3).2
  rw [if_pos (by rw [h4]; decide)] at b
  rw [Demo.threeNs_nsids, h4] at a b
  have ha := x.wrote_get h1 a 3 (by decide +kernel) (by rw [h4] at h3; exact h3 3 (by decide))
  have hb := x.wrote_get h1 b 3 (by decide +kernel) (by rw [h4] at h3; exact h3 3 (by decide))
  rw [ha] at hb
  exact absurd hb (by decide +kernel)

end Scsi2Nvme
