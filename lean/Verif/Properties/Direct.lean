import Verif.Properties.Plan
import Verif.Properties.Safety2
import Verif.Properties.Helpers
import Verif.Properties.ModeData
import Verif.Spec.Direct
import Verif.Proofs.RwAny
/-!
# C90-C92: translator functions called directly
-/

namespace Scsi2Nvme
open Spec ModeSense

/-! ## C90: MODE SENSE(10) -/

theorem msPage_attrs10 (cdb : List Byte) (nsid : U32) (ws : Arr3 NvmeCmdWrapper) (n : Nat) :
    msPage (attrsOf10 cdb) nsid ws n = msPage (attrsOf6 cdb) nsid ws n := by
  have h1 : (attrsOf10 cdb).page_code = (attrsOf6 cdb).page_code :=
    BitVec.eq_of_toNat_eq ((attrsOf10_page cdb).trans (attrsOf6_page cdb).symm)
  have h2 : (attrsOf10 cdb).pc = (attrsOf6 cdb).pc := by
    apply BitVec.eq_of_toNat_eq
    rw [attrsOf6_pc]
    have := fieldBits cdb 9 14 2 1 6 (by omega) (by omega) (by omega)
    rw [← byte_div64]
    simp only [Nat.reduceAdd, Nat.reducePow] at this
    exact this
  unfold msPage
  rw [h1, h2]

theorem take_put (ws : Arr3 NvmeCmdWrapper) (n : Nat) (hn : n < 3) (wr : NvmeCmdWrapper) :
    (ws.put n wr).toList.take (n + 1) = ws.toList.take n ++ [wr] := by
  obtain ⟨a, b, c⟩ := ws
  match n, hn with
  | 0, _ => rfl
  | 1, _ => rfl
  | 2, _ => rfl

theorem get_put_next (ws : Arr3 NvmeCmdWrapper) (n : Nat) (hn : n < 2) (wr : NvmeCmdWrapper) :
    ((ws.put n wr).get? (n + 1)).getD (ws.put n wr).e0 = (ws.get? (n + 1)).getD ws.e0 := by
  obtain ⟨a, b, c⟩ := ws
  match n, hn with
  | 0, _ => rfl
  | 1, _ => rfl

/-- What the slot `i` of the wrappers announces. -/
def slotLen (ws : Arr3 NvmeCmdWrapper) (i : Nat) : Nat := ((ws.get? i).getD ws.e0).buffer_len.toNat

/-- **C90.** `ModeSense10ToNvme`, called with room for two commands and a free allocation record, for every command
block: an incomplete one is refused and changes nothing; otherwise the allocation length (bytes 7-8) is returned, one
page is asked for exactly if DBD = 0, the command is accepted exactly if the page is supported, not the saved values of
the caching page are asked for and the page was granted, and then the commands appended are Identify Namespace (DBD = 0)
and Get Features (caching page). -/
theorem C90_commands (E : Env) (cdb : List Byte) (ws : Arr3 NvmeCmdWrapper) (al : Allocation) (nsid : U32) (n : Nat)
    (len : U32) (w : World) (hn : n ≤ 1) (hf : al.data_addr = 0) :
    ∃ st ws' al' n' len' w' as,
      ModeSense10ToNvme E cdb.tail ws al 4096 nsid n len w = .ok ((st, ws', al', n', len'), w') ∧
      PagesAsked E w w' as ∧
      if cdb.length < 10 then st = .kFailure ∧ as = [] ∧ w' = w ∧ ws' = ws ∧ al' = al ∧ n' = n ∧ len' = len
      else len'.toNat = beAt cdb 7 2 ∧ as.length = (if bit cdb 1 3 then 0 else 1) ∧
        (st = .kSuccess ↔ byte cdb 2 % 64 ∈ modePages ∧ (asksCaching (byte cdb 2 % 64) → byte cdb 2 / 64 ≠ 3) ∧
          (bit cdb 1 3 = false → as.getD 0 0 ≠ 0)) ∧
        (st = .kSuccess → (ws'.toList.take n').map handed = (ws.toList.take n).map handed
          ++ modeCommands cdb nsid.toNat (as.getD 0 0) (slotLen ws (if bit cdb 1 3 then n else n + 1))) := by
  unfold ModeSense10ToNvme
  rcases Nat.lt_or_ge cdb.length 10 with hl | hl
  · rw [readValue_none (by simp [Scsi.ModeSense10Command.size]; omega)]
    exact ⟨_, _, _, _, _, _, [], rfl, .nil E w, by rw [if_pos hl]; exact ⟨rfl, rfl, rfl, rfl, rfl, rfl, rfl⟩⟩
  rw [readValue_some (by simp [Scsi.ModeSense10Command.size]; omega)]
  have f : ((ntohs (Scsi.ModeSense10Command.ofBytes (cdb.tail.take Scsi.ModeSense10Command.size)).alloc_length).setWidth 32
      : U32).toNat = beAt cdb 7 2 := by
    rw [BitVec.toNat_setWidth]
    have h1 : (ntohs (Scsi.ModeSense10Command.ofBytes (cdb.tail.take Scsi.ModeSense10Command.size)).alloc_length).toNat
      = beAt cdb 7 2 := field16 cdb 9 48 6 (by omega) (by omega) (by omega)
    rw [h1]
    have := beAt_lt cdb 7 2
    omega
  simp only [M.bind_run, if_neg (show ¬ cdb.length < 10 by omega)]
  by_cases hd : Spec.bit cdb 1 3 = true
  · have := ModeSense_dbd E (attrsOf10 cdb) ws al nsid n (by omega) w (by rw [attrsOf10_dbd]; exact hd)
    rw [msPage_attrs10] at this
    have hm := fun hok => msPage_handed cdb nsid ws n (by omega) _ rfl hok
    have ho := msPage_ok cdb nsid ws n
    unfold attrsOf10 at this
    rw [this]
    simp only [M.pure_run]
    generalize msPage _ nsid ws n = r at hm ho
    refine ⟨_, _, _, _, _, _, [], rfl, .nil E w, f, by simp [hd], ?_, fun hs => ?_⟩
    · rw [ho, hd]; simp
    · rw [hm hs]
      unfold modeCommands slotLen
      rw [hd]
      rfl
  · have hd' : Spec.bit cdb 1 3 = false := by simpa using hd
    by_cases h0 : setA E w = 0
    · have := ModeSense_fail E (attrsOf10 cdb) ws al nsid n (by omega) w (by rw [attrsOf10_dbd]; exact hd') hf h0
      unfold attrsOf10 at this
      rw [this]
      refine ⟨_, _, _, _, _, _, _, rfl, .set E w, f, by simp [hd'], ?_, fun hs => by cases hs⟩
      simp only [reduceCtorEq, false_iff, hd', h0]
      rintro ⟨-, -, h⟩
      exact h trivial rfl
    · have := ModeSense_ok E (attrsOf10 cdb) ws al nsid n (by omega) w (by rw [attrsOf10_dbd]; exact hd') hf h0
      rw [msPage_attrs10] at this
      have hm := fun hok => msPage_handed cdb nsid (ws.put n (identifyWr nsid 0 (setA E w))) (n + 1) (by omega) _ rfl hok
      have ho := msPage_ok cdb nsid (ws.put n (identifyWr nsid 0 (setA E w))) (n + 1)
      unfold attrsOf10 at this
      rw [this]
      simp only [M.pure_run]
      rw [take_put _ _ (by omega), get_put_next _ _ (by omega)] at hm
      generalize msPage _ nsid _ (n + 1) = r at hm ho
      refine ⟨_, _, _, _, _, _, _, rfl, .set E w, f, by simp [hd'], ?_, fun hs => ?_⟩
      · rw [ho]
        have : (setA E w).toNat ≠ 0 := fun h => h0 (BitVec.eq_of_toNat_eq h)
        simp [this]
      · rw [hm hs]
        unfold modeCommands slotLen
        rw [hd']
        simp only [List.map_append, List.map_cons, List.map_nil, List.append_assoc, if_true, Bool.false_eq_true, if_false, handed_identify]
        rfl

theorem longDescriptor_length (ns : List Byte) : (longDescriptor ns).length = 16 := by
  unfold longDescriptor
  simp [beBytes_length, zeros]

theorem longDescriptor_eq (ns : List Byte) (n l : Nat) (hn : n = ncap ns) (v : U64) (hv : v.toNat = n) (hl : l = lbads ns)
    (hl32 : l < 32) :
    ({ number_of_blocks := bswap_64 v, logical_block_length := htonl (1#32 <<< l) } : Scsi.LongLbaBlockDescriptor).toBytes
      = longDescriptor ns := by
  have e1 : leBytes 8 (bswap_64 v).toNat = beBytes 8 (ncap ns) := by
    rw [show bswap_64 v = bswap 8 v from rfl, leBytes_bswap_8, hv, hn]
  have e2 : leBytes 4 (htonl (1#32 <<< l)).toNat = beBytes 4 (2 ^ lbads ns) := by
    rw [show htonl (1#32 <<< l) = bswap 4 (1#32 <<< l) from rfl, leBytes_bswap_4, BitVec.toNat_shiftLeft,
      show (1#32).toNat = 1 from rfl, Nat.shiftLeft_eq, Nat.one_mul, ← hl,
      Nat.mod_eq_of_lt (Nat.pow_lt_pow_right (by decide) hl32)]
  unfold longDescriptor
  rw [← e1, ← e2]
  have hA := (bswap_64 v).isLt
  have hB := (htonl (1#32 <<< l)).isLt
  simp only [Scsi.LongLbaBlockDescriptor.toBytes]
  generalize (bswap_64 v).toNat = x at *
  generalize (htonl (1#32 <<< l)).toNat = y at *
  refine (packBits_groups [[(64, x)], [(32, 0)], [(32, y)]] ?_).trans ?_
  · simp only [List.forall_mem_cons, List.not_mem_nil, false_implies, implies_true, and_true, packWidth, Nat.reduceAdd,
      Nat.reduceDiv, Nat.reduceMul]
    exact ⟨hA, by decide, hB⟩
  · simp only [packWidth, packVal, List.map_cons, List.map_nil, List.flatten_cons, List.flatten_nil,
      List.append_nil, Nat.reduceDiv, Nat.mul_zero, Nat.add_zero]
    rw [List.append_assoc]
    rfl

/-- The head of the MODE SENSE(10) answer. -/
def head10 (dbd long : Bool) (page : Nat) : List Byte :=
  beBytes 2 (6 + ((if dbd then 0 else if long then 16 else 8)
      + (if page = 0x08 then 20 else if page = 0x0a then 12 else if page = 0x1a then 40 else 72)))
    ++ [0x00, 0x10] ++ le 1 long.toNat ++ [0x00] ++ beBytes 2 (if dbd then 0 else if long then 16 else 8)

theorem head10_eq (a : CommonCmdAttributes) (hp : a.page_code.toNat ∈ modePages) :
    ({ mode_data_length := htons (GetModeDataLength a true)
       dpofua := 0b01
       longlba := if a.llbaa then 1 else 0
       bdl := if a.dbd then 0
        else if a.llbaa then htons (BitVec.ofNat 16 Scsi.LongLbaBlockDescriptor.size)
        else htons (BitVec.ofNat 16 Scsi.ShortLbaBlockDescriptor.size) } : Scsi.ModeParameter10Header).toBytes
      = head10 a.dbd a.llbaa a.page_code.toNat := by
  obtain ⟨pc, c, dbd, ll⟩ := a
  simp only at hp
  simp only [modePages, List.mem_cons, List.not_mem_nil, or_false] at hp
  rcases hp with hp | hp | hp | hp <;> rw [page_eq hp (by decide)] <;> cases dbd <;> cases ll <;>
    · revert c; decide +kernel

theorem head10_length (dbd long : Bool) (page : Nat) : (head10 dbd long page).length = 8 := by
  unfold head10
  simp [beBytes_length, le_eq]

/-- The descriptor. -/
def descr (long : Bool) (p : List Byte) : List Byte := if long then longDescriptor p else shortDescriptor p

theorem descr_length (long : Bool) (p : List Byte) : (descr long p).length = if long then 16 else 8 := by
  unfold descr
  split
  · exact longDescriptor_length p
  · exact shortDescriptor_length p

theorem mode10_none (long : Bool) (page : Nat) (h : page ∈ modePages) (wce : Bool) :
    mode10Structures none long page wce = head10 true long page :: pagesFor page wce := by
  unfold mode10Structures head10
  simp [pages_length page h]

theorem mode10_some (ns : List Byte) (long : Bool) (page : Nat) (h : page ∈ modePages) (wce : Bool) :
    mode10Structures (some ns) long page wce = head10 false long page :: descr long ns :: pagesFor page wce := by
  unfold mode10Structures head10
  have := descr_length long ns
  unfold descr at this ⊢
  simp only [Option.map_some, Option.toList_some, List.cons_append, List.nil_append, List.flatten_cons, List.flatten_nil,
    List.append_nil, List.length_append, this, pages_length page h, Bool.false_eq_true, if_false]

/-- MODE SENSE(10), DBD = 1. -/
theorem ModeSense10_dbd (a : CommonCmdAttributes) (hp : a.page_code.toNat ∈ modePages)
    (hd : a.dbd = true) (g : U32) (i : Nvme.GenericQueueEntryCmd) (buf : Span) :
    Writes (fun _ => True) buf (mode10Structures none a.llbaa a.page_code.toNat (decide (g.toNat % 2 = 1)))
      (ModeSenseToScsi a true g i buf) := by
  unfold ModeSenseToScsi WriteMode10Header
  rw [if_pos rfl]
  simp only [head10_eq a hp]
  rw [mode10_none _ _ hp, hd]
  refine .cons (show Scsi.ModeParameter10Header.size = _ from (head10_length ..).symm) (pagesFor_pos _ _) (fun _ _ _ _ => trivial) ?_ ?_
  · unfold modeSenseBody
    rw [if_pos hd]
    exact .ignore (WritePageData_writes _ _ _ _ hp (fun _ _ _ _ _ _ => trivial) (fun _ _ _ => trivial))
  · intro w a w' h
    simp only [M.pure_run, Except.ok.injEq, Prod.mk.injEq] at h
    exact h.2.symm

/-- MODE SENSE(10), DBD = 0. -/
theorem ModeSense10_bd (a : CommonCmdAttributes) (hp : a.page_code.toNat ∈ modePages)
    (hdb : a.dbd = false) (g : U32) (i : Nvme.GenericQueueEntryCmd) (buf : Span) (page : List Byte)
    (hd : ∀ a, inRange i.prp1.toNat 4096 a → ¬ inSpan buf a) :
    Writes (fun w => w.mem.read i.prp1.toNat 4096 = some page) buf
      (mode10Structures (some page) a.llbaa a.page_code.toNat (decide (g.toNat % 2 = 1))) (ModeSenseToScsi a true g i buf) := by
  unfold ModeSenseToScsi WriteMode10Header
  rw [if_pos rfl]
  simp only [head10_eq a hp]
  rw [mode10_some _ _ _ hp, hdb]
  have hpos : ∀ s ∈ descr a.llbaa page :: pagesFor a.page_code.toNat (decide (g.toNat % 2 = 1)), 0 < s.length := by
    intro s hs
    rcases List.mem_cons.mp hs with rfl | hs
    · rw [descr_length]; split <;> decide
    · exact pagesFor_pos _ _ s hs
  refine .cons (show Scsi.ModeParameter10Header.size = _ from (head10_length ..).symm) hpos (fun w bs h1 h2 => page_stable hd w _ bs h1 (Nat.le_refl _) (by omega)) ?_ ?_
  rotate_left
  · intro w a w' h
    simp only [M.pure_run, Except.ok.injEq, Prod.mk.injEq] at h
    exact h.2.symm
  generalize hB : buf.subspan Scsi.ModeParameter10Header.size = B
  have hd' : ∀ a, inRange i.prp1.toNat 4096 a → ¬ inSpan B a := by
    intro a ha hb
    rw [← hB] at hb
    exact hd a ha (subspan_inside _ _ _ hb)
  unfold modeSenseBody
  rw [if_neg (by rw [hdb]; decide)]
  intro w b w' hw h
  have key := Writes.cons (P := fun w => w.mem.read i.prp1.toNat 4096 = some page) (buf := B) (s := descr a.llbaa page)
    (ss := pagesFor a.page_code.toNat (decide (g.toNat % 2 = 1)))
    (m := do let _ ← WritePageData a.page_code g (B.subspan (if a.llbaa then 16 else 8)); pure StatusCode.kSuccess)
    (d := pure StatusCode.kSuccess) (k := if a.llbaa then 16 else 8)
    (descr_length _ _).symm (pagesFor_pos _ _)
    (fun w bs h1 h2 => page_stable hd' w _ bs h1 (Nat.le_refl _) (by omega))
    (.ignore (WritePageData_writes _ _ _ _ hp
      (fun w p bs h1 h2 h3 => page_stable (fun a ha hb => hd' a ha (subspan_inside _ _ _ hb)) w p bs h1 h2 h3)
      (fun w p h1 => by
        change (w.mem.put p []).read _ _ = _
        rw [put_nil]; exact h1)))
    (by
      intro w a w' h
      simp only [M.pure_run, Except.ok.injEq, Prod.mk.injEq] at h
      exact h.2.symm)
  apply key w b w' hw
  simp only [M.bind_run]
  unfold WriteBlockDescriptor shiftLbads at h
  simp only [M.bind_run, load_ok hw] at h
  by_cases h32 : (getF page (Nvme.IdentifyNamespace.lbads (getF page Nvme.IdentifyNamespace.flbas_format).toNat)).toNat ≥ 32
  · exfalso
    revert h
    simp only [if_pos h32]
    cases a.llbaa <;> (intro h; cases h)
  cases hll : a.llbaa with
  | false =>
    rw [hll] at h
    simp only [Bool.false_eq_true, if_false, M.bind_run] at h
    rw [if_neg h32] at h
    simp only [M.pure_run] at h
    rw [if_pos (show isLittleEndian host = true from rfl)] at h
    rw [shortDescriptor_eq page _ _ rfl _ (ncap_eq page) (lbads_eq page)] at h
    rw [show descr false page = shortDescriptor page from rfl]
    cases hv : WriteValue' (shortDescriptor page) B w with
    | error e => rw [hv] at h; cases h
    | ok y =>
      obtain ⟨ok, w1⟩ := y
      rw [hv] at h
      simp only at h
      rw [← h]
      rfl
  | true =>
    rw [hll] at h
    simp only [if_true, M.bind_run] at h
    rw [if_neg h32] at h
    simp only [M.pure_run] at h
    rw [longDescriptor_eq page _ _ rfl _ (ncap_eq page) (lbads_eq page) (by omega)] at h
    rw [show descr true page = longDescriptor page from rfl]
    cases hv : WriteValue' (longDescriptor page) B w with
    | error e => rw [hv] at h; cases h
    | ok y =>
      obtain ⟨ok, w1⟩ := y
      rw [hv] at h
      simp only at h
      rw [← h]
      rfl

theorem modeBody_status {a : CommonCmdAttributes} {g : U32} {i : Nvme.GenericQueueEntryCmd} {buf : Span} {w w' : World}
    {st : StatusCode} (h : modeSenseBody a g i buf w = .ok (st, w')) : st = .kSuccess := by
  unfold modeSenseBody at h
  split at h
  · simp only [M.bind_run] at h
    split at h
    · cases h
    · cases h; rfl
  · simp only [M.bind_run] at h
    split at h
    · cases h
    · rename_i x w1 e
      obtain ⟨ok, n⟩ := x
      simp only at h
      cases ok with
      | true =>
        simp only [if_true, M.bind_run] at h
        split at h
        · cases h
        · cases h; rfl
      | false => cases h; rfl

theorem ModeSense_status {a : CommonCmdAttributes} {is10 : Bool} {g : U32} {i : Nvme.GenericQueueEntryCmd} {buf : Span}
    {w w' : World} {st : StatusCode} (h : ModeSenseToScsi a is10 g i buf w = .ok (st, w')) : st = .kSuccess := by
  unfold ModeSenseToScsi at h
  split at h <;>
  · simp only [M.bind_run] at h
    split at h
    · cases h
    · rename_i ok w1 e
      cases ok with
      | true => exact modeBody_status (by simpa using h)
      | false => cases h; rfl

/-- **C90.** `ModeSense10ToScsi` for a supported page: it never fails, and exactly the structures of the answer, as
many of them as fit, are written at the start of the buffer (DBD = 0: with the Identify data `ns` at the address in the
command given, outside of the buffer). -/
theorem C90_answer (cdb : List Byte) (i : Nvme.GenericQueueEntryCmd) (g : U32) (buf : Span) (w : World) (ns : List Byte)
    (hl : 10 ≤ cdb.length) (hp : byte cdb 2 % 64 ∈ modePages) (hb : accessible w.mem buf)
    (hns : bit cdb 1 3 = false → w.mem.read i.prp1.toNat 4096 = some ns ∧ lbads ns < 32 ∧
      ∀ a, inRange i.prp1.toNat 4096 a → ¬ inSpan buf a) :
    ModeSense10ToScsi cdb.tail i g buf w = .ok (.kSuccess, ⟨w.mem.put buf.ptr
      (fitting buf.len (mode10Structures (if bit cdb 1 3 then none else some ns) (bit cdb 1 4) (byte cdb 2 % 64)
        (decide (g.toNat % 2 = 1)))), w.trace⟩) := by
  have hst := kept_stable w (fun x => Spec.bit cdb 1 3 = false ∧ inRange i.prp1.toNat 4096 x) buf hb
    (fun a h => (hns h.1).2.2 a h.2)
  have hex := ModeSenseToScsi_exact hst (attrsOf10 cdb) true g i w (kept_self _ _) ns (by
    rw [attrsOf10_dbd]
    intro hd w' hw'
    rw [← (hns hd).1]
    exact read_congr fun j hj => hw'.2 _ ⟨hd, ⟨by omega, by omega⟩⟩) 8 rfl
  rw [attrsOf10_page, attrsOf10_dbd, attrsOf10_llbaa] at hex
  obtain ⟨⟨st, w'⟩, he⟩ := hex.mpr (by
    rintro ⟨-, ⟨-, h⟩ | ⟨hd, h | ⟨-, h⟩⟩⟩
    · exact h hp
    · have := (hns hd).2.1; omega
    · exact h hp)
  unfold ModeSense10ToScsi
  rw [readValue_some (by simp [Scsi.ModeSense10Command.size]; omega)]
  show ModeSenseToScsi (attrsOf10 cdb) true g i buf w = _
  have hst' : st = .kSuccess := ModeSense_status he
  rw [he, hst']
  have hw : w' = ⟨w.mem.put buf.ptr (fitting buf.len (mode10Structures
      (if bit cdb 1 3 then none else some ns) (bit cdb 1 4) (byte cdb 2 % 64) (decide (g.toNat % 2 = 1)))), w.trace⟩ := by
    by_cases hd : bit cdb 1 3 = true
    · have := ModeSense10_dbd (attrsOf10 cdb) (by rw [attrsOf10_page]; exact hp) (by rw [attrsOf10_dbd]; exact hd) g i buf
        w st w' trivial he
      rw [attrsOf10_page, attrsOf10_llbaa] at this
      rw [this, if_pos hd]
    · have hd' : bit cdb 1 3 = false := by simpa using hd
      have := ModeSense10_bd (attrsOf10 cdb) (by rw [attrsOf10_page]; exact hp) (by rw [attrsOf10_dbd]; exact hd') g i buf ns
        (hns hd').2.2 w st w' (hns hd').1 he
      rw [attrsOf10_page, attrsOf10_llbaa] at this
      rw [this, if_neg hd]
  rw [hw]

/-- The hypotheses of C90 are met; the whole answer for the caching page with a long descriptor of a namespace of
1000h blocks of 4096 bytes (and an enabled write cache). -/
example :
    let cdb : List Byte := [0x5a, 0x10, 0x08, 0, 0, 0, 0, 0, 0xff, 0]
    let ns : List Byte := zeros 8 ++ [0x00, 0x10] ++ zeros 120 ++ [12] ++ zeros 3965
    byte cdb 2 % 64 ∈ modePages ∧ bit cdb 1 3 = false ∧ bit cdb 1 4 = true ∧ ns.length = 4096 ∧ lbads ns = 12 ∧
    fitting 100 (mode10Structures (some ns) true 0x08 true) =
      [0x00, 0x2a, 0x00, 0x10, 0x01, 0x00, 0x00, 0x10,
       0x00, 0x00, 0x00, 0x00, 0x00, 0x00, 0x10, 0x00, 0x00, 0x00, 0x00, 0x00, 0x00, 0x00, 0x10, 0x00,
       0x08, 0x12, 0x84, 0x00, 0x00, 0x00, 0x00, 0x00, 0x00, 0x00, 0x00, 0x00, 0x00, 0x00, 0x00, 0x00, 0x00, 0x00, 0x00, 0x00] := by
  decide +kernel

/-- The hypotheses of `C90_commands` are met by the first command of a new object. -/
example : (Translation.init Demo.ws).allocations.e0.data_addr = 0 ∧ (Translation.init Demo.ws).nvme_cmd_count ≤ 1 := by
  decide

/-! ## C91: REPORT SUPPORTED OPERATION CODES -/

/-- **C91.** `ValidateReportSupportedOpCodes` accepts exactly complete command blocks asking for one command (reporting
option 001b) without service action, WRITE SAME(16); it then sets the allocation length to 4, and leaves it otherwise. -/
theorem C91_validate (cdb : List Byte) (len : U32) :
    ((MaintenanceIn.ValidateReportSupportedOpCodes cdb.tail len).1 = .kSuccess
      ↔ 12 ≤ cdb.length ∧ byte cdb 2 % 8 = 1 ∧ byte cdb 3 = 0x93) ∧
    ((MaintenanceIn.ValidateReportSupportedOpCodes cdb.tail len).1 = .kSuccess
      ∨ (MaintenanceIn.ValidateReportSupportedOpCodes cdb.tail len).1 = .kInvalidInput) ∧
    (MaintenanceIn.ValidateReportSupportedOpCodes cdb.tail len).2.toNat
      = if 12 ≤ cdb.length ∧ byte cdb 2 % 8 = 1 ∧ byte cdb 3 = 0x93 then 4 else len.toNat := by
  refine and_assoc.mp ⟨?_, validate_al cdb len⟩
  unfold MaintenanceIn.ValidateReportSupportedOpCodes
  rcases Nat.lt_or_ge cdb.length 12 with hl | hl
  · rw [readValue_none (by simp [Scsi.ReportOpCodesCommand.size]; omega)]
    exact ⟨⟨fun h => (by cases h), fun h => by omega⟩, .inr rfl⟩
  rw [readValue_some (by simp [Scsi.ReportOpCodesCommand.size]; omega)]
  have f1 : (Scsi.ReportOpCodesCommand.ofBytes (cdb.tail.take Scsi.ReportOpCodesCommand.size)).requested_op_code.toNat
      = byte cdb 3 := field8 cdb 11 16 2 (by omega) (by omega)
  have f2 : (Scsi.ReportOpCodesCommand.ofBytes (cdb.tail.take Scsi.ReportOpCodesCommand.size)).reporting_options.toNat
      = byte cdb 2 / 2 ^ 0 % 2 ^ 3 := fieldBits cdb 11 8 3 1 0 (by omega) (by omega) (by omega)
  generalize Scsi.ReportOpCodesCommand.ofBytes (cdb.tail.take Scsi.ReportOpCodesCommand.size) = c at f1 f2 ⊢
  simp only [Nat.pow_zero, Nat.div_one, Nat.reducePow] at f2
  have e1 : c.requested_op_code = Scsi.OpCode.kWriteSame16 ↔ byte cdb 3 = 0x93 := by
    rw [← f1]; exact bv_eq_iff _ 0x93 (by decide)
  have e2 : c.reporting_options = 0b001 ↔ byte cdb 2 % 8 = 1 := by
    rw [← f2]; exact bv_eq_iff _ 1 (by decide)
  by_cases h1 : byte cdb 3 = 0x93
  · by_cases h2 : byte cdb 2 % 8 = 1
    · simp only
      rw [if_neg (fun h => h.elim (fun h => h (e1.mpr h1)) (fun h => h (e2.mpr h2)))]
      exact ⟨⟨fun _ => ⟨hl, h2, h1⟩, fun _ => rfl⟩, .inl rfl⟩
    · simp only
      rw [if_pos (Or.inr fun h => h2 (e2.mp h))]
      exact ⟨⟨fun h => (by cases h), fun h => absurd h.2.1 h2⟩, .inr rfl⟩
  · simp only
    rw [if_pos (Or.inl fun h => h1 (e1.mp h))]
    exact ⟨⟨fun h => (by cases h), fun h => absurd h.2.2 h1⟩, .inr rfl⟩

/-- **C91.** `WriteReportSupportedOpCodesResult` writes the four bytes saying "not supported" (SUPPORT = 001b), if the
buffer holds them; otherwise nothing. -/
theorem C91_answer (buf : Span) (w : World) (hb : accessible w.mem buf) :
    MaintenanceIn.WriteReportSupportedOpCodesResult buf w
      = .ok ((), ⟨if 4 ≤ buf.len then w.mem.put buf.ptr [0x00, 0x01, 0x00, 0x00] else w.mem, w.trace⟩) := by
  unfold MaintenanceIn.WriteReportSupportedOpCodesResult
  have e : ({ support := 0b001 } : Scsi.OneCommandParamData).toBytes = [0x00, 0x01, 0x00, 0x00] := by decide +kernel
  simp only [M.bind_run, e]
  by_cases h : 4 ≤ buf.len
  · rw [WriteValue'_true (bytes := [0x00, 0x01, 0x00, 0x00]) (out := buf) h
      (mapped_iff.mpr fun i hi => hb i (Nat.lt_of_lt_of_le hi h)), if_pos h]
    rfl
  · rw [show WriteValue' [0x00, 0x01, 0x00, 0x00] buf w = .ok (false, w) from
      WriteValue_false (Or.inl (by simp only [List.length_cons, List.length_nil]; omega)), if_neg h]
    rfl

/-- The hypotheses are met by the command the library is made for. -/
example : (MaintenanceIn.ValidateReportSupportedOpCodes ([0xa3, 0x0c, 0x01, 0x93] ++ zeros 8).tail 0).1 = .kSuccess := by
  decide +kernel

/-! ## C92: READ with other block sizes -/

/-- The READ translator for an operation code. -/
def readTranslator (op : Nat) : List Byte → NvmeCmdWrapper → U32 → U32 → Span → U32 → StatusCode × NvmeCmdWrapper × U32 :=
  if op = 0x08 then Read.Read6ToNvme
  else if op = 0x28 then Read.Read10ToNvme
  else if op = 0xa8 then Read.Read12ToNvme
  else Read.Read16ToNvme

/-- **C92.** The four READ translators, called with blocks of `L` bytes (at most 65536): accepted exactly if the command
block is complete, the protection field translatable, and the number of blocks 1 to 65535 with all of them fitting in the
buffer; the command is then the NVMe Read with the fields of the command block, and the lengths announced are `L` bytes a
block. -/
theorem C92_read (cdb : List Byte) (hop : isRead (byte cdb 0)) (wr : NvmeCmdWrapper) (nsid L : U32) (buf : Span) (al : U32)
    (hL : L.toNat ≤ 65536) :
    let r := readTranslator (byte cdb 0) cdb.tail wr nsid L buf al
    match decodeRw cdb with
    | none => r.1 ≠ .kSuccess
    | some rw =>
      match rdProtect rw.protect with
      | none => r.1 ≠ .kSuccess
      | some (pract, prchk) =>
        if 1 ≤ rw.blocks ∧ rw.blocks ≤ 65535 ∧ rw.blocks * L.toNat ≤ buf.len then
          r.1 = .kSuccess ∧ r.2.1.cmd.toBytes = readSqe nsid.toNat rw.lba rw.blocks prchk pract rw.fua (prpOf buf) ∧
          r.2.1.is_admin = false ∧ r.2.1.buffer_len.toNat = rw.blocks * L.toNat ∧ r.2.2.toNat = rw.blocks * L.toNat
        else r.1 ≠ .kSuccess := by
  have key : AnyLba.ReadOutcome L cdb nsid buf (readTranslator (byte cdb 0) cdb.tail wr nsid L buf al) := by
    unfold readTranslator
    rcases hop with h | h | h | h <;> rw [h]
    · exact AnyLba.Read6_spec L cdb h wr nsid buf al
    · exact AnyLba.Read10_spec L cdb h wr nsid buf al
    · exact AnyLba.Read12_spec L cdb h wr nsid buf al
    · exact AnyLba.Read16_spec L cdb h wr nsid buf al
  simp only
  generalize readTranslator (byte cdb 0) cdb.tail wr nsid L buf al = r at key
  unfold AnyLba.ReadOutcome at key
  cases hd : decodeRw cdb with
  | none => rw [hd] at key; exact key
  | some rw_ =>
    rw [hd] at key
    simp only at key ⊢
    cases hp : rdProtect rw_.protect with
    | none => rw [hp] at key; exact key
    | some y =>
      obtain ⟨pract, prchk⟩ := y
      rw [hp] at key
      simp only at key ⊢
      have hm : rw_.blocks ≤ 65535 → rw_.blocks * L.toNat % 2 ^ 32 = rw_.blocks * L.toNat := by
        intro h
        apply Nat.mod_eq_of_lt
        calc rw_.blocks * L.toNat ≤ 65535 * 65536 := Nat.mul_le_mul h hL
          _ < 2 ^ 32 := by decide
      by_cases hb : rw_.blocks ≤ 65535
      · rw [hm hb] at key
        split
        · rename_i hc
          rw [if_pos hc] at key
          obtain ⟨h1, h2, -, -, -, h3, h4, h5⟩ := key
          rw [prp_toNat] at h2
          exact ⟨h1, h2, h3, h4, h5⟩
        · rename_i hc
          rw [if_neg hc] at key
          exact key
      · rw [if_neg (fun h => hb h.2.1)] at key ⊢
        exact key

/-- **C92.** With larger blocks the length is computed modulo 2^32: two blocks of 2^31 bytes are read into an empty
buffer. -/
theorem C92_wraps : (Read.Read10ToNvme [0, 0, 0, 0, 0, 0, 0, 2, 0] Demo.ws.e0 1 0x80000000 Span.null 7).1 = .kSuccess ∧
    (Read.Read10ToNvme [0, 0, 0, 0, 0, 0, 0, 2, 0] Demo.ws.e0 1 0x80000000 Span.null 7).2.2 = 0 := by
  decide +kernel

/-- The hypotheses are met: a READ(10) of two blocks of 512 bytes, with a buffer of just that size. -/
example : isRead (byte Demo.read10 0) ∧ decodeRw Demo.read10 = some ⟨5, 2, some 0, true⟩ ∧
    rdProtect (some 0) = some (true, 7) ∧
    (readTranslator 0x28 Demo.read10.tail Demo.ws.e0 1 512 ⟨0x8000, 1024⟩ 0).1 = .kSuccess ∧
    (readTranslator 0x28 Demo.read10.tail Demo.ws.e0 1 512 ⟨0x8000, 1023⟩ 0).1 = .kFailure := by decide +kernel

end Scsi2Nvme
