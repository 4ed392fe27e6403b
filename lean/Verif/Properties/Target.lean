import Verif.Spec.Target
import Verif.Properties.Disk
import Verif.Properties.UnmapProps
import Verif.Properties.Query
import Verif.Proofs.Harmless
/-!
# C83: histories of arbitrary commands
-/

namespace Scsi2Nvme
open Spec Engine

variable {σ : Type}

/-! ## Devices which agree on what they are given -/

theorem submitAll_congr (D D' : Device σ) (wrs : List NvmeCmdWrapper)
    (h : ∀ wr ∈ wrs, ∀ s m, D s m (submissionOf wr) = D' s m (submissionOf wr)) (s : σ) (w : World) :
    submitAll D wrs s w = submitAll D' wrs s w := by
  induction wrs generalizing s w with
  | nil => rfl
  | cons wr wrs ih =>
    simp only [submitAll, M.bind_run, M.get_run]
    rw [h wr (List.mem_cons_self ..)]
    rw [ih fun x hx => h x (List.mem_cons_of_mem _ hx)]

theorem ScsiToNvme_congr (E : Env) (D D' : Device σ) (s : σ) (ws : Arr3 NvmeCmdWrapper) (ptr : Nat) (len : U16) (lun : U64)
    (sense : Nat) (senseLen : U16) (data : Nat) (dataLen : U16) (isIn : Bool) (w : World)
    (h : ∀ r t1 w1, (Translation.init ws).Begin E ⟨ptr, len.toNat⟩ ⟨data, dataLen.toNat⟩ lun w = .ok ((r, t1), w1) →
      ∀ wr ∈ t1.GetNvmeWrappers, ∀ s m, D s m (submissionOf wr) = D' s m (submissionOf wr)) :
    ScsiToNvme E D s ws ptr len lun sense senseLen data dataLen isIn w
      = ScsiToNvme E D' s ws ptr len lun sense senseLen data dataLen isIn w := by
  unfold ScsiToNvme
  simp only [M.bind_run]
  cases hb : (Translation.init ws).Begin E ⟨ptr, len.toNat⟩ ⟨data, dataLen.toNat⟩ lun w with
  | error e => rfl
  | ok y =>
    obtain ⟨⟨r, t1⟩, w1⟩ := y
    simp only
    split
    · rfl
    · split
      · rfl
      · simp only [M.bind_run]
        rw [submitAll_congr D D' _ (h r t1 w1 hb)]

/-! ## One command -/

theorem rw_commands {E t w ptr cdb buf lun r t1 w1} (hB : Began E t w ptr cdb buf lun r t1 w1)
    (hop : isRead (byte cdb 0) ∨ isWrite (byte cdb 0)) (hl : buf.len < 65536)
    (hm : isWrite (byte cdb 0) → ∀ rw, decodeRw cdb = some rw → 4096 * rw.blocks ≤ buf.len)
    (wr : NvmeCmdWrapper) (hwr : wr ∈ t1.GetNvmeWrappers) :
    wr.is_admin = false ∧ (byte wr.cmd.toBytes 0 = 0x01 ∨ byte wr.cmd.toBytes 0 = 0x02) ∧ wellBuffered (submissionOf wr) := by
  have hwb : wellBuffered (submissionOf wr) := by
    refine ⟨(prp1_bytes _).symm, ?_⟩
    change 4096 * (leAt wr.cmd.toBytes 48 2 + 1) ≤ wr.buffer_len.toNat
    rcases hop with hop | hop
    · obtain ⟨h1, -, -⟩ := C20_read_fits _ _ _ _ _ _ _ _ _ _ hB hop wr hwr
      omega
    · obtain ⟨h1, -⟩ := C23_write_fits_partial _ _ _ _ _ _ _ _ _ _ hB hop
        (fun rw_ hd => ⟨by have := hm hop rw_ hd; omega, by have := hm hop rw_ hd; omega⟩) wr hwr
      obtain ⟨-, -, -, wr', -, -, -, hc, -, -, hbl, -⟩ := C21_write_all _ _ _ _ _ _ _ _ _ _ hB hop (hB.accepted_of_mem hwr).1
      rw [hc] at hwr
      rw [List.mem_singleton.mp hwr] at h1 ⊢
      rw [hbl]
      omega
  have ha := (hB.accepted_of_mem hwr).1
  have h42 : byte cdb 0 ≠ 0x42 := by unfold isRead isWrite at hop; omega
  have hadm := C29_routing_partial _ _ _ _ _ _ _ _ _ _ hB h42 wr hwr
  have hopc : byte wr.cmd.toBytes 0 = 0x01 ∨ byte wr.cmd.toBytes 0 = 0x02 := by
    rcases hop with hop | hop
    · right
      obtain ⟨rw_, pract, prchk, wr', hd, -, hc, hb, -⟩ := C18_read _ _ _ _ _ _ _ _ _ _ hB hop ha
      rw [hc] at hwr
      rw [List.mem_singleton.mp hwr, hb]
      exact byte0_sqe _ _ _ _ _ _ (by decide)
    · left
      exact write_opcode hB hop wr hwr
  refine ⟨?_, hopc, hwb⟩
  cases hx : wr.is_admin with
  | false => rfl
  | true =>
    have := hadm.mp hx
    unfold isAdminOpcode at this
    omega

theorem Spec.Dialog.still {D : Device σ} {s m subs cs s' m'} (h : Dialog D s m subs cs s' m')
    (hq : ∀ sub ∈ subs, ∀ s m, (D s m sub).1 = s) : s' = s := by
  induction h with
  | nil => rfl
  | cons h ih =>
    rw [ih fun sub hs => hq sub (List.mem_cons_of_mem _ hs)]
    exact hq _ (List.mem_cons_self ..) _ _

/-- **C83 (one command).** A command other than READ and WRITE leaves the disks alone, whatever it is, unless it is an
UNMAP with a nonzero reserved byte 2. -/
theorem C83_untouched (cap : Nat → Nat) (x : Served Disk) (hS : Storage x.D cap)
    (hop : ¬ isWrite (byte x.cdb 0)) (hu : byte x.cdb 0 = 0x42 → byte x.cdb 2 = 0) : x.s' = x.s := by
  obtain ⟨r, t1, w1, hB, -, h⟩ := served_began x
  rcases h with ⟨-, -, hs, -⟩ | ⟨-, cs, m, c, t2, hD, -⟩
  · exact hs
  · refine hD.still fun sub hsub s m => hS.quiet s m sub ?_
    obtain ⟨wr, hwr, rfl⟩ := List.mem_map.mp hsub
    by_cases h42 : byte x.cdb 0 = 0x42
    · rw [(C28_conforming_rejected _ _ _ _ _ _ _ _ _ _ hB h42 (hu h42)).2] at hwr
      cases hwr
    · exact fun hm => hop (C65_modifies_partial _ _ _ _ _ _ _ _ _ _ hB h42 wr hwr hm)

theorem storage_step (cap : Nat → Nat) (E : Env) (D : Device Disk) (hS : Storage D cap) (d : Disk) (q : Request) (tr : List Event)
    (hq : q.Fair) (r d' w') (h : ScsiToNvme E D d q.ws q.ptr (BitVec.ofNat 16 q.cdb.length) q.lun q.sense q.senseLen q.data
        q.dataLen q.isIn ⟨q.mem, tr⟩ = .ok ((r, d'), w')) :
    Treated (fun l => cap (l + 1)) (luns d) q r w'.mem (luns d') := by
  by_cases hop : isRead (byte q.cdb 0) ∨ isWrite (byte q.cdb 0)
  · refine .rw hop ?_
    have hv := hq.rw hop
    have hlen : (BitVec.ofNat 16 q.cdb.length).toNat = q.cdb.length := by
      rw [BitVec.toNat_ofNat]; exact Nat.mod_eq_of_lt hq.short
    rw [ScsiToNvme_congr E D (idealDevice cap)] at h
    · obtain ⟨r1, d1, w1, h1, h2⟩ := ideal_step cap E d q tr hv
      rw [h] at h1
      simp only [Except.ok.injEq, Prod.mk.injEq] at h1
      obtain ⟨⟨rfl, rfl⟩, rfl⟩ := h1
      exact h2
    · intro r t1 w1 hb wr hwr s m
      rw [hlen] at hb
      obtain ⟨h1, h2, h3⟩ := rw_commands ⟨IdleObject_init _, hq.stored, hb⟩ hop q.dataLen.isLt hv.matching wr hwr
      exact hS.io s m _ h1 h2 h3
  · have := C83_untouched cap ⟨E, D, d, q.ws, ⟨q.mem, tr⟩, q.ptr, q.cdb, q.lun, q.sense, q.senseLen, q.data, q.dataLen, q.isIn,
      r, d', w', hq.stored, hq.short, h⟩ hS (fun hw => hop (.inr hw)) hq.unmap
    change d' = d at this
    rw [this]
    exact .other (not_or.mp hop)

/-- **C83.** The engine with a device that stores data, driven by any history of commands whatsoever: READ and WRITE behave
as those of an array of disks (LUN `l` is namespace `l + 1`), and no other command changes the disks. -/
theorem C83_history (cap : Nat → Nat) (E : Env) (D : Device Disk) (hS : Storage D cap) (d : Disk) (tr : List Event)
    (qs : List Request) (hv : ∀ q ∈ qs, q.Fair) (rs d') (h : serve E D d tr qs = .ok (rs, d')) :
    TreatedAll (fun l => cap (l + 1)) (fun l a => d (l + 1) a) qs rs (fun l a => d' (l + 1) a) := by
  induction qs generalizing d tr rs with
  | nil =>
    unfold serve at h
    cases h
    exact .nil
  | cons q qs ih =>
    unfold serve at h
    split at h
    · cases h
    · rename_i r d1 w1 e1
      split at h
      · cases h
      · rename_i rs' d2 e2
        cases h
        exact .cons (storage_step cap E D hS d q tr (hv q (List.mem_cons_self ..)) r d1 w1 e1)
          (ih d1 w1.trace (fun q hq => hv q (List.mem_cons_of_mem _ hq)) rs' e2)

/-! ## The last write is read -/

theorem Spec.TreatedAll.append {cap d qs rs d' qs'} (h : TreatedAll cap d (qs ++ qs') rs d') :
    ∃ rs1 rs2 d1, rs = rs1 ++ rs2 ∧ TreatedAll cap d qs rs1 d1 ∧ TreatedAll cap d1 qs' rs2 d' := by
  induction qs generalizing d rs with
  | nil => exact ⟨[], rs, d, rfl, .nil, h⟩
  | cons q qs ih =>
    cases h with
    | cons h1 h2 =>
      obtain ⟨rs1, rs2, d1, rfl, h3, h4⟩ := ih h2
      exact ⟨_ :: rs1, rs2, d1, rfl, .cons h1 h3, h4⟩

theorem Spec.TreatedAll.length {cap d qs rs d'} (h : TreatedAll cap d qs rs d') : rs.length = qs.length := by
  induction h with
  | nil => rfl
  | cons _ _ ih => simp [ih]

theorem Spec.TreatedAll.keeps {cap d qs rs d'} (h : TreatedAll cap d qs rs d') (lun lba n : Nat)
    (hs : ∀ q ∈ qs, Request.sparing q cap lun lba n) :
    Disk.read d' lun (4096 * lba) (4096 * n) = Disk.read d lun (4096 * lba) (4096 * n) := by
  induction h with
  | nil => rfl
  | @cons d q r m d1 qs rs d2 h t ih =>
    rw [ih fun q hq => hs q (List.mem_cons_of_mem _ hq)]
    cases h with
    | other => rfl
    | rw op h =>
      exact Behaves.keeps (.cons h .nil) lun lba n fun q' hq' => by
        rw [List.mem_singleton.mp hq']; exact hs q (List.mem_cons_self ..)

/-- **C83**, the last write is read: in any history that contains a correct WRITE of some blocks of a LUN, then any commands
at all except WRITEs of these blocks, then a correct READ of the blocks, both are answered with GOOD, and the READ
returns what the WRITE wrote. -/
theorem C83_read_last_write (cap : Nat → Nat) (E : Env) (D : Device Disk) (hS : Storage D cap) (d : Disk) (tr : List Event)
    (pre mid : List Request) (W R : Request) (hv : ∀ q ∈ pre ++ W :: (mid ++ [R]), q.Fair) (lba n : Nat)
    (hW : isWrite (byte W.cdb 0)) (hWa : W.asks (cap (W.lun.toNat + 1)) lba n)
    (hR : isRead (byte R.cdb 0)) (hRa : R.asks (cap (W.lun.toNat + 1)) lba n) (hlun : R.lun = W.lun)
    (hmid : ∀ q ∈ mid, Request.sparing q (fun l => cap (l + 1)) W.lun.toNat lba n) (rs d')
    (h : serve E D d tr (pre ++ W :: (mid ++ [R])) = .ok (rs, d')) :
    ∃ rW mW rR mR bs, rs[pre.length]? = some (rW, mW) ∧ rs.getLast? = some (rR, mR) ∧
        rW.return_code = 0 ∧ rR.return_code = 0 ∧
        W.mem.read W.data (4096 * n) = some bs ∧ mR.read R.data (4096 * n) = some bs := by
  have h2 := C83_history cap E D hS d tr _ hv rs d' h
  clear h hv
  generalize (fun l a => d' (l + 1) a) = dd at h2
  obtain ⟨rs1, rs2, d1, rfl, b1, b2⟩ := h2.append
  have l1 : rs1.length = pre.length := b1.length
  cases b2 with
  | @cons _ _ rW mW d2 _ rs3 _ hw b3 =>
    obtain ⟨rs4, rs5, d3, rfl, b4, b5⟩ := b3.append
    cases b5 with
    | @cons _ _ rR mR d4 _ _ _ hr b6 =>
      cases b6 with
      | nil =>
        cases hw with
        | other op => exact absurd hW op.2
        | rw _ hw =>
        cases hr with
        | other op => exact absurd hR op.1
        | rw _ hr =>
        cases hw with
        | read op => exact absurd hW fun h => read_not_write op h
        | failed h => exact absurd hWa (h lba n)
        | @write lbaW nW bs op hwa goodW dataW =>
          obtain ⟨rfl, rfl⟩ := asks_unique hWa hwa
          cases hr with
          | write op => exact absurd op fun h => read_not_write hR h
          | failed h => rw [hlun] at h; exact absurd hRa (h _ _)
          | @read lbaR nR opR hra goodR lenR dataR =>
            rw [hlun] at hra dataR
            obtain ⟨rfl, rfl⟩ := asks_unique hRa hra
            refine ⟨rW, mW, rR, mR, bs, ?_, ?_, goodW, goodR, dataW, ?_⟩
            · rw [List.getElem?_append_right (by omega), l1, Nat.sub_self]
              rfl
            · rw [← List.cons_append, ← List.append_assoc]
              exact List.getLast?_concat
            · rw [dataR, b4.keeps _ _ _ hmid]
              have hlen := read_length dataW
              rw [← hlen]
              rw [Disk.read_write_self]

/-! ## Every history of commands is served -/

/-- A command other than READ (and than an UNMAP with a nonzero byte 2) makes the device write to no memory the caller
can access. -/
theorem tidy_polite {D : Device σ} {ident feature} (hC : Controller D ident feature) (hT : tidy D) {E ws w ptr cdb buf lun r t1 w1}
    (h : Began E (Translation.init ws) w ptr cdb buf lun r t1 w1) (hg : GoodAllocator E) (hr : ¬ isRead (byte cdb 0))
    (hu : byte cdb 0 = 0x42 → byte cdb 2 = 0) : Polite D ptr cdb.length (submits E ws w ptr cdb buf lun) := by
  have key : ∀ sub, submits E ws w ptr cdb buf lun sub → ∃ wr ∈ t1.GetNvmeWrappers, sub = submissionOf wr := by
    rintro sub ⟨r', t', w', hb, hx⟩
    have := h.call
    rw [hb] at this
    cases this
    exact hx
  have all : ∀ wr ∈ t1.GetNvmeWrappers, Harmless w cdb wr ∧ (wr.is_admin = true ↔ isAdminOpcode (byte wr.cmd.toBytes 0)) := by
    intro wr hwr
    by_cases h42 : byte cdb 0 = 0x42
    · rw [(C28_conforming_rejected _ _ _ _ _ _ _ _ _ _ h h42 (hu h42)).2] at hwr
      cases hwr
    · exact ⟨harmless_all h hg h42 wr hwr, C29_routing_partial _ _ _ _ _ _ _ _ _ _ h h42 wr hwr⟩
  have stored : ∀ a, inRange ptr cdb.length a → (w.mem a).isSome := by
    intro a ha
    have := read_isSome.mp (show (w.mem.read ptr cdb.length).isSome by rw [h.stored]; rfl) (a - ptr) (by unfold inRange at ha; omega)
    rwa [show ptr + (a - ptr) = a by unfold inRange at ha; omega] at this
  -- what one submission does to memory
  have step : ∀ sub, submits E ws w ptr cdb buf lun sub → ∀ s m,
      (D s m sub).2.1 = m ∨ ∃ p bs, (∀ x, inRange p 4096 x → w.mem x = none) ∧ bs.length = 4096 ∧ (D s m sub).2.1 = m.put p bs := by
    intro sub hs s m
    obtain ⟨wr, hw, rfl⟩ := key sub hs
    obtain ⟨⟨h6, h2⟩, had⟩ := all wr hw
    cases hx : wr.is_admin with
    | false =>
      exact .inl (hT s m _ hx fun h => hr (h2 h))
    | true =>
      rcases had.mp hx with h | h
      · right
        rw [hC.identify s m (submissionOf wr) hx h]
        exact ⟨_, _, h6 h, hC.size _ _, rfl⟩
      · left
        rw [hC.features s m (submissionOf wr) hx h]
  constructor
  · intro sub hs s m a ha
    rcases step sub hs s m with e | ⟨p, bs, -, hl, e⟩
    · rw [e]; exact ha
    · rw [e]
      unfold Mem.put
      split
      · rw [List.getElem?_eq_getElem (by omega)]
        rfl
      · exact ha
  · intro sub hs s m a ha
    rcases step sub hs s m with e | ⟨p, bs, hf, hl, e⟩
    · rw [e]
    · rw [e]
      refine put_outside ?_
      rw [hl]
      exact outside_fresh hf (stored a ha)

theorem fair_returns (cap : Nat → Nat) {ident feature} (E : Env) (D : Device Disk) (hg : GoodAllocator E) (hS : Storage D cap)
    (hC : Controller D ident feature) (hT : tidy D) (d : Disk) (q : Request) (tr : List Event) (hq : q.Fair) (hs : q.Sound)
    (hop : steady q.cdb (ident (nsidOfLun q.lun) 0)) :
    ∃ y, ScsiToNvme E D d q.ws q.ptr (BitVec.ofNat 16 q.cdb.length) q.lun q.sense q.senseLen q.data q.dataLen q.isIn
      ⟨q.mem, tr⟩ = .ok y := by
  have hlen : (BitVec.ofNat 16 q.cdb.length).toNat = q.cdb.length := by
    rw [BitVec.toNat_ofNat]; exact Nat.mod_eq_of_lt hq.short
  by_cases hrw : isRead (byte q.cdb 0) ∨ isWrite (byte q.cdb 0)
  · rw [ScsiToNvme_congr E D (idealDevice cap)]
    · obtain ⟨r1, d1, w1, h1, -⟩ := ideal_step cap E d q tr (hq.rw hrw)
      exact ⟨_, h1⟩
    · intro r t1 w1 hb wr hwr s m
      rw [hlen] at hb
      obtain ⟨h1, h2, h3⟩ := rw_commands ⟨IdleObject_init _, hq.stored, hb⟩ hrw q.dataLen.isLt (hq.rw hrw).matching wr hwr
      exact hS.io s m _ h1 h2 h3
  · have hc : accessible q.mem ⟨q.ptr, q.cdb.length⟩ := by
      intro i hi
      exact read_isSome.mp (show (q.mem.read q.ptr q.cdb.length).isSome by rw [hq.stored]; rfl) i hi
    obtain ⟨r, t1, w1, hb⟩ := Begin_defined hg (Idle_init q.ws) ⟨q.mem, tr⟩ ⟨q.ptr, q.cdb.length⟩ ⟨q.data, q.dataLen.toNat⟩ q.lun hc hs.data
    have hB : Began E (Translation.init q.ws) ⟨q.mem, tr⟩ q.ptr q.cdb ⟨q.data, q.dataLen.toNat⟩ q.lun r t1 w1 :=
      ⟨IdleObject_init _, hq.stored, hb⟩
    refine returns_of ⟨E, D, d, q.ws, ⟨q.mem, tr⟩, q.ptr, q.cdb, q.lun, q.sense, q.senseLen, q.data, q.dataLen, q.isIn, hq.stored, hq.short⟩
      ⟨hg, tidy_polite hC hT hB hg (fun h => hrw (.inl h)) hq.unmap, hs.data, hs.sense⟩ ?_
    intro r t1 w1 cs s' m hB hl hD ha
    refine steady_safe hB ha hop ?_ fun h1 h2 => first_page hC hg hB ha h1 h2 hD
    split
    · exact Nat.le_refl _
    · exact Nat.zero_le _

/-- **C83**, total: with a controller that also executes Identify and Get Features, and a well-behaved allocator, every
history of `steady` commands (all but some MODE SENSE commands, see C81) is served to the end, and as `C83_history` says. -/
theorem C83_served (cap : Nat → Nat) (ident feature) (E : Env) (D : Device Disk) (hg : GoodAllocator E) (hS : Storage D cap)
    (hC : Controller D ident feature) (hT : tidy D) (d : Disk) (tr : List Event) (qs : List Request) (hv : ∀ q ∈ qs, q.Fair)
    (hs : ∀ q ∈ qs, q.Sound) (hop : ∀ q ∈ qs, steady q.cdb (ident (nsidOfLun q.lun) 0)) :
    ∃ rs d', serve E D d tr qs = .ok (rs, d') ∧ rs.length = qs.length ∧
      TreatedAll (fun l => cap (l + 1)) (fun l a => d (l + 1) a) qs rs (fun l a => d' (l + 1) a) := by
  have key : ∃ rs d', serve E D d tr qs = .ok (rs, d') := by
    induction qs generalizing d tr with
    | nil => exact ⟨[], d, rfl⟩
    | cons q qs ih =>
      obtain ⟨⟨⟨r, d1⟩, w1⟩, h1⟩ := fair_returns cap E D hg hS hC hT d q tr (hv q (List.mem_cons_self ..)) (hs q (List.mem_cons_self ..))
        (hop q (List.mem_cons_self ..))
      obtain ⟨rs, d2, h2⟩ := ih d1 w1.trace (fun q hq => hv q (List.mem_cons_of_mem _ hq)) (fun q hq => hs q (List.mem_cons_of_mem _ hq))
        (fun q hq => hop q (List.mem_cons_of_mem _ hq))
      refine ⟨(r, w1.mem) :: rs, d2, ?_⟩
      unfold serve
      simp only [h1, h2]
  obtain ⟨rs, d', h⟩ := key
  have := C83_history cap E D hS d tr qs hv rs d' h
  exact ⟨rs, d', h, this.length, this⟩

/-! ## A concrete device and history -/

/-- A controller with identify data and features, and disks behind it. -/
def demoTarget (cap : Nat → Nat) (ident : Nat → Nat → List Byte) (feature : Nat → Nat → Nat → Nat) : Device Disk := fun d m sub =>
  if sub.is_admin = true then
    if byte sub.cmd 0 = 0x06 then
      (d, m.put (leAt sub.cmd 24 8) (ident (leAt sub.cmd 4 4) (byte sub.cmd 40)), success 0)
    else if byte sub.cmd 0 = 0x0a then
      (d, m, success (feature (leAt sub.cmd 4 4) (byte sub.cmd 40) (byte sub.cmd 41 % 8)))
    else (d, m, generic 1)
  else idealDevice cap d m sub

/-- It is both a device with storage (C83) and a controller (C82). -/
theorem demoTarget_storage (cap ident feature) : Storage (demoTarget cap ident feature) cap where
  io := fun d m sub h _ _ => by unfold demoTarget; rw [if_neg (by rw [h]; decide)]
  quiet := fun d m sub h => by
    unfold demoTarget
    split
    · split
      · rfl
      · split <;> rfl
    · unfold idealDevice
      unfold modifiesData at h
      simp only
      split
      · rfl
      · split
        · rfl
        · split
          · split <;> rfl
          · exfalso; omega

theorem demoTarget_controller (cap ident feature) (h : ∀ n c, (ident n c).length = 4096) :
    Controller (demoTarget cap ident feature) ident feature where
  identify := fun s m sub h1 h2 => by unfold demoTarget; rw [if_pos h1, if_pos h2]
  features := fun s m sub h1 h2 => by unfold demoTarget; rw [if_pos h1, if_neg (by omega), if_pos h2]
  size := h

theorem demoTarget_tidy (cap ident feature) : tidy (demoTarget cap ident feature) := by
  intro d m sub h h2
  unfold demoTarget
  rw [if_neg (by rw [h]; decide)]
  unfold idealDevice
  simp only
  split
  · rfl
  · split
    · rfl
    · split <;> rfl

theorem demoRequest_sound (cdb : List Byte) (hl : cdb.length < 100) : (demoRequest cdb).Sound where
  sense := by
    intro i hi
    change (Demo.mem cdb _ (0x400 + i)).isSome
    have hi : i < 32 := hi
    unfold Demo.mem
    rw [if_neg (by omega), if_neg (by omega), if_neg (by omega), if_pos (by omega)]
    rfl
  data := by
    intro i hi
    change (Demo.mem cdb _ (0x8000 + i)).isSome
    have hi : i < 8192 := hi
    unfold Demo.mem
    rw [if_neg (by omega), if_neg (by omega), if_neg (by omega), if_neg (by omega), if_neg (by omega),
      if_pos (by rw [List.length_replicate]; omega)]
    rw [Nat.add_sub_cancel_left, List.getElem?_replicate, if_pos hi]
    rfl

theorem demoRequest_fair (cdb : List Byte) (hl : cdb.length < 100) (hu : byte cdb 0 ≠ 0x42)
    (hm : isRead (byte cdb 0) ∨ isWrite (byte cdb 0) → ∀ rw, decodeRw cdb = some rw → rw.blocks ≤ 2) : (demoRequest cdb).Fair where
  stored := by
    refine read_eq_some.mpr ⟨rfl, fun i hi => ?_⟩
    change Demo.mem cdb _ (0x100 + i) = _
    have hi : i < cdb.length := hi
    unfold Demo.mem
    rw [if_neg (by omega), if_pos (by omega), Nat.add_sub_cancel_left]
    rfl
  short := by change cdb.length < 65536; omega
  unmap := fun h => absurd h hu
  rw := fun h => demoRequest_valid cdb hl h (hm h)

/-- WRITE(10) of two blocks, INQUIRY, READ CAPACITY(10), READ(16) of the blocks: all hypotheses of the three theorems are
met, so the READ returns what the WRITE wrote. -/
example (cap : Nat → Nat) (hcap : 100 ≤ cap 4) (ident : Nat → Nat → List Byte) (feature : Nat → Nat → Nat → Nat)
    (hs : ∀ n c, (ident n c).length = 4096) (d : Disk) :
    ∃ rs d' rW mW rR mR, serve boundedEnv (demoTarget cap ident feature) d []
        [demoRequest [0x2a, 0, 0, 0, 0, 9, 0, 0, 2, 0], demoRequest Demo.inquiry, demoRequest [0x25, 0, 0, 0, 0, 0, 0, 0, 0, 0],
         demoRequest [0x88, 0, 0, 0, 0, 0, 0, 0, 0, 9, 0, 0, 0, 2, 0, 0]] = .ok (rs, d') ∧
      rs.head? = some (rW, mW) ∧ rs.getLast? = some (rR, mR) ∧ rW.return_code = 0 ∧ rR.return_code = 0 ∧
      mR.read 0x8000 8192 = (demoRequest [0x2a, 0, 0, 0, 0, 9, 0, 0, 2, 0]).mem.read 0x8000 8192 := by
  have f1 : (demoRequest [0x2a, 0, 0, 0, 0, 9, 0, 0, 2, 0]).Fair :=
    demoRequest_fair _ (by decide) (by decide) (by intro _ rw_ h; revert h; decide +revert)
  have f2 : (demoRequest Demo.inquiry).Fair := demoRequest_fair _ (by decide) (by decide) fun h => absurd h (by decide)
  have f3 : (demoRequest [0x25, 0, 0, 0, 0, 0, 0, 0, 0, 0]).Fair := demoRequest_fair _ (by decide) (by decide) fun h => absurd h (by decide)
  have f4 : (demoRequest [0x88, 0, 0, 0, 0, 0, 0, 0, 0, 9, 0, 0, 0, 2, 0, 0]).Fair :=
    demoRequest_fair _ (by decide) (by decide) (by intro _ rw_ h; revert h; decide +revert)
  have asks : ∀ cdb, decodeRw cdb = some ⟨9, 2, some 0, false⟩ → (demoRequest cdb).asks (cap 4) 9 2 := fun cdb hd =>
    ⟨⟨9, 2, some 0, false⟩, hd, by intro c h; cases h; decide, rfl, rfl, by decide, (by decide : 4096 * 2 ≤ (8192 : U16).toNat), by omega⟩
  have hF : ∀ q ∈ [] ++ demoRequest [0x2a, 0, 0, 0, 0, 9, 0, 0, 2, 0] :: ([demoRequest Demo.inquiry,
      demoRequest [0x25, 0, 0, 0, 0, 0, 0, 0, 0, 0]] ++ [demoRequest [0x88, 0, 0, 0, 0, 0, 0, 0, 0, 9, 0, 0, 0, 2, 0, 0]]), q.Fair := by
    intro q hq
    simp only [List.nil_append, List.cons_append, List.mem_cons, List.not_mem_nil, or_false] at hq
    rcases hq with rfl | rfl | rfl | rfl
    · exact f1
    · exact f2
    · exact f3
    · exact f4
  obtain ⟨rs, d', h, -, -⟩ := C83_served cap ident feature boundedEnv (demoTarget cap ident feature) boundedEnv_good
    (demoTarget_storage cap ident feature) (demoTarget_controller cap ident feature hs) (demoTarget_tidy cap ident feature) d [] _ hF
    (by
      intro q hq
      simp only [List.nil_append, List.cons_append, List.mem_cons, List.not_mem_nil, or_false] at hq
      rcases hq with rfl | rfl | rfl | rfl <;> exact demoRequest_sound _ (by decide))
    (by
      intro q hq
      simp only [List.nil_append, List.cons_append, List.mem_cons, List.not_mem_nil, or_false] at hq
      rcases hq with rfl | rfl | rfl | rfl <;> exact steady_of (by decide) _)
  obtain ⟨rW, mW, rR, mR, bs, h1, h2, h3, h4, h5, h6⟩ := C83_read_last_write cap boundedEnv _ (demoTarget_storage cap ident feature) d [] [] _ _ _
    hF 9 2 (by decide) (asks _ (by decide +kernel)) (by decide) (asks _ (by decide +kernel)) rfl (by
      intro q hq
      simp only [List.mem_cons, List.not_mem_nil, or_false] at hq
      rcases hq with rfl | rfl
      · exact fun hw => absurd hw (by decide)
      · exact fun hw => absurd hw (by decide)) rs d' h
  refine ⟨rs, d', rW, mW, rR, mR, h, ?_, h2, h3, h4, h6.trans h5.symm⟩
  rw [List.head?_eq_getElem?]
  exact h1

/-- MODE SENSE(6) for the caching page is served too, whether it asks for the block descriptor or not, if the block length of the
namespace is 4096. -/
example (cap : Nat → Nat) (ident : Nat → Nat → List Byte) (feature : Nat → Nat → Nat → Nat) (hs : ∀ n c, (ident n c).length = 4096)
    (hb : lbads (ident 4 0) = 12) (d : Disk) :
    ∃ rs d', serve boundedEnv (demoTarget cap ident feature) d []
        [demoRequest [0x1a, 0, 8, 0, 200, 0], demoRequest [0x1a, 8, 8, 0, 200, 0]] = .ok (rs, d') ∧ rs.length = 2 := by
  obtain ⟨rs, d', h, h1, -⟩ := C83_served cap ident feature boundedEnv (demoTarget cap ident feature) boundedEnv_good
    (demoTarget_storage cap ident feature) (demoTarget_controller cap ident feature hs) (demoTarget_tidy cap ident feature) d []
    [demoRequest [0x1a, 0, 8, 0, 200, 0], demoRequest [0x1a, 8, 8, 0, 200, 0]]
    (by
      intro q hq
      simp only [List.mem_cons, List.not_mem_nil, or_false] at hq
      rcases hq with rfl | rfl <;> exact demoRequest_fair _ (by decide) (by decide) fun h => absurd h (by decide))
    (by
      intro q hq
      simp only [List.mem_cons, List.not_mem_nil, or_false] at hq
      rcases hq with rfl | rfl <;> exact demoRequest_sound _ (by decide))
    (by
      intro q hq
      simp only [List.mem_cons, List.not_mem_nil, or_false] at hq
      rcases hq with rfl | rfl
      · refine ⟨fun _ => .inr ?_, fun h => absurd h (by decide)⟩
        change lbads (ident 4 0) < 32
        omega
      · exact ⟨fun _ => (by decide : asksCaching 8), fun h => absurd h (by decide)⟩)
  exact ⟨rs, d', h, h1⟩

end Scsi2Nvme
