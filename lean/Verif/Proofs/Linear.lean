import Verif.Proofs.Concurrent
/-!
# Calls of the engine made concurrently: the order in which they take effect
-/

namespace Scsi2Nvme
open Spec Engine

variable {ι : Type}

/-! ## One READ or WRITE -/

/-- An accepted READ or WRITE has one NVMe command; what the ideal device does with it. -/
inductive Verdict (cap : Nat → Nat) (q : Request) (r : BeginResponse) (wr : NvmeCmdWrapper) : Prop
  | outside (no : ∀ lba n, ¬ q.asks (cap (q.lun.toNat + 1)) lba n)
      (dev : ∀ d m, accessible m ⟨q.data, q.dataLen.toNat⟩ → ∃ sc, sc ≠ 0 ∧ idealDevice cap d m (submissionOf wr) = (d, m, generic sc))
  | read (lba n : Nat) (op : isRead (byte q.cdb 0)) (asks : q.asks (cap (q.lun.toNat + 1)) lba n) (len : r.alloc_len.toNat = 4096 * n)
      (dev : ∀ d m, accessible m ⟨q.data, q.dataLen.toNat⟩ → idealDevice cap d m (submissionOf wr) =
        (d, m.put q.data (d.read (q.lun.toNat + 1) (4096 * lba) (4096 * n)), generic 0))
  | write (lba n : Nat) (op : isWrite (byte q.cdb 0)) (asks : q.asks (cap (q.lun.toNat + 1)) lba n)
      (dev : ∀ d m, accessible m ⟨q.data, q.dataLen.toNat⟩ → ∃ bs, m.read q.data (4096 * n) = some bs ∧
        idealDevice cap d m (submissionOf wr) = (d.write (q.lun.toNat + 1) (4096 * lba) bs, m, generic 0))

theorem rw_verdict (cap : Nat → Nat) {E w r t1 w1} {q : Request} (hq : q.Valid)
    (hB : Began E (Translation.init q.ws) w q.ptr q.cdb ⟨q.data, q.dataLen.toNat⟩ q.lun r t1 w1) (ha : Accepted t1) :
    r.alloc_len.toNat ≤ q.dataLen.toNat ∧ ∃ wr, t1.GetNvmeWrappers = [wr] ∧ Verdict cap q r wr := by
  have hns : nsidOfLun q.lun = q.lun.toNat + 1 := Nat.mod_eq_of_lt hq.lun
  have hlt : q.dataLen.toNat < 65536 := q.dataLen.isLt
  rcases hq.op with hop | hop
  · obtain ⟨rw_, pract, prchk, wr, hd, hp, hcmds, hb, had, hbl, -, hal, -⟩ := C18_read _ _ _ _ _ _ _ _ _ _ hB hop ha
    obtain ⟨rw', hd', h5, hb1, hb2, hb3⟩ := (C19_read_accepted _ _ _ _ _ _ _ _ _ _ hB hop).mp ha
    rw [hd] at hd'
    cases hd'
    have hb3 : rw_.blocks * 4096 ≤ q.dataLen.toNat := hb3
    have hprp : prpOf ⟨q.data, q.dataLen.toNat⟩ = q.data := by
      have := hq.space
      exact Nat.mod_eq_of_lt (show q.data < 2 ^ 64 by omega)
    have hf := sqe_fields 2 (nsidOfLun q.lun) (prpOf ⟨q.data, q.dataLen.toNat⟩) rw_.lba
      (ioCdw12 rw_.blocks prchk pract rw_.fua) (by decide) (nsidOfLun_lt _) (Nat.mod_lt _ (by decide)) (decodeRw_lba hd)
    change byte (readSqe _ _ _ _ _ _ _) 0 = _ ∧ leAt (readSqe _ _ _ _ _ _ _) 4 4 = _ ∧ leAt (readSqe _ _ _ _ _ _ _) 24 8 = _ ∧
      leAt (readSqe _ _ _ _ _ _ _) 40 8 = _ ∧ leAt (readSqe _ _ _ _ _ _ _) 48 2 = _ at hf
    rw [← hb] at hf
    obtain ⟨f0, f1, f2, f3, f4⟩ := hf
    have f4' : leAt wr.cmd.toBytes 48 2 + 1 = rw_.blocks := by
      rw [f4]; unfold ioCdw12; omega
    have hdev : ∀ (d : Disk) (m : Mem), accessible m ⟨q.data, q.dataLen.toNat⟩ → idealDevice cap d m (submissionOf wr) =
        if cap (q.lun.toNat + 1) < rw_.lba + rw_.blocks then (d, m, generic 0x80)
        else (d, m.put q.data (d.read (q.lun.toNat + 1) (4096 * rw_.lba) (4096 * rw_.blocks)), generic 0) := by
      intro d m hm
      unfold idealDevice submissionOf
      simp only [f0, f1, f2, f3, f4', had, hns, hprp]
      rw [if_neg (by simp)]
      split
      · rfl
      · rw [if_pos trivial, if_pos]
        refine mapped_iff.mpr fun i hi => hm i ?_
        change i < q.dataLen.toNat
        omega
    refine ⟨by omega, wr, hcmds, ?_⟩
    by_cases hcap : cap (q.lun.toNat + 1) < rw_.lba + rw_.blocks
    · refine .outside ?_ fun d m hm => ⟨0x80, by decide, ?_⟩
      · rintro lba n ⟨rw', e, -, rfl, rfl, -, -, e2⟩
        rw [hd] at e
        cases e
        omega
      · rw [hdev d m hm, if_pos hcap]
    · refine .read rw_.lba rw_.blocks hop ⟨rw_, hd, h5, rfl, rfl, hb1, by omega, by omega⟩ (by rw [hal]; exact Nat.mul_comm ..) ?_
      intro d m hm
      rw [hdev d m hm, if_neg hcap]
  · obtain ⟨rw_, pract, prchk, wr, hd, hp, hb1, hcmds, hb, had, hbl, hr, -⟩ := C21_write_all _ _ _ _ _ _ _ _ _ _ hB hop ha
    obtain ⟨rw', hd', h5, -⟩ := (C22_write_accepted _ _ _ _ _ _ _ _ _ _ hB hop).mp ha
    rw [hd] at hd'
    cases hd'
    have hb3 : 4096 * rw_.blocks ≤ q.dataLen.toNat := hq.matching hop rw_ hd
    have hprp : prpOf ⟨q.data, q.dataLen.toNat⟩ = q.data := by
      have := hq.space
      exact Nat.mod_eq_of_lt (show q.data < 2 ^ 64 by omega)
    rw [if_neg (by omega), Nat.mod_eq_of_lt (by omega)] at hb
    have hf := sqe_fields 1 (nsidOfLun q.lun) (prpOf ⟨q.data, q.dataLen.toNat⟩) rw_.lba
      (ioCdw12 rw_.blocks prchk pract rw_.fua) (by decide) (nsidOfLun_lt _) (Nat.mod_lt _ (by decide)) (decodeRw_lba hd)
    change byte (writeSqe _ _ _ _ _ _ _) 0 = _ ∧ leAt (writeSqe _ _ _ _ _ _ _) 4 4 = _ ∧ leAt (writeSqe _ _ _ _ _ _ _) 24 8 = _ ∧
      leAt (writeSqe _ _ _ _ _ _ _) 40 8 = _ ∧ leAt (writeSqe _ _ _ _ _ _ _) 48 2 = _ at hf
    rw [← hb] at hf
    obtain ⟨f0, f1, f2, f3, f4⟩ := hf
    have f4' : leAt wr.cmd.toBytes 48 2 + 1 = rw_.blocks := by
      rw [f4]; unfold ioCdw12; omega
    have hdev : ∀ (d : Disk) (m : Mem), accessible m ⟨q.data, q.dataLen.toNat⟩ → ∃ bs, m.read q.data (4096 * rw_.blocks) = some bs ∧
        idealDevice cap d m (submissionOf wr) = if cap (q.lun.toNat + 1) < rw_.lba + rw_.blocks then (d, m, generic 0x80)
          else (d.write (q.lun.toNat + 1) (4096 * rw_.lba) bs, m, generic 0) := by
      intro d m hm
      obtain ⟨bs, hbs⟩ : ∃ bs, m.read q.data (4096 * rw_.blocks) = some bs := by
        refine Option.isSome_iff_exists.mp (read_isSome.mpr fun i hi => hm i ?_)
        change i < q.dataLen.toNat
        omega
      refine ⟨bs, hbs, ?_⟩
      unfold idealDevice submissionOf
      simp only [f0, f1, f2, f3, f4', had, hns, hprp]
      rw [if_neg (by simp)]
      split
      · rfl
      · rw [if_neg (by decide), hbs]
    refine ⟨by rw [hr]; exact Nat.zero_le _, wr, hcmds, ?_⟩
    by_cases hcap : cap (q.lun.toNat + 1) < rw_.lba + rw_.blocks
    · refine .outside ?_ fun d m hm => ⟨0x80, by decide, ?_⟩
      · rintro lba n ⟨rw', e, -, rfl, rfl, -, -, e2⟩
        rw [hd] at e
        cases e
        omega
      · obtain ⟨bs, -, e⟩ := hdev d m hm
        rw [e, if_pos hcap]
    · refine .write rw_.lba rw_.blocks hop ⟨rw_, hd, h5, rfl, rfl, hb1, by omega, by omega⟩ ?_
      intro d m hm
      obtain ⟨bs, h1, e⟩ := hdev d m hm
      exact ⟨bs, h1, by rw [e, if_neg hcap]⟩

theorem rw_rejected {E w r t1 w1} {q : Request} (hq : q.Valid)
    (hB : Began E (Translation.init q.ws) w q.ptr q.cdb ⟨q.data, q.dataLen.toNat⟩ q.lun r t1 w1) (ha : ¬ Accepted t1) (cap lba n : Nat) :
    ¬ q.asks cap lba n := by
  have hlt : q.dataLen.toNat < 65536 := q.dataLen.isLt
  rintro ⟨rw_, e, e1, rfl, rfl, e2, e3, -⟩
  apply ha
  rcases hq.op with hop | hop
  · refine (C19_read_accepted _ _ _ _ _ _ _ _ _ _ hB hop).mpr ⟨rw_, e, e1, e2, by omega, ?_⟩
    change _ ≤ q.dataLen.toNat
    omega
  · exact (C22_write_accepted _ _ _ _ _ _ _ _ _ _ hB hop).mpr ⟨rw_, e, e1, e2⟩

theorem rw_clean {E ws w ptr cdb buf lun r t1 w1} (hB : Began E (Translation.init ws) w ptr cdb buf lun r t1 w1)
    (hop : isRead (byte cdb 0) ∨ isWrite (byte cdb 0)) : Clean t1.allocations := by
  obtain ⟨r', t', h', hc⟩ := rw_begin E ws w ptr cdb buf lun hB.stored hop
  have := hB.call
  rw [h'.call] at this
  cases this
  exact hc

/-! ## The order -/

/-- READ or WRITE. -/
def isRw (q : Request) : Prop := isRead (byte q.cdb 0) ∨ isWrite (byte q.cdb 0)

/-- The call has taken effect: it has begun and, if it is a READ or WRITE, has no NVMe commands left to submit. -/
def placed (q : Request) : Phase → Prop
  | .called => False
  | .waiting _ _ todo _ => isRw q → todo = []
  | .returned _ => True

/-- What is known of the answer of a call. -/
def agrees (q : Request) (resp : ScsiToNvmeResponse) : Phase → Prop
  | .called => True
  | .waiting r t todo cs => isRw q → todo = [] → (resp.return_code = 0 ↔ Accepted t ∧ ∀ c ∈ cs, cplOk c) ∧ resp.alloc_len = r.alloc_len.toNat
  | .returned r => resp = r

theorem agrees_exists (q : Request) (ph : Phase) : ∃ resp, agrees q resp ph := by
  cases ph with
  | called => exact ⟨⟨0, 0⟩, trivial⟩
  | waiting r t todo cs =>
    by_cases h : Accepted t ∧ ∀ c ∈ cs, cplOk c
    · exact ⟨⟨0, r.alloc_len.toNat⟩, fun _ _ => ⟨⟨fun _ => h, fun _ => rfl⟩, rfl⟩⟩
    · exact ⟨⟨1, r.alloc_len.toNat⟩, fun _ _ => ⟨⟨fun e => absurd (show (1 : Nat) = 0 from e) (by decide), fun e => absurd e h⟩, rfl⟩⟩
  | returned r => exact ⟨r, rfl⟩

theorem Spec.TreatedAll.remem {cap : Nat → Nat} {q : ι → Request} {resp : ι → ScsiToNvmeResponse} {m m' : Mem} {L : List ι} {d d' : Disk}
    (h : TreatedAll cap d (L.map q) (L.map fun i => (resp i, m)) d')
    (hm : ∀ i ∈ L, isRead (byte (q i).cdb 0) → (resp i).return_code = 0 → ∀ a, inRange (q i).data (q i).dataLen.toNat a → m' a = m a) :
    TreatedAll cap d (L.map q) (L.map fun i => (resp i, m')) d' := by
  induction L generalizing d with
  | nil => exact h
  | cons i L ih =>
    simp only [List.map_cons] at h ⊢
    cases h with
    | cons h1 h2 =>
      refine .cons ?_ (ih h2 fun j hj => hm j (List.mem_cons_of_mem _ hj))
      cases h1 with
      | other op => exact .other op
      | rw op h =>
        refine .rw op ?_
        cases h with
        | failed g1 g2 => exact .failed g1 g2
        | write op h good data => exact .write op h good data
        | @read lba n op h good len data =>
          refine .read op h good len ?_
          rw [← data]
          refine read_congr fun k hk => hm i (List.mem_cons_self ..) op good _ ?_
          obtain ⟨_, _, _, _, _, _, h4, _⟩ := h
          exact ⟨by omega, by omega⟩

theorem Spec.TreatedAll.snoc {cap : Nat → Nat} {d d1 d2 : Disk} {qs rs q r m} (h : TreatedAll cap d qs rs d1) (h1 : Treated cap d1 q r m d2) :
    TreatedAll cap d (qs ++ [q]) (rs ++ [(r, m)]) d2 := by
  induction h with
  | nil => exact .cons h1 .nil
  | cons h _ ih => exact .cons h (ih h1)

/-- `L` is an order in which the calls took effect. -/
structure Lin (cap : Nat → Nat) (q : ι → Request) (d0 : Disk) (y : Sys ι Disk) (L : List ι) : Prop where
  nodup : L.Nodup
  mem : ∀ i, i ∈ L ↔ placed (q i) (y.phase i)
  waits : ∀ i, i ∉ L → isRw (q i) → ∀ a, inRange (q i).data (q i).dataLen.toNat a → y.world.mem a = (q i).mem a
  seq : ∀ resp : ι → ScsiToNvmeResponse, (∀ i, agrees (q i) (resp i) (y.phase i)) →
    TreatedAll (fun l => cap (l + 1)) (luns d0) (L.map q) (L.map fun i => (resp i, y.world.mem)) (luns y.dev)

theorem Lin.start (cap : Nat → Nat) {q : ι → Request} {m0 : Mem} (hq : Separate q m0) (d : Disk) (tr : List Event) :
    Lin cap q d (Sys.start d m0 tr) [] where
  nodup := .nil
  mem := fun i => by simp [Sys.start, placed]
  waits := fun i _ _ a _ => by rw [hq.mem i]; rfl
  seq := fun _ _ => .nil

theorem to_self [DecidableEq ι] (y : Sys ι Disk) (i : ι) (s : Disk) (w : World) (ph : Phase) : (y.to i s w ph).phase i = ph := by
  simp only [Sys.to, if_true]

theorem to_other [DecidableEq ι] (y : Sys ι Disk) {i j : ι} (h : j ≠ i) (s : Disk) (w : World) (ph : Phase) :
    (y.to i s w ph).phase j = y.phase j := by
  simp only [Sys.to, if_neg h]

/-- A step with which no call takes effect. -/
theorem Lin.keep [DecidableEq ι] {cap : Nat → Nat} {q : ι → Request} {d0 : Disk} {y : Sys ι Disk} {L : List ι} (h : Lin cap q d0 y L)
    {i : ι} {w : World} {ph : Phase} {s : Disk} (hs : s = y.dev) (hp : placed (q i) ph ↔ placed (q i) (y.phase i))
    (ha : ∀ resp, agrees (q i) resp ph → agrees (q i) resp (y.phase i))
    (ho : ∀ j, j ≠ i → ∀ a, (q j).uses a → w.mem a = y.world.mem a)
    (hw : ¬ placed (q i) ph → isRw (q i) → ∀ a, inRange (q i).data (q i).dataLen.toNat a → w.mem a = y.world.mem a)
    (hm : ∀ resp, placed (q i) ph → agrees (q i) resp ph → isRead (byte (q i).cdb 0) → resp.return_code = 0 →
      ∀ a, inRange (q i).data (q i).dataLen.toNat a → w.mem a = y.world.mem a) :
    Lin cap q d0 (y.to i s w ph) L ∧ ∀ resp : ι → ScsiToNvmeResponse,
      (∀ j, agrees (q j) (resp j) ((y.to i s w ph).phase j)) → ∀ j, agrees (q j) (resp j) (y.phase j) := by
  have back : ∀ resp : ι → ScsiToNvmeResponse,
      (∀ j, agrees (q j) (resp j) ((y.to i s w ph).phase j)) → ∀ j, agrees (q j) (resp j) (y.phase j) := by
    intro resp hr j
    by_cases e : j = i
    · subst e
      have := hr j
      rw [to_self] at this
      exact ha _ this
    · have := hr j
      rwa [to_other y e] at this
  refine ⟨⟨h.nodup, fun j => ?_, fun j hj hr a hx => ?_, fun resp hr => ?_⟩, back⟩
  · by_cases e : j = i
    · subst e
      rw [to_self, hp]; exact h.mem j
    · rw [to_other y e]; exact h.mem j
  · rw [← h.waits j hj hr a hx]
    by_cases e : j = i
    · subst e
      exact hw (fun hc => hj ((h.mem j).mpr (hp.mp hc))) hr a hx
    · exact ho j e a (.inr (.inr hx))
  · have h1 := h.seq resp (back resp hr)
    rw [← hs] at h1
    refine h1.remem fun j hj hrd h0 a hx => ?_
    by_cases e : j = i
    · subst e
      have := hr j
      rw [to_self] at this
      exact hm _ (hp.mpr ((h.mem j).mp hj)) this hrd h0 a hx
    · exact ho j e a (.inr (.inr hx))

/-- The step with which call `i` takes effect. -/
theorem Lin.add [DecidableEq ι] {cap : Nat → Nat} {q : ι → Request} {d0 : Disk} {y : Sys ι Disk} {L : List ι} (h : Lin cap q d0 y L)
    {i : ι} {w : World} {ph : Phase} {s : Disk} (hn : ¬ placed (q i) (y.phase i)) (hp : placed (q i) ph)
    (ha : ∀ resp, agrees (q i) resp ph → agrees (q i) resp (y.phase i))
    (ho : ∀ j, j ≠ i → ∀ a, (q j).uses a → w.mem a = y.world.mem a)
    (ht : ∀ resp, agrees (q i) resp ph → Treated (fun l => cap (l + 1)) (luns y.dev) (q i) resp w.mem (luns s)) :
    Lin cap q d0 (y.to i s w ph) (L ++ [i]) ∧ ∀ resp : ι → ScsiToNvmeResponse,
      (∀ j, agrees (q j) (resp j) ((y.to i s w ph).phase j)) → ∀ j, agrees (q j) (resp j) (y.phase j) := by
  have hi : i ∉ L := fun hc => hn ((h.mem i).mp hc)
  have back : ∀ resp : ι → ScsiToNvmeResponse,
      (∀ j, agrees (q j) (resp j) ((y.to i s w ph).phase j)) → ∀ j, agrees (q j) (resp j) (y.phase j) := by
    intro resp hr j
    by_cases e : j = i
    · subst e
      have := hr j
      rw [to_self] at this
      exact ha _ this
    · have := hr j
      rwa [to_other y e] at this
  refine ⟨⟨?_, fun j => ?_, fun j hj hr a hx => ?_, fun resp hr => ?_⟩, back⟩
  · rw [List.nodup_append]
    refine ⟨h.nodup, by simp, ?_⟩
    intro a ha b hb
    rw [List.mem_singleton.mp hb]
    exact fun e => hi (e ▸ ha)
  · by_cases e : j = i
    · subst e
      rw [to_self]
      simp [hp]
    · rw [to_other y e, ← h.mem j]
      simp [e]
  · have e : j ≠ i := fun e => hj (by simp [e])
    rw [← h.waits j (fun hc => hj (by simp [hc])) hr a hx]
    exact ho j e a (.inr (.inr hx))
  · have h1 := h.seq resp (back resp hr)
    have h2 : TreatedAll (fun l => cap (l + 1)) (luns d0) (L.map q) (L.map fun i => (resp i, w.mem)) (luns y.dev) := by
      refine h1.remem fun j hj hrd h0 a hx => ?_
      have e : j ≠ i := fun e => hi (e ▸ hj)
      exact ho j e a (.inr (.inr hx))
    rw [List.map_append, List.map_append]
    refine h2.snoc (ht _ ?_)
    have := hr i
    rwa [to_self] at this

theorem code_zero (n : BitVec 8) : n.toNat = 0 ↔ n = 0 :=
  ⟨fun h => BitVec.eq_of_toNat_eq h, fun h => by rw [h]; rfl⟩

/-- Every step either leaves the order alone or adds one call to its end. -/
theorem Lin.step [DecidableEq ι] {D cap ident feature} (hT : Target D cap ident feature) {E : Env} (hg : GoodAllocator E)
    {q : ι → Request} {m0 : Mem} (hq : Separate q m0) {d0 : Disk} {own : ι → Nat → Prop} {y y' : Sys ι Disk} {i : ι} {L : List ι}
    (hI : Inv E q own y) (hL : Lin cap q d0 y L) (h : Stepped E D q y i y') :
    ∃ M, Lin cap q d0 y' (L ++ M) ∧ ∀ resp : ι → ScsiToNvmeResponse,
      (∀ j, agrees (q j) (resp j) (y'.phase j)) → ∀ j, agrees (q j) (resp j) (y.phase j) := by
  obtain ⟨-, -, hconf, -⟩ := hI.step hT hg hq h
  have ho : ∀ j, j ≠ i → ∀ a, (q j).uses a → y'.world.mem a = y.world.mem a := fun j hj => (hI.others hconf hq.apart j hj).1
  have hacc : accessible y.world.mem ⟨(q i).data, (q i).dataLen.toNat⟩ := fun k hk => hI.used i _ (.inr (.inr ⟨Nat.le_add_right _ _, Nat.add_lt_add_left hk _⟩))
  cases h with
  | @begin r t w1 hp hB =>
    have hn : ¬ placed (q i) (y.phase i) := by rw [hp]; exact id
    have hag : ∀ resp (ph : Phase), agrees (q i) resp ph → agrees (q i) resp (y.phase i) := fun _ _ _ => by rw [hp]; trivial
    by_cases hrw : isRw (q i)
    · have hv := (hq.fair i).rw hrw
      by_cases ha : Accepted t
      · obtain ⟨hl, wr, hc, -⟩ := rw_verdict cap hv hB ha
        have hnew : (if r.alloc_len.toNat > (q i).dataLen.toNat then Phase.returned ⟨0x40, 0⟩ else .waiting r t t.GetNvmeWrappers [])
          = .waiting r t [wr] [] := by rw [if_neg (by omega), hc]
        rw [hnew] at ho ⊢
        refine ⟨[], ?_⟩
        rw [List.append_nil]
        have hnp : ¬ placed (q i) (.waiting r t [wr] []) := fun hc => by cases hc hrw
        refine hL.keep rfl ⟨fun hc => (hnp hc).elim, fun hc => (hn hc).elim⟩ (fun _ h => hag _ _ h) ho ?_ (fun _ hc => (hnp hc).elim)
        intro _ _ a hx
        exact Begin_keeps hg hB.idle.idle hB.call a (hI.used i a (.inr (.inr hx)))
      · have hno := rw_rejected hv hB ha
        have hc := hB.rejected ha
        refine ⟨[i], ?_⟩
        refine hL.add hn ?_ (fun _ h => hag _ _ h) ho ?_
        · split
          · trivial
          · exact fun _ => hc
        · intro resp hr
          refine .rw hrw (.failed (fun _ _ => hno _ _ _) ?_)
          split at hr
          · rw [show resp = _ from hr]; decide
          · exact fun h0 => ha ((hr hrw hc).1.mp h0).1
    · refine ⟨[i], hL.add hn ?_ (fun _ h => hag _ _ h) ho fun resp _ => .other (not_or.mp hrw)⟩
      split
      · trivial
      · exact fun h => absurd h hrw
  | @submit r t wr todo cs hp =>
    obtain ⟨w, w1, hb⟩ := hI.waiting i r t _ cs hp
    obtain ⟨done, hd1, hd2⟩ := hb.progress
    have hwr : wr ∈ t.GetNvmeWrappers := by rw [hd1]; simp
    by_cases hrw : isRw (q i)
    · have hv := (hq.fair i).rw hrw
      have ha := (hb.began.accepted_of_mem hwr).1
      obtain ⟨-, wr', hc, hver⟩ := rw_verdict cap hv hb.began ha
      rw [hc] at hd1
      have hd0 : done = [] := by
        cases done with
        | nil => rfl
        | cons a l => have := congrArg List.length hd1; simp at this
      subst hd0
      simp only [List.nil_append, List.cons.injEq] at hd1
      obtain ⟨rfl, rfl⟩ := hd1
      have hcs : cs = [] := List.length_eq_zero_iff.mp hd2
      subst hcs
      have hn : ¬ placed (q i) (y.phase i) := by
        rw [hp]; exact fun hc => by cases hc hrw
      obtain ⟨s1, s2, s3⟩ := rw_commands hb.began hrw (q i).dataLen.isLt hv.matching wr' hwr
      have hio := hT.storage.io y.dev y.world.mem (submissionOf wr') s1 s2 s3
      have hi : i ∉ L := fun hc => hn ((hL.mem i).mp hc)
      rw [hio] at ho ⊢
      refine ⟨[i], hL.add hn (fun _ => rfl) ?_ ho ?_⟩
      · intro resp _
        rw [hp]
        exact fun _ hc => by cases hc
      · intro resp hr
        obtain ⟨hr1, hr2⟩ := hr hrw rfl
        refine .rw hrw ?_
        cases hver with
        | outside no dev =>
          obtain ⟨sc, hsc, e⟩ := dev y.dev y.world.mem hacc
          rw [e] at hr1 ⊢
          refine .failed no fun h0 => ?_
          exact hsc ((generic_ok sc).mp ((hr1.mp h0).2 _ (by simp)))
        | read lba n op asks len dev =>
          have e := dev y.dev y.world.mem hacc
          rw [e] at hr1 ⊢
          refine .read op asks (hr1.mpr ⟨ha, ?_⟩) (by rw [hr2, len]) ?_
          · intro c hc
            simp only [List.nil_append, List.mem_singleton] at hc
            rw [hc]; exact (generic_ok 0).mpr rfl
          · have := read_put_self (m := y.world.mem) (p := (q i).data)
              (bs := Disk.read y.dev ((q i).lun.toNat + 1) (4096 * lba) (4096 * n))
            rw [Disk.read_length] at this
            exact this
        | write lba n op asks dev =>
          obtain ⟨bs, hbs, e⟩ := dev y.dev y.world.mem hacc
          rw [e] at hr1 ⊢
          simp only
          rw [luns_write]
          refine .write op asks (hr1.mpr ⟨ha, ?_⟩) ?_
          · intro c hc
            simp only [List.nil_append, List.mem_singleton] at hc
            rw [hc]; exact (generic_ok 0).mpr rfl
          · rw [← hbs]
            refine read_congr fun k hk => (hL.waits i hi hrw _ ?_).symm
            obtain ⟨_, _, _, _, _, _, h4, _⟩ := asks
            exact ⟨by omega, by omega⟩
    · obtain ⟨-, -, hs⟩ := submit_effect hT hg (hq.fair i) hb.began wr hwr y.dev y.world.mem
      refine ⟨[], ?_⟩
      rw [List.append_nil]
      refine hL.keep (hs fun h => hrw (.inr h)) ?_ ?_ ho (fun _ h => absurd h hrw) (fun _ _ _ h => absurd (.inl h) hrw)
      · rw [hp]
        exact ⟨fun _ h => absurd h hrw, fun _ h => absurd h hrw⟩
      · rw [hp]
        exact fun _ _ h => absurd h hrw
  | @complete r t cs c t2 w3 hp hcall =>
    obtain ⟨w, w1, hb⟩ := hI.waiting i r t _ cs hp
    obtain ⟨done, hd1, hd2⟩ := hb.progress
    rw [List.append_nil] at hd1
    refine ⟨[], ?_⟩
    rw [List.append_nil]
    by_cases hrw : isRw (q i)
    · obtain ⟨c', t2', w3', e, e1, e2, e3⟩ := rw_complete hb.began (rw_clean hb.began hrw) hrw cs (by rw [hd1]; exact hd2)
        ((q i).din r.alloc_len.toNat) ⟨(q i).sense, (q i).senseLen.toNat⟩ y.world hb.stored
        (fun k hk => hI.used i _ (.inr (.inl ⟨Nat.le_add_right _ _, Nat.add_lt_add_left hk _⟩)))
      rw [hcall] at e
      cases e
      have hans : answerOf r c = ⟨c.scsi_status.toNat, r.alloc_len.toNat⟩ := by
        unfold answerOf; rw [if_neg (by rw [e1]; simp)]
      refine hL.keep rfl ?_ ?_ ho (fun h => absurd trivial h) ?_
      · rw [hp]; exact ⟨fun _ _ => rfl, fun _ => trivial⟩
      · intro resp hr
        rw [hp]
        intro _ _
        rw [show resp = _ from hr, hans]
        exact ⟨(code_zero _).trans e2, rfl⟩
      · intro resp _ hr _ h0 a _
        rw [show resp = _ from hr, hans] at h0
        rw [e3 ((code_zero _).mp h0)]
    · refine hL.keep rfl ?_ ?_ ho (fun _ h => absurd h hrw) (fun _ _ _ h => absurd (.inl h) hrw)
      · rw [hp]; exact ⟨fun _ h => absurd h hrw, fun _ => trivial⟩
      · rw [hp]; exact fun _ _ h => absurd h hrw
  | returned hp => exact ⟨[], by rw [List.append_nil]; exact hL, fun _ h => h⟩

/-- A whole schedule. -/
theorem Lin.run [DecidableEq ι] {D cap ident feature} (hT : Target D cap ident feature) {E : Env} (hg : GoodAllocator E)
    {q : ι → Request} {m0 : Mem} (hq : Separate q m0) {d0 : Disk} (sched : List ι) {own : ι → Nat → Prop} {y y' : Sys ι Disk} {L : List ι}
    (hI : Inv E q own y) (hL : Lin cap q d0 y L) (h : y.run E D q sched = .ok y') :
    ∃ M own', Inv E q own' y' ∧ Lin cap q d0 y' (L ++ M) ∧ ∀ resp : ι → ScsiToNvmeResponse,
      (∀ j, agrees (q j) (resp j) (y'.phase j)) → ∀ j, agrees (q j) (resp j) (y.phase j) := by
  induction sched generalizing own y L with
  | nil =>
    cases h
    exact ⟨[], own, hI, by rw [List.append_nil]; exact hL, fun _ h => h⟩
  | cons i is ih =>
    unfold Sys.run at h
    split at h
    · cases h
    · rename_i y1 e
      have hs := stepped_of hI (hq.fair i).short e
      obtain ⟨own1, hI1, -⟩ := hI.step hT hg hq hs
      obtain ⟨M1, hL1, b1⟩ := hL.step hT hg hq hI hs
      obtain ⟨M2, own2, hI2, hL2, b2⟩ := ih hI1 hL1 h
      exact ⟨M1 ++ M2, own2, hI2, by rw [← List.append_assoc]; exact hL2, fun r hr => b1 r (b2 r hr)⟩

theorem Sys_run_append [DecidableEq ι] {σ : Type} (E : Env) (D : Device σ) (q : ι → Request) (y : Sys ι σ) (s1 s2 : List ι) :
    y.run E D q (s1 ++ s2) = match y.run E D q s1 with | .error e => .error e | .ok y1 => y1.run E D q s2 := by
  induction s1 generalizing y with
  | nil => rfl
  | cons i is ih =>
    simp only [List.cons_append, Sys.run]
    cases y.step E D q i with
    | error e => rfl
    | ok y1 => exact ih y1

end Scsi2Nvme
