import Verif.Spec.Honest
import Verif.Properties.Lossy
/-!
# Calls made concurrently over a device which may fail but does not lie
-/

namespace Scsi2Nvme
open Spec Engine

variable {ι σ : Type}

/-- The NVMe command of a READ. -/
theorem read_fields {E w r t1 w1} {q : Request} (hq : q.Valid) (hop : isRead (byte q.cdb 0))
    (hB : Began E (Translation.init q.ws) w q.ptr q.cdb ⟨q.data, q.dataLen.toNat⟩ q.lun r t1 w1)
    (wr : NvmeCmdWrapper) (hwr : wr ∈ t1.GetNvmeWrappers) :
    t1.GetNvmeWrappers = [wr] ∧ wr.is_admin = false ∧ byte wr.cmd.toBytes 0 = 2 ∧ ∃ lba n, q.asks (lba + n) lba n ∧
      r.alloc_len.toNat = 4096 * n ∧ leAt wr.cmd.toBytes 4 4 = q.lun.toNat + 1 ∧
      leAt wr.cmd.toBytes 24 8 = q.data ∧ leAt wr.cmd.toBytes 40 8 = lba ∧ leAt wr.cmd.toBytes 48 2 + 1 = n := by
  have hns : nsidOfLun q.lun = q.lun.toNat + 1 := Nat.mod_eq_of_lt hq.lun
  have hlt : q.dataLen.toNat < 65536 := q.dataLen.isLt
  have ha : Accepted t1 := (hB.accepted_of_mem hwr).1
  obtain ⟨rw_, pract, prchk, wr', hd, hp, hcmds, hb, had, hbl, -, hal, -⟩ := C18_read _ _ _ _ _ _ _ _ _ _ hB hop ha
  obtain ⟨rw', hd', h5, hb1, hb2, hb3⟩ := (C19_read_accepted _ _ _ _ _ _ _ _ _ _ hB hop).mp ha
  rw [hd] at hd'
  cases hd'
  have hwr' := hwr
  rw [hcmds] at hwr'
  simp only [List.mem_cons, List.not_mem_nil, or_false] at hwr'
  subst hwr'
  have hb3 : rw_.blocks * 4096 ≤ q.dataLen.toNat := hb3
  have hprp : prpOf ⟨q.data, q.dataLen.toNat⟩ = q.data := by
    have := hq.space
    exact Nat.mod_eq_of_lt (show q.data < 2 ^ 64 by omega)
  have hf := sqe_fields 2 (nsidOfLun q.lun) (prpOf ⟨q.data, q.dataLen.toNat⟩) rw_.lba
    (ioCdw12 rw_.blocks prchk pract rw_.fua) (by decide) (nsidOfLun_lt _) (Nat.mod_lt _ (by decide)) (decodeRw_lba hd)
  change byte (readSqe _ _ _ _ _ _ _) 0 = _ ∧ leAt (readSqe _ _ _ _ _ _ _) 4 4 = _ ∧ leAt (readSqe _ _ _ _ _ _ _) 24 8 = _ ∧
    leAt (readSqe _ _ _ _ _ _ _) 40 8 = _ ∧ leAt (readSqe _ _ _ _ _ _ _) 48 2 = _ at hf
  rw [← hb] at hf
  obtain ⟨f0, f1, f2, f3, f4⟩ := hf
  have f4' : leAt wr.cmd.toBytes 48 2 + 1 = rw_.blocks := by
    rw [f4]; unfold ioCdw12; omega
  exact ⟨hcmds, had, f0, rw_.lba, rw_.blocks, ⟨rw_, hd, h5, rfl, rfl, hb1, by omega, Nat.le_refl _⟩, by rw [hal]; exact Nat.mul_comm ..,
    by rw [f1, hns], by rw [f2, hprp], f3, f4'⟩

theorem write_io {E w r t1 w1} {q : Request} (hop : isWrite (byte q.cdb 0))
    (hB : Began E (Translation.init q.ws) w q.ptr q.cdb ⟨q.data, q.dataLen.toNat⟩ q.lun r t1 w1)
    (wr : NvmeCmdWrapper) (hwr : wr ∈ t1.GetNvmeWrappers) : wr.is_admin = false := by
  have ha : Accepted t1 := (hB.accepted_of_mem hwr).1
  obtain ⟨rw_, pract, prchk, wr', hd, hp, hb1, hcmds, hb, had, -⟩ := C21_write_all _ _ _ _ _ _ _ _ _ _ hB hop ha
  rw [hcmds] at hwr
  simp only [List.mem_cons, List.not_mem_nil, or_false] at hwr
  subst hwr
  exact had

theorem Spec.TrustedAll.remem {q : ι → Request} {resp : ι → ScsiToNvmeResponse} {m m' : Mem} {L : List ι} {d d' : Disk}
    (h : TrustedAll q resp m d L d')
    (hm : ∀ i ∈ L, isRead (byte (q i).cdb 0) → (resp i).return_code = 0 → ∀ a, inRange (q i).data (q i).dataLen.toNat a → m' a = m a) :
    TrustedAll q resp m' d L d' := by
  induction h with
  | nil => exact .nil
  | @cons d i d1 is d2 h1 h2 ih =>
    refine .cons ?_ (ih fun j hj => hm j (List.mem_cons_of_mem _ hj))
    cases h1 with
    | other op => exact .other op
    | unread op bad => exact .unread op bad
    | torn op bad h => exact .torn op bad h
    | write op h good data => exact .write op h good data
    | @read lba n op h good len data =>
      refine .read op h good len ?_
      rw [← data]
      refine read_congr fun k hk => hm i (List.mem_cons_self ..) op good _ ?_
      obtain ⟨_, _, _, _, _, _, h4, _⟩ := h
      exact ⟨by omega, by omega⟩

theorem Spec.TrustedAll.append {q : ι → Request} {resp : ι → ScsiToNvmeResponse} {m : Mem} {L M : List ι} {d d1 d2 : Disk}
    (h : TrustedAll q resp m d L d1) (h1 : TrustedAll q resp m d1 M d2) : TrustedAll q resp m d (L ++ M) d2 := by
  induction h with
  | nil => exact h1
  | cons h _ ih => exact .cons h (ih h1)

theorem Spec.TrustedAll.split {q : ι → Request} {resp : ι → ScsiToNvmeResponse} {m : Mem} {L M : List ι} {d d2 : Disk}
    (h : TrustedAll q resp m d (L ++ M) d2) : ∃ d1, TrustedAll q resp m d L d1 ∧ TrustedAll q resp m d1 M d2 := by
  induction L generalizing d with
  | nil => exact ⟨d, .nil, h⟩
  | cons i L ih =>
    cases h with
    | cons h1 h2 =>
      obtain ⟨d1, k1, k2⟩ := ih h2
      exact ⟨d1, .cons h1 k1, k2⟩

/-- `L` is an order in which the calls took effect. -/
structure Faith (disks : σ → Disk) (q : ι → Request) (d0 : Disk) (y : Sys ι σ) (L : List ι) : Prop where
  nodup : L.Nodup
  mem : ∀ i, i ∈ L ↔ placed (q i) (y.phase i)
  waits : ∀ i, i ∉ L → isRw (q i) → ∀ a, inRange (q i).data (q i).dataLen.toNat a → y.world.mem a = (q i).mem a
  seq : ∀ resp : ι → ScsiToNvmeResponse, (∀ i, agrees (q i) (resp i) (y.phase i)) →
    TrustedAll q resp y.world.mem (luns d0) L (luns (disks y.dev))

theorem Faith.start (disks : σ → Disk) {q : ι → Request} {m0 : Mem} (hq : Separate q m0) (s : σ) (tr : List Event) :
    Faith disks q (disks s) (Sys.start s m0 tr) [] where
  nodup := .nil
  mem := fun i => by simp [Sys.start, placed]
  waits := fun i _ _ a _ => by rw [hq.mem i]; rfl
  seq := fun _ _ => .nil

theorem Sys.to_self [DecidableEq ι] (y : Sys ι σ) (i : ι) (s : σ) (w : World) (ph : Phase) : (y.to i s w ph).phase i = ph := by
  simp only [Sys.to, if_true]

theorem Sys.to_other [DecidableEq ι] (y : Sys ι σ) {i j : ι} (h : j ≠ i) (s : σ) (w : World) (ph : Phase) :
    (y.to i s w ph).phase j = y.phase j := by
  simp only [Sys.to, if_neg h]

/-- A step with which no call takes effect. -/
theorem Faith.keep [DecidableEq ι] {disks : σ → Disk} {q : ι → Request} {d0 : Disk} {y : Sys ι σ} {L : List ι} (h : Faith disks q d0 y L)
    {i : ι} {w : World} {ph : Phase} {s : σ} (hs : disks s = disks y.dev) (hp : placed (q i) ph ↔ placed (q i) (y.phase i))
    (ha : ∀ resp, agrees (q i) resp ph → agrees (q i) resp (y.phase i))
    (ho : ∀ j, j ≠ i → ∀ a, (q j).uses a → w.mem a = y.world.mem a)
    (hw : ¬ placed (q i) ph → isRw (q i) → ∀ a, inRange (q i).data (q i).dataLen.toNat a → w.mem a = y.world.mem a)
    (hm : ∀ resp, placed (q i) ph → agrees (q i) resp ph → isRead (byte (q i).cdb 0) → resp.return_code = 0 →
      ∀ a, inRange (q i).data (q i).dataLen.toNat a → w.mem a = y.world.mem a) :
    Faith disks q d0 (y.to i s w ph) L ∧ ∀ resp : ι → ScsiToNvmeResponse,
      (∀ j, agrees (q j) (resp j) ((y.to i s w ph).phase j)) → ∀ j, agrees (q j) (resp j) (y.phase j) := by
  have back : ∀ resp : ι → ScsiToNvmeResponse,
      (∀ j, agrees (q j) (resp j) ((y.to i s w ph).phase j)) → ∀ j, agrees (q j) (resp j) (y.phase j) := by
    intro resp hr j
    by_cases e : j = i
    · subst e
      have := hr j
      rw [Sys.to_self] at this
      exact ha _ this
    · have := hr j
      rwa [Sys.to_other y e] at this
  refine ⟨⟨h.nodup, fun j => ?_, fun j hj hr a hx => ?_, fun resp hr => ?_⟩, back⟩
  · by_cases e : j = i
    · subst e
      rw [Sys.to_self, hp]; exact h.mem j
    · rw [Sys.to_other y e]; exact h.mem j
  · rw [← h.waits j hj hr a hx]
    by_cases e : j = i
    · subst e
      exact hw (fun hc => hj ((h.mem j).mpr (hp.mp hc))) hr a hx
    · exact ho j e a (.inr (.inr hx))
  · have h1 := h.seq resp (back resp hr)
    rw [← hs] at h1
    refine h1.remem fun j hj hrd h0 a hx => ?_
    by_cases e : j = i
    · subst e
      have := hr j
      rw [Sys.to_self] at this
      exact hm _ (hp.mpr ((h.mem j).mp hj)) this hrd h0 a hx
    · exact ho j e a (.inr (.inr hx))

/-- The step with which call `i` takes effect. -/
theorem Faith.add [DecidableEq ι] {disks : σ → Disk} {q : ι → Request} {d0 : Disk} {y : Sys ι σ} {L : List ι} (h : Faith disks q d0 y L)
    {i : ι} {w : World} {ph : Phase} {s : σ} (hn : ¬ placed (q i) (y.phase i)) (hp : placed (q i) ph)
    (ha : ∀ resp, agrees (q i) resp ph → agrees (q i) resp (y.phase i))
    (ho : ∀ j, j ≠ i → ∀ a, (q j).uses a → w.mem a = y.world.mem a)
    (ht : ∀ resp, agrees (q i) resp ph → Trusted (luns (disks y.dev)) (q i) resp w.mem (luns (disks s))) :
    Faith disks q d0 (y.to i s w ph) (L ++ [i]) ∧ ∀ resp : ι → ScsiToNvmeResponse,
      (∀ j, agrees (q j) (resp j) ((y.to i s w ph).phase j)) → ∀ j, agrees (q j) (resp j) (y.phase j) := by
  have hi : i ∉ L := fun hc => hn ((h.mem i).mp hc)
  have back : ∀ resp : ι → ScsiToNvmeResponse,
      (∀ j, agrees (q j) (resp j) ((y.to i s w ph).phase j)) → ∀ j, agrees (q j) (resp j) (y.phase j) := by
    intro resp hr j
    by_cases e : j = i
    · subst e
      have := hr j
      rw [Sys.to_self] at this
      exact ha _ this
    · have := hr j
      rwa [Sys.to_other y e] at this
  refine ⟨⟨?_, fun j => ?_, fun j hj hr a hx => ?_, fun resp hr => ?_⟩, back⟩
  · rw [List.nodup_append]
    refine ⟨h.nodup, by simp, ?_⟩
    intro a ha b hb
    rw [List.mem_singleton.mp hb]
    exact fun e => hi (e ▸ ha)
  · by_cases e : j = i
    · subst e
      rw [Sys.to_self]
      simp [hp]
    · rw [Sys.to_other y e, ← h.mem j]
      simp [e]
  · have e : j ≠ i := fun e => hj (by simp [e])
    rw [← h.waits j (fun hc => hj (by simp [hc])) hr a hx]
    exact ho j e a (.inr (.inr hx))
  · have h1 := h.seq resp (back resp hr)
    have h2 : TrustedAll q resp w.mem (luns d0) L (luns (disks y.dev)) := by
      refine h1.remem fun j hj hrd h0 a hx => ?_
      have e : j ≠ i := fun e => hi (e ▸ hj)
      exact ho j e a (.inr (.inr hx))
    refine h2.append (.cons (ht _ ?_) .nil)
    have := hr i
    rwa [Sys.to_self] at this

/-- A submission of a call which is not a WRITE leaves the disks alone. -/
theorem Spec.Lossy.quiet {D : Device σ} {disks : σ → Disk} (hL : Lossy D disks) {E w r t1 w1} {q : Request} (hq : q.Fair)
    (hB : Began E (Translation.init q.ws) w q.ptr q.cdb ⟨q.data, q.dataLen.toNat⟩ q.lun r t1 w1)
    (wr : NvmeCmdWrapper) (hwr : wr ∈ t1.GetNvmeWrappers) (hw : ¬ isWrite (byte q.cdb 0)) (s : σ) (m : Mem) :
    disks (D s m (submissionOf wr)).1 = disks s := by
  obtain ⟨-, hn9, hn1⟩ := dataset_never hq hB wr hwr
  funext k a
  rcases hL.disk s m _ (submitted_coherent wr) hn9 k a with h1 | ⟨-, h2, -⟩
  · exact h1
  · exact absurd (hn1 h2) hw

/-- Every step either leaves the order alone or adds one call to its end. -/
theorem Faith.step [DecidableEq ι] {D : Device σ} {disks : σ → Disk} (hD : Honest D disks) {E : Env} (hg : GoodAllocator E)
    {q : ι → Request} {m0 : Mem} (hq : Separate q m0) {d0 : Disk} {own : ι → Nat → Prop} {y y' : Sys ι σ} {i : ι} {L : List ι}
    (hI : Inv E q own y) (hL : Faith disks q d0 y L) (h : Stepped E D q y i y') :
    ∃ M, Faith disks q d0 y' (L ++ M) ∧ ∀ resp : ι → ScsiToNvmeResponse,
      (∀ j, agrees (q j) (resp j) (y'.phase j)) → ∀ j, agrees (q j) (resp j) (y.phase j) := by
  obtain ⟨-, -, hconf, -⟩ := hI.move (hD.toLossy.tame hg) hg hq h
  have ho : ∀ j, j ≠ i → ∀ a, (q j).uses a → y'.world.mem a = y.world.mem a := fun j hj => (hI.others hconf hq.apart j hj).1
  cases h with
  | @begin r t w1 hp hB =>
    have hn : ¬ placed (q i) (y.phase i) := by rw [hp]; exact id
    have hag : ∀ resp (ph : Phase), agrees (q i) resp ph → agrees (q i) resp (y.phase i) := fun _ _ _ => by rw [hp]; trivial
    by_cases hrw : isRw (q i)
    · have hv := (hq.fair i).rw hrw
      by_cases ha : Accepted t
      · obtain ⟨hl, wr, hc, -⟩ := rw_verdict (fun _ => 0) hv hB ha
        have hnew : (if r.alloc_len.toNat > (q i).dataLen.toNat then Phase.returned ⟨0x40, 0⟩ else .waiting r t t.GetNvmeWrappers [])
          = .waiting r t [wr] [] := by rw [if_neg (by omega), hc]
        rw [hnew] at ho ⊢
        refine ⟨[], ?_⟩
        rw [List.append_nil]
        have hnp : ¬ placed (q i) (.waiting r t [wr] []) := fun hc => by cases hc hrw
        refine hL.keep rfl ⟨fun hc => (hnp hc).elim, fun hc => (hn hc).elim⟩ (fun _ h => hag _ _ h) ho ?_ (fun _ hc => (hnp hc).elim)
        intro _ _ a hx
        exact Begin_keeps hg hB.idle.idle hB.call a (hI.used i a (.inr (.inr hx)))
      · have hc := hB.rejected ha
        refine ⟨[i], ?_⟩
        refine hL.add hn ?_ (fun _ h => hag _ _ h) ho ?_
        · split
          · trivial
          · exact fun _ => hc
        · intro resp hr
          have hbad : resp.return_code ≠ 0 := by
            split at hr
            · rw [show resp = _ from hr]; decide
            · exact fun h0 => ha ((hr hrw hc).1.mp h0).1
          rcases hrw with h | h
          · exact .unread h hbad
          · exact .torn h hbad fun _ _ => .inl rfl
    · refine ⟨[i], hL.add hn ?_ (fun _ h => hag _ _ h) ho fun resp _ => .other (not_or.mp hrw)⟩
      split
      · trivial
      · exact fun h => absurd h hrw
  | @submit r t wr todo cs hp =>
    obtain ⟨w, w1, hb⟩ := hI.waiting i r t _ cs hp
    obtain ⟨done, hd1, hd2⟩ := hb.progress
    have hwr : wr ∈ t.GetNvmeWrappers := by rw [hd1]; simp
    have hco := submitted_coherent wr
    by_cases hrw : isRw (q i)
    · have hv := (hq.fair i).rw hrw
      have ha := (hb.began.accepted_of_mem hwr).1
      obtain ⟨-, wr', hc, -⟩ := rw_verdict (fun _ => 0) hv hb.began ha
      rw [hc] at hd1
      have hd0 : done = [] := by
        cases done with
        | nil => rfl
        | cons a l => have := congrArg List.length hd1; simp at this
      subst hd0
      simp only [List.nil_append, List.cons.injEq] at hd1
      obtain ⟨rfl, rfl⟩ := hd1
      have hcs : cs = [] := List.length_eq_zero_iff.mp hd2
      subst hcs
      have hn : ¬ placed (q i) (y.phase i) := by
        rw [hp]; exact fun hc => by cases hc hrw
      have hi : i ∉ L := fun hc => hn ((hL.mem i).mp hc)
      refine ⟨[i], hL.add hn (fun _ => rfl) ?_ ho ?_⟩
      · intro resp _
        rw [hp]
        exact fun _ hc => by cases hc
      · intro resp hr
        obtain ⟨hr1, hr2⟩ := hr hrw rfl
        rw [List.nil_append] at hr1
        rcases hrw with hop | hop
        · obtain ⟨-, had, f0, lba, n, hasks, hal, f1, f2, f3, f4⟩ := read_fields hv hop hb.began wr' hwr
          have hq' := hD.toLossy.quiet (hq.fair i) hb.began wr' hwr (fun h => read_not_write hop h) y.dev y.world.mem
          rw [hq']
          by_cases h0 : resp.return_code = 0
          · have hok := (hr1.mp h0).2 _ (List.mem_singleton.mpr rfl)
            have hread := hD.read y.dev y.world.mem _ hco had f0 hok
            change Mem.read _ (leAt wr'.cmd.toBytes 24 8) (4096 * (leAt wr'.cmd.toBytes 48 2 + 1)) =
              some (Disk.read _ (leAt wr'.cmd.toBytes 4 4) (4096 * leAt wr'.cmd.toBytes 40 8) (4096 * (leAt wr'.cmd.toBytes 48 2 + 1))) at hread
            rw [f1, f2, f3, f4] at hread
            exact .read hop hasks h0 (by rw [hr2, hal]) hread
          · exact .unread hop h0
        · obtain ⟨-, lba, n, hasks, f1, f2, f3, f4⟩ := write_fields hv hop hb.began wr' hwr
          have f0 := write_opcode hb.began hop wr' hwr
          have had := write_io hop hb.began wr' hwr
          obtain ⟨-, hn9, -⟩ := dataset_never (hq.fair i) hb.began wr' hwr
          have hdl : 4096 * n ≤ (q i).dataLen.toNat := by
            obtain ⟨_, _, _, _, _, _, h4, _⟩ := hasks
            exact h4
          by_cases h0 : resp.return_code = 0
          · have hok := (hr1.mp h0).2 _ (List.mem_singleton.mpr rfl)
            obtain ⟨bs, h1, h2⟩ := hD.write y.dev y.world.mem _ hco had f0 hok
            change y.world.mem.read (leAt wr'.cmd.toBytes 24 8) (4096 * (leAt wr'.cmd.toBytes 48 2 + 1)) = some bs at h1
            change _ = Disk.write _ (leAt wr'.cmd.toBytes 4 4) (4096 * leAt wr'.cmd.toBytes 40 8) bs at h2
            rw [f2, f4] at h1
            rw [f1, f3] at h2
            rw [h2, luns_write]
            refine .write hop hasks h0 ?_
            rw [← h1]
            refine read_congr fun k hk => (hL.waits i hi (.inr hop) _ ?_).symm
            exact ⟨by omega, by omega⟩
          · refine .torn hop h0 fun l a => ?_
            change disks _ (l + 1) a = disks y.dev (l + 1) a ∨ _
            refine (hD.disk y.dev y.world.mem _ hco hn9 (l + 1) a).imp_right ?_
            rintro ⟨-, -, h3, h4, h5⟩
            change l + 1 = leAt wr'.cmd.toBytes 4 4 at h3
            change inRange (4096 * leAt wr'.cmd.toBytes 40 8) (4096 * (leAt wr'.cmd.toBytes 48 2 + 1)) a at h4
            change y.world.mem (leAt wr'.cmd.toBytes 24 8 + (a - 4096 * leAt wr'.cmd.toBytes 40 8)) = some _ at h5
            rw [f3, f4] at h4
            rw [f2, f3] at h5
            have hl : l = (q i).lun.toNat := by omega
            refine ⟨lba, n, hop, hasks, hl, h4, ?_⟩
            have := h4.1
            have := h4.2
            rw [← hL.waits i hi (.inr hop) _ ⟨Nat.le_add_right _ _, Nat.add_lt_add_left (by omega) _⟩]
            exact h5
    · refine ⟨[], ?_⟩
      rw [List.append_nil]
      refine hL.keep (hD.toLossy.quiet (hq.fair i) hb.began wr hwr (fun h => hrw (.inr h)) _ _) ?_ ?_ ho (fun _ h => absurd h hrw)
        (fun _ _ _ h => absurd (.inl h) hrw)
      · rw [hp]
        exact ⟨fun _ h => absurd h hrw, fun _ h => absurd h hrw⟩
      · rw [hp]
        exact fun _ _ h => absurd h hrw
  | @complete r t cs c t2 w3 hp hcall =>
    obtain ⟨w, w1, hb⟩ := hI.waiting i r t _ cs hp
    obtain ⟨done, hd1, hd2⟩ := hb.progress
    rw [List.append_nil] at hd1
    refine ⟨[], ?_⟩
    rw [List.append_nil]
    by_cases hrw : isRw (q i)
    · obtain ⟨c', t2', w3', e, e1, e2, e3⟩ := rw_complete hb.began (rw_clean hb.began hrw) hrw cs (by rw [hd1]; exact hd2)
        ((q i).din r.alloc_len.toNat) ⟨(q i).sense, (q i).senseLen.toNat⟩ y.world hb.stored
        (fun k hk => hI.used i _ (.inr (.inl ⟨Nat.le_add_right _ _, Nat.add_lt_add_left hk _⟩)))
      rw [hcall] at e
      cases e
      have hans : answerOf r c = ⟨c.scsi_status.toNat, r.alloc_len.toNat⟩ := by
        unfold answerOf; rw [if_neg (by rw [e1]; simp)]
      refine hL.keep rfl ?_ ?_ ho (fun h => absurd trivial h) ?_
      · rw [hp]; exact ⟨fun _ _ => rfl, fun _ => trivial⟩
      · intro resp hr
        rw [hp]
        intro _ _
        rw [show resp = _ from hr, hans]
        exact ⟨(code_zero _).trans e2, rfl⟩
      · intro resp _ hr _ h0 a _
        rw [show resp = _ from hr, hans] at h0
        rw [e3 ((code_zero _).mp h0)]
    · refine hL.keep rfl ?_ ?_ ho (fun _ h => absurd h hrw) (fun _ _ _ h => absurd (.inl h) hrw)
      · rw [hp]; exact ⟨fun _ h => absurd h hrw, fun _ => trivial⟩
      · rw [hp]; exact fun _ _ h => absurd h hrw
  | returned hp => exact ⟨[], by rw [List.append_nil]; exact hL, fun _ h => h⟩

/-- A whole schedule. -/
theorem Faith.run [DecidableEq ι] {D : Device σ} {disks : σ → Disk} (hD : Honest D disks) {E : Env} (hg : GoodAllocator E)
    {q : ι → Request} {m0 : Mem} (hq : Separate q m0) {d0 : Disk} (sched : List ι) {own : ι → Nat → Prop} {y y' : Sys ι σ} {L : List ι}
    (hI : Inv E q own y) (hL : Faith disks q d0 y L) (h : y.run E D q sched = .ok y') :
    ∃ M own', Inv E q own' y' ∧ Faith disks q d0 y' (L ++ M) ∧ ∀ resp : ι → ScsiToNvmeResponse,
      (∀ j, agrees (q j) (resp j) (y'.phase j)) → ∀ j, agrees (q j) (resp j) (y.phase j) := by
  induction sched generalizing own y L with
  | nil =>
    cases h
    exact ⟨[], own, hI, by rw [List.append_nil]; exact hL, fun _ h => h⟩
  | cons i is ih =>
    unfold Sys.run at h
    split at h
    · cases h
    · rename_i y1 e
      have hs := stepped_of hI (hq.fair i).short e
      obtain ⟨own1, hI1, -⟩ := hI.move (hD.toLossy.tame hg) hg hq hs
      obtain ⟨M1, hL1, b1⟩ := hL.step hD hg hq hI hs
      obtain ⟨M2, own2, hI2, hL2, b2⟩ := ih hI1 hL1 h
      exact ⟨M1 ++ M2, own2, hI2, by rw [← List.append_assoc]; exact hL2, fun r hr => b1 r (b2 r hr)⟩

end Scsi2Nvme
