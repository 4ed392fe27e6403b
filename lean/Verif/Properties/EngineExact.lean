import Verif.Properties.Reply
import Verif.Properties.Engine
import Verif.Properties.Disk
import Verif.Proofs.Granted
import Verif.Spec.EngineReply
/-!
# C80, C81: the engine as a function; when it returns
-/

namespace Scsi2Nvme
open Spec Engine

variable {σ : Type}

theorem submissionOf_handed (wr : NvmeCmdWrapper) : submissionOf wr = submitted (handed wr) := by
  unfold submissionOf submitted handed
  simp only [prp1_bytes, BitVec.ofNat_toNat, BitVec.setWidth_eq]

theorem Spec.Polite.mapped {D : Device σ} {ptr len : Nat} {P : Submission → Prop} (hp : Polite D ptr len P) {s m subs cs s' m'}
    (h : Dialog D s m subs cs s' m') (hs : ∀ sub ∈ subs, P sub) {sp : Span} (ha : accessible m sp) : accessible m' sp :=
  fun i hi => h.keepsSome _ (fun s m sub hm => hp.maps sub (hs sub hm) s m _) (ha i hi)

theorem Spec.Polite.kept {D : Device σ} {ptr len : Nat} {P : Submission → Prop} (hp : Polite D ptr len P) {s m subs cs s' m'}
    (h : Dialog D s m subs cs s' m') (hs : ∀ sub ∈ subs, P sub) (bs : List Byte) (hl : bs.length = len)
    (ha : m.read ptr bs.length = some bs) : m'.read ptr bs.length = some bs := by
  rw [← ha]
  refine read_congr fun i hi => ?_
  exact h.keeps _ fun s m sub hm => hp.spares sub (hs sub hm) s m _ ⟨Nat.le_add_right _ _, by omega⟩

theorem submits_of {E ws w ptr cdb buf lun r t1 w1} (h : Began E (Translation.init ws) w ptr cdb buf lun r t1 w1) :
    ∀ sub ∈ t1.GetNvmeWrappers.map submissionOf, submits E ws w ptr cdb buf lun sub := by
  intro sub hs
  obtain ⟨wr, h1, h2⟩ := List.mem_map.mp hs
  exact ⟨r, t1, w1, h.call, wr, h1, h2.symm⟩

theorem read_of_begin {E : Env} (hg : GoodAllocator E) {t w ptr cdb buf lun r t1 w1}
    (h : Began E t w ptr cdb buf lun r t1 w1) : w1.mem.read ptr cdb.length = some cdb := by
  rw [← h.stored]
  refine read_congr fun i hi => ?_
  refine Begin_keeps hg h.idle.idle h.call _ ?_
  exact read_isSome.mp (by rw [h.stored]; rfl) i hi

/-- **C80.** A whole call of the engine, as a function of the command block, the LUN, the data buffer, the allocator's
answers (`evs` are the allocator calls `Begin` makes, `m1` is the memory it leaves), the contents of the uninitialised command slots and what the device does: the device is given exactly the
commands of `plan`, once each and in order; what is returned, and what is in the data buffer or the sense buffer, is
`outcome` of its completions and of the pages it filled.  If the announced length does not fit in the data buffer, the
device is not involved and TASK ABORTED is returned.  For every device that, executing the
commands, takes no memory away and leaves the command block alone. -/
theorem C80_engine (x : Served σ) (hg : GoodAllocator x.E) 
    (hp : Polite x.D x.ptr x.cdb.length (submits x.E x.ws x.w x.ptr x.cdb x.buf x.lun))
    (hb : accessible x.w.mem x.buf) (data : List Byte)
    (hu : byte x.cdb 0 = 0x42 → x.w.mem.read x.data x.dataLen.toNat = some data) :
    ∃ evs m1,
      let pl := plan x.cdb x.buf data x.lun (slots (Translation.init x.ws)) fun i => (pageAnswers evs).getD i 0
      (∃ r t1, Began x.E (Translation.init x.ws) x.w x.ptr x.cdb x.buf x.lun r t1 ⟨m1, evs ++ x.w.trace⟩) ∧
      (∀ a, (x.w.mem a).isSome → m1 a = x.w.mem a) ∧
      (∃ ds, x.w'.trace = ds ++ (evs ++ x.w.trace) ∧ ∀ e ∈ ds, ∃ a n, e = Event.dealloc a n) ∧
      if x.dataLen.toNat < pl.announced then
        x.resp = ⟨0x40, 0⟩ ∧ x.s' = x.s ∧ x.w'.mem = m1 ∧ x.w'.trace = evs ++ x.w.trace
      else
        let cmds := pl.result.getD []
        ∃ cs m, Dialog x.D x.s m1 (cmds.map submitted) cs x.s' m ∧
          x.ended m pl.announced (outcome pl.result cs x.cdb (nsidOfLun x.lun) (if x.isIn then pl.announced else 0)
            (x.E.junk ⟨m, evs ++ x.w.trace⟩) (pageAt m cmds 0) (pageAt m cmds 1)) := by
  obtain ⟨r, t1, w1, hB, -, h⟩ := served_began x
  rcases h with ⟨hl, hr, hs, hw⟩ | ⟨hl, cs, m, c, t2, hD, hc, hok, hr⟩
  · obtain ⟨evs, ht, -, -, hal, -⟩ := C78_begin _ _ _ _ _ _ _ _ _ _ data hB (fun h => ⟨hg, hu h⟩)
    refine ⟨evs, w1.mem, ⟨r, t1, by rw [← ht]; exact hB⟩, fun a ha => Begin_keeps hg (Idle_init _) hB.call a ha,
      ⟨[], by rw [hw]; exact ht, fun e he => by cases he⟩, ?_⟩
    rw [if_pos (by rw [← hal]; exact hl)]
    exact ⟨hr, hs, by rw [hw], by rw [hw]; exact ht⟩
  · have hk : m.read x.ptr x.cdb.length = some x.cdb := hp.kept hD (submits_of hB) x.cdb rfl (read_of_begin hg hB)
    let y : Ran := ⟨x.E, _, x.w, x.ptr, x.cdb, x.buf, x.lun, r, t1, w1, hB, ⟨m, w1.trace⟩, hk, cs,
      dataIn x r.alloc_len.toNat, ⟨x.sense, x.senseLen.toNat⟩, c, t2, x.w', hc⟩
    have hdin : accessible y.w.mem y.din := by
      change accessible x.w.mem (dataIn x r.alloc_len.toNat)
      unfold dataIn
      split
      · intro i hi
        exact hb i (by simp only at hi; change i < x.dataLen.toNat; omega)
      · intro i hi
        exact absurd hi (Nat.not_lt_zero _)
    have hpage : ∀ (i : Nat) (wr : NvmeCmdWrapper), y.cmds[i]? = some wr → byte wr.cmd.toBytes 0 = 0x06 → byte x.cdb 0 ≠ 0x42 →
        y.page i (pageAt m (y.cmds.map handed) i) := by
      intro i wr hi h6 hop
      refine ⟨wr, hi, ?_⟩
      have hacc : accessible m ⟨leAt wr.cmd.toBytes 24 8, 4096⟩ :=
        hp.mapped hD (submits_of hB) (granted_pages hB hg hop wr (List.mem_of_getElem? hi) h6)
      obtain ⟨page, hrd⟩ := read_of_accessible hacc
      change m.read _ 4096 = _
      rw [hrd]
      unfold pageAt
      rw [List.getElem?_map, hi]
      simp only [Option.map_some, handed]
      rw [hrd]; rfl
    have h0 : y.succeeded → readsPage y.cdb = true → y.page 0 (pageAt m (y.cmds.map handed) 0) := by
      intro hs hrp
      obtain ⟨wr, l, e1, e2, -⟩ := first_commands hB hs.1 hrp
      refine hpage 0 wr (by unfold Ran.cmds; rw [show y.t1 = t1 from rfl, e1]; rfl) e2 ?_
      intro h42
      have hrp' : readsPage x.cdb = true := hrp
      unfold readsPage at hrp'
      simp only [decide_eq_true_eq] at hrp'
      omega
    have h1 : y.succeeded → byte y.cdb 0 = 0x12 → y.page 1 (pageAt m (y.cmds.map handed) 1) := by
      intro hs ho
      have ho' : byte x.cdb 0 = 0x12 := ho
      obtain ⟨wr, l, e1, -, e2⟩ := first_commands hB hs.1 (by unfold readsPage; simp [ho'])
      obtain ⟨wr1, rfl, e3⟩ := e2 ho
      exact hpage 1 wr1 (by unfold Ran.cmds; rw [show y.t1 = t1 from rfl, e1]; rfl) e3 (by omega)
    obtain ⟨evs, ht, hal, hcm, hend⟩ := C79_run y hg hdin data _ _ hu h0 h1
    obtain ⟨ds, hds, hdd⟩ := y.hands_back
    refine ⟨evs, w1.mem, ⟨r, t1, by rw [← show w1.trace = evs ++ x.w.trace from ht]; exact hB⟩,
      fun a ha => Begin_keeps hg (Idle_init _) hB.call a ha,
      ⟨ds, by rw [← show w1.trace = evs ++ x.w.trace from ht]; exact hds, hdd⟩, ?_⟩
    have hal' : r.alloc_len.toNat = (plan x.cdb x.buf data x.lun (slots (Translation.init x.ws))
      fun i => (pageAnswers evs).getD i 0).announced := hal
    have ht' : w1.trace = evs ++ x.w.trace := ht
    have hcm' : y.cmds.map handed = (plan x.cdb x.buf data x.lun (slots (Translation.init x.ws))
      fun i => (pageAnswers evs).getD i 0).result.getD [] := hcm
    rw [if_neg (by rw [← hal']; omega)]
    refine ⟨cs, m, ?_, ?_⟩
    · rw [← hcm', List.map_map]
      have : (submitted ∘ handed) = submissionOf := by
        funext wr
        exact (submissionOf_handed wr).symm
      rw [this]
      exact hD
    · rw [← hcm', ← hal', ← ht']
      have hlen : y.din.len = if x.isIn then r.alloc_len.toNat else 0 := by
        change (dataIn x _).len = _
        unfold dataIn
        split <;> rfl
      rw [hlen] at hend
      have hend' : y.ended (outcome (plan x.cdb x.buf data x.lun (slots (Translation.init x.ws))
        fun i => (pageAnswers evs).getD i 0).result cs x.cdb (nsidOfLun x.lun) (if x.isIn then r.alloc_len.toNat else 0)
        (x.E.junk ⟨m, w1.trace⟩) (pageAt m (y.cmds.map handed) 0) (pageAt m (y.cmds.map handed) 1)) := hend
      generalize outcome _ _ _ _ _ _ _ _ = o at hend' ⊢
      cases o with
      | apiFailure =>
        have : c.status = .kFailure := hend'.1
        rw [hok] at this
        cases this
      | failed s bs =>
        obtain ⟨e1, e2, e3⟩ := hend'
        refine ⟨?_, wrote_plain y hg e3⟩
        rw [hr, ← e2]
      | good d =>
        obtain ⟨e1, e3⟩ := hend'
        have e1' : c = ⟨.kSuccess, 0⟩ := e1
        refine ⟨?_, ?_⟩
        · rw [hr, e1']; rfl
        · have : y.din.ptr = if x.isIn then x.data else 0 := by
            change (dataIn x _).ptr = _
            unfold dataIn
            split <;> rfl
          rw [this] at e3
          exact wrote_plain y hg e3

/-! ## C81 -/

theorem Spec.Dialog.unique {D : Device σ} {s m subs cs s' m' cs2 s2 m2} (h : Dialog D s m subs cs s' m')
    (h2 : Dialog D s m subs cs2 s2 m2) : cs2 = cs ∧ s2 = s' ∧ m2 = m' := by
  induction h generalizing cs2 s2 m2 with
  | nil => cases h2; exact ⟨rfl, rfl, rfl⟩
  | cons h ih =>
    cases h2 with
    | cons h2 =>
      obtain ⟨e1, e2, e3⟩ := ih h2
      exact ⟨by rw [e1], e2, e3⟩

/-- The commands of an accepted command, and `Faulty` in terms of what was handed out. -/
theorem faulty_traps {E t w ptr cdb buf lun r t1 w1} (h : Began E t w ptr cdb buf lun r t1 w1) (hg : GoodAllocator E)
    (ha : Accepted t1) (w2 : World) (hp : pagesAccessible t1 w2.mem) (din : Span) (hop : byte cdb 0 ≠ 0x42) :
    Faulty cdb t1 w2 din ↔ traps cdb (t1.GetNvmeWrappers.map handed) din.len (pageAt w2.mem (t1.GetNvmeWrappers.map handed) 0) := by
  have first : ∀ page, firstPage t1 w2.mem page → pageAt w2.mem (t1.GetNvmeWrappers.map handed) 0 = page := by
    rintro page ⟨wr, h1, h2⟩
    unfold pageAt
    rw [List.getElem?_map, ← List.head?_eq_getElem?, h1]
    simp only [Option.map_some, handed]
    rw [h2]; rfl
  have exists_first : ∀ wr l, t1.GetNvmeWrappers = wr :: l → byte wr.cmd.toBytes 0 = 6 → ∃ page, firstPage t1 w2.mem page := by
    intro wr l e h6
    have := hp wr (by rw [e]; exact List.mem_cons_self ..) h6
    obtain ⟨page, hr⟩ := read_of_accessible this
    exact ⟨page, wr, by rw [e]; rfl, hr⟩
  constructor
  · intro hf
    unfold traps
    cases hf with
    | noCompletion h1 h2 => exact .inl ⟨h1, .inl (by rw [h2]; rfl)⟩
    | shift6 page h1 h2 h3 h4 h5 => exact .inl ⟨h1, .inr ⟨h2, h3, by rw [first page h4]; exact h5⟩⟩
    | noReturn h1 h2 h3 => exact .inr ⟨h1, h3, .inl h2⟩
    | shift10 page h1 h2 h3 h4 h5 => exact .inr ⟨h1, h3, .inr (.inl (by rw [first page h4]; exact h5))⟩
    | noReturnDescriptor h1 h2 h3 => exact .inr ⟨h1, by omega, .inr (.inr h3)⟩
  · rintro (⟨h1, h2⟩ | ⟨h1, h2, h3⟩)
    · rcases h2 with h2 | ⟨h2, h3, h4⟩
      · exact .noCompletion h1 (List.map_eq_nil_iff.mp h2)
      · obtain ⟨wr, l, e1, e2, -⟩ := first_commands h ha (by unfold readsPage; simp [h1, h2])
        obtain ⟨page, hf⟩ := exists_first wr l e1 e2
        exact .shift6 page h1 h2 h3 hf (by rw [first page hf] at h4; exact h4)
    · cases hd : Spec.bit cdb 1 3 with
      | true => exact .noReturn h1 hd h2
      | false =>
        rw [hd] at h3
        obtain ⟨-, -, -, a, wr, hc, -, hwr, -⟩ := fallthrough_luns h (Or.inr h1) ha
        obtain ⟨page, hf⟩ := exists_first wr [] hc (by rw [hwr]; exact identifyWr_op _ _ _)
        rcases h3 with h3 | h3 | h3
        · cases h3
        · exact .shift10 page h1 hd h2 hf (by rw [first page hf] at h3; exact h3)
        · exact .noReturnDescriptor h1 hd h3

/-- **C81**, full statement (false, see `C81_refuted`): a call of the engine always returns. -/
def C81_statement : Prop := ∀ (σ : Type) (x : Issued σ), x.Ready → x.returns

/-- **C81**, exactly what holds: a call of the engine has undefined behaviour if and only if the announced length fits in
the data buffer, the command is accepted, the device executes all NVMe commands successfully, and the command is one of
the MODE SENSE commands of `traps`. -/
theorem C81_exact_partial (x : Issued σ) (h : x.Ready) (data : List Byte)
    (hu : byte x.cdb 0 = 0x42 → x.w.mem.read x.data x.dataLen.toNat = some data) :
    ∃ evs m1,
      let pl := plan x.cdb ⟨x.data, x.dataLen.toNat⟩ data x.lun (slots (Translation.init x.ws)) fun i => (pageAnswers evs).getD i 0
      (∀ a, (x.w.mem a).isSome → m1 a = x.w.mem a) ∧
      (x.returns ↔ ¬ (pl.announced ≤ x.dataLen.toNat ∧ ∃ cmds, pl.result = some cmds ∧ ∃ cs s' m,
        Dialog x.D x.s m1 (cmds.map submitted) cs s' m ∧ (∀ c ∈ cs, cplOk c) ∧
        traps x.cdb cmds (if x.isIn then pl.announced else 0) (pageAt m cmds 0))) := by
  have hc : accessible x.w.mem ⟨x.ptr, x.cdb.length⟩ := fun i hi => read_isSome.mp (by rw [x.stored]; rfl) i hi
  obtain ⟨r, t1, w1, hb⟩ := Begin_defined h.good (Idle_init x.ws) x.w ⟨x.ptr, x.cdb.length⟩ ⟨x.data, x.dataLen.toNat⟩ x.lun hc h.data
  have hB : Began x.E (Translation.init x.ws) x.w x.ptr x.cdb ⟨x.data, x.dataLen.toNat⟩ x.lun r t1 w1 :=
    ⟨IdleObject_init _, x.stored, hb⟩
  obtain ⟨evs, ht, -, hst, hal, hres⟩ := C78_begin _ _ _ _ _ _ _ _ _ _ data hB (fun h42 => ⟨h.good, hu h42⟩)
  have keeps : ∀ a, (x.w.mem a).isSome → w1.mem a = x.w.mem a := fun a ha => Begin_keeps h.good (Idle_init _) hb a ha
  refine ⟨evs, w1.mem, keeps, ?_⟩
  generalize (plan x.cdb ⟨x.data, x.dataLen.toNat⟩ data x.lun (slots (Translation.init x.ws)) fun i => (pageAnswers evs).getD i 0) = pl
    at hal hres
  have hlen : (BitVec.ofNat 16 x.cdb.length).toNat = x.cdb.length := by
    rw [BitVec.toNat_ofNat]; exact Nat.mod_eq_of_lt x.short
  unfold Issued.returns Issued.run ScsiToNvme
  simp only [M.bind_run, hlen, hb]
  rw [if_neg (by rw [hst]; simp), ← hal]
  by_cases hl : x.dataLen.toNat < r.alloc_len.toNat
  · rw [if_pos hl]
    exact ⟨fun _ hh => by omega, fun _ => ⟨_, rfl⟩⟩
  rw [if_neg hl]
  obtain ⟨cs, s', m, e1, hD⟩ := submitAll_run x.D t1.GetNvmeWrappers x.s w1
  simp only [M.bind_run, e1]
  have hmap : t1.GetNvmeWrappers.map submissionOf = (t1.GetNvmeWrappers.map handed).map submitted := by
    rw [List.map_map]
    apply List.map_congr_left
    intro wr _
    exact submissionOf_handed wr
  have hsub := submits_of hB
  rw [hmap] at hD hsub
  -- the engine returns if `Complete` does
  refine Iff.trans (b := defined x.E t1 cs (if x.isIn = true then ⟨x.data, r.alloc_len.toNat⟩ else Span.null)
    ⟨x.sense, x.senseLen.toNat⟩ ⟨m, w1.trace⟩) ?_ ?_
  · unfold defined
    constructor
    · rintro ⟨q, hq⟩
      split at hq
      · cases hq
      · rename_i a w' e
        exact ⟨a.1, a.2, w', e⟩
    · rintro ⟨c, t2, w3, e⟩
      rw [e]
      simp only
      split <;> exact ⟨_, rfl⟩
  -- the situation of C10
  have hk : m.read x.ptr x.cdb.length = some x.cdb := h.polite.kept hD hsub x.cdb rfl (read_of_begin h.good hB)
  have hacc : ∀ sp, accessible x.w.mem sp → accessible m sp := fun sp hs =>
    h.polite.mapped hD hsub fun i hi => by rw [keeps _ (hs i hi)]; exact hs i hi
  have hdin : accessible x.w.mem (if x.isIn = true then ⟨x.data, r.alloc_len.toNat⟩ else Span.null) := by
    split
    · intro i hi
      exact h.data i (by simp only at hi ⊢; omega)
    · intro i hi
      exact absurd hi (Nat.not_lt_zero _)
  have hdl : (if x.isIn = true then (⟨x.data, r.alloc_len.toNat⟩ : Span) else Span.null).len
      = if x.isIn = true then r.alloc_len.toNat else 0 := by split <;> rfl
  have hn : cs.length = t1.GetNvmeWrappers.length := by rw [hD.length, List.length_map, List.length_map]
  by_cases hop : byte x.cdb 0 = 0x42
  · refine ⟨fun _ hh => ?_, fun _ => ?_⟩
    · obtain ⟨-, cmds, -, cs', s2, m2, -, -, ht⟩ := hh
      unfold traps at ht
      omega
    · obtain ⟨⟨⟨c, t2⟩, w3⟩, e⟩ := Complete_defined (E := x.E) (cpl := cs)
        (din := if x.isIn = true then ⟨x.data, r.alloc_len.toNat⟩ else Span.null) (began_wf hB) (w := ⟨m, w1.trace⟩)
        (sense := ⟨x.sense, x.senseLen.toNat⟩) (hacc _ h.sense)
        (fun hp hl _ => by
          have ha : Accepted t1 := hp
          obtain ⟨hne, hspan⟩ := began_span hB ha
          refine ⟨x.cdb, by rw [hspan]; exact hk, .kSuccess, ⟨m, w1.trace⟩, ?_⟩
          rw [opc_of_byte hop (by decide)]
          rfl)
      exact ⟨c, t2, w3, e⟩
  have hpages : pagesAccessible t1 m := fun wr hwr h6 => h.polite.mapped hD hsub (granted_pages hB h.good hop wr hwr h6)
  have hpend : Pending x.E (Translation.init x.ws) x.w x.ptr x.cdb ⟨x.data, x.dataLen.toNat⟩ x.lun r t1 w1 ⟨m, w1.trace⟩
      (if x.isIn = true then ⟨x.data, r.alloc_len.toNat⟩ else Span.null) ⟨x.sense, x.senseLen.toNat⟩ :=
    ⟨hB, hk, hdin, hacc _ hdin, hacc _ h.sense, hpages⟩
  rw [C10_exact_partial _ _ _ _ _ _ _ _ _ _ _ _ _ cs h.good hpend]
  refine not_congr ⟨?_, ?_⟩
  · rintro ⟨ha, -, hok, hf⟩
    refine ⟨by omega, t1.GetNvmeWrappers.map handed, ?_, cs, s', m, hD, hok, ?_⟩
    · split at hres
      · exact absurd ha hres.1
      · rename_i cmds hr
        rw [hr, hres.2]
    · rw [faulty_traps hB h.good ha ⟨m, w1.trace⟩ hpages _ hop, hdl] at hf
      exact hf
  · rintro ⟨-, cmds, hr, cs2, s2, m2, hD2, hok, htr⟩
    rw [hr] at hres
    obtain ⟨ha, hcm⟩ := hres
    rw [← hcm] at hD2 htr
    obtain ⟨rfl, rfl, rfl⟩ := hD.unique hD2
    refine ⟨ha, hn, hok, ?_⟩
    rw [faulty_traps hB h.good ha ⟨_, w1.trace⟩ hpages _ hop, hdl]
    exact htr

/-- A call returns if its completion is not faulty. -/
theorem returns_of (x : Issued σ) (h : x.Ready)
    (hf : ∀ r t1 w1 cs s' m, Began x.E (Translation.init x.ws) x.w x.ptr x.cdb ⟨x.data, x.dataLen.toNat⟩ x.lun r t1 w1 →
      r.alloc_len.toNat ≤ x.dataLen.toNat → Dialog x.D x.s w1.mem (t1.GetNvmeWrappers.map submissionOf) cs s' m → Accepted t1 →
      ¬ Faulty x.cdb t1 ⟨m, w1.trace⟩ (if x.isIn = true then ⟨x.data, r.alloc_len.toNat⟩ else Span.null)) : x.returns := by
  obtain ⟨data, hd⟩ := read_of_accessible h.data
  obtain ⟨evs, m1, -, hh⟩ := C81_exact_partial x h data fun _ => hd
  refine Classical.byContradiction fun hn => ?_
  have hc : accessible x.w.mem ⟨x.ptr, x.cdb.length⟩ := fun i hi => read_isSome.mp (by rw [x.stored]; rfl) i hi
  obtain ⟨r, t1, w1, hb⟩ := Begin_defined h.good (Idle_init x.ws) x.w ⟨x.ptr, x.cdb.length⟩ ⟨x.data, x.dataLen.toNat⟩ x.lun hc h.data
  have hB : Began x.E (Translation.init x.ws) x.w x.ptr x.cdb ⟨x.data, x.dataLen.toNat⟩ x.lun r t1 w1 :=
    ⟨IdleObject_init _, x.stored, hb⟩
  have keeps : ∀ a, (x.w.mem a).isSome → w1.mem a = x.w.mem a := fun a ha => Begin_keeps h.good (Idle_init _) hb a ha
  have hst := (C78_begin _ _ _ _ _ _ _ _ _ _ data hB (fun _ => ⟨h.good, hd⟩)).choose_spec.2.2.1
  have hlen : (BitVec.ofNat 16 x.cdb.length).toNat = x.cdb.length := by
    rw [BitVec.toNat_ofNat]; exact Nat.mod_eq_of_lt x.short
  apply hn
  unfold Issued.returns Issued.run ScsiToNvme
  simp only [M.bind_run, hlen, hb]
  rw [if_neg (by rw [hst]; simp)]
  by_cases hl : x.dataLen.toNat < r.alloc_len.toNat
  · rw [if_pos hl]
    exact ⟨_, rfl⟩
  rw [if_neg hl]
  obtain ⟨cs, s', m, e1, hD⟩ := submitAll_run x.D t1.GetNvmeWrappers x.s w1
  simp only [M.bind_run, e1]
  have hf := hf r t1 w1 cs s' m hB (by omega) hD
  have hmap : t1.GetNvmeWrappers.map submissionOf = (t1.GetNvmeWrappers.map handed).map submitted := by
    rw [List.map_map]
    apply List.map_congr_left
    intro wr _
    exact submissionOf_handed wr
  have hsub := submits_of hB
  rw [hmap] at hD hsub
  have hk : m.read x.ptr x.cdb.length = some x.cdb := h.polite.kept hD hsub x.cdb rfl (read_of_begin h.good hB)
  have hacc : ∀ sp, accessible x.w.mem sp → accessible m sp := fun sp hs =>
    h.polite.mapped hD hsub fun i hi => by rw [keeps _ (hs i hi)]; exact hs i hi
  have hdin : accessible x.w.mem (if x.isIn = true then ⟨x.data, r.alloc_len.toNat⟩ else Span.null) := by
    split
    · intro i hi
      exact h.data i (by simp only at hi ⊢; omega)
    · intro i hi
      exact absurd hi (Nat.not_lt_zero _)
  have key : defined x.E t1 cs (if x.isIn = true then ⟨x.data, r.alloc_len.toNat⟩ else Span.null)
      ⟨x.sense, x.senseLen.toNat⟩ ⟨m, w1.trace⟩ := by
    by_cases hop : byte x.cdb 0 = 0x42
    · exfalso
      apply hn
      refine hh.mpr ?_
      rintro ⟨-, cmds, -, cs, s', m, -, -, ht⟩
      unfold traps at ht
      omega
    · have hpages : pagesAccessible t1 m := fun wr hwr h6 => h.polite.mapped hD hsub (granted_pages hB h.good hop wr hwr h6)
      refine (C10_exact_partial _ _ _ _ _ _ _ _ _ _ _ _ _ cs h.good ⟨hB, hk, hdin, hacc _ hdin, hacc _ h.sense, hpages⟩).mpr ?_
      rintro ⟨ha, -, -, hf'⟩
      exact hf ha hf'
  obtain ⟨c, t2, w3, e⟩ := key
  rw [e]
  simp only
  split <;> exact ⟨_, rfl⟩

/-- **C81.** For every command but MODE SENSE a call of the engine returns. -/
theorem C81_returns (x : Issued σ) (h : x.Ready) (hop : byte x.cdb 0 ≠ 0x1a ∧ byte x.cdb 0 ≠ 0x5a) : x.returns := by
  obtain ⟨data, hd⟩ := read_of_accessible h.data
  obtain ⟨evs, m1, -, hh⟩ := C81_exact_partial x h data fun _ => hd
  refine hh.mpr ?_
  rintro ⟨-, cmds, -, cs, s', m, -, -, ht⟩
  unfold traps at ht
  omega

/-! ## Concrete calls -/

/-- A command block at 100h, a sense buffer of 32 bytes and a data buffer of `n` bytes. -/
def demoIssued {σ : Type} (D : Device σ) (s : σ) (cdb : List Byte) (hl : cdb.length ≤ 0x300) (lun : U64) (n : U16) : Issued σ :=
  { E := boundedEnv, D := D, s := s, ws := Demo.ws, w := ⟨Demo.mem cdb [], []⟩, ptr := 0x100, cdb := cdb, lun := lun
    sense := 0x400, senseLen := 32, data := 0x8000, dataLen := n, isIn := true
    stored := by
      refine read_eq_some.mpr ⟨rfl, fun i hi => ?_⟩
      change Demo.mem cdb _ (0x100 + i) = _
      unfold Demo.mem
      rw [if_neg (by omega), if_pos (by omega), Nat.add_sub_cancel_left]
    short := by omega }

theorem demoIssued_ready {σ : Type} (D : Device σ) (s : σ) (cdb : List Byte) (hl : cdb.length ≤ 0x300) (lun : U64) (n : U16)
    (hn : n.toNat ≤ 0x8000) (hp : Polite D 0x100 cdb.length (submits boundedEnv Demo.ws ⟨Demo.mem cdb [], []⟩ 0x100 cdb ⟨0x8000, n.toNat⟩ lun)) :
    (demoIssued D s cdb hl lun n).Ready where
  good := boundedEnv_good
  polite := hp
  data := by
    intro i hi
    change (Demo.mem cdb _ (0x8000 + i)).isSome
    have hi : i < n.toNat := hi
    unfold Demo.mem
    rw [if_neg (by omega), if_neg (by omega), if_neg (by omega), if_neg (by omega), if_neg (by omega),
      if_neg (by simp), if_pos (by omega)]
    rfl
  sense := by
    intro i hi
    change (Demo.mem cdb _ (0x400 + i)).isSome
    have hi : i < 32 := hi
    unfold Demo.mem
    rw [if_neg (by omega), if_neg (by omega), if_neg (by omega), if_pos (by omega)]
    rfl

theorem lazyDevice_polite (ptr len : Nat) (P : Submission → Prop) : Polite lazyDevice ptr len P :=
  ⟨fun _ _ _ _ _ h => h, fun _ _ _ _ _ _ => rfl⟩

/-- MODE SENSE(6) for the control page without block descriptors has undefined behaviour. -/
theorem C81_refuted : ¬ C81_statement := by
  intro hall
  have h := hall Unit (demoIssued lazyDevice () [0x1a, 8, 0x0a, 0, 96, 0] (by decide) 1 96)
    (demoIssued_ready _ _ _ _ _ _ (by decide) (lazyDevice_polite _ _ _))
  obtain ⟨r, hr⟩ := h
  have : (match (demoIssued lazyDevice () [0x1a, 8, 0x0a, 0, 96, 0] (by decide) 1 96).run with
    | .ok _ => false | .error _ => true) = true := by decide +kernel
  rw [hr] at this
  cases this

/-- The hypotheses of C80 and C81 are met: READ(10) of two blocks, and INQUIRY, for which pages are needed. -/
example : ∃ x : Served Unit, GoodAllocator x.E ∧
    Polite x.D x.ptr x.cdb.length (submits x.E x.ws x.w x.ptr x.cdb x.buf x.lun) ∧ accessible x.w.mem x.buf ∧
    x.cdb = Demo.read10 := by
  let y := demoIssued lazyDevice () Demo.read10 (by decide) 1 8192
  have hr : y.Ready := demoIssued_ready _ _ _ _ _ _ (by decide) (lazyDevice_polite _ _ _)
  obtain ⟨⟨⟨r, s'⟩, w'⟩, e⟩ := C81_returns y hr (by decide)
  exact ⟨⟨y.E, y.D, y.s, y.ws, y.w, y.ptr, y.cdb, y.lun, y.sense, y.senseLen, y.data, y.dataLen, y.isIn, r, s', w',
    y.stored, y.short, e⟩, hr.good, hr.polite, hr.data, rfl⟩

example : ∃ x : Served Unit, GoodAllocator x.E ∧
    Polite x.D x.ptr x.cdb.length (submits x.E x.ws x.w x.ptr x.cdb x.buf x.lun) ∧ accessible x.w.mem x.buf ∧
    x.cdb = Demo.inquiry := by
  let y := demoIssued lazyDevice () Demo.inquiry (by decide) 1 96
  have hr : y.Ready := demoIssued_ready _ _ _ _ _ _ (by decide) (lazyDevice_polite _ _ _)
  obtain ⟨⟨⟨r, s'⟩, w'⟩, e⟩ := C81_returns y hr (by decide)
  exact ⟨⟨y.E, y.D, y.s, y.ws, y.w, y.ptr, y.cdb, y.lun, y.sense, y.senseLen, y.data, y.dataLen, y.isIn, r, s', w',
    y.stored, y.short, e⟩, hr.good, hr.polite, hr.data, rfl⟩

end Scsi2Nvme
