import Verif.Properties.Concurrent
/-!
# C98: information commands among other calls
-/

namespace Scsi2Nvme
open Spec Engine

variable {ι : Type}

theorem Spec.Dialog.snoc {σ : Type} {D : Device σ} {s m subs cs s' m'} (h : Dialog D s m subs cs s' m') (sub : Submission) :
    Dialog D s m (subs ++ [sub]) (cs ++ [(D s' m' sub).2.2]) (D s' m' sub).1 (D s' m' sub).2.1 := by
  induction h with
  | nil => exact .cons .nil
  | cons h ih => exact .cons ih

/-- A call for an information command which has begun: the world when `Begin` was called (`w`) and returned (`w1`); the dialog it
would have had by itself until now, ending with memory that agrees with the actual memory in its pages. -/
structure Told (D : Device Disk) (E : Env) (q : Request) (own : Nat → Prop) (tr0 : List Event) (y : World)
    (w w1 : World) (r : BeginResponse) (t : Translation) (todo : List NvmeCmdWrapper) (cs : List Nvme.GenericQueueEntryCpl) : Prop where
  began : Began E (Translation.init q.ws) w q.ptr q.cdb ⟨q.data, q.dataLen.toNat⟩ q.lun r t w1
  owned : ∀ a, own a ↔ w.mem a = none ∧ (w1.mem a).isSome
  grown : ∃ evs, y.trace = evs ++ w1.trace
  since : ∃ evs, w.trace = evs ++ tr0
  early : ∀ a, q.uses a → (w.mem a).isSome
  dialog : Accepted t → ∃ done s m, t.GetNvmeWrappers = done ++ todo ∧ Dialog D s w1.mem (done.map submissionOf) cs s m ∧
    ∀ a, own a → y.mem a = m a

/-- What C98 says of a call which returned. -/
def answered (E : Env) (q : Request) (m0 : Mem) (tr0 : List Event) (Q : Query) (y : World) (resp : ScsiToNvmeResponse) : Prop :=
  (∃ evs, y.trace = evs ++ tr0 ∧ pagesGranted E evs) → resp = ⟨0, Q.len⟩ ∧
    ∃ stack : List Byte, stack.length = 33 ∧ ∀ a, q.uses a → y.mem a = m0.put (if q.isIn then q.data else 0)
      (reply q.cdb (nsidOfLun q.lun) (if q.isIn then Q.len else 0) stack Q.page0 Q.page1 (Q.dw0 % 2 ^ 32)) a

/-- The state of a call for an information command; `m0` is the memory before the call. -/
def account (D : Device Disk) (E : Env) (q : Request) (m0 : Mem) (own : Nat → Prop) (tr0 : List Event) (Q : Query) (y : World) : Phase → Prop
  | .called => ∀ a, q.uses a → y.mem a = m0 a
  | .waiting r t todo cs => (∀ a, q.uses a → y.mem a = m0 a) ∧ ∃ w w1, Told D E q own tr0 y w w1 r t todo cs
  | .returned resp => answered E q m0 tr0 Q y resp

theorem refused_left {a b : List Event} (h : pageRefused a) : pageRefused (a ++ b) := (refused_append a b).mpr (.inl h)
theorem refused_right {a b : List Event} (h : pageRefused b) : pageRefused (a ++ b) := (refused_append a b).mpr (.inr h)

/-- A call is not disturbed by steps of other calls. -/
theorem account_other {D E q m0 own own' tr0 Q} {y y' : World} {ph : Phase} (h : account D E q m0 own tr0 Q y ph)
    (hu : ∀ a, q.uses a → y'.mem a = y.mem a) (ho : own' = own) (hown : ∀ a, own a → y'.mem a = y.mem a)
    (hy : ∃ evs, y.trace = evs ++ tr0) (ht : ∃ evs, y'.trace = evs ++ y.trace) : account D E q m0 own' tr0 Q y' ph := by
  subst ho
  obtain ⟨e1, he1⟩ := ht
  cases ph with
  | called => exact fun a ha => (hu a ha).trans (h a ha)
  | waiting r t todo cs =>
    obtain ⟨h1, w, w1, hT⟩ := h
    refine ⟨fun a ha => (hu a ha).trans (h1 a ha), w, w1, hT.began, hT.owned, ?_, hT.since, hT.early, fun hacc => ?_⟩
    · obtain ⟨e, he⟩ := hT.grown
      exact ⟨e1 ++ e, by rw [he1, he, List.append_assoc]⟩
    · obtain ⟨done, s, m, g1, g2, g3⟩ := hT.dialog hacc
      exact ⟨done, s, m, g1, g2, fun a ha => (hown a ha).trans (g3 a ha)⟩
  | returned resp =>
    rintro ⟨evs, hevs, hg1, hg2⟩
    obtain ⟨e0, he0⟩ := hy
    have : evs = e1 ++ e0 := by
      rw [he1, he0, ← List.append_assoc] at hevs
      exact (List.append_cancel_right hevs).symm
    obtain ⟨h1, stack, h2, h3⟩ := h ⟨e0, he0, hg1, fun hr => hg2 (by rw [this]; exact refused_right hr)⟩
    exact ⟨h1, stack, h2, fun a ha => (hu a ha).trans (h3 a ha)⟩

theorem query_not_rw {cdb nsid ident feature Q} (h : query cdb nsid ident feature = some Q) : ¬ isRead (byte cdb 0) ∧ ¬ isWrite (byte cdb 0) := by
  unfold query at h
  unfold isRead isWrite
  split at h
  · omega
  · omega
  · omega
  · omega
  · cases h

/-- All calls for information commands are in order. -/
structure Tell (D : Device Disk) (E : Env) (q : ι → Request) (ident : Nat → Nat → List Byte) (feature : Nat → Nat → Nat → Nat)
    (own : ι → Nat → Prop) (tr0 : List Event) (y : Sys ι Disk) : Prop where
  grown : ∃ evs, y.world.trace = evs ++ tr0
  calls : ∀ i Q, query (q i).cdb (nsidOfLun (q i).lun) ident feature = some Q → Q.len ≤ (q i).dataLen.toNat →
    account D E (q i) (q i).mem (own i) tr0 Q y.world (y.phase i)

/-- The allocator calls of one step are recorded. -/
theorem step_grows [DecidableEq ι] {D : Device Disk} {E : Env} {q : ι → Request} {own : ι → Nat → Prop} {y y' : Sys ι Disk} {i : ι}
    (hg : GoodAllocator E) (hI : Inv E q own y) (h : Stepped E D q y i y') : ∃ evs, y'.world.trace = evs ++ y.world.trace := by
  cases h with
  | @begin r t w1 hp hB =>
    by_cases h42 : byte (q i).cdb 0 = 0x42
    · have hacc : accessible y.world.mem ⟨(q i).data, (q i).dataLen.toNat⟩ :=
        fun k hk => hI.used i _ (.inr (.inr ⟨Nat.le_add_right _ _, Nat.add_lt_add_left hk _⟩))
      obtain ⟨data, hd⟩ := read_of_accessible hacc
      obtain ⟨evs, ht, -⟩ := C78_begin _ _ _ _ _ _ _ _ _ _ data hB (fun _ => ⟨hg, hd⟩)
      exact ⟨evs, ht⟩
    · obtain ⟨evs, ht, -⟩ := C78_begin _ _ _ _ _ _ _ _ _ _ [] hB (fun h => absurd h h42)
      exact ⟨evs, ht⟩
  | submit hp => exact ⟨[], rfl⟩
  | @complete r t cs c t2 w3 hp hcall =>
    obtain ⟨w, w1, hb⟩ := hI.waiting i r t _ cs hp
    obtain ⟨ds, h1, -⟩ := Complete_grows (began_wf hb.began) hcall
    exact ⟨ds, h1⟩
  | returned hp => exact ⟨[], rfl⟩

/-- The pages of a call all of whose commands are done. -/
theorem told_page {D cap ident feature} (hT : Target D cap ident feature) {E : Env} (hg : GoodAllocator E)
    {q : Request} {own : Nat → Prop} {tr0 : List Event} {y w w1 : World} {r t cs} {Q : Query}
    (hQ : query q.cdb (nsidOfLun q.lun) ident feature = some Q) (h : Told D E q own tr0 y w w1 r t [] cs) (hacc : Accepted t)
    {s s' m} (g2 : Dialog D s w1.mem (t.GetNvmeWrappers.map submissionOf) cs s' m) (g3 : ∀ a, own a → y.mem a = m a)
    {k : Nat} {wr : NvmeCmdWrapper} (hk : t.GetNvmeWrappers[k]? = some wr) (h6 : byte wr.cmd.toBytes 0 = 0x06) :
    y.mem.read (leAt wr.cmd.toBytes 24 8) 4096 = some (pageAt m (t.GetNvmeWrappers.map handed) k) := by
  obtain ⟨h42, hinf⟩ := query_informed hT.controller hg h.began hQ hacc
  have hwr := List.mem_of_getElem? hk
  have hown : ∀ n, n < 4096 → own (leAt wr.cmd.toBytes 24 8 + n) := by
    intro n hn
    refine (h.owned _).mpr ⟨?_, granted_pages h.began hg h42 wr hwr h6 n hn⟩
    exact (harmless_all h.began hg h42 wr hwr).1 h6 _ ⟨Nat.le_add_right _ _, Nat.add_lt_add_left hn _⟩
  have hsome : accessible m ⟨leAt wr.cmd.toBytes 24 8, 4096⟩ := by
    refine (controller_polite hT.controller h.began hinf.all).mapped g2 (submits_of h.began) ?_
    exact granted_pages h.began hg h42 wr hwr h6
  obtain ⟨page, hrd⟩ := read_of_accessible hsome
  have e : pageAt m (t.GetNvmeWrappers.map handed) k = page := pageAt_identify hk rfl hrd
  rw [e, ← hrd]
  exact read_congr fun n hn => g3 _ (hown n hn)

/-- The step of `Complete`. -/
theorem told_complete {D cap ident feature} (hT : Target D cap ident feature) {E : Env} (hg : GoodAllocator E)
    {q : Request} {own : Nat → Prop} {tr0 : List Event} {y w w1 : World} {r t cs} {Q : Query}
    (hQ : query q.cdb (nsidOfLun q.lun) ident feature = some Q) (hlen : Q.len ≤ q.dataLen.toNat)
    (h : Told D E q own tr0 y w w1 r t [] cs) {m0 : Mem} (hmem : ∀ a, q.uses a → y.mem a = m0 a)
    (hst : y.mem.read q.ptr q.cdb.length = some q.cdb)
    {c t2 w3} (hcall : t.Complete E cs (q.din r.alloc_len.toNat) ⟨q.sense, q.senseLen.toNat⟩ y = .ok ((c, t2), w3)) :
    answered E q m0 tr0 Q w3 (answerOf r c) := by
  rintro ⟨all, hall, hg1, hg2⟩
  obtain ⟨ds, hds, -⟩ := Complete_grows (began_wf h.began) hcall
  have hacc : Accepted t := by
    refine query_accepted h.began hQ fun evs he => ⟨hg1, fun hr => hg2 ?_⟩
    obtain ⟨e1, he1⟩ := h.grown
    obtain ⟨e2, he2⟩ := h.since
    have : all = ds ++ (e1 ++ (evs ++ e2)) := by
      rw [hds, he1, he, he2, ← List.append_assoc, ← List.append_assoc, ← List.append_assoc] at hall
      rw [← List.append_assoc, ← List.append_assoc]
      exact (List.append_cancel_right hall).symm
    rw [this]
    exact refused_right (refused_right (refused_left hr))
  obtain ⟨h42, hinf⟩ := query_informed hT.controller hg h.began hQ hacc
  obtain ⟨done, s, m, g1, g2, g3⟩ := h.dialog hacc
  rw [List.append_nil] at g1
  rw [← g1] at g2
  obtain ⟨-, hcs, hdw, -, hp0, hp1⟩ := hinf.ends _ _ _ _ _ g2
  have hl : r.alloc_len.toNat = Q.len := hinf.len
  have hpage := fun k wr => told_page hT hg hQ h hacc g2 g3 (k := k) (wr := wr)
  let x : Ran := ⟨E, _, w, q.ptr, q.cdb, ⟨q.data, q.dataLen.toNat⟩, q.lun, r, t, w1, h.began, y, hst, cs,
    q.din r.alloc_len.toNat, ⟨q.sense, q.senseLen.toNat⟩, c, t2, w3, hcall⟩
  have hx0 : x.succeeded → readsPage x.cdb = true → x.page 0 Q.page0 := by
    intro _ hrp
    obtain ⟨wr, l, e1, e2, -⟩ := first_commands h.began hacc hrp
    have hk : t.GetNvmeWrappers[0]? = some wr := by rw [e1]; rfl
    exact ⟨wr, hk, (hpage 0 wr hk e2).trans (congrArg some (hp0 hrp))⟩
  have hx1 : x.succeeded → byte x.cdb 0 = 0x12 → x.page 1 Q.page1 := by
    intro _ ho
    have ho' : byte q.cdb 0 = 0x12 := ho
    obtain ⟨wr, l, e1, -, e2⟩ := first_commands h.began hacc (by unfold readsPage; simp [ho'])
    obtain ⟨wr1, rfl, e3⟩ := e2 ho
    have hk : t.GetNvmeWrappers[1]? = some wr1 := by rw [e1]; rfl
    exact ⟨wr1, hk, (hpage 1 wr1 hk e3).trans (congrArg some (hp1 ho))⟩
  have hdin : accessible x.w.mem x.din := by
    intro k hk
    exact h.early _ (din_uses (q := q) (n := r.alloc_len.toNat) (by omega) ⟨Nat.le_add_right _ _, Nat.add_lt_add_left hk _⟩)
  have hend := C79_complete x hg hdin Q.page0 Q.page1 hx0 hx1
  have hres : x.result = some (t.GetNvmeWrappers.map handed) := if_pos hacc
  have hcl : cs.length = (t.GetNvmeWrappers.map handed).length := by
    rw [g2.length, List.length_map, List.length_map]
  have hdl : x.din.len = if q.isIn then Q.len else 0 := by
    change (q.din r.alloc_len.toNat).len = _
    unfold Spec.Request.din
    rw [hl]
    split <;> rfl
  have hdp : x.din.ptr = if q.isIn then q.data else 0 := by
    change (q.din r.alloc_len.toNat).ptr = _
    unfold Spec.Request.din
    split <;> rfl
  unfold outcome at hend
  rw [hres, if_neg (by rw [Option.getD_some]; exact not_not_intro hcl)] at hend
  have hfind : cs.find? (fun c => (cplStatus c).status ≠ 0) = none := by
    rw [List.find?_eq_none]
    intro c hc
    obtain ⟨n, rfl⟩ := hcs c hc
    simp [success_ok]
  rw [show x.cpl = cs from rfl] at hend
  simp only [hfind, hdw, hdl] at hend
  obtain ⟨e1, e2⟩ := hend
  rw [hdp] at e2
  have e1' : c = ⟨.kSuccess, 0⟩ := e1
  refine ⟨?_, (List.range 33).map (E.junk y), by rw [List.length_map, List.length_range], fun a ha => ?_⟩
  · unfold answerOf
    rw [e1', if_neg (by simp), hl]
    rfl
  · have := x.wrote_at hg e2 a (h.early a ha)
    refine this.trans ?_
    change y.mem.put _ _ a = _
    unfold Mem.put
    rw [hmem a ha]

/-- Every step keeps the calls for information commands in order. -/
theorem account_moves [DecidableEq ι] {D cap ident feature} (hT : Target D cap ident feature) {E : Env} (hg : GoodAllocator E)
    {q : ι → Request} (hap : ∀ i j, i ≠ j → ∀ a, (q i).uses a → ¬ (q j).uses a) {tr0 : List Event} {own own' : ι → Nat → Prop}
    {y y' : Sys ι Disk} {i j : ι} (hf : i = j → (q j).Fair) (hI : Inv E q own y) (hy : ∃ evs, y.world.trace = evs ++ tr0) (h : Stepped E D q y i y')
    (hc : Confined q own i y.world.mem y'.world.mem) (hP : Passed own own' i y y') {m0 : Mem} {Q : Query}
    (hQ : query (q j).cdb (nsidOfLun (q j).lun) ident feature = some Q) (hl : Q.len ≤ (q j).dataLen.toNat)
    (hac : account D E (q j) m0 (own j) tr0 Q y.world (y.phase j)) : account D E (q j) m0 (own' j) tr0 Q y'.world (y'.phase j) := by
  have hgr := step_grows hg hI h
  by_cases hj : j = i
  · subst hj
    have hrd := (query_not_rw hQ).1
    cases h with
    | @begin r t w1 hp hB =>
      rw [hp] at hac
      have hk : ∀ a, (q j).uses a → w1.mem a = m0 a := by
        intro a ha
        rw [← hac a ha]
        exact Begin_keeps hg hB.idle.idle hB.call a (hI.used j a ha)
      rw [to_self]
      split
      · rename_i hlong
        rintro ⟨evs, hevs, hg1, hg2⟩
        exfalso
        have hevs : w1.trace = evs ++ tr0 := hevs
        obtain ⟨e0, he0⟩ := hy
        have hacc : Accepted t := query_accepted hB hQ fun e he => ⟨hg1, fun hr => hg2 (by
          have : evs = e ++ e0 := by
            rw [he, he0, ← List.append_assoc] at hevs
            exact (List.append_cancel_right hevs).symm
          rw [this]; exact refused_left hr)⟩
        have := (query_informed hT.controller hg hB hQ hacc).2.len
        omega
      · rename_i hshort
        refine ⟨hk, y.world, w1, hB, hP.fresh hp r t _ _ (by rw [to_self, if_neg hshort]), ⟨[], rfl⟩, hy, hI.used j, fun _ => ?_⟩
        exact ⟨[], y.dev, w1.mem, rfl, .nil, fun _ _ => rfl⟩
    | @submit r t wr todo cs hp =>
      rw [hp] at hac
      obtain ⟨hm, w, w1, ht⟩ := hac
      have hown := hP.kept _ _ _ _ _ _ _ _ hp (to_self y j _ _ _)
      obtain ⟨w', w1', hb⟩ := hI.waiting j r t _ cs hp
      obtain ⟨done', hd1', -⟩ := hb.progress
      have hwr : wr ∈ t.GetNvmeWrappers := by rw [hd1']; simp
      have hacc : Accepted t := (ht.began.accepted_of_mem hwr).1
      obtain ⟨done, s, m, hd1, hd2, hd3⟩ := ht.dialog hacc
      have hinf := (query_informed hT.controller hg ht.began hQ hacc).2.all wr hwr
      obtain ⟨k1, -, -⟩ := submit_effect hT hg (hf rfl) ht.began wr hwr y.dev y.world.mem
      rw [to_self, hown]
      refine ⟨?_, w, w1, ht.began, ht.owned, ht.grown, ht.since, ht.early, fun _ => ?_⟩
      · intro a ha
        rw [← hm a ha]
        refine k1 a (fun h => hrd h.1) fun h => ?_
        have := ht.early a ha
        rw [h.1] at this; cases this
      · refine ⟨done ++ [wr], (D s m (submissionOf wr)).1, (D s m (submissionOf wr)).2.1, by rw [hd1]; simp, ?_, ?_⟩
        · have := hd2.snoc (submissionOf wr)
          rw [List.map_append, List.map_singleton]
          have e : (D y.dev y.world.mem (submissionOf wr)).2.2 = (D s m (submissionOf wr)).2.2 ∧ (D s m (submissionOf wr)).1 = s := by
            rcases hinf with ⟨h1, ⟨h2, -⟩ | h2⟩
            · rw [hT.controller.identify _ _ (submissionOf wr) h1 h2, hT.controller.identify _ _ (submissionOf wr) h1 h2]
              exact ⟨rfl, rfl⟩
            · rw [hT.controller.features _ _ (submissionOf wr) h1 h2, hT.controller.features _ _ (submissionOf wr) h1 h2]
              exact ⟨rfl, rfl⟩
          rw [e.1]
          rw [e.2] at this ⊢
          exact this
        · intro a ha
          change (D y.dev y.world.mem (submissionOf wr)).2.1 a = _
          rcases hinf with ⟨h1, ⟨h2, -⟩ | h2⟩
          · rw [hT.controller.identify _ _ (submissionOf wr) h1 h2, hT.controller.identify _ _ (submissionOf wr) h1 h2]
            simp only
            unfold Mem.put
            rw [hd3 a ha]
          · rw [hT.controller.features _ _ (submissionOf wr) h1 h2, hT.controller.features _ _ (submissionOf wr) h1 h2]
            exact hd3 a ha
    | @complete r t cs c t2 w3 hp hcall =>
      rw [hp] at hac
      obtain ⟨hm, w, w1, ht⟩ := hac
      obtain ⟨w', w1', hb⟩ := hI.waiting j r t _ cs hp
      rw [to_self]
      exact told_complete hT hg hQ hl ht hm hb.stored hcall
    | returned hp =>
      rw [hp] at hac ⊢
      exact hac
  · obtain ⟨o1, o2, -⟩ := hI.others hc hap j hj
    have hph : y'.phase j = y.phase j := by
      cases h with
      | begin => exact to_other y hj _ _ _
      | submit => exact to_other y hj _ _ _
      | complete => exact to_other y hj _ _ _
      | returned => rfl
    rw [hph]
    exact account_other hac o1 (hP.others j hj) o2 hy hgr

theorem Tell.step [DecidableEq ι] {D cap ident feature} (hT : Target D cap ident feature) {E : Env} (hg : GoodAllocator E)
    {q : ι → Request} {m0 : Mem} (hq : Separate q m0) {tr0 : List Event} {own own' : ι → Nat → Prop} {y y' : Sys ι Disk} {i : ι}
    (hI : Inv E q own y) (hL : Tell D E q ident feature own tr0 y) (h : Stepped E D q y i y')
    (hc : Confined q own i y.world.mem y'.world.mem) (hP : Passed own own' i y y') : Tell D E q ident feature own' tr0 y' := by
  refine ⟨?_, fun j Q hQ hl => account_moves hT hg hq.apart (fun _ => hq.fair j) hI hL.grown h hc hP hQ hl (hL.calls j Q hQ hl)⟩
  obtain ⟨e1, he1⟩ := step_grows hg hI h
  obtain ⟨e2, he2⟩ := hL.grown
  exact ⟨e1 ++ e2, by rw [he1, he2, List.append_assoc]⟩

/-- **C98.** Information commands among any other calls, in any interleaving: over a controller which executes Identify and Get Features, and if
the allocator refused no page to any call, every INQUIRY, READ CAPACITY(10), REPORT LUNS and MODE SENSE(6) which `query` covers
and which fits in the data buffer is answered as it would be alone (C82): with GOOD, and its memory is as it was given, except that
the data of `reply` is in the data buffer. -/
theorem C98_isolated [DecidableEq ι] (cap : Nat → Nat) (ident feature) (E : Env) (D : Device Disk) (hg : GoodAllocator E)
    (hS : Storage D cap) (hC : Controller D ident feature) (hT : tidy D) (q : ι → Request) (m : Mem) (hq : Separate q m)
    (d : Disk) (tr : List Event) (sched : List ι) (y : Sys ι Disk) (h : (Sys.start d m tr).run E D q sched = .ok y)
    (hG : ∃ evs, y.world.trace = evs ++ tr ∧ pagesGranted E evs)
    (i : ι) (resp : ScsiToNvmeResponse) (hr : y.phase i = .returned resp) (Q : Query)
    (hQ : query (q i).cdb (nsidOfLun (q i).lun) ident feature = some Q) (hl : Q.len ≤ (q i).dataLen.toNat) :
    resp = ⟨0, Q.len⟩ ∧ ∃ stack : List Byte, stack.length = 33 ∧ ∀ a, (q i).uses a →
      y.world.mem a = m.put (if (q i).isIn then (q i).data else 0) (reply (q i).cdb (nsidOfLun (q i).lun) (if (q i).isIn then Q.len else 0)
        stack Q.page0 Q.page1 (Q.dw0 % 2 ^ 32)) a := by
  have key : ∀ (sched : List ι) (own : ι → Nat → Prop) (x : Sys ι Disk), Inv E q own x → Tell D E q ident feature own tr x →
      x.run E D q sched = .ok y → ∃ own', Tell D E q ident feature own' tr y := by
    intro sched
    induction sched with
    | nil =>
      intro own x _ hL hx
      cases hx
      exact ⟨own, hL⟩
    | cons j js ih =>
      intro own x hI hL hx
      unfold Sys.run at hx
      split at hx
      · cases hx
      · rename_i x1 e
        have hs := stepped_of hI (hq.fair j).short e
        obtain ⟨own1, hI1, hc, hP⟩ := hI.step ⟨hS, hC, hT⟩ hg hq hs
        exact ih own1 x1 hI1 (hL.step ⟨hS, hC, hT⟩ hg hq hI hs hc hP) hx
  obtain ⟨own, hL⟩ := key sched _ _ (Inv.start hq d tr) ⟨⟨[], rfl⟩, fun j Q _ _ a _ => by rw [hq.mem j]; rfl⟩ h
  have := hL.calls i Q hQ hl
  rw [hr] at this
  have := this hG
  rw [hq.mem i] at this
  exact this

/-- The completion of a steady call has no undefined behaviour. -/
theorem account_safe [DecidableEq ι] {D cap ident feature} (hT : Target D cap ident feature) {E : Env} (hg : GoodAllocator E)
    {q : ι → Request} {own : ι → Nat → Prop} {y : Sys ι Disk} {i : ι} {tr0 : List Event} (hI : Inv E q own y)
    (hop : steady (q i).cdb (ident (nsidOfLun (q i).lun) 0))
    (hac : (∃ r t cs, y.phase i = .waiting r t [] cs) → ∀ Q, query (q i).cdb (nsidOfLun (q i).lun) ident feature = some Q → Q.len ≤ (q i).dataLen.toNat →
      ∃ m0, account D E (q i) m0 (own i) tr0 Q y.world (y.phase i)) :
    ∀ r t cs w w1, y.phase i = .waiting r t [] cs →
      Began E (Translation.init (q i).ws) w (q i).ptr (q i).cdb ⟨(q i).data, (q i).dataLen.toNat⟩ (q i).lun r t w1 → Accepted t →
      ¬ Faulty (q i).cdb t y.world ((q i).din r.alloc_len.toNat) := by
  have hC := hT.controller
  intro r t cs w w1 hp hB ha
  refine steady_safe hB ha hop ?_ ?_
  · unfold Spec.Request.din
    split
    · exact Nat.le_refl _
    · exact Nat.zero_le _
  · rintro h1 h2 pg ⟨wr, k1, k2⟩
    obtain ⟨hl, hm, hc, -⟩ := (C49_mode_sense6 _ _ _ _ _ _ _ _ _ _ hB h1).1.choose_spec.2.mp ha
    have hQ : query (q i).cdb (nsidOfLun (q i).lun) ident feature = some ⟨byte (q i).cdb 4, ident (nsidOfLun (q i).lun) 0, [], 0⟩ := by
      unfold query
      rw [h1]
      simp only
      rw [if_pos ⟨hl, hl, hm, hc⟩, if_pos h2]
    have hfits : byte (q i).cdb 4 ≤ (q i).dataLen.toNat := by
      obtain ⟨w', w1', hb⟩ := hI.waiting i r t _ cs hp
      have := hb.fits
      have hl := (query_informed hC hg hB hQ ha).2.len
      simp only at hl
      omega
    obtain ⟨m0, hac⟩ := hac ⟨r, t, cs, hp⟩ _ hQ hfits
    rw [hp] at hac
    obtain ⟨-, w', w1', hTold⟩ := hac
    obtain ⟨done, s, mm, g1, g2, g3⟩ := hTold.dialog ha
    rw [List.append_nil] at g1
    rw [← g1] at g2
    obtain ⟨wr', l, e1, e2, -⟩ := first_commands hB ha (by unfold readsPage; simp [h1, h2])
    have hk : t.GetNvmeWrappers[0]? = some wr := by rw [← List.head?_eq_getElem?]; exact k1
    have hwr : wr' = wr := by
      rw [e1] at hk
      exact Option.some.inj hk
    subst hwr
    have hpg := told_page hT hg hQ hTold ha g2 g3 hk e2
    rw [k2] at hpg
    have hi := ((query_informed hC hg hTold.began hQ ha).2.ends _ _ _ _ _ g2).2.2.2.2.1 (by unfold readsPage; simp [h1, h2])
    rw [hi] at hpg
    exact Option.some.inj hpg

/-- **C98 (safety).** No interleaving of calls which are `steady` for the Identify data of their namespaces (all but some MODE SENSE
commands, see C81) has undefined behaviour. -/
theorem C98_defined [DecidableEq ι] (cap : Nat → Nat) (ident feature) (E : Env) (D : Device Disk) (hg : GoodAllocator E)
    (hS : Storage D cap) (hC : Controller D ident feature) (hT : tidy D) (q : ι → Request) (m : Mem) (hq : Separate q m)
    (hop : ∀ i, steady (q i).cdb (ident (nsidOfLun (q i).lun) 0))
    (d : Disk) (tr : List Event) (sched : List ι) : ∃ y, (Sys.start d m tr).run E D q sched = .ok y := by
  have key : ∀ (own : ι → Nat → Prop) (y : Sys ι Disk), Inv E q own y → Tell D E q ident feature own tr y → ∃ y', y.run E D q sched = .ok y' := by
    induction sched with
    | nil => exact fun _ y _ _ => ⟨y, rfl⟩
    | cons i is ih =>
      intro own y hI hL
      have safe := account_safe ⟨hS, hC, hT⟩ hg hI (hop i) fun _ Q hQ hl => ⟨_, hL.calls i Q hQ hl⟩
      obtain ⟨y1, h1⟩ := hI.defined D hg hq (i := i) safe
      have hs := stepped_of hI (hq.fair i).short h1
      obtain ⟨own1, hI1, hc, hP⟩ := hI.step ⟨hS, hC, hT⟩ hg hq hs
      obtain ⟨y2, h2⟩ := ih own1 y1 hI1 (hL.step ⟨hS, hC, hT⟩ hg hq hI hs hc hP)
      exact ⟨y2, by simp only [Sys.run, h1, h2]⟩
  exact key _ _ (Inv.start hq d tr) ⟨⟨[], rfl⟩, fun j Q _ _ a _ => by rw [hq.mem j]; rfl⟩

/-! ## The INQUIRY of the three calls -/

/-- Only `Begin` asks for pages, and not for READ and WRITE. -/
theorem step_grants [DecidableEq ι] {D : Device Disk} {E : Env} {q : ι → Request} {own : ι → Nat → Prop} {y y' : Sys ι Disk} {i : ι}
    (hI : Inv E q own y) (h : Stepped E D q y i y') (hp : y.phase i ≠ .called ∨ isRw (q i)) :
    ∃ evs, y'.world.trace = evs ++ y.world.trace ∧ ¬ pageRefused evs := by
  cases h with
  | @begin r t w1 hc hB =>
    rcases hp with hp | hp
    · exact absurd hc hp
    · obtain ⟨r', t', hB', -⟩ := rw_begin E (q i).ws y.world (q i).ptr (q i).cdb ⟨(q i).data, (q i).dataLen.toNat⟩ (q i).lun hB.stored hp
      have := hB.call
      rw [hB'.call] at this
      cases this
      exact ⟨[], rfl, fun ⟨_, _, _, h⟩ => by cases h⟩
  | submit hc => exact ⟨[], rfl, fun ⟨_, _, _, h⟩ => by cases h⟩
  | @complete r t cs c t2 w3 hc hcall =>
    obtain ⟨w, w1, hb⟩ := hI.waiting i r t _ cs hc
    obtain ⟨ds, h1, h2⟩ := Complete_grows (began_wf hb.began) hcall
    refine ⟨ds, h1, fun ⟨ps, n, _, h⟩ => ?_⟩
    obtain ⟨a, k, e⟩ := h2 _ h
    cases e
  | returned hc => exact ⟨[], rfl, fun ⟨_, _, _, h⟩ => by cases h⟩

theorem run_grants [DecidableEq ι] {D cap ident feature} (hT : Target D cap ident feature) {E : Env} (hg : GoodAllocator E)
    {q : ι → Request} {m0 : Mem} (hq : Separate q m0) (sched : List ι) {own : ι → Nat → Prop} {y y' : Sys ι Disk}
    (hI : Inv E q own y) (hp : ∀ i, y.phase i ≠ .called ∨ isRw (q i)) (h : y.run E D q sched = .ok y') :
    ∃ evs, y'.world.trace = evs ++ y.world.trace ∧ ¬ pageRefused evs := by
  induction sched generalizing own y with
  | nil => cases h; exact ⟨[], rfl, fun ⟨_, _, _, h⟩ => by cases h⟩
  | cons j js ih =>
    unfold Sys.run at h
    split at h
    · cases h
    · rename_i y1 e
      have hs := stepped_of hI (hq.fair j).short e
      obtain ⟨own1, hI1, -⟩ := hI.step hT hg hq hs
      obtain ⟨e1, he1, n1⟩ := step_grants hI hs (hp j)
      obtain ⟨e2, he2, n2⟩ := ih hI1 (fun i => by
        rcases hp i with hi | hi
        · left
          cases hs with
          | begin hc =>
            by_cases e : i = j
            · subst e; rw [to_self]; split <;> (intro h; cases h)
            · rw [to_other y e]; exact hi
          | submit hc =>
            by_cases e : i = j
            · subst e; rw [to_self]; intro h; cases h
            · rw [to_other y e]; exact hi
          | complete hc =>
            by_cases e : i = j
            · subst e; rw [to_self]; intro h; cases h
            · rw [to_other y e]; exact hi
          | returned hc => exact hi
        · exact .inr hi) h
      exact ⟨e2 ++ e1, by rw [he2, he1, List.append_assoc], by rw [refused_append]; exact fun h => h.elim n2 n1⟩

/-- The INQUIRY begins, the WRITE and the READ run, the INQUIRY ends: it is answered with the data of the controller, for any such data,
and the hypotheses of C98 are met. -/
example (cap : Nat → Nat) (ident : Nat → Nat → List Byte) (feature : Nat → Nat → Nat → Nat)
    (hs : ∀ n c, (ident n c).length = 4096) (d : Disk) :
    ∃ y resp, (Sys.start d demoShared []).run boundedEnv (demoTarget cap ident feature) demoCalls
        (2 :: [0, 2, 1, 0, 2, 1, 0, 1, 2, 0, 1, 0, 1, 2]) = .ok y ∧
      y.phase 2 = .returned resp ∧ resp = ⟨0, 96⟩ ∧ y.world.mem.read 0x38000 36 = some ((standardInquiry (ident 4 0) (ident 0 1)).take 36) ∧
      (standardInquiry (ident 4 0) (ident 0 1)).length = 36 := by
  have hS := demoTarget_storage cap ident feature
  have hC := demoTarget_controller cap ident feature hs
  have hT := demoTarget_tidy cap ident feature
  have hop : ∀ i page, steady (demoCalls i).cdb page := fun i => steady_of (demoCalls_blocks i).2.1
  obtain ⟨y, h⟩ := C98_defined cap ident feature boundedEnv _ boundedEnv_good hS hC hT demoCalls demoShared demoCalls_separate (fun i => hop i _) d []
    (2 :: [0, 2, 1, 0, 2, 1, 0, 1, 2, 0, 1, 0, 1, 2])
  obtain ⟨resp, hp⟩ := C96_wait_free _ _ _ _ _ _ _ _ h 2 (by decide)
  have hG : ∃ evs, y.world.trace = evs ++ [] ∧ pagesGranted boundedEnv evs := by
    have h' := h
    unfold Sys.run at h'
    split at h'
    · cases h'
    · rename_i y1 e
      have hI := Inv.start demoCalls_separate (E := boundedEnv) d []
      have hst := stepped_of hI (demoCalls_separate.fair 2).short e
      obtain ⟨own1, hI1, -⟩ := hI.step ⟨hS, hC, hT⟩ boundedEnv_good demoCalls_separate hst
      have h1 : (y1.phase 2 ≠ .called) ∧ ∃ evs, y1.world.trace = evs ∧ pagesGranted boundedEnv evs := by
        cases hst with
        | @begin r t w1 hc hB =>
          obtain ⟨r', t', w1', hB', hacc⟩ := began_of boundedEnv Demo.ws ⟨demoShared, []⟩ 0x30000 Demo.inquiry ⟨0x38000, 8192⟩ 3
            (fun _ t' => Accepted t') (by decide +kernel) (by decide +kernel)
          have hcall := hB.call
          rw [show (demoCalls 2).ws = Demo.ws from rfl] at hcall
          have hcall' := hB'.call.symm.trans hcall
          simp only [Except.ok.injEq, Prod.mk.injEq] at hcall'
          obtain ⟨⟨rfl, rfl⟩, rfl⟩ := hcall'
          obtain ⟨evs, e1, e2⟩ := C33_inquiry_accepted _ _ _ _ _ _ _ _ _ _ hB' (by decide)
          rw [List.append_nil] at e1
          refine ⟨?_, evs, e1, (e2.mp hacc).2⟩
          rw [to_self]
          split <;> (intro h; cases h)
        | submit hc => cases hc
        | complete hc => cases hc
        | returned hc => cases hc
      obtain ⟨h2, evs, e3, e4, e5⟩ := h1
      obtain ⟨evs', e6, e7⟩ := run_grants ⟨hS, hC, hT⟩ boundedEnv_good demoCalls_separate _ hI1 (fun i => by
        match i with
        | 0 => exact .inr (by unfold isRw; decide)
        | 1 => exact .inr (by unfold isRw; decide)
        | 2 => exact .inl h2) h'
      refine ⟨evs' ++ evs, by rw [List.append_nil, e6, e3], e4, ?_⟩
      rw [refused_append]
      exact fun h => h.elim e7 e5
  have hlen : (standardInquiry (ident 4 0) (ident 0 1)).length = 36 := C34_length _ _ (hs 0 1)
  obtain ⟨g1, stack, -, g2⟩ := C98_isolated cap ident feature boundedEnv _ boundedEnv_good hS hC hT demoCalls demoShared demoCalls_separate d [] _ y h
    hG 2 resp hp ⟨96, ident 4 0, ident 0 1, 0⟩ rfl (by decide : 96 ≤ (8192 : U16).toNat)
  refine ⟨y, resp, h, hp, g1, ?_, hlen⟩
  have hu : ∀ k, k < 36 → y.world.mem (0x38000 + k) = demoShared.put 0x38000 (standardInquiry (ident 4 0) (ident 0 1)) (0x38000 + k) := by
    intro k hk
    rw [g2 (0x38000 + k) (.inr (.inr ⟨Nat.le_add_right _ _, Nat.add_lt_add_left (show k < 8192 by omega) _⟩))]
    have hr : reply Demo.inquiry 4 96 stack (ident 4 0) (ident 0 1) 0 = whole 96 (standardInquiry (ident 4 0) (ident 0 1)) := rfl
    have hw : whole 96 (standardInquiry (ident 4 0) (ident 0 1)) = standardInquiry (ident 4 0) (ident 0 1) := by
      unfold whole
      rw [if_pos (by omega)]
    exact congrArg (fun l => demoShared.put 0x38000 l (0x38000 + k)) (hr.trans hw)
  rw [List.take_of_length_le (by omega), ← hlen, ← read_put_self (m := demoShared) (p := 0x38000)]
  exact read_congr fun k hk => hu k (by omega)

end Scsi2Nvme
