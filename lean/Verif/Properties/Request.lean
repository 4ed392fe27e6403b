import Verif.Spec.Request
import Verif.Properties.Driver
import Verif.Properties.Geometry
/-!
# C110, C111, C112: the requests of the driver in detail
-/

namespace Scsi2Nvme
open Spec Engine Driver

variable {β : Type}

/-! ## The two models of the driver -/

/-- What the model without the details of the requests knows of the state. -/
def roughly (st : FullState β) : State β := ⟨st.blk, st.reqs⟩

/-- The request the driver makes of a submission. -/
def requestOf (sub : Submission) : Rq :=
  ⟨if nvme_is_write sub.cmd then .drvOut else .drvIn, 60, if sub.buffer ≠ 0 ∧ sub.bufflen ≠ 0 then some (sub.buffer, sub.bufflen) else none⟩

/-- One submission in the model with requests: as in the model without, and the requests executed are recorded. -/
theorem full_step (HZ : Nat) (L : RequestLayer β) (st : FullState β) (m : Mem) (sub : Submission) :
    (roughly (fullDevice HZ L st m sub).1, (fullDevice HZ L st m sub).2) = device (forget L) (roughly st) m sub ∧
    (((fullDevice HZ L st m sub).1.done = st.done ∧ (fullDevice HZ L st m sub).2.2 = {}) ∨
      ∃ b, let y := L.execute b m sub (requestOf sub) {}
        (fullDevice HZ L st m sub).1.done = ⟨sub, requestOf sub, y.status, y.result, printStatus y.status⟩ :: st.done ∧
        (fullDevice HZ L st m sub).2.2 = y.special) := by
  have key : ∀ q : Bool, q = (if sub.is_admin then L.adminQueue else L.ioQueue) →
      fullDevice HZ L st m sub = ((nvme_submit_user_cmd' HZ L q st m sub {} kTimeout).state,
        (nvme_submit_user_cmd' HZ L q st m sub {} kTimeout).mem, (nvme_submit_user_cmd' HZ L q st m sub {} kTimeout).cpl) ∧
      device (forget L) (roughly st) m sub = ((nvme_submit_user_cmd (forget L) q (roughly st) m sub {}).state,
        (nvme_submit_user_cmd (forget L) q (roughly st) m sub {}).mem, (nvme_submit_user_cmd (forget L) q (roughly st) m sub {}).cpl) := by
    intro q hq
    unfold fullDevice submit_admin_command' submit_io_command' device submit_admin_command submit_io_command
    rw [hq]
    split <;> exact ⟨rfl, rfl⟩
  obtain ⟨k1, k2⟩ := key _ rfl
  rw [k1, k2]
  clear k1 k2 key
  generalize (if sub.is_admin then L.adminQueue else L.ioQueue) = q
  unfold nvme_submit_user_cmd' nvme_submit_user_cmd
  cases q with
  | false => exact ⟨rfl, .inl ⟨rfl, rfl⟩⟩
  | true =>
    simp only [Bool.true_eq_false, if_false]
    have ea : (forget L).allocRequest (roughly st).blk sub = L.allocRequest st.blk (if nvme_is_write sub.cmd then .drvOut else .drvIn) := rfl
    rw [ea]
    cases ha : L.allocRequest st.blk (if nvme_is_write sub.cmd then .drvOut else .drvIn) with
    | error e => exact ⟨rfl, .inl ⟨rfl, rfl⟩⟩
    | ok b =>
      simp only
      have et : (if kTimeout ≠ 0 then kTimeout else 60 * HZ) = 60 := rfl
      by_cases hb : sub.buffer ≠ 0 ∧ sub.bufflen ≠ 0
      · rw [if_pos hb, if_pos hb]
        have hr : requestOf sub = ⟨if nvme_is_write sub.cmd then .drvOut else .drvIn, 60, some (sub.buffer, sub.bufflen)⟩ := by
          unfold requestOf; rw [if_pos hb]
        have ex : ∀ b, (forget L).execute b m sub =
            ((L.execute b m sub (requestOf sub) {}).blk, (L.execute b m sub (requestOf sub) {}).mem, (L.execute b m sub (requestOf sub) {}).special) := by
          intro b
          unfold forget
          simp only [if_pos hb, et, hr]
        have em : (forget L).mapKern b sub.buffer sub.bufflen = L.mapKern b sub.buffer sub.bufflen := rfl
        rw [em]
        by_cases hm : (L.mapKern b sub.buffer sub.bufflen).1 ≠ 0
        · rw [if_pos hm, if_pos hm]
          exact ⟨rfl, .inl ⟨rfl, rfl⟩⟩
        · rw [if_neg hm, if_neg hm]
          have ed : (forget L).disk = L.disk := rfl
          rw [ed]
          by_cases hd : L.disk = false
          · rw [if_pos hd, if_pos hd]
            exact ⟨rfl, .inl ⟨rfl, rfl⟩⟩
          · rw [if_neg hd, if_neg hd]
            unfold execute_request
            simp only [ex, et, ← hr]
            exact ⟨rfl, .inr ⟨_, rfl, rfl⟩⟩
      · rw [if_neg hb, if_neg hb]
        have hr : requestOf sub = ⟨if nvme_is_write sub.cmd then .drvOut else .drvIn, 60, none⟩ := by
          unfold requestOf; rw [if_neg hb]
        have ex : ∀ b, (forget L).execute b m sub =
            ((L.execute b m sub (requestOf sub) {}).blk, (L.execute b m sub (requestOf sub) {}).mem, (L.execute b m sub (requestOf sub) {}).special) := by
          intro b
          unfold forget
          simp only [if_neg hb, et, hr]
        unfold execute_request
        simp only [ex, et, ← hr]
        exact ⟨rfl, .inr ⟨_, rfl, rfl⟩⟩

/-- The two models are the same, as far as the model without the details of the requests goes: what is said elsewhere about
`device B` for every `B` holds of this driver. -/
theorem C110_same (HZ : Nat) (L : RequestLayer β) (st : FullState β) (m : Mem) (sub : Submission) :
    roughly (fullDevice HZ L st m sub).1 = (device (forget L) (roughly st) m sub).1 ∧
    (fullDevice HZ L st m sub).2 = (device (forget L) (roughly st) m sub).2 := by
  have := (full_step HZ L st m sub).1
  rw [← this]
  exact ⟨rfl, rfl⟩

/-! ## A dialog with the driver -/

/-- What was executed in a dialog: requests of the submissions, in order; and every completion which is not blank is that
of an executed request. -/
theorem full_dialog (HZ : Nat) (L : RequestLayer β) {st m subs cs st' m'} (h : Dialog (fullDevice HZ L) st m subs cs st' m') :
    ∃ es, st'.done = es ++ st.done ∧ (∀ e ∈ es, e.sub ∈ subs ∧ e.rq = requestOf e.sub ∧ e.said = printStatus e.status ∧
        ∃ b m, (L.execute b m e.sub e.rq {}).status = e.status ∧ (L.execute b m e.sub e.rq {}).special ∈ cs) ∧
      (∀ c ∈ cs, c = {} ∨ ∃ e ∈ es, ∃ b m, (L.execute b m e.sub e.rq {}).status = e.status ∧ c = (L.execute b m e.sub e.rq {}).special) ∧
      (es.reverse.map (·.sub)).Sublist subs := by
  induction h with
  | nil => exact ⟨[], rfl, by simp, by simp, .slnil⟩
  | @cons st m sub subs cs st' m' h ih =>
    obtain ⟨es, e1, e2, e3, e4⟩ := ih
    rcases (full_step HZ L st m sub).2 with ⟨k1, k2⟩ | ⟨b, k1, k2⟩
    · refine ⟨es, by rw [e1, k1], ?_, ?_, e4.cons _⟩
      · intro e he
        obtain ⟨i1, i2, i3, b, m, i4, i5⟩ := e2 e he
        exact ⟨List.mem_cons_of_mem _ i1, i2, i3, b, m, i4, List.mem_cons_of_mem _ i5⟩
      · intro c hc
        rcases List.mem_cons.mp hc with rfl | hc
        · exact .inl k2
        · exact e3 c hc
    · let y := L.execute b m sub (requestOf sub) {}
      let e0 : Execution := ⟨sub, requestOf sub, y.status, y.result, printStatus y.status⟩
      refine ⟨es ++ [e0], by rw [e1, k1, List.append_assoc]; rfl, ?_, ?_, ?_⟩
      · intro e he
        rcases List.mem_append.mp he with he | he
        · obtain ⟨i1, i2, i3, b, m, i4, i5⟩ := e2 e he
          exact ⟨List.mem_cons_of_mem _ i1, i2, i3, b, m, i4, List.mem_cons_of_mem _ i5⟩
        · rw [List.mem_singleton] at he
          subst he
          exact ⟨List.mem_cons_self .., rfl, rfl, b, m, rfl, by rw [k2]; exact List.mem_cons_self ..⟩
      · intro c hc
        rcases List.mem_cons.mp hc with rfl | hc
        · exact .inr ⟨e0, by simp, b, m, rfl, k2⟩
        · rcases e3 c hc with h | ⟨e, he, h⟩
          · exact .inl h
          · exact .inr ⟨e, by simp [he], h⟩
      · simp only [List.reverse_append, List.reverse_cons, List.reverse_nil, List.nil_append, List.map_append, List.map_cons, List.map_nil,
          List.singleton_append]
        exact List.Sublist.cons_cons _ e4

/-- The status the engine returns is 0 exactly if the command was accepted, its length fits, and all completions are successful. -/
theorem served_good {σ : Type} (x : Served σ) : ∃ r t1 w1, Began x.E (Translation.init x.ws) x.w x.ptr x.cdb x.buf x.lun r t1 w1 ∧
    ((x.resp.return_code ≠ 0 ∧ x.dataLen.toNat < r.alloc_len.toNat ∧ x.s' = x.s) ∨
     (r.alloc_len.toNat ≤ x.dataLen.toNat ∧ ∃ cs m, Dialog x.D x.s w1.mem (t1.GetNvmeWrappers.map submissionOf) cs x.s' m ∧
       (x.resp.return_code = 0 ↔ Accepted t1 ∧ ∀ c ∈ cs, cplOk c))) := by
  obtain ⟨r, t1, w1, hB, -, hh⟩ := served_began x
  refine ⟨r, t1, w1, hB, ?_⟩
  rcases hh with ⟨hl, hr, hs, -⟩ | ⟨hl, cs, m, c, t2, hD, hc, hok, hr⟩
  · exact .inl ⟨by rw [hr]; decide, hl, hs⟩
  · refine .inr ⟨hl, cs, m, hD, ?_⟩
    have hwf : Wf t1 := by
      rcases Begin_inv x.E _ (Idle_init x.ws) x.w _ _ _ _ _ _ hB.call with ⟨-, -, rfl, -⟩ | ⟨-, bs, p, w', -, -, -, hcnt, he, -, rfl, -⟩
      · exact ⟨(Idle_init x.ws).wf.count, (Idle_init x.ws).wf.pages, fun _ => (Idle_init x.ws).count⟩
      · exact finishT_wf (Idle_init x.ws).clean hcnt he
    rw [hr]
    simp only
    rcases Complete_inv x.E t1 hwf _ _ _ _ _ _ _ hc with ⟨-, e, -⟩ | ⟨-, -, w2, -, hh⟩
    · rw [e] at hok; cases hok
    · rcases hh with ⟨-, e, -⟩ | ⟨-, hp, e, -⟩ | ⟨-, hp, s, hf, e, -⟩ | ⟨-, hp, hf, e, -⟩
      · rw [e] at hok; cases hok
      · rw [e]
        exact ⟨fun h => absurd h (by decide), fun h => absurd h.1 hp⟩
      · obtain ⟨pre, d, post, h4, -, h6, h7⟩ := firstError_some _ _ hf
        rw [e, h7]
        simp only
        constructor
        · intro h
          exact absurd ((good_iff d.sct d.sc).mp (BitVec.eq_of_toNat_eq h)) h6
        · intro h
          exact absurd (h.2 d (by rw [h4]; simp)) h6
      · rw [e]
        exact ⟨fun _ => ⟨hp, (firstError_none _).mp hf⟩, fun _ => rfl⟩

/-! ## C110 -/

/-- **C110**, full statement (false, see `C110_refuted`): if the engine returns GOOD, the device reported success for every
request executed during the call. -/
def C110_statement : Prop := ∀ (β : Type) (HZ : Nat) (L : RequestLayer β) (x : Served (FullState β)), x.D = fullDevice HZ L →
  x.resp.return_code = 0 → ∀ es, duringCall x es → ∀ e ∈ es, e.status = 0

/-- **C110 (partial).** It holds if the block layer writes what the device answers where `special` points.  Missing: a block
layer which reports in `struct nvme_request` only, see `C110_blind`. -/
theorem C110_reported_partial (HZ : Nat) (L : RequestLayer β) (hL : Echoing L) (x : Served (FullState β)) (hD : x.D = fullDevice HZ L)
    (h0 : x.resp.return_code = 0) (es : List Execution) (hes : duringCall x es) : ∀ e ∈ es, e.status = 0 := by
  intro e he
  obtain ⟨r, t1, w1, -, h⟩ := served_good x
  rcases h with ⟨h, -⟩ | ⟨-, cs, m, hd, hg⟩
  · exact absurd h0 h
  · rw [hD] at hd
    obtain ⟨es', k1, k2, -, -⟩ := full_dialog HZ L hd
    have : es = es' := List.append_cancel_right (hes.symm.trans k1)
    subst this
    obtain ⟨-, -, -, b, m, i1, i2⟩ := k2 e he
    rw [← i1]
    exact (hL b m e.sub e.rq {}).mp ((hg.mp h0).2 _ i2)

/-- **C110**, what happens otherwise: if the block layer writes nothing where `special` points, the engine returns GOOD for
every command which is accepted and whose allocation length fits in the data buffer, whatever the device answers. -/
theorem C110_blind (HZ : Nat) (L : RequestLayer β) (hL : Mute L) (x : Served (FullState β)) (hD : x.D = fullDevice HZ L) :
    x.resp.return_code = 0 ↔ ∃ r t1 w1, (Translation.init x.ws).Begin x.E ⟨x.ptr, x.cdb.length⟩ x.buf x.lun x.w = .ok ((r, t1), w1) ∧
      r.alloc_len.toNat ≤ x.dataLen.toNat ∧ Accepted t1 := by
  obtain ⟨r, t1, w1, hB, h⟩ := served_good x
  rcases h with ⟨h, hl, -⟩ | ⟨hl, cs, m, hd, hg⟩
  · refine ⟨fun h0 => absurd h0 h, ?_⟩
    rintro ⟨r', t', w', hb, hl', -⟩
    rw [hB.call] at hb
    cases hb
    omega
  · rw [hg]
    rw [hD] at hd
    obtain ⟨es, -, -, k3, -⟩ := full_dialog HZ L hd
    constructor
    · intro h
      exact ⟨r, t1, w1, hB.call, hl, h.1⟩
    · rintro ⟨r', t', w', hb, -, ha⟩
      rw [hB.call] at hb
      cases hb
      refine ⟨ha, fun c hc => ?_⟩
      rcases k3 c hc with rfl | ⟨e, -, b, m, -, rfl⟩
      · exact ⟨rfl, rfl⟩
      · rw [hL]; exact ⟨rfl, rfl⟩

/-- **C110.** The message "Linux error code" is never printed: an error reported in `struct nvme_request` is always called an
NVMe error code. -/
theorem C110_message (HZ : Nat) (L : RequestLayer β) (x : Served (FullState β)) (hD : x.D = fullDevice HZ L)
    (es : List Execution) (hes : duringCall x es) : ∀ e ∈ es, e.said = if e.status = 0 then .success else .nvmeError e.status := by
  intro e he
  obtain ⟨r, t1, w1, -, h⟩ := served_good x
  rcases h with ⟨-, -, h⟩ | ⟨-, cs, m, hd, -⟩
  · unfold duringCall at hes
    rw [h] at hes
    have : es = [] := List.append_cancel_right (hes.symm.trans (List.nil_append _).symm)
    rw [this] at he
    cases he
  · rw [hD] at hd
    obtain ⟨es', k1, k2, -, -⟩ := full_dialog HZ L hd
    have : es = es' := List.append_cancel_right (hes.symm.trans k1)
    subst this
    rw [(k2 e he).2.2.1]
    unfold printStatus
    rw [if_neg (show ¬ (e.status.toNat : Int) < 0 by omega)]

/-! ## C111 -/

theorem write_bit (cmd : List Byte) : nvme_is_write cmd = decide (byte cmd 0 % 2 = 1) := by
  unfold nvme_is_write byte
  cases cmd with
  | nil => rfl
  | cons b bs =>
    simp only [List.headD_cons, List.getD_cons_zero]
    rw [BitVec.getLsbD]
    simp [Nat.testBit_zero]

theorem built_bits {lun : U64} {buf : Span} {opc : Nat} {bs : List Byte} {adm : Bool} (h : Built lun buf opc bs adm) :
    transferBits bs ≠ 3 := by
  unfold transferBits
  cases h with
  | read => unfold readSqe; rw [byte0_sqe _ _ _ _ _ _ (by decide)]; decide
  | write => unfold writeSqe; rw [byte0_sqe _ _ _ _ _ _ (by decide)]; decide
  | writeHuge => rw [byte0_sqe _ _ _ _ _ _ (by decide)]; decide
  | flush => unfold flushSqe; rw [byte0_sqe _ _ _ _ _ _ (by decide)]; decide
  | compare => unfold compareSqe; rw [byte0_sqe _ _ _ _ _ _ (by decide)]; decide
  | identifyNs => unfold identifySqe; rw [byte0_sqe _ _ _ _ _ _ (by decide)]; decide
  | identifyCtrl => unfold identifySqe; rw [byte0_sqe _ _ _ _ _ _ (by decide)]; decide
  | identifyList => unfold identifySqe; rw [byte0_sqe _ _ _ _ _ _ (by decide)]; decide
  | getFeatures => unfold getFeaturesSqe; rw [byte0_sqe _ _ _ _ _ _ (by decide)]; decide

/-- What was executed during a call of the engine: requests of the commands `GetNvmeWrappers()` returned, in their order. -/
theorem full_executed (HZ : Nat) (L : RequestLayer β) (x : Served (FullState β)) (hD : x.D = fullDevice HZ L)
    (es : List Execution) (hes : duringCall x es) : ∃ r t1 w1,
    Began x.E (Translation.init x.ws) x.w x.ptr x.cdb x.buf x.lun r t1 w1 ∧
      (es.reverse.map (·.sub)).Sublist (t1.GetNvmeWrappers.map submissionOf) ∧ ∀ e ∈ es, e.rq = requestOf e.sub := by
  obtain ⟨r, t1, w1, hB, h⟩ := served_good x
  refine ⟨r, t1, w1, hB, ?_⟩
  rcases h with ⟨-, -, h⟩ | ⟨-, cs, m, hd, -⟩
  · unfold duringCall at hes
    rw [h] at hes
    have : es = [] := List.append_cancel_right (hes.symm.trans (List.nil_append _).symm)
    rw [this]
    exact ⟨List.nil_sublist _, by simp⟩
  · rw [hD] at hd
    obtain ⟨es', k1, k2, -, k4⟩ := full_dialog HZ L hd
    have : es = es' := List.append_cancel_right (hes.symm.trans k1)
    subst this
    exact ⟨k4, fun e he => (k2 e he).2.1⟩

/-- **C111.** Every request executed during a call of the engine (for a command other than UNMAP) carries a command which does
not transfer data both ways; the request is an output request exactly if the command transfers data from the host to the
controller; and the buffer mapped is the one whose address is in bytes 24-31 of the command, with the length given by the
wrapper, unless one of the two is 0. -/
theorem C111_requests (HZ : Nat) (L : RequestLayer β) (x : Served (FullState β)) (hD : x.D = fullDevice HZ L)
    (hop : byte x.cdb 0 ≠ 0x42) (es : List Execution) (hes : duringCall x es) : ∀ e ∈ es,
    transferBits e.sub.cmd ≠ 3 ∧ (e.rq.op = .drvOut ↔ transferBits e.sub.cmd = 1) ∧ e.sub.buffer.toNat = leAt e.sub.cmd 24 8 ∧
    e.rq.bio = if e.sub.buffer = 0 ∨ e.sub.bufflen = 0 then none else some (e.sub.buffer, e.sub.bufflen) := by
  intro e he
  obtain ⟨r, t1, w1, hB, hsub, hrq⟩ := full_executed HZ L x hD es hes
  have hmem : e.sub ∈ es.reverse.map (·.sub) := List.mem_map.mpr ⟨e, List.mem_reverse.mpr he, rfl⟩
  obtain ⟨wr, hwr, hs⟩ := List.mem_map.mp (hsub.subset hmem)
  obtain ⟨ha, hne⟩ := hB.accepted_of_mem hwr
  have hbits := built_bits (built hB hne hop ha wr hwr)
  have hcmd : e.sub.cmd = wr.cmd.toBytes := by rw [← hs]; rfl
  rw [← hcmd] at hbits
  refine ⟨hbits, ?_, ?_, ?_⟩
  · rw [hrq e he]
    unfold requestOf
    rw [write_bit]
    unfold transferBits at hbits ⊢
    simp only [decide_eq_true_eq]
    by_cases h : byte e.sub.cmd 0 % 2 = 1
    · rw [if_pos h]
      exact ⟨fun _ => by omega, fun _ => rfl⟩
    · rw [if_neg h]
      constructor
      · intro h'; cases h'
      · intro h'; exact absurd (by omega) h
  · rw [← hs]
    exact (prp1_bytes wr.cmd).symm
  · rw [hrq e he]
    unfold requestOf
    simp only
    by_cases h : e.sub.buffer = 0 ∨ e.sub.bufflen = 0
    · rw [if_pos h, if_neg (fun hh => h.elim hh.1 hh.2)]
    · rw [if_neg h, if_pos ⟨fun hh => h (.inl hh), fun hh => h (.inr hh)⟩]

/-- A single request executed for the only command of a READ or WRITE. -/
theorem full_single {HZ : Nat} {L : RequestLayer β} {x : Served (FullState β)} (hD : x.D = fullDevice HZ L)
    {es : List Execution} (hes : duringCall x es) (hdata : x.data % 2 ^ 64 ≠ 0) (op : Nat) (hop2 : op < 256) (len : Nat)
    (hlen : 0 < len) (hlt : len < 2 ^ 32)
    (hone : ∀ r t1 w1, Began x.E (Translation.init x.ws) x.w x.ptr x.cdb x.buf x.lun r t1 w1 → Accepted t1 →
      ∃ wr nsid a b c, t1.GetNvmeWrappers = [wr] ∧ wr.cmd.toBytes = sqe op nsid (prpOf x.buf) a b c ∧ wr.buffer_len.toNat = len) :
    es.length ≤ 1 ∧ ∀ e ∈ es, e.rq.op = (if op % 2 = 1 then .drvOut else .drvIn) ∧
      ∃ p n, e.rq.bio = some (p, n) ∧ p.toNat = x.data % 2 ^ 64 ∧ n.toNat = len := by
  obtain ⟨r, t1, w1, hB, hsub, hrq⟩ := full_executed HZ L x hD es hes
  have hl : es.length ≤ t1.GetNvmeWrappers.length := by
    have := hsub.length_le
    simpa using this
  refine ⟨?_, fun e he => ?_⟩
  · cases hw : t1.GetNvmeWrappers with
    | nil => rw [hw] at hl; exact Nat.le_succ_of_le hl
    | cons wr l =>
      have ha := (hB.accepted_of_mem (x := wr) (by rw [hw]; simp)).1
      obtain ⟨wr', -, -, -, -, hc, -⟩ := hone r t1 w1 hB ha
      rw [hc] at hl
      exact hl
  have hmem : e.sub ∈ es.reverse.map (·.sub) := List.mem_map.mpr ⟨e, List.mem_reverse.mpr he, rfl⟩
  obtain ⟨wr, hwr, hs⟩ := List.mem_map.mp (hsub.subset hmem)
  obtain ⟨ha, -⟩ := hB.accepted_of_mem hwr
  have hcmd : e.sub.cmd = wr.cmd.toBytes := by rw [← hs]; rfl
  have hbuf : e.sub.buffer.toNat = leAt e.sub.cmd 24 8 := by rw [← hs]; exact (prp1_bytes wr.cmd).symm
  have hbl : e.sub.bufflen = wr.buffer_len := by rw [← hs]; rfl
  obtain ⟨wr', nsid, a, b, c, hc, hb, hn⟩ := hone r t1 w1 hB ha
  rw [hc, List.mem_singleton] at hwr
  subst hwr
  have hp : leAt (sqe op nsid (prpOf x.buf) a b c) 24 8 = prpOf x.buf := sqe_prp1 _ _ _ _ _ _ (Nat.mod_lt _ (by decide))
  rw [hcmd, hb, hp] at hbuf
  have hpd : prpOf x.buf = x.data % 2 ^ 64 := rfl
  rw [hpd] at hbuf
  rw [hrq e he]
  unfold requestOf
  rw [write_bit, hcmd, hb, byte0_sqe _ _ _ _ _ _ hop2]
  simp only [decide_eq_true_eq]
  refine ⟨trivial, e.sub.buffer, e.sub.bufflen, if_pos ⟨?_, ?_⟩, hbuf, by rw [hbl]; exact hn⟩
  · intro h0
    rw [h0] at hbuf
    exact hdata hbuf.symm
  · intro h0
    rw [h0] at hbl
    rw [← hbl] at hn
    have : (0 : Nat) = len := hn
    omega

/-- **C111.** For a READ at most one request is executed: an input request mapping as many bytes of the data buffer as the
blocks have. -/
theorem C111_read (HZ : Nat) (L : RequestLayer β) (x : Served (FullState β)) (hD : x.D = fullDevice HZ L)
    (hop : isRead (byte x.cdb 0)) (rw_ : Rw) (hdec : decodeRw x.cdb = some rw_) (hdata : x.data % 2 ^ 64 ≠ 0)
    (es : List Execution) (hes : duringCall x es) : es.length ≤ 1 ∧ ∀ e ∈ es, e.rq.op = .drvIn ∧
      ∃ p n, e.rq.bio = some (p, n) ∧ p.toNat = x.data % 2 ^ 64 ∧ n.toNat = 4096 * rw_.blocks := by
  have hlt := x.dataLen.isLt
  by_cases hbl : 1 ≤ rw_.blocks ∧ rw_.blocks * 4096 ≤ x.dataLen.toNat
  · refine full_single hD hes hdata 2 (by decide) (4096 * rw_.blocks) (by omega) (by omega) fun r t1 w1 hB ha => ?_
    obtain ⟨rw', pract, prchk, wr, hd, -, hc, hb, -, hn, -⟩ := C18_read _ _ _ _ _ _ _ _ _ _ hB hop ha
    rw [hdec] at hd
    cases hd
    exact ⟨wr, _, _, _, _, hc, hb, by rw [hn, Nat.mul_comm]⟩
  · obtain ⟨r, t1, w1, hB, hsub, -⟩ := full_executed HZ L x hD es hes
    have hno : t1.GetNvmeWrappers = [] := by
      cases hw : t1.GetNvmeWrappers with
      | nil => rfl
      | cons wr l =>
        exfalso
        have ha := (hB.accepted_of_mem (x := wr) (by rw [hw]; simp)).1
        obtain ⟨rw', hd, -, h1, -, h2⟩ := (C19_read_accepted _ _ _ _ _ _ _ _ _ _ hB hop).mp ha
        rw [hdec] at hd
        cases hd
        exact hbl ⟨h1, h2⟩
    rw [hno] at hsub
    have : es = [] := by
      have := hsub.length_le
      simp at this
      exact this
    rw [this]
    exact ⟨Nat.zero_le _, by simp⟩

/-- **C111.** For a WRITE at most one request is executed: an output request mapping the whole data buffer. -/
theorem C111_write (HZ : Nat) (L : RequestLayer β) (x : Served (FullState β)) (hD : x.D = fullDevice HZ L)
    (hop : isWrite (byte x.cdb 0)) (hdata : x.data % 2 ^ 64 ≠ 0) (hlen : x.dataLen ≠ 0)
    (es : List Execution) (hes : duringCall x es) : es.length ≤ 1 ∧ ∀ e ∈ es, e.rq.op = .drvOut ∧
      ∃ p n, e.rq.bio = some (p, n) ∧ p.toNat = x.data % 2 ^ 64 ∧ n.toNat = x.dataLen.toNat := by
  have hlt := x.dataLen.isLt
  have hpos : 0 < x.dataLen.toNat := by
    rcases Nat.eq_zero_or_pos x.dataLen.toNat with h | h
    · exact absurd (BitVec.eq_of_toNat_eq h) hlen
    · exact h
  refine full_single hD hes hdata 1 (by decide) x.dataLen.toNat hpos (by omega) fun r t1 w1 hB ha => ?_
  obtain ⟨rw', pract, prchk, wr, -, -, -, hc, hb, -, hn, -⟩ := C21_write_all _ _ _ _ _ _ _ _ _ _ hB hop ha
  have hn' : wr.buffer_len.toNat = x.dataLen.toNat := by
    rw [hn]
    exact Nat.mod_eq_of_lt (show x.dataLen.toNat < 2 ^ 32 by omega)
  split at hb
  · exact ⟨wr, _, _, _, _, hc, hb, hn'⟩
  · exact ⟨wr, _, _, _, _, hc, hb, hn'⟩

/-! ## C112 -/

/-- **C112**, full statement (false, see `C112_refuted`): the device is given 60 seconds for every request, whatever the
length of a jiffy. -/
def C112_statement : Prop := ∀ (β : Type) (HZ : Nat) (L : RequestLayer β) (x : Served (FullState β)), 0 < HZ → x.D = fullDevice HZ L →
  ∀ es, duringCall x es → ∀ e ∈ es, e.rq.timeout = 60 * HZ

/-- **C112 (partial).** The device is given 60 jiffies for every request, that is 60 seconds only if the kernel counts one
jiffy per second.  Missing: any other kernel, for which the time is 60 / HZ seconds. -/
theorem C112_timeout_partial (HZ : Nat) (L : RequestLayer β) (x : Served (FullState β)) (hD : x.D = fullDevice HZ L)
    (es : List Execution) (hes : duringCall x es) : ∀ e ∈ es, e.rq.timeout = 60 ∧ (e.rq.timeout = 60 * HZ ↔ HZ = 1) := by
  intro e he
  obtain ⟨r, t1, w1, -, -, hrq⟩ := full_executed HZ L x hD es hes
  have : e.rq.timeout = 60 := by rw [hrq e he]; rfl
  exact ⟨this, by omega⟩

/-! ## Concrete cases -/

/-- A block layer in which every request is executed, reports status 6 (internal error), and writes nothing where `special` points. -/
def muteLayer : RequestLayer Unit where
  adminQueue := true
  ioQueue := true
  disk := true
  allocRequest := fun _ _ => .ok ()
  mapKern := fun _ _ _ => (0, ())
  freeRequest := fun _ => ()
  execute := fun b m _ _ c => ⟨b, m, c, 6, 0⟩

theorem muteLayer_mute : Mute muteLayer := fun _ _ _ _ _ => rfl

/-- One that writes what it reports. -/
def echoLayer : RequestLayer Unit := { muteLayer with execute := fun b m _ _ _ => ⟨b, m, Demo.cpl 0 6, 6, 0⟩ }

theorem echoLayer_echoing : Echoing echoLayer := by
  intro b m sub rq c
  show ((0 : BitVec 3).toNat = 0 ∧ (6 : Byte).toNat = 0) ↔ (6 : U16) = 0
  decide

/-- One whose device succeeds. -/
def fineLayer : RequestLayer Unit := { muteLayer with execute := fun b m _ _ _ => ⟨b, m, {}, 0, 0⟩ }

theorem fineLayer_echoing : Echoing fineLayer := by
  intro b m sub rq c
  show ((0 : BitVec 3).toNat = 0 ∧ (0 : Byte).toNat = 0) ↔ (0 : U16) = 0
  decide

/-- A call of the engine whose result and executed requests have a property. -/
theorem full_of (L : RequestLayer Unit) (cdb : List Byte) (dataLen : U16) (isIn : Bool)
    (Q : ScsiToNvmeResponse → List Execution → Prop) [∀ r t, Decidable (Q r t)]
    (hc : (Demo.mem cdb).read 0x100 cdb.length = some cdb) (hs : cdb.length < 65536)
    (h : (match ScsiToNvme Demo.env (fullDevice 250 L) ⟨(), [], []⟩ Demo.ws 0x100 (BitVec.ofNat 16 cdb.length) 0 0x400 32 0x8000 dataLen
        isIn ⟨Demo.mem cdb, []⟩ with
      | .ok ((r, s'), _) => decide (Q r s'.done)
      | .error _ => false) = true) :
    ∃ x : Served (FullState Unit), x.D = fullDevice 250 L ∧ x.cdb = cdb ∧ x.data = 0x8000 ∧ x.dataLen = dataLen ∧
      ∃ es, duringCall x es ∧ Q x.resp es := by
  split at h
  · rename_i r s' w' e
    exact ⟨⟨Demo.env, fullDevice 250 L, ⟨(), [], []⟩, Demo.ws, ⟨Demo.mem cdb, []⟩, 0x100, cdb, 0, 0x400, 32, 0x8000, dataLen, isIn, r, s', w',
      hc, hs, e⟩, rfl, rfl, rfl, rfl, s'.done, (List.append_nil _).symm, of_decide_eq_true h⟩
  · cases h

/-- WRITE(10) of blocks 9 and 10 -/
def write9 : List Byte := [0x2a, 0, 0, 0, 0, 9, 0, 0, 2, 0]

/-- C110 does not hold: the device answers a WRITE of two blocks with status 6, and the engine returns GOOD. -/
theorem C110_refuted : ¬ C110_statement := by
  intro hall
  obtain ⟨x, h1, -, -, -, es, h2, h3, h4⟩ := full_of muteLayer write9 8192 false
    (fun r es => r = ⟨0, 0⟩ ∧ es.map (fun e => (e.status, e.said)) = [(6, .nvmeError 6)]) (by decide +kernel) (by decide) (by decide +kernel)
  cases es with
  | nil => cases h4
  | cons e es =>
    have := hall Unit 250 muteLayer x h1 (by rw [h3]) _ h2 e (by simp)
    simp only [List.map_cons, List.cons.injEq, Prod.mk.injEq] at h4
    rw [h4.1.1] at this
    exact absurd this (by decide)

/-- C112 does not hold: with 250 jiffies per second the timeout of a WRITE is 60 jiffies. -/
theorem C112_refuted : ¬ C112_statement := by
  intro hall
  obtain ⟨x, h1, -, -, -, es, h2, h3⟩ := full_of fineLayer write9 8192 false
    (fun _ es => es.map (fun e => e.rq.timeout) = [60]) (by decide +kernel) (by decide) (by decide +kernel)
  cases es with
  | nil => cases h3
  | cons e es =>
    have := hall Unit 250 fineLayer x (by decide) h1 _ h2 e (by simp)
    simp only [List.map_cons, List.cons.injEq] at h3
    rw [h3.1] at this
    exact absurd this (by decide)

/-- The hypotheses of the partial theorem of C110 are met, with a request executed; and with a device that fails, the engine
says so. -/
example : (∃ x : Served (FullState Unit), x.D = fullDevice 250 fineLayer ∧ Echoing fineLayer ∧ x.resp.return_code = 0 ∧
      ∃ es, duringCall x es ∧ es.length = 1) ∧
    ∃ x : Served (FullState Unit), x.D = fullDevice 250 echoLayer ∧ Echoing echoLayer ∧ x.resp.return_code = 2 := by
  obtain ⟨x, h1, -, -, -, es, h2, h3, h4⟩ := full_of fineLayer write9 8192 false
    (fun r es => r = ⟨0, 0⟩ ∧ es.length = 1) (by decide +kernel) (by decide) (by decide +kernel)
  obtain ⟨y, k1, -, -, -, -, -, k3⟩ := full_of echoLayer write9 8192 false
    (fun r _ => r.return_code = 2) (by decide +kernel) (by decide) (by decide +kernel)
  exact ⟨⟨x, h1, fineLayer_echoing, by rw [h3], es, h2, h4⟩, y, k1, echoLayer_echoing, k3⟩

/-- Those of C110's theorem about mute block layers, with a READ the device fails. -/
example : ∃ x : Served (FullState Unit), x.D = fullDevice 250 muteLayer ∧ Mute muteLayer ∧ x.resp = ⟨0, 8192⟩ ∧
    ∃ es, duringCall x es ∧ es.map (·.status) = [6] := by
  obtain ⟨x, h1, -, -, -, es, h2, h3, h4⟩ := full_of muteLayer Demo.read10 8192 true
    (fun r es => r = ⟨0, 8192⟩ ∧ es.map (·.status) = [6]) (by decide +kernel) (by decide) (by decide +kernel)
  exact ⟨x, h1, muteLayer_mute, h3, es, h2, h4⟩

/-- Those of C111: a READ and a WRITE with one request each, and an INQUIRY with two. -/
example : (∃ x : Served (FullState Unit), x.D = fullDevice 250 fineLayer ∧ isRead (byte x.cdb 0) ∧ x.data % 2 ^ 64 ≠ 0 ∧
      ∃ es, duringCall x es ∧ es.map (·.rq) = [⟨.drvIn, 60, some (0x8000, 8192)⟩]) ∧
    (∃ x : Served (FullState Unit), x.D = fullDevice 250 fineLayer ∧ isWrite (byte x.cdb 0) ∧ x.data % 2 ^ 64 ≠ 0 ∧ x.dataLen ≠ 0 ∧
      ∃ es, duringCall x es ∧ es.map (·.rq) = [⟨.drvOut, 60, some (0x8000, 8192)⟩]) ∧
    ∃ x : Served (FullState Unit), x.D = fullDevice 250 echoLayer ∧ byte x.cdb 0 ≠ 0x42 ∧ ∃ es, duringCall x es ∧ es.length = 2 := by
  obtain ⟨x, h1, hc, hd, -, es, h2, h3⟩ := full_of fineLayer Demo.read10 8192 true
    (fun _ es => es.map (·.rq) = [⟨.drvIn, 60, some (0x8000, 8192)⟩]) (by decide +kernel) (by decide) (by decide +kernel)
  obtain ⟨y, k1, kc, kd, kl, fs, k2, k3⟩ := full_of fineLayer write9 8192 false
    (fun _ es => es.map (·.rq) = [⟨.drvOut, 60, some (0x8000, 8192)⟩]) (by decide +kernel) (by decide) (by decide +kernel)
  obtain ⟨z, l1, lc, -, -, gs, l2, l3⟩ := full_of echoLayer Demo.inquiry 96 true
    (fun _ es => es.length = 2) (by decide +kernel) (by decide) (by decide +kernel)
  exact ⟨⟨x, h1, by rw [hc]; decide, by rw [hd]; decide, es, h2, h3⟩, ⟨y, k1, by rw [kc]; decide, by rw [kd]; decide, by rw [kl]; decide,
    fs, k2, k3⟩, z, l1, by rw [lc]; decide, gs, l2, l3⟩

end Scsi2Nvme
