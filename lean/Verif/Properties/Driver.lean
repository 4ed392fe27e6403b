import Verif.Spec.Driver
import Verif.Properties.Engine
import Verif.Properties.Disk
/-!
# C70, C71: the driver
-/

namespace Scsi2Nvme
open Spec Engine Driver

variable {β : Type}

/-- **C70.** One submission: the hardware executes the command exactly if the driver can reach it, and then once, with
the request obtained before and given back after; otherwise memory and (zero) completion stay as they are. -/
theorem C70_submission (B : BlockLayer β) (st : State β) (m : Mem) (sub : Submission) :
    (reaches B st.blk sub →
      (∃ b, (device B st m sub).2.1 = (B.execute b m sub).2.1 ∧ (device B st m sub).2.2 = (B.execute b m sub).2.2) ∧
      (device B st m sub).1.reqs = [.freed, .ran sub, .got] ++ st.reqs) ∧
    (¬ reaches B st.blk sub → (device B st m sub).2.1 = m ∧ (device B st m sub).2.2 = {} ∧
      ((device B st m sub).1.reqs = st.reqs ∨ (device B st m sub).1.reqs = [.freed, .got] ++ st.reqs)) := by
  have key : ∀ q : Bool, q = (if sub.is_admin then B.adminQueue else B.ioQueue) →
      device B st m sub = ((nvme_submit_user_cmd B q st m sub {}).state, (nvme_submit_user_cmd B q st m sub {}).mem,
        (nvme_submit_user_cmd B q st m sub {}).cpl) := by
    intro q hq
    unfold device submit_admin_command submit_io_command
    rw [hq]
    split <;> rfl
  unfold reaches
  rw [key _ rfl]
  generalize (if sub.is_admin then B.adminQueue else B.ioQueue) = q
  unfold nvme_submit_user_cmd submit_req_done
  cases q with
  | false => simp
  | true =>
    simp only [Bool.true_eq_false, if_false, true_and]
    cases ha : B.allocRequest st.blk sub with
    | error e => simp
    | ok b =>
      simp only [Except.ok.injEq, exists_eq_left']
      by_cases hb : sub.buffer ≠ 0 ∧ sub.bufflen ≠ 0
      · rw [if_pos hb]
        by_cases hm : (B.mapKern b sub.buffer sub.bufflen).1 = 0
        · rw [if_neg (by simp only [hm]; simp)]
          cases hd : B.disk with
          | false =>
            rw [if_pos rfl]
            exact ⟨fun h => absurd (h hb.1 hb.2).2 (by simp), fun _ => ⟨rfl, rfl, .inr rfl⟩⟩
          | true =>
            rw [if_neg (by simp)]
            exact ⟨fun _ => ⟨⟨_, rfl, rfl⟩, rfl⟩, fun h => absurd (fun _ _ => ⟨hm, rfl⟩) h⟩
        · rw [if_pos hm]
          exact ⟨fun h => absurd (h hb.1 hb.2).1 hm, fun _ => ⟨rfl, rfl, .inr rfl⟩⟩
      · rw [if_neg hb]
        refine ⟨fun _ => ⟨⟨_, rfl, rfl⟩, rfl⟩, fun h => absurd ?_ h⟩
        exact fun h1 h2 => absurd ⟨h1, h2⟩ hb

theorem executed_append (a b : List ReqEvent) : executed (a ++ b) = executed b ++ executed a := by
  unfold executed
  rw [List.reverse_append, List.filterMap_append]

theorem dialog_reqs (B : BlockLayer β) {st m subs cs st' m'} (h : Dialog (device B) st m subs cs st' m') :
    ∃ evs, st'.reqs = evs ++ st.reqs ∧ (executed evs).Sublist subs ∧
      ∀ old n, requestsOut old = some n → requestsOut (evs ++ old) = some n := by
  induction h with
  | nil => exact ⟨[], rfl, .slnil, fun _ _ h => h⟩
  | @cons st m sub subs cs st' m' h ih =>
    obtain ⟨evs, e1, e2, e3⟩ := ih
    obtain ⟨k1, k2⟩ := C70_submission B st m sub
    by_cases hr : reaches B st.blk sub
    · obtain ⟨-, k⟩ := k1 hr
      refine ⟨evs ++ [.freed, .ran sub, .got], by rw [e1, k, List.append_assoc], ?_, ?_⟩
      · rw [executed_append]
        exact List.Sublist.cons_cons _ e2
      · intro old n ho
        rw [List.append_assoc]
        apply e3
        simp [requestsOut, ho]
    · obtain ⟨-, -, k | k⟩ := k2 hr
      · exact ⟨evs, by rw [e1, k], e2.cons _, e3⟩
      · refine ⟨evs ++ [.freed, .got], by rw [e1, k, List.append_assoc], ?_, ?_⟩
        · rw [executed_append]
          exact e2.cons _
        · intro old n ho
          rw [List.append_assoc]
          apply e3
          simp [requestsOut, ho]

/-- **C70.** Over a call of the engine, every request obtained from the block layer is given back, once, after the
command was executed; and the hardware executes no other commands than the ones `GetNvmeWrappers()` returns, each at
most once, in their order. -/
theorem C70_requests (B : BlockLayer β) (x : Served (State β)) (hD : x.D = device B) (n : Nat)
    (hn : requestsOut x.s.reqs = some n) :
    requestsOut x.s'.reqs = some n ∧ ∃ evs r t1 w1, x.s'.reqs = evs ++ x.s.reqs ∧
      (Translation.init x.ws).Begin x.E ⟨x.ptr, x.cdb.length⟩ x.buf x.lun x.w = .ok ((r, t1), w1) ∧
      (executed evs).Sublist (t1.GetNvmeWrappers.map submissionOf) := by
  obtain ⟨r, t1, w1, hB, -, h⟩ := C57_flow x
  split at h
  · obtain ⟨cs, m, c, t2, h, -⟩ := h
    rw [hD] at h
    obtain ⟨evs, e1, e2, e3⟩ := dialog_reqs B h
    exact ⟨by rw [e1]; exact e3 _ _ hn, evs, r, t1, w1, e1, hB, e2⟩
  · rw [h.2.1]
    exact ⟨hn, [], r, t1, w1, rfl, hB, List.nil_sublist _⟩

/-! ## C71 -/

/-- The hardware executed all the commands `GetNvmeWrappers()` returned, in this call of the engine. -/
def ranAll (x : Served (State β)) : Prop :=
  ∀ r t1 w1, (Translation.init x.ws).Begin x.E ⟨x.ptr, x.cdb.length⟩ x.buf x.lun x.w = .ok ((r, t1), w1) →
    ∃ evs, x.s'.reqs = evs ++ x.s.reqs ∧ executed evs = t1.GetNvmeWrappers.map submissionOf

/-- **C71**, full statement (false, see `C71_refuted`): if the engine returns GOOD, the hardware has executed all the
commands. -/
def C71_statement : Prop := ∀ (β : Type) (B : BlockLayer β) (x : Served (State β)), x.D = device B →
  x.resp.return_code = 0 → ranAll x

/-- **C71 (partial).** It holds if the block layer always finds its queues, gives requests and maps buffers.  Missing: a
block layer in which something fails, see `C71_silent`. -/
theorem C71_executed_partial (B : BlockLayer β) (hB : Reliable B) (x : Served (State β)) (hD : x.D = device B)
    (h0 : x.resp.return_code = 0) : ranAll x := by
  intro r t1 w1 hb
  obtain ⟨r', t1', w1', hb', -, h⟩ := C57_flow x
  rw [hb] at hb'
  cases hb'
  split at h
  · obtain ⟨cs, m, c, t2, h, -⟩ := h
    rw [hD] at h
    clear h0 hb hD
    generalize t1.GetNvmeWrappers.map submissionOf = subs at *
    generalize w1.mem = m0 at h
    generalize x.s = s at *
    generalize x.s' = s' at *
    induction h with
    | nil => exact ⟨[], rfl, rfl⟩
    | @cons st m sub subs cs st' m' h ih =>
      obtain ⟨evs, e1, e2⟩ := ih
      have hr : reaches B st.blk sub := by
        obtain ⟨b, hb⟩ := hB.request st.blk sub
        refine ⟨?_, b, hb, fun _ _ => ⟨hB.mapping _ _ _, hB.disk⟩⟩
        split
        · exact hB.adminQueue
        · exact hB.ioQueue
      have k := ((C70_submission B st m sub).1 hr).2
      refine ⟨evs ++ [.freed, .ran sub, .got], by rw [e1, k, List.append_assoc], ?_⟩
      rw [executed_append, e2]
      rfl
  · rw [h.1] at h0
    exact absurd h0 (by decide)

/-- **C71**, what happens otherwise: a READ or WRITE the translator accepts, with a data buffer of sufficient size and a
block layer that cannot get its commands to the hardware, is answered with GOOD all the same; no command is executed,
memory and trace of the allocator are unchanged.  A WRITE is lost, a READ returns what was in the buffer before. -/
theorem C71_silent (B : BlockLayer β) (hno : ∀ b sub, ¬ reaches B b sub) (E : Env) (st : State β) (q : Request)
    (tr : List Event) (hq : q.Valid) (rw : Rw) (hd : decodeRw q.cdb = some rw) (h1 : 1 ≤ rw.blocks)
    (h2 : 4096 * rw.blocks ≤ q.dataLen.toNat) (hp : ∀ c, rw.protect = some c → c ≤ 5) :
    ∃ n st', ScsiToNvme E (device B) st q.ws q.ptr (BitVec.ofNat 16 q.cdb.length) q.lun q.sense q.senseLen q.data q.dataLen
        q.isIn ⟨q.mem, tr⟩ = .ok ((⟨0, n⟩, st'), ⟨q.mem, tr⟩) ∧
      ∃ evs, st'.reqs = evs ++ st.reqs ∧ executed evs = [] := by
  have quiet : ∀ {st m subs cs st' m'}, Dialog (device B) st m subs cs st' m' → m' = m ∧ (∀ c ∈ cs, cplOk c) ∧
      ∃ evs, st'.reqs = evs ++ st.reqs ∧ executed evs = [] := by
    intro st m subs cs st' m' h
    induction h with
    | nil => exact ⟨rfl, by simp, [], rfl, rfl⟩
    | @cons st m sub subs cs st' m' h ih =>
      obtain ⟨i1, i2, evs, e1, e2⟩ := ih
      obtain ⟨k1, k2, k3⟩ := (C70_submission B st m sub).2 (hno _ _)
      refine ⟨by rw [i1, k1], ?_, ?_⟩
      · intro c hc
        rcases List.mem_cons.mp hc with rfl | hc
        · rw [k2]; exact ⟨rfl, rfl⟩
        · exact i2 c hc
      · rcases k3 with k | k
        · exact ⟨evs, by rw [e1, k], e2⟩
        · refine ⟨evs ++ [.freed, .got], by rw [e1, k, List.append_assoc], ?_⟩
          rw [executed_append, e2]
          rfl
  obtain ⟨r, t1, hB, h⟩ := rw_served E (device B) st q tr hq (by
    intro r t1 hB cs st' m hD
    rw [(quiet hD).1]
    exact ⟨hq.stored, hq.sense⟩)
  have hlt := q.dataLen.isLt
  have hacc : Accepted t1 ∧ r.alloc_len.toNat ≤ q.dataLen.toNat := by
    rcases hq.op with hop | hop
    · have ha : Accepted t1 := (C19_read_accepted _ _ _ _ _ _ _ _ _ _ hB hop).mpr ⟨rw, hd, hp, h1, by omega, by
        show rw.blocks * 4096 ≤ q.dataLen.toNat
        omega⟩
      obtain ⟨rw_, pract, prchk, wr, hd', -, -, -, -, -, -, hal, -⟩ := C18_read _ _ _ _ _ _ _ _ _ _ hB hop ha
      rw [hd] at hd'
      cases hd'
      exact ⟨ha, by omega⟩
    · have ha : Accepted t1 := (C22_write_accepted _ _ _ _ _ _ _ _ _ _ hB hop).mpr ⟨rw, hd, hp, h1⟩
      obtain ⟨rw_, pract, prchk, wr, -, -, -, -, -, -, -, hal, -⟩ := C21_write_all _ _ _ _ _ _ _ _ _ _ hB hop ha
      exact ⟨ha, by rw [hal]; exact Nat.zero_le _⟩
  rw [if_pos hacc.2] at h
  obtain ⟨cs, s', m, c, w', hD, he, hc1, hc2⟩ := h
  obtain ⟨i1, i2, i3⟩ := quiet hD
  have h0 : c = 0 := hc1.mpr ⟨hacc.1, i2⟩
  refine ⟨r.alloc_len.toNat, s', ?_, i3⟩
  rw [he, hc2 h0, h0, i1]
  rfl

/-! ## Concrete cases -/

/-- A block layer without free requests (`-ENOMEM`). -/
def starved : BlockLayer Unit where
  adminQueue := true
  ioQueue := true
  disk := true
  allocRequest := fun _ _ => .error (-12)
  mapKern := fun _ _ _ => (0, ())
  freeRequest := fun _ => ()
  execute := lazyDevice

theorem starved_unreachable (b : Unit) (sub : Submission) : ¬ reaches starved b sub := by
  rintro ⟨-, b1, h, -⟩
  cases h

/-- A block layer in which nothing goes wrong. -/
def sound : BlockLayer Unit := { starved with allocRequest := fun _ _ => .ok () }

theorem sound_reliable : Reliable sound := ⟨rfl, rfl, rfl, fun _ _ => ⟨(), rfl⟩, fun _ _ _ => rfl⟩

/-- WRITE(10) of blocks 9 and 10 -/
def demoWrite : Request := demoRequest [0x2a, 0, 0, 0, 0, 9, 0, 0, 2, 0]

theorem demoWrite_valid : demoWrite.Valid :=
  demoRequest_valid _ (by decide) (by decide) (by intro rw_ h; revert h; decide +revert)

theorem demoWrite_decode : decodeRw demoWrite.cdb = some ⟨9, 2, some 0, false⟩ := by decide +kernel

theorem demoWrite_silent : ∃ n st', ScsiToNvme Demo.env (device starved) ⟨(), []⟩ demoWrite.ws demoWrite.ptr
      (BitVec.ofNat 16 demoWrite.cdb.length) demoWrite.lun demoWrite.sense demoWrite.senseLen demoWrite.data demoWrite.dataLen
      demoWrite.isIn ⟨demoWrite.mem, []⟩ = .ok ((⟨0, n⟩, st'), ⟨demoWrite.mem, []⟩) ∧
    ∃ evs, st'.reqs = evs ++ [] ∧ executed evs = [] :=
  C71_silent starved starved_unreachable Demo.env ⟨(), []⟩ demoWrite [] demoWrite_valid ⟨9, 2, some 0, false⟩ demoWrite_decode
    (by decide) (by change 4096 * 2 ≤ 8192; decide) (by intro c h; cases h; decide)

/-- C71 does not hold: a WRITE of two blocks with a block layer that has no free request is answered with GOOD. -/
theorem C71_refuted : ¬ C71_statement := by
  intro hall
  obtain ⟨n, st', h, evs, e1, e2⟩ := demoWrite_silent
  let x : Served (State Unit) := ⟨Demo.env, device starved, ⟨(), []⟩, demoWrite.ws, ⟨demoWrite.mem, []⟩, demoWrite.ptr, demoWrite.cdb,
    demoWrite.lun, demoWrite.sense, demoWrite.senseLen, demoWrite.data, demoWrite.dataLen, demoWrite.isIn, ⟨0, n⟩, st',
    ⟨demoWrite.mem, []⟩, demoWrite_valid.stored, demoWrite_valid.short, h⟩
  obtain ⟨r, t1, hB, -⟩ := rw_begin Demo.env demoWrite.ws ⟨demoWrite.mem, []⟩ demoWrite.ptr demoWrite.cdb x.buf demoWrite.lun
    demoWrite_valid.stored demoWrite_valid.op
  obtain ⟨evs', k1, k2⟩ := hall Unit starved x rfl rfl r t1 _ hB.call
  have hop : isWrite (byte demoWrite.cdb 0) := by decide
  have ha : Accepted t1 := (C22_write_accepted _ _ _ _ _ _ _ _ _ _ hB hop).mpr ⟨_, demoWrite_decode,
    by intro c h; cases h; decide, by decide⟩
  obtain ⟨-, -, -, wr, -, -, -, hw, -⟩ := C21_write_all _ _ _ _ _ _ _ _ _ _ hB hop ha
  have : evs' = evs := by
    have : evs' ++ [] = evs ++ [] := k1.symm.trans e1
    simpa using this
  rw [this, e2, hw] at k2
  cases k2

/-- The hypotheses of C70 and of the partial theorem of C71 are met: the same WRITE with a working block layer is
executed. -/
example : ∃ x : Served (State Unit), x.D = device sound ∧ Reliable sound ∧ x.resp.return_code = 0 ∧
    requestsOut x.s.reqs = some 0 ∧ (executed x.s'.reqs).length = 1 := by
  have hrun : ∃ r st' w', ScsiToNvme Demo.env (device sound) ⟨(), []⟩ demoWrite.ws demoWrite.ptr
      (BitVec.ofNat 16 demoWrite.cdb.length) demoWrite.lun demoWrite.sense demoWrite.senseLen demoWrite.data demoWrite.dataLen
      demoWrite.isIn ⟨demoWrite.mem, []⟩ = .ok ((r, st'), w') ∧ r.return_code = 0 := by
    obtain ⟨r, t1, hB, h⟩ := rw_served Demo.env (device sound) ⟨(), []⟩ demoWrite [] demoWrite_valid (by
      intro r t1 hB cs st' m hD
      have : m = demoWrite.mem := by
        funext a
        refine hD.keeps a fun s m sub _ => ?_
        by_cases hr : reaches sound s.blk sub
        · obtain ⟨⟨b, e, -⟩, -⟩ := (C70_submission sound s m sub).1 hr
          rw [e]; rfl
        · rw [((C70_submission sound s m sub).2 hr).1]
      rw [this]
      exact ⟨demoWrite_valid.stored, demoWrite_valid.sense⟩)
    have hop : isWrite (byte demoWrite.cdb 0) := by decide
    have ha : Accepted t1 := (C22_write_accepted _ _ _ _ _ _ _ _ _ _ hB hop).mpr ⟨_, demoWrite_decode,
      by intro c h; cases h; decide, by decide⟩
    obtain ⟨-, -, -, wr, -, -, -, hw, -, -, -, hal, -⟩ := C21_write_all _ _ _ _ _ _ _ _ _ _ hB hop ha
    rw [if_pos (by rw [hal]; exact Nat.zero_le _)] at h
    obtain ⟨cs, s', m, c, w', hD, he, hc1, -⟩ := h
    refine ⟨_, _, _, he, ?_⟩
    have h0 : c = 0 := hc1.mpr ⟨ha, ?_⟩
    · rw [h0]; rfl
    · intro d hd
      obtain ⟨s0, m0, sub, -, rfl⟩ := hD.answer d hd
      by_cases hr : reaches sound s0.blk sub
      · obtain ⟨⟨b, -, e⟩, -⟩ := (C70_submission sound s0 m0 sub).1 hr
        rw [e]; exact ⟨rfl, rfl⟩
      · rw [((C70_submission sound s0 m0 sub).2 hr).2.1]; exact ⟨rfl, rfl⟩
  obtain ⟨r, st', w', h, h0⟩ := hrun
  let x : Served (State Unit) := ⟨Demo.env, device sound, ⟨(), []⟩, demoWrite.ws, ⟨demoWrite.mem, []⟩, demoWrite.ptr, demoWrite.cdb,
    demoWrite.lun, demoWrite.sense, demoWrite.senseLen, demoWrite.data, demoWrite.dataLen, demoWrite.isIn, r, st',
    w', demoWrite_valid.stored, demoWrite_valid.short, h⟩
  refine ⟨x, rfl, sound_reliable, h0, rfl, ?_⟩
  obtain ⟨r, t1, hB, -⟩ := rw_begin Demo.env demoWrite.ws ⟨demoWrite.mem, []⟩ demoWrite.ptr demoWrite.cdb x.buf demoWrite.lun
    demoWrite_valid.stored demoWrite_valid.op
  obtain ⟨evs, k1, k2⟩ := C71_executed_partial sound sound_reliable x rfl h0 r t1 _ hB.call
  have hop : isWrite (byte demoWrite.cdb 0) := by decide
  have ha : Accepted t1 := (C22_write_accepted _ _ _ _ _ _ _ _ _ _ hB hop).mpr ⟨_, demoWrite_decode,
    by intro c h; cases h; decide, by decide⟩
  obtain ⟨-, -, -, wr, -, -, -, hw, -⟩ := C21_write_all _ _ _ _ _ _ _ _ _ _ hB hop ha
  rw [k1, show x.s.reqs = [] from rfl, List.append_nil, k2, hw]
  rfl

end Scsi2Nvme
