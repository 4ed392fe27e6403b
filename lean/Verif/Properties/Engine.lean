import Verif.Proofs.Engine
import Verif.Proofs.Demos
import Verif.Properties.Pages
import Verif.Properties.BeginAll
/-!
# C56, C57, C58, C67: the engine
-/

namespace Scsi2Nvme
open Spec Engine

variable {σ : Type}

/-- What `Begin` announces when the engine calls it. -/
def announced (x : Served σ) (n : Nat) : Prop :=
  ∃ r t1 w1, (Translation.init x.ws).Begin x.E ⟨x.ptr, x.cdb.length⟩ x.buf x.lun x.w = .ok ((r, t1), w1) ∧
    r.alloc_len.toNat = n

/-! ## C56 -/

/-- **C56.** The engine never reports more data than the data buffer holds. -/
theorem C56_alloc_len (x : Served σ) : x.resp.alloc_len ≤ x.dataLen.toNat := by
  obtain ⟨r, t1, w1, -, -, h⟩ := served_began x
  rcases h with ⟨-, h, -⟩ | ⟨hl, cs, m, c, t2, -, -, -, h⟩
  · rw [h]; exact Nat.zero_le _
  · rw [h]; exact hl

/-- **C56.** Of the memory of its caller, the engine itself changes at most the bytes of the data buffer it reports
(none if the command does not transfer data in) and the sense buffer: any other byte which was accessible before
and which the device leaves alone is unchanged. -/
theorem C56_frame (x : Served σ) (hg : GoodAllocator x.E) (a : Nat) (ha : (x.w.mem a).isSome)
    (hd : ∀ s m sub, (x.D s m sub).2.1 a = m a) (hs : ¬ inRange x.sense x.senseLen.toNat a)
    (hb : x.isIn = true → ¬ inRange x.data x.resp.alloc_len a) : x.w'.mem a = x.w.mem a := by
  obtain ⟨r, t1, w1, hB, -, h⟩ := served_began x
  have h1 : w1.mem a = x.w.mem a := Begin_keeps hg (Idle_init _) hB.call a ha
  rcases h with ⟨-, -, -, hw⟩ | ⟨hl, cs, m, c, t2, hD, hc, -, hr⟩
  · rw [hw]; exact h1
  · have h2 : m a = w1.mem a := hD.keeps a fun s m sub _ => hd s m sub
    have hwf : Wf t1 := by
      rcases Begin_inv x.E _ (Idle_init x.ws) x.w _ _ _ _ _ _ hB.call with ⟨-, -, rfl, -⟩ | ⟨-, bs, p, w', -, -, -, hcnt, he, -, rfl, -⟩
      · exact ⟨(Idle_init x.ws).wf.count, (Idle_init x.ws).wf.pages, fun _ => (Idle_init x.ws).count⟩
      · exact finishT_wf (Idle_init x.ws).clean hcnt he
    have hin : ¬ inSpan (dataIn x r.alloc_len.toNat) a := by
      unfold dataIn
      split
      · rename_i hi
        have := hb hi
        rw [hr] at this
        exact this
      · intro hh
        unfold inSpan Span.null at hh
        simp only at hh
        omega
    have h3 : ∀ wm, x.w' = abortW x.E t1 wm → wm.mem a = m a → x.w'.mem a = x.w.mem a := by
      intro wm e1 e2
      rw [e1]
      have := dealloc_keeps hg (livePages t1.nvme_cmd_count t1.allocations) wm a (began_avoids hg hB a ha)
      change (deallocAll _ _ _).mem a = _
      rw [this, e2, h2, h1]
    rcases Complete_inv x.E t1 hwf _ _ _ _ _ _ _ hc with ⟨-, -, -, hw⟩ | ⟨-, -, w2, hw, hh⟩
    · rw [hw]; simp only; rw [h2, h1]
    · refine h3 w2 hw ?_
      rcases hh with ⟨-, -, e⟩ | ⟨-, -, -, ok, hf⟩ | ⟨-, -, s, -, -, ok, hf⟩ | ⟨-, -, -, -, bs, st, -, hf⟩
      · rw [e]
      · exact (FillSenseBuffer_framed _ _ _ _ _ _ hf).2.1 a hs
      · exact (FillSenseBuffer_framed _ _ _ _ _ _ hf).2.1 a hs
      · exact (completeSwitch_framed _ _ _ _ _ _ _ _ _ hf).2.1 a hin

/-! ## C57, C67 -/

/-- **C57.** Every call of the engine is: `Begin` with API success; then, if the announced length fits, the dialog
with the device over the translated commands and `Complete` with one completion per command and API success; and
the status returned is that of `Complete`.  Otherwise the device is not involved, and TASK ABORTED is returned. -/
theorem C57_flow (x : Served σ) : ∃ r t1 w1,
    (Translation.init x.ws).Begin x.E ⟨x.ptr, x.cdb.length⟩ x.buf x.lun x.w = .ok ((r, t1), w1) ∧ r.status = .kSuccess ∧
    if r.alloc_len.toNat ≤ x.dataLen.toNat then
      ∃ cs m c t2, Dialog x.D x.s w1.mem (t1.GetNvmeWrappers.map submissionOf) cs x.s' m ∧
        t1.Complete x.E cs (if x.isIn then ⟨x.data, r.alloc_len.toNat⟩ else ⟨0, 0⟩) ⟨x.sense, x.senseLen.toNat⟩
          ⟨m, w1.trace⟩ = .ok ((c, t2), x.w') ∧
        c.status = .kSuccess ∧ x.resp = ⟨c.scsi_status.toNat, r.alloc_len.toNat⟩
    else x.resp = ⟨0x40, 0⟩ ∧ x.s' = x.s ∧ x.w' = w1 := by
  obtain ⟨r, t1, w1, hB, hs, h⟩ := served_began x
  refine ⟨r, t1, w1, hB.call, hs, ?_⟩
  rcases h with ⟨hl, h⟩ | ⟨hl, h⟩
  · rw [if_neg (by omega)]; exact h
  · rw [if_pos hl]; exact h

/-- **C57.** TASK ABORTED (40h) is returned only if the announced length does not fit in the data buffer, or if the
device answered one of the commands with a status for which the table gives TASK ABORTED. -/
theorem C57_task_aborted (x : Served σ) (h : x.resp.return_code = 0x40) :
    (∃ n, announced x n ∧ x.dataLen.toNat < n) ∨
    (∃ r t1 w1, (Translation.init x.ws).Begin x.E ⟨x.ptr, x.cdb.length⟩ x.buf x.lun x.w = .ok ((r, t1), w1) ∧
      ∃ wr ∈ t1.GetNvmeWrappers, ∃ s m, (cplStatus (x.D s m (submissionOf wr)).2.2).status = 0x40) := by
  obtain ⟨r, t1, w1, hB, -, hh⟩ := served_began x
  rcases hh with ⟨hl, -⟩ | ⟨hl, cs, m, c, t2, hD, hc, hok, hr⟩
  · exact .inl ⟨_, ⟨r, t1, w1, hB.call, rfl⟩, hl⟩
  · right
    have hwf : Wf t1 := by
      rcases Begin_inv x.E _ (Idle_init x.ws) x.w _ _ _ _ _ _ hB.call with ⟨-, -, rfl, -⟩ | ⟨-, bs, p, w', -, -, -, hcnt, he, -, rfl, -⟩
      · exact ⟨(Idle_init x.ws).wf.count, (Idle_init x.ws).wf.pages, fun _ => (Idle_init x.ws).count⟩
      · exact finishT_wf (Idle_init x.ws).clean hcnt he
    rw [hr] at h
    simp only at h
    rcases Complete_inv x.E t1 hwf _ _ _ _ _ _ _ hc with ⟨-, e, -⟩ | ⟨-, -, w2, -, hh⟩
    · rw [e] at hok; cases hok
    · rcases hh with ⟨-, e, -⟩ | ⟨-, -, e, -⟩ | ⟨-, -, s, hf, e, -⟩ | ⟨-, -, -, e, -⟩
      · rw [e] at hok; cases hok
      · rw [e] at h; exact absurd h (by decide)
      · obtain ⟨pre, d, post, h4, h5, h6, h7⟩ := firstError_some _ _ hf
        obtain ⟨s0, m0, sub, hsub, hd⟩ := hD.answer d (by rw [h4]; simp)
        obtain ⟨wr, hwr, rfl⟩ := List.mem_map.mp hsub
        refine ⟨r, t1, w1, hB.call, wr, hwr, s0, m0, ?_⟩
        rw [hd]
        have e1 := (statusOf_eq d.sct d.sc).1
        unfold cplStatus
        rw [← e1]
        rw [e] at h
        simp only at h
        unfold infoOf
        rw [← h7]
        exact h
      · rw [e] at h; exact absurd h (by decide)

/-- **C67.** If the engine does not refuse the command for its allocation length, the device gets exactly the
commands `GetNvmeWrappers()` returns after `Begin`, once each and in order: each to the queue its `is_admin` flag
names, as the 64 bytes of the command, with the address in bytes 24-31 of the command as the buffer, and with the
length given in the wrapper; and the result reflects all of their completions. -/
theorem C67_submissions (x : Served σ) (n : Nat) (hn : announced x n) (hl : n ≤ x.dataLen.toNat) :
    ∃ (r : BeginResponse) (t1 : Translation) (w1 : World) (subs : List Submission) (cs : List Nvme.GenericQueueEntryCpl)
    (m : Mem) (c : CompleteResponse) (t2 : Translation), Began x.E (Translation.init x.ws) x.w x.ptr x.cdb x.buf x.lun r t1 w1 ∧
      Dialog x.D x.s w1.mem subs cs x.s' m ∧
      t1.Complete x.E cs (if x.isIn then ⟨x.data, n⟩ else ⟨0, 0⟩) ⟨x.sense, x.senseLen.toNat⟩ ⟨m, w1.trace⟩
        = .ok ((c, t2), x.w') ∧ x.resp.return_code = c.scsi_status.toNat ∧ x.resp.alloc_len = n ∧
      subs.length = t1.GetNvmeWrappers.length ∧
      ∀ (i : Nat) (wr : NvmeCmdWrapper), t1.GetNvmeWrappers[i]? = some wr → ∃ sub : Submission, subs[i]? = some sub ∧ sub.is_admin = wr.is_admin ∧
        sub.cmd = wr.cmd.toBytes ∧ sub.buffer.toNat = leAt sub.cmd 24 8 ∧ sub.bufflen = wr.buffer_len := by
  obtain ⟨r, t1, w1, hB, -, h⟩ := served_began x
  obtain ⟨r', t', w', hb', e'⟩ := hn
  have := hB.call
  rw [hb'] at this
  cases this
  rcases h with ⟨hl', -⟩ | ⟨-, cs, m, c, t2, hD, hc, -, hr⟩
  · omega
  · refine ⟨r, t1, w1, _, cs, m, c, t2, hB, hD, by rw [← e']; exact hc, by rw [hr], by rw [hr]; exact e', by rw [List.length_map],
      fun i wr hi => ⟨submissionOf wr, by rw [List.getElem?_map, hi]; rfl, rfl, rfl, ?_, rfl⟩⟩
    exact (prp1_bytes wr.cmd).symm

/-! ## C58 -/

/-- After the call exactly the pages outstanding before are outstanding again (as far as the order). -/
def Freed (x : Served σ) : Prop :=
  ∀ l, outstanding x.w.trace = some l → ∃ l', outstanding x.w'.trace = some l' ∧ l'.Perm l

/-- **C58**, full statement (false, see `C58_refuted`): with an allocator as in C05, the engine hands back every
page. -/
def C58_statement : Prop := ∀ (σ : Type) (x : Served σ), x.E.deallocCb.isSome → ZeroIsNull x.E → Freed x

/-- **C58 (partial).** The engine hands back every page, if the announced length fits in the data buffer.  Missing:
longer ones, see `C58_leak`. -/
theorem C58_freed_partial (x : Served σ) (hd : x.E.deallocCb.isSome) (hz : ZeroIsNull x.E) (n : Nat) (hn : announced x n)
    (hl : n ≤ x.dataLen.toNat) : Freed x := by
  intro l hl0
  obtain ⟨r', t', w', hb', e'⟩ := hn
  obtain ⟨r, t1, w1, hB, -, h⟩ := served_began x
  have hbb := hB.call
  rw [hb'] at hbb
  cases hbb
  have a0 : Acc x.E l (Translation.init x.ws) x.w.trace := ⟨l, [], hl0, by simp [Translation.init, livePages], fun _ => rfl, by simp⟩
  have a1 : Acc x.E l t' w'.trace := exec_acc x.E hd l _ (Idle_init x.ws).wf (.begin ⟨x.ptr, x.cdb.length⟩ x.buf x.lun) x.w
    (.begin r') t' w' (by simp only [Call.exec, M.bind_run, hB.call]; rfl) a0
  have hwf : Wf t' := exec_wf x.E _ (Idle_init x.ws).wf (.begin ⟨x.ptr, x.cdb.length⟩ x.buf x.lun) x.w
    (.begin r') t' w' (by simp only [Call.exec, M.bind_run, hB.call]; rfl)
  rcases h with ⟨hl', -⟩ | ⟨-, cs, m, c, t2, hD, hc, hok, hr⟩
  · omega
  · have hex : (Call.complete cs (dataIn x r'.alloc_len.toNat) ⟨x.sense, x.senseLen.toNat⟩).exec x.E t' ⟨m, w'.trace⟩
        = .ok ((.complete c, t2), x.w') := by simp only [Call.exec, M.bind_run, hc]; rfl
    obtain ⟨l', y, h1, h2, h3⟩ := exec_acc x.E hd l t' hwf _ _ _ _ _ hex a1
    rw [h3.1 hz] at h2
    have hcount : livePages t2.nvme_cmd_count t2.allocations = [] := by
      rcases Complete_inv x.E t' hwf _ _ _ _ _ _ _ hc with ⟨-, e, -⟩ | ⟨-, e, -⟩
      · rw [e] at hok; cases hok
      · rw [e, livePages_mono_nil (abortT_idle hwf).clean]
    rw [hcount] at h2
    exact ⟨l', h1, h2⟩

/-- **C58**, what happens otherwise: the pages recorded for the commands of an accepted command whose allocation
length is larger than the data buffer stay allocated, and nothing can hand them back any more. -/
theorem C58_leak (x : Served σ) (hd : x.E.deallocCb.isSome) (hz : ZeroIsNull x.E) (r : BeginResponse) (t1 : Translation)
    (w1 : World) (hb : Began x.E (Translation.init x.ws) x.w x.ptr x.cdb x.buf x.lun r t1 w1)
    (hl : x.dataLen.toNat < r.alloc_len.toNat) (l : List (U64 × U16)) (hl0 : outstanding x.w.trace = some l) :
    ∃ l', outstanding x.w'.trace = some l' ∧ l'.Perm (livePages 3 t1.allocations ++ l) := by
  obtain ⟨r', t', w', hB, -, h⟩ := served_began x
  have hbb := hB.call
  rw [hb.call] at hbb
  cases hbb
  have hw : x.w' = w1 := by
    rcases h with ⟨-, -, -, e⟩ | ⟨hl', -⟩
    · exact e
    · omega
  have a0 : Acc x.E l (Translation.init x.ws) x.w.trace := ⟨l, [], hl0, by simp [Translation.init, livePages], fun _ => rfl, by simp⟩
  have hex : (Call.begin ⟨x.ptr, x.cdb.length⟩ x.buf x.lun).exec x.E (Translation.init x.ws) x.w = .ok ((.begin r, t1), w1) := by
    simp only [Call.exec, M.bind_run, hB.call]; rfl
  obtain ⟨l', y, h1, h2, h3⟩ := exec_acc x.E hd l _ (Idle_init x.ws).wf _ x.w _ t1 w1 hex a0
  have hwf := exec_wf x.E _ (Idle_init x.ws).wf _ _ _ _ _ hex
  rw [h3.1 hz] at h2
  rw [hw, hwf.pages]
  exact ⟨l', h1, h2⟩

/-! ## Concrete calls -/

/-- A device that answers everything with success and does nothing. -/
def lazyDevice : Device Unit := fun s m _ => (s, m, {})

/-- A call of the engine whose result has a property. -/
theorem served_of {σ : Type} (E : Env) (D : Device σ) (s : σ) (w : World) (ptr : Nat) (cdb : List Byte)
    (lun : U64) (sense : Nat) (senseLen : U16) (data : Nat) (dataLen : U16) (isIn : Bool)
    (Q : ScsiToNvmeResponse → List Event → Prop) [∀ r t, Decidable (Q r t)]
    (hc : w.mem.read ptr cdb.length = some cdb) (hs : cdb.length < 65536)
    (h : (match ScsiToNvme E D s Demo.ws ptr (BitVec.ofNat 16 cdb.length) lun sense senseLen data dataLen isIn w with
      | .ok ((r, _), w') => decide (Q r w'.trace)
      | .error _ => false) = true) :
    ∃ x : Served σ, x.E = E ∧ x.D = D ∧ x.s = s ∧ x.w = w ∧ x.cdb = cdb ∧ x.dataLen = dataLen ∧ x.data = data ∧
      x.isIn = isIn ∧ x.sense = sense ∧ x.senseLen = senseLen ∧ Q x.resp x.w'.trace := by
  split at h
  · rename_i r s' w' e
    exact ⟨⟨E, D, s, Demo.ws, w, ptr, cdb, lun, sense, senseLen, data, dataLen, isIn, r, s', w', hc, hs, e⟩,
      rfl, rfl, rfl, rfl, rfl, rfl, rfl, rfl, rfl, rfl, of_decide_eq_true h⟩
  · cases h

theorem env_zero : ZeroIsNull Demo.env := by
  intro f hf w ps
  simp only [Demo.env, Option.some.injEq] at hf
  rw [← hf]
  rfl

/-- C58 does not hold: an INQUIRY with allocation length 96 and a data buffer of 36 bytes loses two pages. -/
theorem C58_refuted : ¬ C58_statement := by
  intro hall
  obtain ⟨x, h1, -, -, h2, -, -, -, -, -, -, hq⟩ := served_of Demo.env lazyDevice () ⟨Demo.mem Demo.inquiry, []⟩ 0x100 Demo.inquiry
    0 0x400 32 0x8000 36 true (fun r tr => r = ⟨0x40, 0⟩ ∧ outstanding tr = some [(0x120000, 1), (0x100000, 1)])
    (by decide +kernel) (by decide) (by decide +kernel)
  obtain ⟨l', e1, e2⟩ := hall Unit x (by rw [h1]; rfl) (by rw [h1]; exact env_zero) [] (by rw [h2]; rfl)
  rw [hq.2] at e1
  cases e1
  exact absurd e2.length_eq (by decide)

/-- The hypotheses of C56 and C57 are met: a READ(10) of two blocks. -/
example : ∃ x : Served Unit, GoodAllocator x.E ∧ x.resp = ⟨0, 8192⟩ ∧ (∀ a s m sub, (x.D s m sub).2.1 a = m a) := by
  obtain ⟨x, h1, h2, -, -, -, -, -, -, -, -, hq⟩ := served_of boundedEnv lazyDevice () ⟨Demo.mem Demo.read10, []⟩ 0x100 Demo.read10
    0 0x400 32 0x8000 8192 true (fun r _ => r = ⟨0, 8192⟩) (by decide +kernel) (by decide) (by decide +kernel)
  exact ⟨x, by rw [h1]; exact boundedEnv_good, hq, by rw [h2]; intro a s m sub; rfl⟩

/-- Those of the second theorem of C57: TASK ABORTED from the device (command abort requested). -/
example : ∃ x : Served Unit, x.resp.return_code = 0x40 ∧ announced x 8192 ∧ x.dataLen = 8192 := by
  obtain ⟨x, h1, h2, -, -, h5, h6, -, -, -, -, hq⟩ := served_of boundedEnv (fun s m _ => (s, m, Demo.cpl 0 7)) ()
    ⟨Demo.mem Demo.read10, []⟩ 0x100 Demo.read10
    0 0x400 32 0x8000 8192 true (fun r _ => r = ⟨0x40, 8192⟩) (by decide +kernel) (by decide) (by decide +kernel)
  refine ⟨x, by rw [hq], ?_, h6⟩
  obtain ⟨r, t1, w1, hB, -, h⟩ := C57_flow x
  refine ⟨r, t1, w1, hB, ?_⟩
  split at h
  · obtain ⟨cs, m, c, t2, -, -, -, e⟩ := h
    rw [hq] at e
    exact (congrArg ScsiToNvmeResponse.alloc_len e).symm
  · rw [hq] at h
    exact absurd (congrArg ScsiToNvmeResponse.alloc_len h.1) (by decide)

/-- Those of C58: an INQUIRY that fits, with two pages allocated and handed back. -/
example : ∃ x : Served Unit, x.E.deallocCb.isSome ∧ ZeroIsNull x.E ∧ announced x 96 ∧ x.dataLen = 96 ∧ outstanding x.w.trace = some [] := by
  obtain ⟨x, h1, -, -, h4, -, h6, -, -, -, -, hq⟩ := served_of Demo.env (fun s m _ => (s, m, Demo.cpl 2 0x81)) ()
    ⟨Demo.mem Demo.inquiry, []⟩ 0x100 Demo.inquiry
    0 0x400 32 0x8000 96 true (fun r _ => r = ⟨2, 96⟩) (by decide +kernel) (by decide) (by decide +kernel)
  refine ⟨x, by rw [h1]; rfl, by rw [h1]; exact env_zero, ?_, h6, by rw [h4]; rfl⟩
  obtain ⟨r, t1, w1, hB, -, h⟩ := C57_flow x
  refine ⟨r, t1, w1, hB, ?_⟩
  split at h
  · obtain ⟨cs, m, c, t2, -, -, -, e⟩ := h
    rw [hq] at e
    exact (congrArg ScsiToNvmeResponse.alloc_len e).symm
  · rw [hq] at h
    exact absurd (congrArg ScsiToNvmeResponse.alloc_len h.1) (by decide)

end Scsi2Nvme
