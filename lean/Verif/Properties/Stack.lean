import Verif.Spec.Stack
import Verif.Properties.Driver
import Verif.Properties.ModuleTarget
/-!
# C95: the whole stack
-/

namespace Scsi2Nvme
open Spec Engine Module Driver

variable {σ τ β : Type}

/-! ## Simulation of one device by another -/

/-- Seen through `f`, the device `D` does what `D'` does. -/
def Simulates (f : σ → τ) (D : Device σ) (D' : Device τ) : Prop :=
  ∀ s m sub, f (D s m sub).1 = (D' (f s) m sub).1 ∧ (D s m sub).2 = (D' (f s) m sub).2

/-- Apply `f` to the state of the device in a result. -/
def mapState {α : Type} (f : σ → τ) : Except UB ((α × σ) × World) → Except UB ((α × τ) × World)
  | .error e => .error e
  | .ok ((a, s), w) => .ok ((a, f s), w)

theorem submitAll_simulates {f : σ → τ} {D : Device σ} {D' : Device τ} (h : Simulates f D D') (wrs : List NvmeCmdWrapper) (s : σ) (w : World) :
    submitAll D' wrs (f s) w = mapState f (submitAll D wrs s w) := by
  induction wrs generalizing s w with
  | nil => rfl
  | cons wr wrs ih =>
    simp only [submitAll, M.bind_run, M.get_run]
    obtain ⟨h1, h2⟩ := h s w.mem (submissionOf wr)
    rw [← h1, ← h2, ih]
    cases submitAll D wrs (D s w.mem (submissionOf wr)).1 { w with mem := (D s w.mem (submissionOf wr)).2.1 } with
    | error e => rfl
    | ok y => rfl

theorem ScsiToNvme_simulates {f : σ → τ} {D : Device σ} {D' : Device τ} (h : Simulates f D D') (E : Env) (s : σ) (ws : Arr3 NvmeCmdWrapper)
    (ptr : Nat) (len : U16) (lun : U64)
    (sense : Nat) (senseLen : U16) (data : Nat) (dataLen : U16) (isIn : Bool) (w : World) :
    ScsiToNvme E D' (f s) ws ptr len lun sense senseLen data dataLen isIn w
      = mapState f (ScsiToNvme E D s ws ptr len lun sense senseLen data dataLen isIn w) := by
  unfold ScsiToNvme
  simp only [M.bind_run]
  cases hb : (Translation.init ws).Begin E ⟨ptr, len.toNat⟩ ⟨data, dataLen.toNat⟩ lun w with
  | error e => rfl
  | ok y =>
    obtain ⟨⟨r, t1⟩, w1⟩ := y
    simp only
    split
    · rfl
    · split
      · rfl
      · simp only [M.bind_run]
        rw [submitAll_simulates h]
        cases submitAll D t1.GetNvmeWrappers s w1 with
        | error e => rfl
        | ok y =>
          obtain ⟨⟨cs, s1⟩, w2⟩ := y
          simp only [mapState]
          cases t1.Complete E cs (if isIn = true then ⟨data, r.alloc_len.toNat⟩ else Span.null) ⟨sense, senseLen.toNat⟩ w2 with
          | error e => rfl
          | ok y =>
            obtain ⟨⟨c, t2⟩, w3⟩ := y
            simp only
            split <;> rfl

theorem queue_simulates {f : σ → τ} {D : Device σ} {D' : Device τ} (h : Simulates f D D') (K : Kernel) (junk : World → Nat → Byte) (s : σ)
    (ws : Arr3 NvmeCmdWrapper) (uninit : U64) (c : ScsiCmnd) (w : World) :
    scsi_queuecommand K junk D' (f s) ws uninit c w = mapState f (scsi_queuecommand K junk D s ws uninit c w) := by
  unfold scsi_queuecommand
  simp only
  split
  · simp only [M.bind_run, ScsiToNvme_simulates h]
    generalize ScsiToNvme (Module.env K junk) D s ws c.cmnd c.cmd_len c.lun c.sense_buffer SCSI_SENSE_BUFFERSIZE uninit.toNat
      (BitVec.ofNat 16 c.sg.length) c.is_data_in w = z
    cases z with
    | error e => rfl
    | ok y => rfl
  · simp only [M.bind_run, Module.kzalloc]
    split
    · rfl
    · split
      · simp only [M.bind_run, ScsiToNvme_simulates h]
        generalize ScsiToNvme (Module.env K junk) D s ws c.cmnd c.cmd_len c.lun c.sense_buffer SCSI_SENSE_BUFFERSIZE _
          (BitVec.ofNat 16 c.sg.length) c.is_data_in _ = z
        cases z with
        | error e => rfl
        | ok y =>
          obtain ⟨⟨r, s1⟩, w2⟩ := y
          simp only [mapState, load]
          cases w2.mem.read (K.kzalloc w (BitVec.ofNat 16 c.sg.length).toNat).1 (min r.alloc_len c.sg.length) with
          | none => rfl
          | some bs => rfl
      · simp only [M.bind_run, store]
        split
        · rename_i he
          split at he
          · cases he
          · cases he; rfl
        · simp only [M.bind_run, ScsiToNvme_simulates h]
          generalize ScsiToNvme (Module.env K junk) D s ws c.cmnd c.cmd_len c.lun c.sense_buffer SCSI_SENSE_BUFFERSIZE _
            (BitVec.ofNat 16 c.sg.length) c.is_data_in _ = z
          cases z with
          | error e => rfl
          | ok y => rfl

theorem queueAll_simulates {f : σ → τ} {D : Device σ} {D' : Device τ} (h : Simulates f D D') (K : Kernel) (junk : World → Nat → Byte) (s : σ)
    (tr : List Event) (qs : List Command) :
    queueAll K junk D' (f s) tr qs = match queueAll K junk D s tr qs with
      | .error e => .error e
      | .ok (os, s') => .ok (os, f s') := by
  induction qs generalizing s tr with
  | nil => rfl
  | cons q qs ih =>
    unfold queueAll
    rw [queue_simulates h]
    cases scsi_queuecommand K junk D s q.ws q.uninit q.cmd ⟨q.mem, tr⟩ with
    | error e => rfl
    | ok y =>
      obtain ⟨⟨o, s1⟩, w1⟩ := y
      simp only [mapState]
      rw [ih]
      cases queueAll K junk D s1 w1.trace qs with
      | error e => rfl
      | ok y => rfl

/-! ## The driver -/

theorem backed_simulates {B : BlockLayer β} {disks : β → Disk} {D : Device Disk} (hB : Backed B disks D) (hR : Reliable B) :
    Simulates (fun st : State β => disks st.blk) (device B) D := by
  intro st m sub
  have key : ∀ q : Bool, q = true → let r := nvme_submit_user_cmd B q st m sub {}
      disks r.state.blk = (D (disks st.blk) m sub).1 ∧ (r.mem, r.cpl) = (D (disks st.blk) m sub).2 := by
    intro q hq
    simp only
    unfold nvme_submit_user_cmd submit_req_done
    rw [if_neg (by rw [hq]; decide)]
    obtain ⟨b, hb⟩ := hR.request st.blk sub
    simp only [hb]
    have h1 := hB.request _ _ _ hb
    split
    · rw [if_neg (fun h => h (hR.mapping _ _ _)), if_neg (by rw [hR.disk]; decide)]
      simp only
      obtain ⟨e1, e2⟩ := hB.execute (B.mapKern b sub.buffer sub.bufflen).2 m sub
      rw [hB.free, e1, hB.mapping, h1]
      refine ⟨rfl, ?_⟩
      rw [← h1, ← hB.mapping b sub.buffer sub.bufflen, ← e2]
    · simp only
      obtain ⟨e1, e2⟩ := hB.execute b m sub
      rw [hB.free, e1, h1]
      refine ⟨rfl, ?_⟩
      rw [← h1, ← e2]
  unfold device submit_admin_command submit_io_command
  simp only
  split
  · exact key _ hR.adminQueue
  · exact key _ hR.ioQueue

/-- The requests obtained from the block layer over a history are given back. -/
theorem queueAll_requests (B : BlockLayer β) (K : Kernel) (hK : GoodKernel K) (junk : World → Nat → Byte) (st : State β) (tr : List Event)
    (qs : List Command) (hv : ∀ q ∈ qs, q.Fair) (os st') (h : queueAll K junk (device B) st tr qs = .ok (os, st')) (n : Nat)
    (hn : requestsOut st.reqs = some n) : requestsOut st'.reqs = some n := by
  induction qs generalizing st tr os with
  | nil =>
    unfold queueAll at h
    cases h
    exact hn
  | cons q qs ih =>
    unfold queueAll at h
    split at h
    · cases h
    · rename_i o st1 w1 e1
      split at h
      · cases h
      · rename_i os' st2 e2
        cases h
        have hq := hv q (List.mem_cons_self ..)
        refine ih st1 w1.trace (fun q hq => hv q (List.mem_cons_of_mem _ hq)) os' e2 ?_
        let x : Queued (State β) := ⟨K, junk, device B, st, q.ws, q.uninit, ⟨q.mem, tr⟩, q.cmd, o, st1, w1, q.cdb, hq.short, hq.len, hq.stored, e1⟩
        rcases x.calls hK with ⟨-, -, h3, -⟩ | ⟨y, h1, h2, h3, -⟩
        · change st1 = st at h3
          rw [h3]; exact hn
        · have := (C70_requests B y h1 n (by rw [h2]; exact hn)).1
          rw [h3] at this
          exact this

/-- **C95.** The whole stack - kernel module, engine, library and driver - over a block layer in which nothing fails and
which keeps the data of the disks: for any history of commands whatsoever, READ and WRITE (with lists of less than 65536
bytes) behave as those of an array of disks, no other command changes the disks or the length of a list, and every request
obtained from the block layer is given back. -/
theorem C95_stack (cap : Nat → Nat) (K : Kernel) (hK : GoodKernel K) (junk : World → Nat → Byte) (B : BlockLayer β) (hR : Reliable B)
    (disks : β → Disk) (D : Device Disk) (hB : Backed B disks D) (hS : Storage D cap) (st : State β) (tr : List Event)
    (qs : List Command) (hv : ∀ q ∈ qs, q.Fair) (os st') (h : queueAll K junk (device B) st tr qs = .ok (os, st')) :
    ManagedAll (fun l => cap (l + 1)) (fun q => ∃ tr, outOfMemory K tr q) (fun l a => disks st.blk (l + 1) a) qs os
      (fun l a => disks st'.blk (l + 1) a) ∧
    ∀ n, requestsOut st.reqs = some n → requestsOut st'.reqs = some n := by
  have hs := queueAll_simulates (backed_simulates hB hR) K junk st tr qs
  rw [h] at hs
  exact ⟨C93_history cap K hK junk D hS _ tr qs hv os _ hs, queueAll_requests B K hK junk st tr qs hv os st' h⟩

/-- **C95**, the last write is read, through the whole stack. -/
theorem C95_read_last_write (cap : Nat → Nat) (K : Kernel) (hK : GoodKernel K) (junk : World → Nat → Byte) (B : BlockLayer β) (hR : Reliable B)
    (disks : β → Disk) (D : Device Disk) (hB : Backed B disks D) (hS : Storage D cap) (st : State β) (tr : List Event)
    (pre mid : List Command) (W R : Command) (hv : ∀ q ∈ pre ++ W :: (mid ++ [R]), q.Fair) (lba n : Nat)
    (hW : isWrite (byte W.cdb 0)) (hWa : W.asks (cap (W.cmd.lun.toNat + 1)) lba n)
    (hRd : isRead (byte R.cdb 0)) (hRa : R.asks (cap (W.cmd.lun.toNat + 1)) lba n) (hlun : R.cmd.lun = W.cmd.lun)
    (hmem : ∀ tr, ¬ outOfMemory K tr W ∧ ¬ outOfMemory K tr R)
    (hmid : ∀ q ∈ mid, Command.sparing q (fun l => cap (l + 1)) W.cmd.lun.toNat lba n) (os st')
    (h : queueAll K junk (device B) st tr (pre ++ W :: (mid ++ [R])) = .ok (os, st')) :
    ∃ oW oR, os[pre.length]? = some oW ∧ os.getLast? = some oR ∧ oW.result = 0 ∧ oR.result = 0 ∧
      oR.sg = W.cmd.sg.take (4096 * n) ++ R.cmd.sg.drop (4096 * n) ∧
      oR.resid = some ((R.cmd.sg.length : Int) - 4096 * n) := by
  have hs := queueAll_simulates (backed_simulates hB hR) K junk st tr (pre ++ W :: (mid ++ [R]))
  rw [h] at hs
  exact C93_read_last_write cap K hK junk D hS _ tr pre mid W R hv lba n hW hWa hRd hRa hlun hmem hmid os _ hs

/-- **C95**, total: if moreover Identify and Get Features are executed, every history of `steady` commands (all but some MODE
SENSE commands, see C81) is handled to the end. -/
theorem C95_served (cap : Nat → Nat) (ident feature) (K : Kernel) (hK : GoodKernel K) (junk : World → Nat → Byte) (B : BlockLayer β)
    (hR : Reliable B) (disks : β → Disk) (D : Device Disk) (hB : Backed B disks D)
    (hS : Storage D cap) (hC : Controller D ident feature) (hT : tidy D) (hM : keepsMapped D) (st : State β) (tr : List Event)
    (qs : List Command) (hv : ∀ q ∈ qs, q.Fair) (hs : ∀ q ∈ qs, accessible q.mem ⟨q.cmd.sense_buffer, 96⟩)
    (hop : ∀ q ∈ qs, steady q.cdb (ident (nsidOfLun q.cmd.lun) 0)) :
    ∃ os st', queueAll K junk (device B) st tr qs = .ok (os, st') ∧ os.length = qs.length := by
  obtain ⟨os, d', h1, h2, -⟩ := C93_served cap ident feature K hK junk D hS hC hT hM (disks st.blk) tr qs hv hs hop
  have hsim := queueAll_simulates (backed_simulates hB hR) K junk st tr qs
  rw [h1] at hsim
  split at hsim
  · cases hsim
  · rename_i os' st' e
    cases hsim
    exact ⟨_, st', e, h2⟩

/-! ## Disks below a driver which maps the buffer -/

/-- **C95**: a driver which, as that of Linux, transfers the data through the buffer handed over, whatever the data pointers
in the command are, is one of the devices C83, C93 and C95 are about. -/
theorem C95_mapped (cap : Nat → Nat) : Storage (mappedDevice cap) cap where
  io := by
    intro d m sub ha hop hw
    unfold mappedDevice idealDevice
    simp only
    rw [hw.1]
    have h1 : ¬ (sub.is_admin = true ∨ byte sub.cmd 0 ≠ 0x01 ∧ byte sub.cmd 0 ≠ 0x02) := by
      rw [ha]
      rintro (h | ⟨h, h'⟩)
      · cases h
      · rcases hop with e | e
        · exact h e
        · exact h' e
    have h2 : ¬ sub.bufflen.toNat < 4096 * (leAt sub.cmd 48 2 + 1) := Nat.not_lt.mpr hw.2
    simp only [if_neg h1, if_neg h2]
    generalize leAt sub.cmd 48 2 + 1 = n
    generalize 4096 * n = k
    generalize leAt sub.cmd 24 8 = p
    generalize 4096 * leAt sub.cmd 40 8 = q
    congr 2
  quiet := by
    intro d m sub h
    unfold modifiesData at h
    unfold mappedDevice
    simp only
    split
    · rfl
    · split
      · rfl
      · split
        · rfl
        · split
          · split <;> rfl
          · exfalso; omega

/-- A block layer in which nothing goes wrong, over disks. -/
def diskLayer (D : Device Disk) : BlockLayer Disk where
  adminQueue := true
  ioQueue := true
  disk := true
  allocRequest := fun b _ => .ok b
  mapKern := fun b _ _ => (0, b)
  freeRequest := fun b => b
  execute := D

theorem diskLayer_reliable (D : Device Disk) : Reliable (diskLayer D) := ⟨rfl, rfl, rfl, fun b _ => ⟨b, rfl⟩, fun _ _ _ => rfl⟩

theorem diskLayer_backed (D : Device Disk) : Backed (diskLayer D) id D where
  request := fun b sub b' h => by cases h; rfl
  mapping := fun _ _ _ => rfl
  free := fun _ => rfl
  execute := fun _ _ _ => ⟨rfl, rfl⟩

/-- The hypotheses are met: WRITE(10), SYNCHRONIZE CACHE(10), READ(16) of the same two blocks, through the whole stack. -/
example (cap : Nat → Nat) (hcap : 100 ≤ cap 4) (ident : Nat → Nat → List Byte) (feature : Nat → Nat → Nat → Nat)
    (hs : ∀ n c, (ident n c).length = 4096) (d : Disk) :
    ∃ os st' oW oR, queueAll demoKernel (fun _ _ => 0) (device (diskLayer (demoTarget cap ident feature))) ⟨d, []⟩ []
        [demoCommand [0x2a, 0, 0, 0, 0, 9, 0, 0, 2, 0] (List.replicate 8192 0x5a) false,
         demoCommand [0x35, 0, 0, 0, 0, 0, 0, 0, 0, 0] [] false,
         demoCommand [0x88, 0, 0, 0, 0, 0, 0, 0, 0, 9, 0, 0, 0, 2, 0, 0] (List.replicate 12288 0) true] = .ok (os, st') ∧
      os[0]? = some oW ∧ os.getLast? = some oR ∧ oW.result = 0 ∧ oR.result = 0 ∧ oR.resid = some 4096 ∧
      oR.sg = (List.replicate 8192 0x5a).take 8192 ++ (List.replicate 12288 0).drop 8192 ∧ requestsOut st'.reqs = some 0 := by
  have f1 : (demoCommand [0x2a, 0, 0, 0, 0, 9, 0, 0, 2, 0] (List.replicate 8192 0x5a) false).Fair :=
    demoCommand_fair _ _ _ (by decide) (by decide) fun _ => ⟨demoCommand_valid _ _ _ (by decide) (by decide) (by
        intro _ rw_ h; rw [List.length_replicate]; revert h; decide +revert), by rw [List.length_replicate]; decide⟩
  have f3 : (demoCommand [0x35, 0, 0, 0, 0, 0, 0, 0, 0, 0] [] false).Fair :=
    demoCommand_fair _ _ _ (by decide) (by decide) fun h => absurd h (by decide)
  have f4 : (demoCommand [0x88, 0, 0, 0, 0, 0, 0, 0, 0, 9, 0, 0, 0, 2, 0, 0] (List.replicate 12288 0) true).Fair :=
    demoCommand_fair _ _ _ (by decide) (by decide) fun _ =>
      ⟨demoCommand_valid _ _ _ (by decide) (by decide) (fun h => absurd h (by decide)), by rw [List.length_replicate]; decide⟩
  have asks : ∀ cdb n b i, decodeRw cdb = some ⟨9, 2, some 0, false⟩ → 8192 ≤ n →
      (demoCommand cdb (List.replicate n b) i).asks (cap 4) 9 2 := fun cdb n b i hd hn =>
    ⟨⟨9, 2, some 0, false⟩, hd, by intro c h; cases h; decide, rfl, rfl, by decide, (by rw [demoCommand_length]; omega), by omega⟩
  have hF : ∀ q ∈ [] ++ demoCommand [0x2a, 0, 0, 0, 0, 9, 0, 0, 2, 0] (List.replicate 8192 0x5a) false ::
      ([demoCommand [0x35, 0, 0, 0, 0, 0, 0, 0, 0, 0] [] false] ++
       [demoCommand [0x88, 0, 0, 0, 0, 0, 0, 0, 0, 9, 0, 0, 0, 2, 0, 0] (List.replicate 12288 0) true]), q.Fair := by
    intro q hq
    simp only [List.nil_append, List.cons_append, List.mem_cons, List.not_mem_nil, or_false] at hq
    rcases hq with rfl | rfl | rfl
    · exact f1
    · exact f3
    · exact f4
  obtain ⟨os, st', h, -⟩ := C95_served cap ident feature demoKernel demoKernel_good (fun _ _ => 0) _
    (diskLayer_reliable _) id _ (diskLayer_backed (demoTarget cap ident feature))
    (demoTarget_storage cap ident feature) (demoTarget_controller cap ident feature hs) (demoTarget_tidy cap ident feature)
    (demoTarget_keepsMapped cap ident feature) ⟨d, []⟩ [] _ hF
    (by
      intro q hq
      simp only [List.nil_append, List.cons_append, List.mem_cons, List.not_mem_nil, or_false] at hq
      rcases hq with rfl | rfl | rfl <;> exact demoCommand_sense _ _ _ (by decide))
    (by
      intro q hq
      simp only [List.nil_append, List.cons_append, List.mem_cons, List.not_mem_nil, or_false] at hq
      rcases hq with rfl | rfl | rfl
      · exact steady_of ⟨by decide, by decide⟩ _
      · exact steady_of ⟨by decide, by decide⟩ _
      · exact steady_of ⟨by decide, by decide⟩ _)
  have hmemn : ∀ cdb n b i tr, n ≤ 0x10000 → cdb.length < 100 → ¬ outOfMemory demoKernel tr (demoCommand cdb (List.replicate n b) i) := by
    intro cdb n b i tr hn hl
    unfold outOfMemory
    exact demoCommand_alloc _ _ _ _ _ (by rw [demoCommand_length]; omega) hl
  obtain ⟨oW, oR, h1, h2, h3, h4, h5, h6⟩ := C95_read_last_write cap demoKernel demoKernel_good (fun _ _ => 0) _
    (diskLayer_reliable _) id _ (diskLayer_backed (demoTarget cap ident feature))
    (demoTarget_storage cap ident feature) ⟨d, []⟩ [] [] _ _ _
    hF 9 2 (by decide) (asks _ _ _ _ (by decide +kernel) (by decide)) (by decide) (asks _ _ _ _ (by decide +kernel) (by decide)) rfl
    (fun tr => ⟨hmemn _ _ _ _ _ (by decide) (by decide), hmemn _ _ _ _ _ (by decide) (by decide)⟩) (by
      intro q hq
      rw [List.mem_singleton.mp hq]
      exact fun hw => absurd hw (by decide)) os st' h
  refine ⟨os, st', oW, oR, h, h1, h2, h3, h4, ?_, h5, ?_⟩
  · rw [h6, demoCommand_length]
    rfl
  · exact (C95_stack cap demoKernel demoKernel_good (fun _ _ => 0) _ (diskLayer_reliable _) id _
      (diskLayer_backed (demoTarget cap ident feature)) (demoTarget_storage cap ident feature) ⟨d, []⟩ [] _ hF os st' h).2 0 rfl

end Scsi2Nvme
