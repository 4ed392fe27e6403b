import Verif.Model.Unopened
import Verif.Properties.Lifecycle
import Verif.Properties.ModuleTarget
import Verif.Properties.Plan
/-!
# C107: commands while the driver has no namespace
-/

namespace Scsi2Nvme
open Spec Engine Module Lifecycle

variable {σ : Type}

theorem submitAllNs_true (D : Device σ) (wrs : List NvmeCmdWrapper) (s : σ) : submitAllNs true D wrs s = submitAll D wrs s := by
  induction wrs generalizing s with
  | nil => rfl
  | cons wr wrs ih =>
    funext w
    unfold submitAllNs submitAll submitNs
    rw [if_neg (by decide)]
    simp only [M.bind_run, ih]
    rfl

theorem submitAllNs_false (D : Device σ) (wrs : List NvmeCmdWrapper) (s : σ) (w : World) :
    submitAllNs false D wrs s w = if wrs = [] then .ok (([], s), w) else .error .badAccess := by
  cases wrs with
  | nil => rfl
  | cons wr wrs => rfl

/-- **C107**, with a namespace: the engine and the module are the ones of all other theorems. -/
theorem C107_ready (K : Kernel) (junk : World → Nat → Byte) (D : Device σ) (s : σ) (ws : Arr3 NvmeCmdWrapper) (uninit : U64) (cmd : ScsiCmnd) :
    scsi_queuecommandNs true K junk D s ws uninit cmd = scsi_queuecommand K junk D s ws uninit cmd := by
  have h : ScsiToNvmeNs (σ := σ) true = ScsiToNvme := by
    funext E D s ws cb cl lun sb sl db dl dir
    unfold ScsiToNvmeNs ScsiToNvme
    simp only [submitAllNs_true]
  unfold scsi_queuecommandNs scsi_queuecommand
  rw [h]

/-- **C107**, what happens without a namespace: a command for which `Begin` hands out an NVMe command, with a buffer at least as long as
it announces, ends in a null pointer access; every other command is answered as with any device. -/
theorem C107_exact_partial (E : Env) (D : Device σ) (s : σ) (ws : Arr3 NvmeCmdWrapper) (w : World) (ptr : Nat) (cdb : List Byte) (lun : U64)
    (sense : Nat) (senseLen : U16) (data : Nat) (dataLen : U16) (isIn : Bool) (r : BeginResponse) (t : Translation) (w1 : World)
    (h : Began E (Translation.init ws) w ptr cdb ⟨data, dataLen.toNat⟩ lun r t w1) (hs : cdb.length < 65536) :
    ScsiToNvmeNs false E D s ws ptr (BitVec.ofNat 16 cdb.length) lun sense senseLen data dataLen isIn w =
      if r.alloc_len.toNat ≤ dataLen.toNat ∧ t.GetNvmeWrappers ≠ [] then .error .badAccess
      else ScsiToNvme E D s ws ptr (BitVec.ofNat 16 cdb.length) lun sense senseLen data dataLen isIn w := by
  have hlen : (BitVec.ofNat 16 cdb.length).toNat = cdb.length := by
    rw [BitVec.toNat_ofNat]; exact Nat.mod_eq_of_lt hs
  have hst : ¬ r.status = .kFailure := by
    rcases Begin_inv E _ (Idle_init ws) _ _ _ _ _ _ _ h.call with ⟨-, hr, -⟩ | ⟨-, bs, p, w', -, -, -, -, -, hr, -⟩ <;> rw [hr] <;> simp
  unfold ScsiToNvmeNs ScsiToNvme
  simp only [M.bind_run, hlen, h.call]
  rw [if_neg hst, if_neg hst]
  by_cases h1 : r.alloc_len.toNat > dataLen.toNat
  · rw [if_pos h1, if_pos h1, if_neg (by omega)]
  · rw [if_neg h1, if_neg h1]
    simp only [M.bind_run, submitAllNs_false]
    by_cases h2 : t.GetNvmeWrappers = []
    · have hP : ¬ (r.alloc_len.toNat ≤ dataLen.toNat ∧ t.GetNvmeWrappers ≠ []) := fun h => h.2 h2
      rw [if_pos h2, if_neg hP, h2]
      rfl
    · have hP : r.alloc_len.toNat ≤ dataLen.toNat ∧ t.GetNvmeWrappers ≠ [] := ⟨by omega, h2⟩
      rw [if_neg h2, if_pos hP]

/-- **C107**: so every READ or WRITE which is in order (its namespace could execute it) crashes the kernel, if there is memory for its data. -/
theorem C107_rw_partial (cap : Nat) (K : Kernel) (hK : GoodKernel K) (junk : World → Nat → Byte) (D : Device σ) (s : σ) (q : Command)
    (tr : List Event) (hq : q.Valid) (hl : q.cmd.sg.length < 65536) (lba n : Nat) (ha : q.asks cap lba n) (hm : ¬ outOfMemory K tr q) :
    scsi_queuecommandNs false K junk D s q.ws q.uninit q.cmd ⟨q.mem, tr⟩ = .error .badAccess := by
  have hlen : (BitVec.ofNat 16 q.cmd.sg.length).toNat = q.cmd.sg.length := by
    rw [BitVec.toNat_ofNat, Nat.mod_eq_of_lt hl]
  have hmod : q.cmd.sg.length % 65536 = q.cmd.sg.length := Nat.mod_eq_of_lt hl
  obtain ⟨rw_, hd, hp, rfl, rfl, hn, hbig, -⟩ := ha
  have hz : BitVec.ofNat 16 q.cmd.sg.length ≠ 0 := by
    intro h
    rw [h] at hlen
    have : (0 : U16).toNat = 0 := rfl
    omega
  have hop : isRead (byte q.cdb 0) ∨ isWrite (byte q.cdb 0) := hq.op.imp And.left And.left
  have engine : ∀ (w : World) (data : Nat), w.mem.read q.cmd.cmnd q.cdb.length = some q.cdb →
      ScsiToNvmeNs false (Module.env K junk) D s q.ws q.cmd.cmnd q.cmd.cmd_len q.cmd.lun q.cmd.sense_buffer SCSI_SENSE_BUFFERSIZE data
        (BitVec.ofNat 16 q.cmd.sg.length) q.cmd.is_data_in w = .error .badAccess := by
    intro w data hst
    obtain ⟨r, t1, hB, -⟩ := rw_begin (Module.env K junk) q.ws w q.cmd.cmnd q.cdb ⟨data, (BitVec.ofNat 16 q.cmd.sg.length).toNat⟩ q.cmd.lun hst hop
    rw [hq.len, C107_exact_partial _ _ _ _ _ _ _ _ _ _ _ _ _ _ _ _ hB hq.short, if_pos]
    obtain ⟨evs, -, -, -, h2, h3⟩ := C78_begin _ _ _ _ _ _ _ _ _ _ [] hB (fun h => absurd h (by
      unfold isRead isWrite at hop; omega))
    rw [hlen] at h2 h3 ⊢
    have hne : q.cdb ≠ [] := by
      intro h
      rw [h] at hop
      exact absurd hop (by decide)
    have hb : rw_.blocks ≤ 65535 := by omega
    unfold plan at h2 h3
    rw [if_neg hne] at h2 h3
    rcases hop with hop | hop
    · rw [if_pos hop] at h2 h3
      unfold readPlan at h2 h3
      simp only [hd] at h2 h3
      rw [if_neg (by omega)] at h2 h3
      have : ∃ x, rdProtect rw_.protect = some x := by
        unfold rdProtect
        cases hc : rw_.protect with
        | none => exact ⟨_, rfl⟩
        | some c =>
          have := hp c hc
          obtain rfl | rfl | rfl | rfl | rfl | rfl : c = 0 ∨ c = 1 ∨ c = 2 ∨ c = 3 ∨ c = 4 ∨ c = 5 := by omega
          all_goals exact ⟨_, rfl⟩
      obtain ⟨⟨pract, prchk⟩, hx⟩ := this
      simp only [hx] at h2 h3
      rw [if_neg (by omega)] at h2 h3
      refine ⟨by simp only at h2; omega, fun h => ?_⟩
      rw [h] at h3
      exact absurd h3.2 (by simp)
    · rw [if_neg (fun h => read_not_write h hop), if_pos hop] at h2 h3
      unfold writePlan at h2 h3
      simp only [hd] at h2 h3
      have : ∃ x, wrProtect rw_.protect = some x := by
        unfold wrProtect
        cases hc : rw_.protect with
        | none => exact ⟨_, rfl⟩
        | some c =>
          have := hp c hc
          obtain rfl | rfl | rfl | rfl | rfl | rfl : c = 0 ∨ c = 1 ∨ c = 2 ∨ c = 3 ∨ c = 4 ∨ c = 5 := by omega
          all_goals exact ⟨_, rfl⟩
      obtain ⟨⟨pract, prchk⟩, hx⟩ := this
      simp only [hx] at h2 h3
      rw [if_neg (by omega)] at h2 h3
      refine ⟨by simp only at h2; omega, fun h => ?_⟩
      rw [h] at h3
      exact absurd h3.2 (by simp)
  unfold outOfMemory at hm
  rw [hmod] at hm
  unfold scsi_queuecommandNs
  simp only
  rw [if_neg hz]
  simp only [M.bind_run, Module.kzalloc]
  rw [hlen, if_neg hm]
  split
  · simp only [M.bind_run]
    rw [engine _ _ (kzalloc_keeps hK _ _ _ _ hq.stored)]
  · have hmap : (K.kzalloc ⟨q.mem, tr⟩ q.cmd.sg.length).2.mapped (K.kzalloc ⟨q.mem, tr⟩ q.cmd.sg.length).1
        (q.cmd.sg.take q.cmd.sg.length).length = true := by
      rw [List.take_length]
      refine mapped_iff.mpr fun i hi => ?_
      rcases hK.alloc ⟨q.mem, tr⟩ q.cmd.sg.length with ⟨h, -⟩ | ⟨-, -, -, h, -⟩
      · exact absurd h hm
      · rw [(h _ ⟨Nat.le_add_right _ _, by omega⟩).2]; rfl
    simp only [M.bind_run, store]
    rw [if_pos hmap]
    simp only
    rw [engine]
    exact kzalloc_put_keeps hK _ _ _ _ _ (by rw [List.length_take]; omega) hm hq.stored

/-- After the module was loaded, every steady command is answered, whatever the kernel said to the calls made while loading. -/
def C107_statement : Prop :=
  ∀ (A : Answers) (log : List Ev), (scsi_mock_init A log).1 = 0 →
  ∀ (cap : Nat → Nat) (ident : Nat → Nat → List Byte) (feature : Nat → Nat → Nat → Nat) (K : Kernel), GoodKernel K →
  ∀ (junk : World → Nat → Byte) (D : Device Disk), Storage D cap → Controller D ident feature → tidy D → keepsMapped D →
  ∀ (d : Disk) (tr : List Event) (q : Command), q.Fair → accessible q.mem ⟨q.cmd.sense_buffer, 96⟩ →
    steady q.cdb (ident (nsidOfLun q.cmd.lun) 0) →
    ∃ o d' w', scsi_queuecommandNs (scsi_mock_init A log).2.ns K junk D d q.ws q.uninit q.cmd ⟨q.mem, tr⟩ = .ok ((o, d'), w')

/-- **C107**, partial: true if the block device could be opened and is that of an NVMe namespace. -/
theorem C107_opened_partial (A : Answers) (log : List Ev) (h : (scsi_mock_init A log).1 = 0)
    (h1 : A.openDev = true) (h2 : A.disk = true) (h3 : A.nsOk = true)
    (cap : Nat → Nat) (ident : Nat → Nat → List Byte) (feature : Nat → Nat → Nat → Nat) (K : Kernel) (hK : GoodKernel K)
    (junk : World → Nat → Byte) (D : Device Disk) (hS : Storage D cap) (hC : Controller D ident feature) (hT : tidy D) (hM : keepsMapped D)
    (d : Disk) (tr : List Event) (q : Command) (hq : q.Fair) (hs : accessible q.mem ⟨q.cmd.sense_buffer, 96⟩)
    (hop : steady q.cdb (ident (nsidOfLun q.cmd.lun) 0)) :
    ∃ o d' w', scsi_queuecommandNs (scsi_mock_init A log).2.ns K junk D d q.ws q.uninit q.cmd ⟨q.mem, tr⟩ = .ok ((o, d'), w') := by
  have hns : (scsi_mock_init A log).2.ns = true := by
    obtain ⟨e1, e2⟩ := C86_load_exact_partial A log
    rw [e2 ?_, h1, h2, h3]
    · rfl
    · rw [h] at e1
      revert e1
      cases Spec.Life.loads A <;> simp
  rw [hns, C107_ready]
  obtain ⟨⟨⟨o, d'⟩, w'⟩, h⟩ := queue_returns cap K hK junk D hS hC hT hM d q tr hq hs hop
  exact ⟨o, d', w', h⟩

/-- **C107 is false**: the module can be loaded without the block device, and then a READ crashes the kernel. -/
theorem C107_refuted : ¬ C107_statement := by
  intro h
  let q := demoCommand [0x28, 0, 0, 0, 0, 9, 0, 0, 1, 0] (List.replicate 4096 0) true
  have hv : q.Valid := demoCommand_valid _ _ _ (by decide) (by decide) (fun h => absurd h (by decide))
  have hl : q.cmd.sg.length = 4096 := List.length_replicate
  have hid : ∀ n c : Nat, ((fun _ _ => List.replicate 4096 0 : Nat → Nat → List Byte) n c).length = 4096 := fun _ _ => List.length_replicate
  have hf : q.Fair := demoCommand_fair _ _ _ (by decide) (by decide) fun _ => ⟨hv, by rw [List.length_replicate]; decide⟩
  obtain ⟨o, d', w', h⟩ := h { goodAnswers with openDev := false } [] (by decide) (fun _ => 100) (fun _ _ => List.replicate 4096 0) (fun _ _ _ => 0)
    demoKernel demoKernel_good (fun _ _ => 0) (demoTarget (fun _ => 100) (fun _ _ => List.replicate 4096 0) (fun _ _ _ => 0))
    (demoTarget_storage _ _ _) (demoTarget_controller _ _ _ hid) (demoTarget_tidy _ _ _) (demoTarget_keepsMapped _ _ _)
    (fun _ _ => 0) [] q hf (demoCommand_sense _ _ _ (by decide)) ⟨fun h => absurd h (by decide), fun h => absurd h (by decide)⟩
  have hns : (scsi_mock_init { goodAnswers with openDev := false } []).2.ns = false := by decide
  rw [hns, C107_rw_partial 100 demoKernel demoKernel_good _ _ _ q [] hv (by rw [hl]; decide) 9 1
    ⟨⟨9, 1, some 0, false⟩, by decide, by intro c h; cases h; decide, rfl, rfl, by decide, by rw [hl]; decide, by decide⟩ ?_] at h
  · cases h
  · unfold outOfMemory
    rw [hl]
    simp only [demoKernel]
    rw [if_pos]
    · decide
    · refine ⟨by decide, List.all_eq_true.mpr fun i hi => ?_⟩
      rw [show q.mem = (demoCommand [0x28, 0, 0, 0, 0, 9, 0, 0, 1, 0] (List.replicate 4096 0) true).mem from rfl]
      simp only [demoCommand]
      rw [if_neg (by simp only [List.length_cons, List.length_nil]; omega), if_neg (by omega)]
      rfl

/-- TEST UNIT READY is still answered without a namespace, a flush is not. -/
example : (match scsi_queuecommandNs false demoKernel (fun _ _ => 0) lazyDevice () Demo.ws 0 (demoCommand [0, 0, 0, 0, 0, 0] [] false).cmd
      ⟨(demoCommand [0, 0, 0, 0, 0, 0] [] false).mem, []⟩ with | .ok ((o, _), _) => o.result == 0 | .error _ => false) = true ∧
    (match scsi_queuecommandNs false demoKernel (fun _ _ => 0) lazyDevice () Demo.ws 0 (demoCommand [0x35, 0, 0, 0, 0, 0, 0, 0, 0, 0] [] false).cmd
      ⟨(demoCommand [0x35, 0, 0, 0, 0, 0, 0, 0, 0, 0] [] false).mem, []⟩ with | .ok _ => false | .error e => e == .badAccess) = true := by
  decide +kernel

end Scsi2Nvme
