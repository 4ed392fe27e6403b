import Verif.Proofs.ModuleLinear
import Verif.Properties.Concurrent
/-!
# C101, C102: calls of the kernel module made concurrently
-/

namespace Scsi2Nvme
open Spec Engine

variable {ι σ : Type}

/-! ## The steps -/

theorem module_advanceN_done (K : Module.Kernel) (junk : World → Nat → Byte) (D : Device σ) (ws : Arr3 NvmeCmdWrapper) (uninit : U64)
    (cmd : Module.ScsiCmnd) (n : Nat) (s : σ) (o : Module.Outcome) (w : World) :
    Module.advanceN K junk D ws uninit cmd n s (.done o) w = .ok ((.done o, s), w) := by
  induction n with
  | zero => rfl
  | succ n ih =>
    simp only [Module.advanceN, Module.advance, M.bind_run, M.pure_run]
    exact ih

theorem module_finish (K : Module.Kernel) (junk : World → Nat → Byte) (D : Device σ) (ws : Arr3 NvmeCmdWrapper) (uninit : U64)
    (cmd : Module.ScsiCmnd) (s : σ) (b : Nat) (r : ScsiToNvmeResponse) (w : World) {ph s' w'}
    (h : Module.advance K junk D ws uninit cmd s (.engine b (.returned r)) w = .ok ((ph, s'), w')) : ∃ o, ph = .done o := by
  unfold Module.advance at h
  by_cases hz : Module.dataLen cmd = 0
  · simp only [if_pos hz, M.pure_run] at h
    cases h
    exact ⟨_, rfl⟩
  · simp only [if_neg hz] at h
    by_cases hi : cmd.is_data_in = true
    · simp only [if_pos hi, M.bind_run, load, Module.kfree, M.pure_run] at h
      cases hb : w.mem.read b (min r.alloc_len cmd.sg.length) with
      | none => rw [hb] at h; cases h
      | some bs =>
        rw [hb] at h
        cases h
        exact ⟨_, rfl⟩
    · simp only [if_neg hi, M.bind_run, Module.kfree, M.pure_run] at h
      cases h
      exact ⟨_, rfl⟩

theorem module_advanceN_engine (K : Module.Kernel) (junk : World → Nat → Byte) (D : Device σ) (ws : Arr3 NvmeCmdWrapper) (uninit : U64)
    (cmd : Module.ScsiCmnd) (b : Nat) (k : Nat) (s : σ) (ph : Phase) (w : World) (hk : stepsLeft ph ≤ k) :
    Module.advanceN K junk D ws uninit cmd (k + 1) s (.engine b ph) w =
      match Engine.advanceN (Module.env K junk) D (Module.engineArgs ws cmd b) k s ph w with
      | .error e => .error e
      | .ok ((ph', s'), w') => Module.advance K junk D ws uninit cmd s' (.engine b ph') w' := by
  have one : ∀ (k : Nat) (r : ScsiToNvmeResponse) (s : σ) (w : World), Module.advanceN K junk D ws uninit cmd (k + 1) s (.engine b (.returned r)) w =
      Module.advance K junk D ws uninit cmd s (.engine b (.returned r)) w := by
    intro k r s w
    conv => lhs; unfold Module.advanceN
    simp only [M.bind_run]
    cases hm : Module.advance K junk D ws uninit cmd s (.engine b (.returned r)) w with
    | error e => rfl
    | ok z =>
      obtain ⟨⟨ph', s'⟩, w'⟩ := z
      obtain ⟨o, rfl⟩ := module_finish K junk D ws uninit cmd s b r w hm
      exact module_advanceN_done K junk D ws uninit cmd k s' o w'
  induction k generalizing s ph w with
  | zero =>
    cases ph with
    | called => cases hk
    | waiting r t todo cs => cases hk
    | returned r => exact one 0 r s w
  | succ k ih =>
    cases ph with
    | returned r =>
      rw [one, advanceN_returned]
    | called =>
      conv => lhs; unfold Module.advanceN
      simp only [Engine.advanceN, Module.advance, M.bind_run]
      cases hm : Engine.advance (Module.env K junk) D (Module.engineArgs ws cmd b) s .called w with
      | error e => rfl
      | ok z =>
        obtain ⟨⟨ph', s'⟩, w'⟩ := z
        simp only [M.pure_run]
        exact ih s' ph' w' (by have := advance_less _ _ _ _ _ _ hm; omega)
    | waiting r t todo cs =>
      conv => lhs; unfold Module.advanceN
      simp only [Engine.advanceN, Module.advance, M.bind_run]
      cases hm : Engine.advance (Module.env K junk) D (Module.engineArgs ws cmd b) s (.waiting r t todo cs) w with
      | error e => rfl
      | ok z =>
        obtain ⟨⟨ph', s'⟩, w'⟩ := z
        simp only [M.pure_run]
        exact ih s' ph' w' (by have := advance_less _ _ _ _ _ _ hm; omega)

/-- **C101 (the steps).** A call which makes its steps undisturbed is a call of `scsi_queuecommand`; it is done after at most seven
steps. -/
theorem C101_alone (K : Module.Kernel) (junk : World → Nat → Byte) (D : Device σ) (ws : Arr3 NvmeCmdWrapper) (uninit : U64)
    (cmd : Module.ScsiCmnd) (s : σ) (w : World) :
    Module.advanceN K junk D ws uninit cmd 7 s .queued w =
      match Module.scsi_queuecommand K junk D s ws uninit cmd w with
      | .error e => .error e
      | .ok ((o, s'), w') => .ok ((.done o, s'), w') := by
  have eng : ∀ (b : Nat) (w : World), Module.advanceN K junk D ws uninit cmd 6 s (.engine b .called) w =
      match ScsiToNvme (Module.env K junk) D s ws cmd.cmnd cmd.cmd_len cmd.lun cmd.sense_buffer Module.SCSI_SENSE_BUFFERSIZE b
        (Module.dataLen cmd) cmd.is_data_in w with
      | .error e => .error e
      | .ok ((r, s'), w') => Module.advance K junk D ws uninit cmd s' (.engine b (.returned r)) w' := by
    intro b w
    rw [module_advanceN_engine K junk D ws uninit cmd b 5 s .called w (Nat.le_refl _), advance_alone]
    change (match (match ScsiToNvme (Module.env K junk) D s ws cmd.cmnd cmd.cmd_len cmd.lun cmd.sense_buffer Module.SCSI_SENSE_BUFFERSIZE b
        (Module.dataLen cmd) cmd.is_data_in w with
      | .error e => (.error e : Except UB ((Phase × σ) × World)) | .ok ((r, s'), w') => .ok ((.returned r, s'), w')) with
      | .error e => (.error e : Except UB ((Module.Phase × σ) × World))
      | .ok ((ph', s'), w') => Module.advance K junk D ws uninit cmd s' (.engine b ph') w') = _
    cases ScsiToNvme (Module.env K junk) D s ws cmd.cmnd cmd.cmd_len cmd.lun cmd.sense_buffer Module.SCSI_SENSE_BUFFERSIZE b
        (Module.dataLen cmd) cmd.is_data_in w with
    | error e => rfl
    | ok z => obtain ⟨⟨r, s'⟩, w'⟩ := z; rfl
  unfold Module.advanceN Module.scsi_queuecommand
  rw [show (BitVec.ofNat 16 cmd.sg.length : U16) = Module.dataLen cmd from rfl]
  simp only [Module.advance]
  by_cases hz : Module.dataLen cmd = 0
  · simp only [if_pos hz, M.bind_run, M.pure_run, eng]
    cases ScsiToNvme (Module.env K junk) D s ws cmd.cmnd cmd.cmd_len cmd.lun cmd.sense_buffer Module.SCSI_SENSE_BUFFERSIZE uninit.toNat
        (Module.dataLen cmd) cmd.is_data_in w with
    | error e => rfl
    | ok z =>
      obtain ⟨⟨r, s'⟩, w'⟩ := z
      simp only [Module.advance, if_pos hz, M.pure_run]
  · simp only [if_neg hz, M.bind_run, Module.kzalloc]
    by_cases h0 : (K.kzalloc w (Module.dataLen cmd).toNat).1 = 0
    · simp only [if_pos h0, M.pure_run]
      exact module_advanceN_done K junk D ws uninit cmd 6 s _ _
    · simp only [if_neg h0]
      by_cases hi : cmd.is_data_in = true
      · simp only [if_pos hi, M.bind_run, M.pure_run, eng]
        cases ScsiToNvme (Module.env K junk) D s ws cmd.cmnd cmd.cmd_len cmd.lun cmd.sense_buffer Module.SCSI_SENSE_BUFFERSIZE
            (K.kzalloc w (Module.dataLen cmd).toNat).1 (Module.dataLen cmd) cmd.is_data_in
            ⟨(K.kzalloc w (Module.dataLen cmd).toNat).2, w.trace⟩ with
        | error e => rfl
        | ok z =>
          obtain ⟨⟨r, s'⟩, w'⟩ := z
          simp only [Module.advance, if_neg hz, if_pos hi, M.bind_run]
          cases load (K.kzalloc w (Module.dataLen cmd).toNat).1 (min r.alloc_len cmd.sg.length) w' with
          | error e => rfl
          | ok z => rfl
      · simp only [if_neg hi, M.bind_run]
        cases store (K.kzalloc w (Module.dataLen cmd).toNat).1 (cmd.sg.take (Module.dataLen cmd).toNat)
            ⟨(K.kzalloc w (Module.dataLen cmd).toNat).2, w.trace⟩ with
        | error e => rfl
        | ok z =>
          obtain ⟨u, w1⟩ := z
          simp only [M.pure_run, eng]
          cases ScsiToNvme (Module.env K junk) D s ws cmd.cmnd cmd.cmd_len cmd.lun cmd.sense_buffer Module.SCSI_SENSE_BUFFERSIZE
              (K.kzalloc w (Module.dataLen cmd).toNat).1 (Module.dataLen cmd) cmd.is_data_in w1 with
          | error e => rfl
          | ok z =>
            obtain ⟨⟨r, s'⟩, w'⟩ := z
            simp only [Module.advance, if_neg hz, if_neg hi, M.bind_run]
            rfl

/-! ## Schedules -/

theorem Host_run_append [DecidableEq ι] (K : Module.Kernel) (junk : World → Nat → Byte) (D : Device σ) (c : ι → Command) (y : Host ι σ)
    (s1 s2 : List ι) :
    y.run K junk D c (s1 ++ s2) = match y.run K junk D c s1 with | .error e => .error e | .ok y1 => y1.run K junk D c s2 := by
  induction s1 generalizing y with
  | nil => rfl
  | cons i is ih =>
    simp only [List.cons_append, Host.run]
    cases y.step K junk D c i with
    | error e => rfl
    | ok y1 => exact ih y1

/-- A whole schedule. -/
theorem HLin.run [DecidableEq ι] {D cap ident feature} (hT : Target D cap ident feature) {K : Module.Kernel} (hK : GoodKernel K)
    {junk : World → Nat → Byte} {refused : ι → Prop} {c : ι → Command} (hq : ∀ i, (c i).Fair) {d0 : Disk} (sched : List ι)
    {own : ι → Nat → Prop} {y y' : Host ι Disk} {L : List ι}
    (hrf : ∀ i, Refused K junk D c y sched i → refused i)
    (hI : HInv K junk c own y) (hL : HLin cap refused c d0 y L) (h : y.run K junk D c sched = .ok y') :
    ∃ M own', HInv K junk c own' y' ∧ HLin cap refused c d0 y' (L ++ M) ∧ ∀ out : ι → Module.Outcome,
      (∀ j, foresees (c j) y'.world.mem (out j) (y'.phase j)) → ∀ j, foresees (c j) y.world.mem (out j) (y.phase j) := by
  induction sched generalizing own y L with
  | nil =>
    cases h
    exact ⟨[], own, hI, by rw [List.append_nil]; exact hL, fun _ h => h⟩
  | cons i is ih =>
    unfold Host.run at h
    split at h
    · cases h
    · rename_i y1 e
      have hs := hstepped_of hI (hq i) e
      obtain ⟨own1, hI1, -⟩ := hI.step hK (hT.tame (C72_util K hK junk).1) (hq i) hs
      obtain ⟨M1, hL1, b1⟩ := hL.step hT hK (hq i) (fun h1 h2 => hrf i ⟨[], is, y, rfl, rfl, h1, h2⟩) hI hs
      obtain ⟨M2, own2, hI2, hL2, b2⟩ := ih (fun j hj => hrf j (by
        obtain ⟨b, a, y2, h1, h2, h3⟩ := hj
        exact ⟨i :: b, a, y2, by rw [h1]; rfl, by simp only [Host.run, e]; exact h2, h3⟩)) hI1 hL1 h
      exact ⟨M1 ++ M2, own2, hI2, by rw [← List.append_assoc]; exact hL2, fun r hr => b1 r (b2 r hr)⟩

theorem foresees_exists {K : Module.Kernel} {junk : World → Nat → Byte} {c : ι → Command} {own : ι → Nat → Prop} {y : Host ι σ}
    (hI : HInv K junk c own y) (i : ι) : ∃ o, foresees (c i) y.world.mem o (y.phase i) := by
  have read : ∀ (b : Nat) (ph : Phase) (n res : Nat), y.phase i = .engine b ph →
      ∃ o : Module.Outcome, o.result = res ∧ shaped (c i) y.world.mem b o n := by
    intro b ph n res hp
    by_cases hr : isRead (byte (c i).cdb 0)
    · obtain ⟨bs, hbs⟩ : ∃ bs, y.world.mem.read b (min n (Module.dataLen (c i).cmd).toNat) = some bs := by
        refine Option.isSome_iff_exists.mp (read_isSome.mpr fun k hk => hI.inv.used i _ ?_)
        unfold Host.reqs
        rw [hp]
        exact .inr (.inr ⟨Nat.le_add_right _ _, by change b + k < b + (Module.dataLen (c i).cmd).toNat; omega⟩)
      exact ⟨⟨res, some (((Module.dataLen (c i).cmd).toNat : Int) - (min n (Module.dataLen (c i).cmd).toNat : Nat)),
        bs ++ (c i).cmd.sg.drop (min n (Module.dataLen (c i).cmd).toNat)⟩, rfl, fun hw => absurd hw fun hw => read_not_write hr hw,
        fun _ _ => ⟨bs, hbs, rfl, fun _ => rfl⟩⟩
    · exact ⟨⟨res, none, (c i).cmd.sg⟩, rfl, fun _ => rfl, fun h => absurd h hr⟩
  cases hp : y.phase i with
  | queued => exact ⟨⟨0, none, []⟩, trivial⟩
  | done o => exact ⟨o, rfl⟩
  | engine b ph =>
    cases ph with
    | called => exact ⟨⟨0, none, []⟩, trivial⟩
    | waiting r t todo cs =>
      by_cases hio : isIo (c i)
      · by_cases h : Accepted t ∧ ∀ c ∈ cs, cplOk c
        · obtain ⟨o, h1, h2⟩ := read b _ r.alloc_len.toNat 0 hp
          exact ⟨o, fun _ _ => ⟨⟨fun _ => h, fun _ => h1⟩, h2⟩, fun h => absurd hio h⟩
        · obtain ⟨o, h1, h2⟩ := read b _ r.alloc_len.toNat 1 hp
          exact ⟨o, fun _ _ => ⟨⟨fun e => (by rw [h1] at e; cases e), fun e => absurd e h⟩, h2⟩, fun h => absurd hio h⟩
      · exact ⟨⟨0, none, (c i).cmd.sg⟩, fun h => absurd h hio, fun _ => ⟨by simp, rfl⟩⟩
    | returned r =>
      by_cases hio : isIo (c i)
      · obtain ⟨o, h1, h2⟩ := read b _ r.alloc_len r.return_code hp
        exact ⟨o, h1, fun _ => h2, fun h => absurd hio h⟩
      · exact ⟨⟨r.return_code, none, (c i).cmd.sg⟩, rfl, fun h => absurd h hio, fun _ => ⟨(hI.ret i b r hp).1, rfl⟩⟩

theorem Spec.InTurn.mono {cap : Nat → Nat} {P Q : ι → Prop} (hPQ : ∀ i, P i → Q i) {c : ι → Command} {out : ι → Module.Outcome} {d d' : Disk}
    {L : List ι} (h : InTurn cap P c out d L d') : InTurn cap Q c out d L d' := by
  induction h with
  | nil => exact .nil
  | cons h _ ih => exact .cons (h.mono (hPQ _)) ih

theorem Refused.more [DecidableEq ι] {K : Module.Kernel} {junk : World → Nat → Byte} {D : Device σ} {c : ι → Command} {y : Host ι σ}
    {s1 : List ι} (s2 : List ι) {i : ι} (h : Refused K junk D c y s1 i) : Refused K junk D c y (s1 ++ s2) i := by
  obtain ⟨b, a, y', rfl, h2⟩ := h
  exact ⟨b, a ++ s2, y', by simp, h2⟩

theorem Refused.later [DecidableEq ι] {K : Module.Kernel} {junk : World → Nat → Byte} {D : Device σ} {c : ι → Command} {y y1 : Host ι σ}
    {s1 : List ι} {s2 : List ι} {i : ι} (h1 : y.run K junk D c s1 = .ok y1) (h : Refused K junk D c y1 s2 i) :
    Refused K junk D c y (s1 ++ s2) i := by
  obtain ⟨b, a, y', rfl, h2, h3⟩ := h
  exact ⟨s1 ++ b, a, y', by simp, by rw [Host_run_append, h1]; exact h2, h3⟩

/-- **C101.** Any number of commands with different command blocks and sense buffers, handed to the module concurrently, their
calls interleaved in any way: there is an order in which the commands could have been executed one after the other with the same
outcomes (result, residual count, scatter-gather list) and the same effect on the disks.  It contains every command that is done
and no command for which the engine has not begun.  This holds at any moment (`y₁`), and later (`y₂`) the order is the same, with further
commands after it: so a command that was done before another one began comes before it.  A command fails for lack of memory only if
`kzalloc` returned NULL when its turn had come. -/
theorem C101_linearizable [DecidableEq ι] (cap : Nat → Nat) (ident feature) (K : Module.Kernel) (hK : GoodKernel K)
    (junk : World → Nat → Byte) (D : Device Disk) (hS : Storage D cap) (hC : Controller D ident feature) (hT : tidy D)
    (c : ι → Command) (m : Mem) (hc : Disjoint c m) (d : Disk) (tr : List Event) (sched₁ sched₂ : List ι) (y₁ y₂ : Host ι Disk)
    (h₁ : (Host.start d m tr).run K junk D c sched₁ = .ok y₁) (h₂ : (Host.start d m tr).run K junk D c (sched₁ ++ sched₂) = .ok y₂) :
    ∃ order₁ order₂ out, Accounts y₁ order₁ out ∧ Accounts y₂ (order₁ ++ order₂) out ∧
      InTurn (fun l => cap (l + 1)) (Refused K junk D c (Host.start d m tr) sched₁) c out
        (fun l a => d (l + 1) a) order₁ (fun l a => y₁.dev (l + 1) a) ∧
      InTurn (fun l => cap (l + 1)) (Refused K junk D c (Host.start d m tr) (sched₁ ++ sched₂)) c out
        (fun l a => d (l + 1) a) (order₁ ++ order₂) (fun l a => y₂.dev (l + 1) a) := by
  have hT' : Target D cap ident feature := ⟨hS, hC, hT⟩
  obtain ⟨L1, own1, hI1, hL1, -⟩ := HLin.run hT' hK hc.fair sched₁ (fun i h => h) (HInv.start hc d tr)
    (HLin.start cap _ c d m tr) h₁
  rw [List.nil_append] at hL1
  have hL1' : HLin cap (Refused K junk D c (Host.start d m tr) (sched₁ ++ sched₂)) c d y₁ L1 :=
    ⟨hL1.nodup, hL1.mem, hL1.waits, fun out ho => (hL1.seq out ho).mono fun _ h => Refused.more _ h⟩
  have h₂' := h₂
  rw [Host_run_append, h₁] at h₂'
  obtain ⟨L2, own2, hI2, hL2, back⟩ := HLin.run hT' hK hc.fair sched₂ (fun i h => Refused.later h₁ h) hI1 hL1' h₂'
  have hex := foresees_exists hI2
  have cov : ∀ (P : ι → Prop) (y : Host ι Disk) (L : List ι) (out : ι → Module.Outcome), HLin cap P c d y L →
      (∀ i, foresees (c i) y.world.mem (out i) (y.phase i)) → Accounts y L out := by
    intro P y L out hL hr
    refine ⟨hL.nodup, fun i hi => ?_, fun i r hp => ?_⟩
    · have := (hL.mem i).mp hi
      constructor
      · intro hp
        rw [hp] at this
        exact this
      · intro b hp
        rw [hp] at this
        exact this
    · have h1 := hr i
      rw [hp] at h1
      exact ⟨(hL.mem i).mpr (by rw [hp]; trivial), h1⟩
  have hr2 : ∀ i, foresees (c i) y₂.world.mem ((fun i => Classical.choose (hex i)) i) (y₂.phase i) := fun i => Classical.choose_spec (hex i)
  have hr1 := back _ hr2
  exact ⟨L1, L2, _, cov _ _ _ _ hL1 hr1, cov _ _ _ _ hL2 hr2, hL1.seq _ hr1, hL2.seq _ hr2⟩

/-- Every step is defined, if the steps of the engine are. -/
theorem HInv.defines [DecidableEq ι] {K : Module.Kernel} (hK : GoodKernel K) {junk : World → Nat → Byte} (D : Device σ) {c : ι → Command}
    {own} {y : Host ι σ} (hI : HInv K junk c own y) {i : ι} (hq : (c i).Fair)
    (hop : (y.reqs c i).Fair → ∃ y1, y.view.step (Module.env K junk) D (y.reqs c) i = .ok y1) :
    ∃ y', y.step K junk D c i = .ok y' := by
  have hle : (Module.dataLen (c i).cmd).toNat ≤ (c i).cmd.sg.length := by rw [dataLen_toNat]; exact Nat.mod_le _ _
  cases hp : y.phase i with
  | done o => exact ⟨y, host_done K junk D c y i hp⟩
  | queued =>
    unfold Host.step
    rw [hp]
    simp only [Module.advance]
    by_cases hz : Module.dataLen (c i).cmd = 0
    · simp only [if_pos hz, M.pure_run]
      exact ⟨_, rfl⟩
    · simp only [if_neg hz, M.bind_run, Module.kzalloc]
      by_cases h0 : (K.kzalloc y.world (Module.dataLen (c i).cmd).toNat).1 = 0
      · simp only [if_pos h0, M.pure_run]
        exact ⟨_, rfl⟩
      · simp only [if_neg h0]
        by_cases hi : (c i).cmd.is_data_in = true
        · simp only [if_pos hi, M.pure_run]
          exact ⟨_, rfl⟩
        · simp only [if_neg hi, M.bind_run, store]
          rw [if_pos]
          · exact ⟨_, rfl⟩
          · refine mapped_iff.mpr fun k hk => ?_
            rw [List.length_take] at hk
            rcases hK.alloc y.world (Module.dataLen (c i).cmd).toNat with ⟨h, -⟩ | ⟨-, -, -, h, -⟩
            · exact absurd h h0
            · change ((K.kzalloc y.world (Module.dataLen (c i).cmd).toNat).2 _).isSome
              rw [(h _ ⟨Nat.le_add_right _ _, by omega⟩).2]; rfl
  | engine b ph =>
    by_cases hr : ∀ r, ph ≠ .returned r
    · rw [host_engine K junk D c y i hq hp hr]
      have hv : y.reqs c i = viewReq (c i) b (Module.dataLen (c i).cmd) := by unfold Host.reqs; rw [hp]; rfl
      have hf : (y.reqs c i).Fair := by
        rw [hv]
        exact viewReq_fair hq (hI.buf i b ph hp).1 fun a ha => (hI.buf i b ph hp).2 a (.inl ha)
      obtain ⟨y1, e⟩ := hop hf
      rw [e]
      exact ⟨_, rfl⟩
    · obtain ⟨r, rfl⟩ : ∃ r, ph = .returned r := by
        cases ph with
        | returned r => exact ⟨r, rfl⟩
        | called => exact absurd (fun _ h => by cases h) hr
        | waiting => exact absurd (fun _ h => by cases h) hr
      unfold Host.step
      rw [hp]
      simp only [Module.advance]
      by_cases hz : Module.dataLen (c i).cmd = 0
      · simp only [if_pos hz, M.pure_run]
        exact ⟨_, rfl⟩
      · simp only [if_neg hz]
        by_cases hi : (c i).cmd.is_data_in = true
        · have hal := (hI.ret i b r hp).2
          obtain ⟨bs, hb⟩ : ∃ bs, y.world.mem.read b (min r.alloc_len (c i).cmd.sg.length) = some bs := by
            refine Option.isSome_iff_exists.mp (read_isSome.mpr fun k hk => hI.inv.used i _ ?_)
            unfold Host.reqs
            rw [hp]
            exact .inr (.inr ⟨Nat.le_add_right _ _, by change b + k < b + (Module.dataLen (c i).cmd).toNat; omega⟩)
          simp only [if_pos hi, M.bind_run, load_ok hb, Module.kfree, M.pure_run]
          exact ⟨_, rfl⟩
        · simp only [if_neg hi, M.bind_run, Module.kfree, M.pure_run]
          exact ⟨_, rfl⟩

theorem HInv.steady [DecidableEq ι] {K : Module.Kernel} (hK : GoodKernel K) {junk : World → Nat → Byte} (D : Device σ) {c : ι → Command}
    {own} {y : Host ι σ} (hI : HInv K junk c own y) {i : ι} (hq : (c i).Fair) (hop : ∀ page, Spec.steady (c i).cdb page) :
    ∃ y', y.step K junk D c i = .ok y' :=
  hI.defines hK D hq fun hf => hI.inv.steadies D (C72_util K hK junk).1 hf (i := i) (by
    unfold Host.reqs viewOf
    split <;> exact hop)

/-- **C101 (safety).** No interleaving of commands which are `steady`, whatever the Identify data (all commands but some MODE SENSE
commands, see C81), has undefined behaviour. -/
theorem C101_defined [DecidableEq ι] (cap : Nat → Nat) (ident feature) (K : Module.Kernel) (hK : GoodKernel K)
    (junk : World → Nat → Byte) (D : Device Disk) (hS : Storage D cap) (hC : Controller D ident feature) (hT : tidy D)
    (c : ι → Command) (m : Mem) (hc : Disjoint c m) (hop : ∀ i page, steady (c i).cdb page)
    (d : Disk) (tr : List Event) (sched : List ι) : ∃ y, (Host.start d m tr).run K junk D c sched = .ok y := by
  have hT' : Target D cap ident feature := ⟨hS, hC, hT⟩
  have key : ∀ (own : ι → Nat → Prop) (y : Host ι Disk), HInv K junk c own y → ∃ y', y.run K junk D c sched = .ok y' := by
    induction sched with
    | nil => exact fun _ y _ => ⟨y, rfl⟩
    | cons i is ih =>
      intro own y hI
      obtain ⟨y1, h1⟩ := hI.steady hK D (hc.fair i) (hop i)
      obtain ⟨own1, hI1, -⟩ := hI.step hK (hT'.tame (C72_util K hK junk).1) (hc.fair i) (hstepped_of hI (hc.fair i) h1)
      obtain ⟨y2, h2⟩ := ih own1 y1 hI1
      exact ⟨y2, by simp only [Host.run, h1, h2]⟩
  exact key _ _ (HInv.start hc d tr)

/-- **C101 (confinement).** At any moment, in any interleaving: memory that was accessible at the beginning and is neither a command
block nor a sense buffer of the commands is unchanged. -/
theorem C101_confined [DecidableEq ι] (cap : Nat → Nat) (ident feature) (K : Module.Kernel) (hK : GoodKernel K)
    (junk : World → Nat → Byte) (D : Device Disk) (hS : Storage D cap) (hC : Controller D ident feature) (hT : tidy D)
    (c : ι → Command) (m : Mem) (hc : Disjoint c m) (d : Disk) (tr : List Event) (sched : List ι) (y : Host ι Disk)
    (h : (Host.start d m tr).run K junk D c sched = .ok y) (a : Nat) (ha : (m a).isSome) (hn : ∀ i, ¬ (c i).uses a) :
    y.world.mem a = m a := by
  have hT' : Target D cap ident feature := ⟨hS, hC, hT⟩
  have key : ∀ (sched : List ι) (own : ι → Nat → Prop) (x : Host ι Disk), HInv K junk c own x → x.world.mem a = m a →
      (∀ i, ¬ own i a) → (∀ i, ¬ (x.reqs c i).uses a) → x.run K junk D c sched = .ok y → y.world.mem a = m a := by
    intro sched
    induction sched with
    | nil => intro own x _ hx _ _ hr; cases hr; exact hx
    | cons i is ih =>
      intro own x hI hx ho hu hr
      unfold Host.run at hr
      split at hr
      · cases hr
      · rename_i x1 e
        obtain ⟨own1, hI1, hcf, hgr⟩ := hI.step hK (hT'.tame (C72_util K hK junk).1) (hc.fair i) (hstepped_of hI (hc.fair i) e)
        have hsome : x.world.mem a ≠ none := by rw [hx]; intro h; rw [h] at ha; cases ha
        refine ih own1 x1 hI1 ?_ (fun j hj => ?_) (fun j hj => ?_) hr
        · rw [hcf a (by rw [hx]; exact ha) (hu i) (ho i), hx]
        · exact (hgr.own j a hj).elim (ho j) hsome
        · exact (hgr.uses j a hj).elim (hu j) hsome
  exact key sched _ _ (HInv.start hc d tr) rfl (fun _ h => h) (fun i hi => hn i (view_uses_empty.mp hi)) h

/-- Steps left, at most. -/
def stepsToGo : Module.Phase → Nat
  | .queued => 7
  | .engine _ ph => stepsLeft ph + 1
  | .done _ => 0

theorem module_less (K : Module.Kernel) (junk : World → Nat → Byte) (D : Device σ) (ws : Arr3 NvmeCmdWrapper) (uninit : U64)
    (cmd : Module.ScsiCmnd) (s : σ) (ph : Module.Phase) (w : World) {ph' s' w'}
    (h : Module.advance K junk D ws uninit cmd s ph w = .ok ((ph', s'), w')) : stepsToGo ph' ≤ stepsToGo ph - 1 := by
  have step : ∀ b ph, (∀ r, ph ≠ Phase.returned r) →
      (match Engine.advance (Module.env K junk) D (Module.engineArgs ws cmd b) s ph w with
        | .error e => (.error e : Except UB ((Module.Phase × σ) × World))
        | .ok ((p, s), w) => .ok ((.engine b p, s), w)) = .ok ((ph', s'), w') → stepsToGo ph' ≤ stepsToGo (.engine b ph) - 1 := by
    intro b ph hr h
    split at h
    · cases h
    · rename_i p s1 w1 e
      cases h
      have := advance_less _ _ _ _ _ _ e
      cases ph with
      | returned r => exact absurd rfl (hr r)
      | called => simp only [stepsToGo, stepsLeft] at this ⊢; omega
      | waiting r t todo cs => simp only [stepsToGo, stepsLeft] at this ⊢; omega
  cases ph with
  | queued =>
    unfold Module.advance at h
    by_cases hz : Module.dataLen cmd = 0
    · simp only [if_pos hz, M.pure_run] at h
      cases h
      simp [stepsToGo, stepsLeft]
    · simp only [if_neg hz, M.bind_run, Module.kzalloc] at h
      by_cases h0 : (K.kzalloc w (Module.dataLen cmd).toNat).1 = 0
      · simp only [if_pos h0, M.pure_run] at h
        cases h
        simp [stepsToGo]
      · simp only [if_neg h0] at h
        by_cases hi : cmd.is_data_in = true
        · simp only [if_pos hi, M.pure_run] at h
          cases h
          simp [stepsToGo, stepsLeft]
        · simp only [if_neg hi, M.bind_run, store] at h
          by_cases hm : Mem.mapped (K.kzalloc w (Module.dataLen cmd).toNat).2 (K.kzalloc w (Module.dataLen cmd).toNat).1
              (cmd.sg.take (Module.dataLen cmd).toNat).length = true
          · simp only [if_pos hm, M.pure_run] at h
            cases h
            simp [stepsToGo, stepsLeft]
          · simp only [if_neg hm] at h
            cases h
  | done o => cases h; exact Nat.zero_le _
  | engine b ph =>
    cases ph with
    | returned r =>
      obtain ⟨o, rfl⟩ := module_finish K junk D ws uninit cmd s b r w h
      exact Nat.zero_le _
    | called =>
      refine step b .called (fun _ h => by cases h) ?_
      rw [← h]
      simp only [Module.advance, M.bind_run]
      cases Engine.advance (Module.env K junk) D (Module.engineArgs ws cmd b) s .called w <;> rfl
    | waiting r t todo cs =>
      refine step b (.waiting r t todo cs) (fun _ h => by cases h) ?_
      rw [← h]
      simp only [Module.advance, M.bind_run]
      cases Engine.advance (Module.env K junk) D (Module.engineArgs ws cmd b) s (.waiting r t todo cs) w <;> rfl

/-- **C101 (progress).** A command which was given seven turns is done, whatever the other calls did. -/
theorem C101_wait_free [DecidableEq ι] (K : Module.Kernel) (junk : World → Nat → Byte) (D : Device σ) (c : ι → Command) (s : σ) (m : Mem)
    (tr : List Event) (sched : List ι) (y : Host ι σ) (h : (Host.start s m tr).run K junk D c sched = .ok y) (i : ι)
    (hi : 7 ≤ sched.count i) : ∃ o, y.phase i = .done o := by
  have key : ∀ (sched : List ι) (x : Host ι σ), x.run K junk D c sched = .ok y → stepsToGo (y.phase i) ≤ stepsToGo (x.phase i) - sched.count i := by
    intro sched
    induction sched with
    | nil =>
      intro x hx
      cases hx
      simp
    | cons j js ih =>
      intro x hx
      unfold Host.run at hx
      split at hx
      · cases hx
      · rename_i x1 e
        have h1 := ih x1 hx
        unfold Host.step at e
        split at e
        · cases e
        · rename_i ph s' w' ha
          cases e
          have h2 := module_less K junk D _ _ _ _ _ _ ha
          by_cases hij : i = j
          · subst hij
            simp only [if_true] at h1
            rw [List.count_cons_self]
            omega
          · simp only [if_neg hij] at h1
            rw [List.count_cons_of_ne (fun e => hij e.symm)]
            exact h1
  have := key sched _ h
  have h0 : stepsToGo (y.phase i) = 0 := by
    have : stepsToGo ((Host.start s m tr : Host ι σ).phase i) = 7 := rfl
    omega
  cases hp : y.phase i with
  | queued => rw [hp] at h0; cases h0
  | engine b ph => rw [hp] at h0; cases h0
  | done o => exact ⟨o, rfl⟩

end Scsi2Nvme
