import Verif.Model.Abort
import Verif.Properties.ModuleConcurrent
import Verif.Properties.ModuleDisk
/-!
# C120: the abort handler
-/

namespace Scsi2Nvme
open Spec

/-- **C120**, full statement (false, see `C120_refuted`): a command has made `n` steps when the SCSI layer asks for it to be aborted; if the
abort handler reports success (`SUCCESS` of the SCSI layer, 2002h), no NVMe command of it reaches the device any more, however far it goes on. -/
def C120_statement : Prop := ∀ (σ : Type) (K : Module.Kernel) (junk : World → Nat → Byte) (D : Engine.Device σ) (ws : Arr3 NvmeCmdWrapper)
    (uninit : U64) (cmd : Module.ScsiCmnd) (n m : Nat) (s s1 s2 : σ) (w w1 w2 : World) (ph ph' ph2 : Module.Phase) (r : Nat),
  Module.advanceN K junk D ws uninit cmd n s .queued w = .ok ((ph, s1), w1) → Module.scsi_abort cmd ph = (r, ph') → r = 0x2002 →
  Module.advanceN K junk D ws uninit cmd m s1 ph' w1 = .ok ((ph2, s2), w2) → s2 = s1

/-- Nothing is left to be submitted. -/
def Module.Phase.submitted : Module.Phase → Prop
  | .queued => False
  | .engine _ .called => False
  | .engine _ (.waiting _ _ todo _) => todo = []
  | .engine _ (.returned _) => True
  | .done _ => True

theorem advance_submitted {σ : Type} (K : Module.Kernel) (junk : World → Nat → Byte) (D : Engine.Device σ) (ws : Arr3 NvmeCmdWrapper)
    (uninit : U64) (cmd : Module.ScsiCmnd) (s s' : σ) (w w' : World) (ph ph' : Module.Phase) (h : ph.submitted)
    (e : Module.advance K junk D ws uninit cmd s ph w = .ok ((ph', s'), w')) : ph'.submitted ∧ s' = s := by
  cases ph with
  | queued => exact h.elim
  | done out =>
    simp only [Module.advance, M.pure_run, Except.ok.injEq, Prod.mk.injEq] at e
    obtain ⟨⟨rfl, rfl⟩, rfl⟩ := e
    exact ⟨trivial, rfl⟩
  | engine d ph =>
    cases ph with
    | called => exact h.elim
    | returned resp =>
      simp only [Module.advance] at e
      split at e
      · simp only [M.pure_run, Except.ok.injEq, Prod.mk.injEq] at e
        obtain ⟨⟨rfl, rfl⟩, rfl⟩ := e
        exact ⟨trivial, rfl⟩
      split at e
      · rw [M.bind_run] at e
        split at e
        · cases e
        rw [M.bind_run] at e
        split at e
        · cases e
        simp only [M.pure_run, Except.ok.injEq, Prod.mk.injEq] at e
        obtain ⟨⟨rfl, rfl⟩, rfl⟩ := e
        exact ⟨trivial, rfl⟩
      · rw [M.bind_run] at e
        split at e
        · cases e
        simp only [M.pure_run, Except.ok.injEq, Prod.mk.injEq] at e
        obtain ⟨⟨rfl, rfl⟩, rfl⟩ := e
        exact ⟨trivial, rfl⟩
    | waiting r t todo cpls =>
      cases (show todo = [] from h)
      simp only [Module.advance, Engine.advance, M.bind_run] at e
      split at e
      · cases e
      rename_i x hx
      split at hx
      · cases hx
      split at hx
      all_goals
        simp only [M.pure_run, Except.ok.injEq, Prod.mk.injEq] at hx e
        obtain ⟨⟨rfl, rfl⟩, rfl⟩ := hx
        obtain ⟨⟨rfl, rfl⟩, rfl⟩ := e
        exact ⟨trivial, rfl⟩

/-- **C120 (partial)**: if all NVMe commands have already been submitted when the abort is asked for, then nothing reaches the device any
more.  Missing: the rest, which is the case the SCSI layer relies on. -/
theorem C120_submitted_partial {σ : Type} (K : Module.Kernel) (junk : World → Nat → Byte) (D : Engine.Device σ) (ws : Arr3 NvmeCmdWrapper)
    (uninit : U64) (cmd : Module.ScsiCmnd) (m : Nat) (s1 s2 : σ) (w1 w2 : World) (ph ph' ph2 : Module.Phase) (r : Nat)
    (h : ph.submitted) (ha : Module.scsi_abort cmd ph = (r, ph'))
    (e : Module.advanceN K junk D ws uninit cmd m s1 ph' w1 = .ok ((ph2, s2), w2)) : s2 = s1 := by
  cases ha
  induction m generalizing s1 w1 ph with
  | zero =>
    simp only [Module.advanceN, M.pure_run, Except.ok.injEq, Prod.mk.injEq] at e
    exact e.1.2.symm
  | succ m ih =>
    simp only [Module.advanceN, M.bind_run] at e
    split at e
    · cases e
    rename_i x hx
    obtain ⟨h1, h2⟩ := advance_submitted K junk D ws uninit cmd s1 _ w1 _ ph _ h hx
    rw [← h2]
    exact ih _ _ _ h1 e

theorem advanceN_add {σ : Type} (K : Module.Kernel) (junk : World → Nat → Byte) (D : Engine.Device σ) (ws : Arr3 NvmeCmdWrapper)
    (uninit : U64) (cmd : Module.ScsiCmnd) (n m : Nat) (s s1 : σ) (w w1 : World) (ph ph1 : Module.Phase)
    (e : Module.advanceN K junk D ws uninit cmd n s ph w = .ok ((ph1, s1), w1)) :
    Module.advanceN K junk D ws uninit cmd (n + m) s ph w = Module.advanceN K junk D ws uninit cmd m s1 ph1 w1 := by
  induction n generalizing s w ph with
  | zero =>
    simp only [Module.advanceN, M.pure_run, Except.ok.injEq, Prod.mk.injEq] at e
    obtain ⟨⟨rfl, rfl⟩, rfl⟩ := e
    rw [Nat.zero_add]
  | succ n ih =>
    rw [Nat.succ_add]
    simp only [Module.advanceN, M.bind_run] at e ⊢
    split at e
    · cases e
    rename_i x hx
    exact ih _ _ _ e

/-- **C120**, what happens instead: success is reported, and the command goes on just as if the abort had not been asked for. -/
theorem C120_ignored {σ : Type} (K : Module.Kernel) (junk : World → Nat → Byte) (D : Engine.Device σ) (ws : Arr3 NvmeCmdWrapper)
    (uninit : U64) (cmd : Module.ScsiCmnd) (n m : Nat) (s s1 : σ) (w w1 : World) (ph ph' : Module.Phase) (r : Nat)
    (e : Module.advanceN K junk D ws uninit cmd n s .queued w = .ok ((ph, s1), w1)) (ha : Module.scsi_abort cmd ph = (r, ph')) :
    r = 0x2002 ∧
      Module.advanceN K junk D ws uninit cmd m s1 ph' w1 = Module.advanceN K junk D ws uninit cmd (n + m) s .queued w := by
  cases ha
  exact ⟨rfl, (advanceN_add K junk D ws uninit cmd n m s s1 w w1 .queued ph e).symm⟩

/-- A device which counts what it is given and reports success. -/
def countingDevice : Engine.Device Nat := fun s m _ => (s + 1, m, Demo.cpl 0 0)

/-- A WRITE(10) of one block. -/
def abortedWrite : Module.ScsiCmnd :=
  { lun := 0, cmnd := 0x100, cmd_len := 10, sense_buffer := 0x400, is_data_in := false, sg := List.replicate 4096 0x77 }

/-- Its command block. -/
def abortedBlock : List Byte := [0x2a, 0, 0, 0, 0, 5, 0, 0, 1, 0]

/-- The memory it is in. -/
def abortedMem : Mem := fun a =>
  if 0x100 ≤ a ∧ a < 0x100 + 10 then abortedBlock[a - 0x100]? else if 0x400 ≤ a ∧ a < 0x500 then some 0 else none

/-- What can be seen of a state: how many commands the device was given, and whether the command is finished. -/
def glance (x : Except UB ((Module.Phase × Nat) × World)) : Option (Nat × Bool) :=
  match x with
  | .error _ => none
  | .ok ((ph, s), _) => some (s, match ph with | .done _ => true | _ => false)

/-- The write, from the beginning, for `n` steps. -/
def abortedRun (n : Nat) : Except UB ((Module.Phase × Nat) × World) :=
  Module.advanceN demoKernel (fun _ _ => 0) countingDevice Demo.ws 0 abortedWrite n 0 .queued ⟨abortedMem, []⟩

theorem aborted_two : glance (abortedRun 2) = some (0, false) := by decide +kernel
theorem aborted_five : glance (abortedRun 5) = some (1, true) := by decide +kernel

/-- **C120** does not hold: a WRITE is aborted after `Begin`, with success; it is handed to the device nevertheless. -/
theorem C120_refuted : ¬ C120_statement := by
  intro h
  have h2 := aborted_two
  have h5 := aborted_five
  cases e2 : abortedRun 2 with
  | error e => rw [e2] at h2; cases h2
  | ok x =>
    obtain ⟨⟨ph, s1⟩, w1⟩ := x
    cases e5 : abortedRun 5 with
    | error e => rw [e5] at h5; cases h5
    | ok y =>
      obtain ⟨⟨ph2, s2⟩, w2⟩ := y
      have hrest := (C120_ignored demoKernel (fun _ _ => 0) countingDevice Demo.ws 0 abortedWrite 2 3 0 s1 ⟨abortedMem, []⟩ w1 ph ph _ e2 rfl).2
      have := h Nat demoKernel (fun _ _ => 0) countingDevice Demo.ws 0 abortedWrite 2 3 0 s1 s2 ⟨abortedMem, []⟩ w1 w2 ph ph ph2 _ e2 rfl rfl
        (hrest.trans e5)
      rw [e2] at h2
      rw [e5] at h5
      simp only [glance, Option.some.injEq, Prod.mk.injEq] at h2 h5
      omega

/-- Hypotheses of `C120_submitted_partial`: the same command after its NVMe command has been submitted, with `Complete` still to come. -/
example : (match abortedRun 3 with
    | .ok ((.engine _ (.waiting _ _ [] cpls), s), _) => some (s, cpls.length)
    | _ => none) = some (1, 1) := by decide +kernel

end Scsi2Nvme
