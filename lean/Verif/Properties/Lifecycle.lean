import Verif.Spec.Lifecycle
/-!
# C85, C86, C87: loading, unloading and rebinding the kernel module
-/

namespace Scsi2Nvme
open Lifecycle Spec.Life

/-- Handle of the block device, if it was opened. -/
def opened (A : Answers) : List Res := if A.openDev then [.blockDevice] else []

/-- The host, if the device is bound. -/
def hostHeld (b : Bool) : List Res := if b then [.hostAdded, .host] else []

/-- What is held while the module is loaded. -/
def duringLife (A : Answers) (bound : Bool) : List Res :=
  hostHeld bound ++ ([.device, .deviceRef, .driver, .bus, .rootDevice] ++ opened A)

theorem held_acq {log : List Ev} {l : List Res} (h : held log = some l) (r : Res) :
    held (.acq r :: log) = some (r :: l) := by
  simp only [held, h, Option.map_some]

theorem held_rel {log : List Ev} {l : List Res} (h : held log = some l) (r : Res) (hm : r ∈ l) :
    held (.rel r :: log) = some (l.erase r) := by
  simp only [held, h, Option.bind_some, if_pos hm]

theorem nvme_init_held (A : Answers) (s : Sys) (l : List Res) (h : held s.log = some l) :
    held (nvme_driver_init A s).2.log = some (opened A ++ l)
      ∧ (nvme_driver_init A s).2.registered = s.registered ∧ (nvme_driver_init A s).2.bound = s.bound := by
  unfold nvme_driver_init opened
  by_cases h0 : A.openDev = false
  · rw [if_pos h0, h0]
    exact ⟨h, rfl, rfl⟩
  · have h1 : A.openDev = true := by revert h0; cases A.openDev <;> simp
    rw [if_neg h0]
    simp only [h1, if_true]
    split
    · exact ⟨held_acq h _, rfl, rfl⟩
    · split
      · exact ⟨held_acq h _, rfl, rfl⟩
      · exact ⟨held_acq h _, rfl, rfl⟩

/-- Invariant while the module is loaded. -/
structure LifeInv (A : Answers) (l : List Res) (s : Sys) : Prop where
  holds : held s.log = some (duringLife A s.bound ++ l)
  once : s.bound = true → s.registered = 1

theorem bind_inv (A B : Answers) (l : List Res) (s : Sys) (h : LifeInv A l s) : LifeInv A l (kernelBind B s) := by
  unfold kernelBind
  by_cases hb : s.bound = true
  · rw [if_pos hb]; exact h
  · rw [if_neg hb]
    have hb' : s.bound = false := by revert hb; cases s.bound <;> simp
    have hh := h.holds
    rw [hb'] at hh
    unfold bus_driver_probe
    by_cases h1 : (true = false ∨ s.registered > 0)
    · rw [if_pos h1]
      refine ⟨?_, fun hc => ?_⟩
      · simpa [hb'] using hh
      · simp only [show ¬ ((-1 : Int) = 0) by decide, if_false] at hc; exact absurd hc hb
    · rw [if_neg h1]
      by_cases h2 : B.hostAlloc = false
      · rw [if_pos h2]
        refine ⟨?_, fun hc => ?_⟩
        · simpa [hb'] using hh
        · simp only [show ¬ ((-19 : Int) = 0) by decide, if_false] at hc; exact absurd hc hb
      · rw [if_neg h2]
        by_cases h3 : B.addHost = 0
        · simp only [h3, ne_eq, not_true_eq_false, if_false, if_true]
          refine ⟨?_, fun _ => rfl⟩
          exact held_acq (held_acq hh _) _
        · simp only [h3, ne_eq, not_false_eq_true, if_true, if_false]
          refine ⟨?_, fun hc => absurd hc hb⟩
          have := held_rel (held_acq hh .host) .host (by simp)
          rw [List.erase_cons_head] at this
          change held (.rel .host :: .acq .host :: s.log) = some (duringLife A s.bound ++ l)
          rw [hb']
          exact this

theorem unbind_inv (A : Answers) (l : List Res) (s : Sys) (h : LifeInv A l s) : LifeInv A l (kernelUnbind s) := by
  unfold kernelUnbind
  by_cases hb : s.bound = true
  · rw [if_pos hb]
    have hh := h.holds
    rw [hb] at hh
    refine ⟨?_, fun hc => absurd hc (by simp)⟩
    have h1 := held_rel hh .hostAdded (by simp [duringLife, hostHeld])
    have h2 := held_rel h1 .host (by simp [duringLife, hostHeld])
    simpa [duringLife, hostHeld, bus_remove, Sys.rel] using h2
  · rw [if_neg hb]; exact h

theorem acts_inv (A : Answers) (l : List Res) (acts : List Act) (s : Sys) (h : LifeInv A l s) :
    LifeInv A l (acts.foldl act s) := by
  induction acts generalizing s with
  | nil => exact h
  | cons a as ih =>
    refine ih _ ?_
    cases a with
    | unbind => exact unbind_inv A l s h
    | bind B => exact bind_inv A B l s h

/-- The result of loading, and what is held afterwards. -/
theorem init_spec (A : Answers) (log : List Ev) (l : List Res) (h : held log = some l) :
    (loads A = true → (scsi_mock_init A log).1 = 0 ∧ LifeInv A l (scsi_mock_init A log).2) ∧
    (loads A = false → (scsi_mock_init A log).1 = -22 ∧
      held (scsi_mock_init A log).2.log = some (leaves ⟨A, []⟩ ++ l)) := by
  obtain ⟨h0, hreg, hbd⟩ := nvme_init_held A { log := log } l h
  unfold scsi_mock_init loads leaves deviceRefused
  simp only
  generalize (nvme_driver_init A { log := log }).2 = s0 at h0 hreg hbd ⊢
  cases hr : A.root with
  | false =>
    simp only [Bool.false_and, if_true, true_and, Bool.false_eq_true, false_imp_iff, forall_const, if_false,
      List.nil_append]
    exact h0
  | true =>
    rw [if_neg (by decide)]
    have h1 := held_acq h0 .rootDevice
    by_cases hb : A.bus = 0
    · simp only [hb, ne_eq, not_true_eq_false, if_false]
      have h2 := held_acq h1 .bus
      by_cases hd : A.driver = 0
      · simp only [hd, ne_eq, not_true_eq_false, if_false]
        have h3 := held_acq h2 .driver
        have h4 := held_acq h3 .deviceRef
        unfold device_register
        by_cases hv : A.device = 0
        · simp only [hv, ne_eq, not_true_eq_false, if_false]
          refine ⟨fun _ => ⟨trivial, bind_inv A A l _ ⟨?_, fun hc => absurd hc ?_⟩⟩, by simp⟩
          · have h5 := held_acq h4 .device
            change held (.acq .device :: .acq .deviceRef :: .acq .driver :: .acq .bus :: .acq .rootDevice :: s0.log)
              = some (duringLife A s0.bound ++ l)
            rw [hbd]
            exact h5
          · change ¬ s0.bound = true
            rw [hbd]; simp
        · simp only [hv, ne_eq, not_false_eq_true, if_true]
          refine ⟨by simp [hv], fun _ => ⟨trivial, ?_⟩⟩
          have h5 := held_rel h4 .rootDevice (by simp)
          have h6 := held_rel h5 .bus (by simp)
          have h7 := held_rel h6 .driver (by simp)
          change held (.rel .driver :: .rel .bus :: .rel .rootDevice :: .acq .deviceRef :: .acq .driver :: .acq .bus
            :: .acq .rootDevice :: s0.log) = _
          rw [h7]
          simp [hv, opened]
      · simp only [hd, ne_eq, not_false_eq_true, if_true]
        refine ⟨by simp [hd], fun _ => ⟨trivial, ?_⟩⟩
        have h5 := held_rel h2 .rootDevice (by simp)
        have h6 := held_rel h5 .bus (by simp)
        change held (.rel .bus :: .rel .rootDevice :: .acq .bus :: .acq .rootDevice :: s0.log) = _
        rw [h6]
        simp [hd, opened]
    · simp only [hb, ne_eq, not_false_eq_true, if_true]
      refine ⟨by simp [hb], fun _ => ⟨trivial, ?_⟩⟩
      have h5 := held_rel h1 .rootDevice (by simp)
      change held (.rel .rootDevice :: .acq .rootDevice :: s0.log) = _
      rw [h5]
      simp [hb, opened]

theorem exit_held (A : Answers) (l : List Res) (s : Sys) (h : LifeInv A l s) :
    held (scsi_mock_exit s).log = some (opened A ++ l) := by
  have h0 := unbind_inv A l s h
  have hb : (kernelUnbind s).bound = false := by
    unfold kernelUnbind
    split
    · rfl
    · rename_i hn; revert hn; cases s.bound <;> simp
  have h1 := h0.holds
  rw [hb] at h1
  unfold scsi_mock_exit device_unregister
  generalize kernelUnbind s = u at h1 ⊢
  have h2 := held_rel h1 .device (by simp [duringLife])
  have h3 := held_rel h2 .deviceRef (by simp [duringLife, hostHeld])
  have h4 := held_rel h3 .driver (by simp [duringLife, hostHeld])
  have h5 := held_rel h4 .bus (by simp [duringLife, hostHeld])
  have h6 := held_rel h5 .rootDevice (by simp [duringLife, hostHeld])
  change held (.rel .rootDevice :: .rel .bus :: .rel .driver :: .rel .deviceRef :: .rel .device :: u.log) = _
  rw [h6]
  simp [duringLife, hostHeld]

theorem life_held (log : List Ev) (l : List Res) (h : held log = some l) (x : Life) :
    held (life log x) = some (leaves x ++ l) := by
  obtain ⟨h1, h2⟩ := init_spec x.answers log l h
  unfold life loaded
  cases hl : loads x.answers with
  | true =>
    obtain ⟨ha, hi⟩ := h1 hl
    simp only [ha, if_true]
    rw [exit_held x.answers l _ (acts_inv x.answers l x.acts _ hi)]
    have : deviceRefused x.answers = false := by
      revert hl
      unfold loads deviceRefused
      cases x.answers.root <;> simp
      intro _ _ h; simp [h]
    simp [leaves, this, opened]
  | false =>
    obtain ⟨ha, hi⟩ := h2 hl
    simp only [ha, show ¬ ((-22 : Int) = 0) by decide, if_false]
    exact hi

/-- Loading and unloading leaves nothing behind: the property a user expects, for every history. -/
def C85_statement : Prop := ∀ (xs : List Life), held (lives [] xs) = some []

/-- **C85 (partial).** In every history of the module nothing is released that is not held, and what remains at the
end is exactly what each life leaves behind: the handle of the block device, if it could be opened, and the
reference to the device, if its registration failed; everything else has been released.  Missing: that nothing
remains, which is false. -/
theorem C85_left_behind_partial (log : List Ev) (l : List Res) (h : held log = some l) (xs : List Life) :
    held (lives log xs) = some (xs.reverse.flatMap leaves ++ l) := by
  induction xs generalizing log l with
  | nil => simpa [lives] using h
  | cons x xs ih =>
    have := ih _ _ (life_held log l h x)
    unfold lives at this ⊢
    rw [List.foldl_cons, this]
    simp [List.flatMap_append]

/-- **C85.** While the module is loaded it holds the root device, the bus, the driver, the device (with the reference
to it), the block device if it could be opened, and one host exactly if the device is bound – after every sequence of
unbinding and binding. -/
theorem C85_while_loaded (log : List Ev) (l : List Res) (h : held log = some l) (x : Life) (s : Sys)
    (hs : loaded log x = some s) :
    held s.log = some ((if s.bound then [.hostAdded, .host] else []) ++
      ([.device, .deviceRef, .driver, .bus, .rootDevice] ++ (if x.answers.openDev then [.blockDevice] else [])) ++ l) := by
  obtain ⟨h1, h2⟩ := init_spec x.answers log l h
  unfold loaded at hs
  cases hl : loads x.answers with
  | true =>
    obtain ⟨ha, hi⟩ := h1 hl
    simp only [ha, if_true, Option.some.injEq] at hs
    subst hs
    exact (acts_inv x.answers l x.acts _ hi).holds
  | false =>
    obtain ⟨ha, -⟩ := h2 hl
    simp only [ha, show ¬ ((-22 : Int) = 0) by decide, if_false] at hs
    cases hs

/-- A kernel in which everything succeeds. -/
def goodAnswers : Answers := ⟨true, true, true, true, 0, 0, 0, true, 0⟩

/-- **C85 is false.** The handle of the block device is never given back. -/
theorem C85_refuted : ¬ C85_statement := by
  intro h
  have h1 := h [⟨goodAnswers, []⟩]
  rw [C85_left_behind_partial [] [] rfl] at h1
  cases h1

/-- The hypotheses are met: a life with unbinding and binding. -/
example : (loaded [] ⟨goodAnswers, [.unbind, .bind goodAnswers]⟩).isSome ∧
    held (lives [] [⟨goodAnswers, [.unbind, .bind goodAnswers]⟩, ⟨{ goodAnswers with device := -12 }, []⟩])
      = some [.deviceRef, .blockDevice, .blockDevice] := by decide +kernel

/-! ## C86 -/

/-- If loading the module succeeds, the NVMe namespace is available. -/
def C86_statement : Prop := ∀ (A : Answers) (log : List Ev), (scsi_mock_init A log).1 = 0 → (scsi_mock_init A log).2.ns = true

theorem bind_ns (A : Answers) (s : Sys) : (kernelBind A s).ns = s.ns := by
  unfold kernelBind bus_driver_probe
  split
  · rfl
  · simp only
    split
    · rfl
    · split
      · rfl
      · split <;> rfl

/-- **C86 (partial).** Loading succeeds exactly if the root device, the bus, the driver and the device could be
registered (otherwise -EINVAL is returned), and then the namespace is available exactly if the block device could be
opened and has a disk and a namespace; so this is true only if `nvme_driver_init` succeeded, whose result is not
looked at. -/
theorem C86_load_exact_partial (A : Answers) (log : List Ev) :
    (scsi_mock_init A log).1 = (if loads A then 0 else -22) ∧
    (loads A = true → (scsi_mock_init A log).2.ns = (A.openDev && A.disk && A.nsOk)) := by
  have hns : (nvme_driver_init A { log := log }).2.ns = (A.openDev && A.disk && A.nsOk) := by
    unfold nvme_driver_init
    cases A.openDev <;> cases A.disk <;> cases A.nsOk <;> rfl
  unfold scsi_mock_init loads
  simp only
  generalize (nvme_driver_init A { log := log }).2 = s0 at hns ⊢
  cases hr : A.root with
  | false => exact ⟨rfl, fun h => by simp at h⟩
  | true =>
    rw [if_neg (by decide)]
    by_cases hb : A.bus = 0
    · simp only [hb, ne_eq, not_true_eq_false, if_false]
      by_cases hd : A.driver = 0
      · simp only [hd, ne_eq, not_true_eq_false, if_false]
        unfold device_register
        by_cases hv : A.device = 0
        · simp only [hv, ne_eq, not_true_eq_false, if_false]
          exact ⟨rfl, fun _ => by rw [bind_ns]; exact hns⟩
        · simp only [hv, ne_eq, not_false_eq_true, if_true]
          exact ⟨by simp [hv], fun h => by simp [hv] at h⟩
      · simp only [hd, ne_eq, not_false_eq_true, if_true]
        exact ⟨by simp [hd], fun h => by simp [hd] at h⟩
    · simp only [hb, ne_eq, not_false_eq_true, if_true]
      exact ⟨by simp [hb], fun h => by simp [hb] at h⟩

/-- **C86 is false.** Without a block device the module loads all the same. -/
theorem C86_refuted : ¬ C86_statement := by
  intro h
  have := h { goodAnswers with openDev := false } [] (by decide)
  revert this
  decide

/-- The hypothesis is met with a namespace and without one. -/
example : loads goodAnswers = true ∧ (scsi_mock_init goodAnswers []).2.ns = true ∧
    loads { goodAnswers with nsOk := false } = true := by decide

/-! ## C87 -/

/-- A device released from the driver can be bound again, if the kernel lets it. -/
def C87_statement : Prop :=
  ∀ (x : Life) (s : Sys) (A : Answers), loaded [] x = some s → A.hostAlloc = true → A.addHost = 0 →
    (kernelBind A s).bound = true

/-- May the kernel functions called by the probe function succeed? -/
def grants (A : Answers) : Bool := A.hostAlloc && A.addHost == 0

/-- **C87 (partial).** Exactly: a device is bound by an attempt if and only if it already is, or no host was ever
registered since the module was loaded and the kernel grants one.  Missing: binding again after it was released,
which never works. -/
theorem C87_bind_exact_partial (s : Sys) (A : Answers) :
    (kernelBind A s).bound = (s.bound || (s.registered == 0 && grants A)) ∧
    (kernelBind A s).registered
      = (if s.bound = false ∧ s.registered = 0 ∧ grants A = true then 1 else s.registered) := by
  unfold kernelBind bus_driver_probe grants
  by_cases hr : s.registered = 0 <;> by_cases ha : A.addHost = 0 <;> cases hb : s.bound <;> cases hh : A.hostAlloc <;>
    simp [hr, ha, hb, Sys.acq, Sys.rel, Nat.pos_of_ne_zero]

/-- **C87.** At most one host is registered in one life of the module, whatever is done with the device: after the
first successful binding, the device is bound at most until it is released for the first time. -/
theorem C87_host_once (s : Sys) (h : s.registered ≠ 0) (hb : s.bound = false) (acts : List Act) :
    (acts.foldl act s).bound = false ∧ (acts.foldl act s).log = s.log := by
  induction acts generalizing s with
  | nil => exact ⟨hb, rfl⟩
  | cons a as ih =>
    rw [List.foldl_cons]
    cases a with
    | unbind =>
      have : act s .unbind = s := by
        show kernelUnbind s = s
        unfold kernelUnbind; rw [if_neg (by simp [hb])]
      rw [this]
      exact ih s h hb
    | bind A =>
      have hx : (act s (.bind A)).log = s.log ∧ (act s (.bind A)).registered = s.registered
          ∧ (act s (.bind A)).bound = false := by
        show (kernelBind A s).log = _ ∧ (kernelBind A s).registered = _ ∧ (kernelBind A s).bound = _
        unfold kernelBind bus_driver_probe
        have hp : true = false ∨ s.registered > 0 := .inr (Nat.pos_of_ne_zero h)
        simp only [hb, Bool.false_eq_true, if_false, if_pos hp, show ¬ ((-1 : Int) = 0) by decide, and_self]
      obtain ⟨h1, h2⟩ := ih _ (by rw [hx.2.1]; exact h) hx.2.2
      exact ⟨h1, h2.trans hx.1⟩

/-- **C87 is false.** -/
theorem C87_refuted : ¬ C87_statement := by
  intro h
  have hs : (loaded [] ⟨goodAnswers, [.unbind]⟩).map (fun s => (s.bound, s.registered)) = some (false, 1) := by
    decide +kernel
  cases hl : loaded [] ⟨goodAnswers, [.unbind]⟩ with
  | none => rw [hl] at hs; cases hs
  | some s =>
    rw [hl] at hs
    simp only [Option.map_some, Option.some.injEq, Prod.mk.injEq] at hs
    have h1 := h ⟨goodAnswers, [.unbind]⟩ s goodAnswers hl rfl rfl
    rw [(C87_bind_exact_partial s goodAnswers).1, hs.1, hs.2] at h1
    revert h1
    decide

/-- The hypotheses of `C87_host_once` are met after a device was released. -/
example : (loaded [] ⟨goodAnswers, [.unbind]⟩).map (fun s => (s.bound, s.registered)) = some (false, 1) := by
  decide +kernel

end Scsi2Nvme
