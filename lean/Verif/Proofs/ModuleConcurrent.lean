import Verif.Spec.ModuleConcurrent
import Verif.Proofs.Linear
import Verif.Properties.ModuleTarget
/-!
# Calls of the kernel module made concurrently: steps and their invariant

The calls of the engine inside the calls of the module are related to a system of calls of the engine (`Spec/Concurrent.lean`): a call
whose data buffer does not exist (yet, or any more) is seen as a call with an empty data buffer.
-/

namespace Scsi2Nvme
open Spec Engine

variable {ι σ : Type}

/-! ## Another buffer -/

/-- The request of call `i` is exchanged, while the call holds no pages. -/
theorem Inv.rebuffer [DecidableEq ι] {E : Env} {q q' : ι → Request} {own : ι → Nat → Prop} {y : Sys ι σ} (h : Inv E q own y) {i : ι}
    {s' : σ} {w' : World} {ph : Phase} (hq' : ∀ j, j ≠ i → q' j = q j) (hap : ∀ i j, i ≠ j → ∀ a, (q i).uses a → ¬ (q j).uses a)
    (ho : ∀ a, ¬ own i a)
    (hc : ∀ a, (y.world.mem a).isSome → ¬ (q i).uses a → w'.mem a = y.world.mem a)
    (hu : ∀ a, (q' i).uses a → (w'.mem a).isSome)
    (hn : ∀ a, (q' i).uses a → (q i).uses a ∨ y.world.mem a = none)
    (hca : ph = .called → w'.mem.read (q' i).ptr (q' i).cdb.length = some (q' i).cdb)
    (hnw : ∀ r t todo cs, ph ≠ .waiting r t todo cs) :
    Inv E q' own (y.to i s' w' ph) ∧ ∀ j k, j ≠ k → ∀ a, (q' j).uses a → ¬ (q' k).uses a := by
  have oth := h.others (i := i) (m' := w'.mem) (fun a h1 h2 _ => hc a h1 h2) hap
  have hclear : ∀ j a, own j a → ¬ (q' i).uses a := by
    intro j a hj hk
    rcases hn a hk with h1 | h1
    · exact h.clear j i a hj h1
    · have := h.owned j a hj
      rw [h1] at this; cases this
  have hone : ∀ k, k ≠ i → ∀ a, (q' i).uses a → ¬ (q k).uses a := by
    intro k hk a h1 h2
    rcases hn a h1 with h3 | h3
    · exact hap i k (Ne.symm hk) a h3 h2
    · have := h.used k a h2
      rw [h3] at this; cases this
  refine ⟨⟨?_, ?_, h.disjoint, ?_, ?_, ?_, ?_⟩, ?_⟩
  · intro j a ha
    change (w'.mem a).isSome
    by_cases ej : j = i
    · rw [ej] at ha; exact hu a ha
    · rw [hq' j ej] at ha
      rw [(oth j ej).1 a ha]; exact h.used j a ha
  · intro j a ha
    change (w'.mem a).isSome
    by_cases ej : j = i
    · rw [ej] at ha; exact absurd ha (ho a)
    · rw [(oth j ej).2.1 a ha]; exact h.owned j a ha
  · intro j k a hj
    by_cases ek : k = i
    · rw [ek]; exact hclear j a hj
    · rw [hq' k ek]; exact h.clear j k a hj
  · intro j hp
    by_cases ej : j = i
    · subst ej
      simp only [Sys.to, if_true] at hp
      exact ⟨hca hp, ho⟩
    · simp only [Sys.to, if_neg ej] at hp
      obtain ⟨h1, h2⟩ := h.called j hp
      rw [hq' j ej]
      exact ⟨(oth j ej).2.2 h1, h2⟩
  · intro j r t todo cs hp
    by_cases ej : j = i
    · subst ej
      simp only [Sys.to, if_true] at hp
      exact absurd hp (hnw _ _ _ _)
    · simp only [Sys.to, if_neg ej] at hp
      obtain ⟨w, w1, hb⟩ := h.waiting j r t todo cs hp
      rw [hq' j ej]
      exact ⟨w, w1, hb.began, hb.fits, hb.progress, hb.owned, hb.early, (oth j ej).2.2 hb.stored⟩
  · intro j r hp
    by_cases ej : j = i
    · rw [ej]; exact ho
    · simp only [Sys.to, if_neg ej] at hp
      exact h.returned j r hp
  · intro j k hjk a hj hk
    by_cases ej : j = i
    · subst ej
      rw [hq' k (Ne.symm hjk)] at hk
      exact hone k (Ne.symm hjk) a hj hk
    · rw [hq' j ej] at hj
      by_cases ek : k = i
      · subst ek
        exact hone j ej a hk hj
      · rw [hq' k ek] at hk
        exact hap j k hjk a hj hk

/-! ## The calls of the engine -/

/-- A memory that contains the command block. -/
def ghostMem (q : Command) : Mem := Mem.put (fun _ => some 0) q.cmd.cmnd q.cdb

/-- The request to the engine, with a data buffer. -/
def viewReq (q : Command) (b : Nat) (n : U16) : Request :=
  ⟨ghostMem q, q.ws, q.cmd.cmnd, q.cdb, q.cmd.lun, q.cmd.sense_buffer, Module.SCSI_SENSE_BUFFERSIZE, b, n, q.cmd.is_data_in⟩

/-- The request of a call of the module. -/
def viewOf (q : Command) : Module.Phase → Request
  | .engine b _ => viewReq q b (Module.dataLen q.cmd)
  | .queued => viewReq q 0 0
  | .done _ => viewReq q 0 0

/-- Where the call of the engine is. -/
def viewPh : Module.Phase → Phase
  | .queued => .called
  | .engine _ ph => ph
  | .done _ => .returned ⟨0, 0⟩

/-- The calls of the engine. -/
def Spec.Host.view (y : Host ι σ) : Sys ι σ := ⟨y.dev, y.world, fun i => viewPh (y.phase i)⟩

/-- Their requests. -/
def Spec.Host.reqs (y : Host ι σ) (c : ι → Command) (i : ι) : Request := viewOf (c i) (y.phase i)

theorem ghostMem_some (q : Command) (a : Nat) : (ghostMem q a).isSome := by
  unfold ghostMem Mem.put
  split
  · rw [List.getElem?_eq_getElem (by omega)]; rfl
  · rfl

theorem dataLen_toNat (c : Module.ScsiCmnd) : (Module.dataLen c).toNat = c.sg.length % 65536 := BitVec.toNat_ofNat ..

theorem viewReq_fair {q : Command} (hq : q.Fair) {b : Nat} (hs : b + (Module.dataLen q.cmd).toNat ≤ 2 ^ 64)
    (ha : ∀ a, inRange q.cmd.cmnd q.cdb.length a → ¬ inRange b (Module.dataLen q.cmd).toNat a) :
    (viewReq q b (Module.dataLen q.cmd)).Fair where
  stored := read_put_self
  short := hq.short
  unmap := hq.unmap
  rw := fun hop => by
    obtain ⟨hv, hl⟩ := hq.rw hop
    refine ⟨read_put_self, hq.short, hop, fun _ _ => ghostMem_some _ _, fun _ _ => ghostMem_some _ _, hs, ha, hv.lun, fun hw rw_ hd => ?_⟩
    have := hv.matching hw rw_ hd
    change _ ≤ (Module.dataLen q.cmd).toNat
    rw [dataLen_toNat, Nat.mod_eq_of_lt hl]
    exact this

/-- Invariant of the calls of the module. -/
structure HInv (K : Module.Kernel) (junk : World → Nat → Byte) (c : ι → Command) (own : ι → Nat → Prop) (y : Host ι σ) : Prop where
  inv : Inv (Module.env K junk) (y.reqs c) own y.view
  apart : ∀ i j, i ≠ j → ∀ a, (y.reqs c i).uses a → ¬ (y.reqs c j).uses a
  buf : ∀ i b ph, y.phase i = .engine b ph → b + (Module.dataLen (c i).cmd).toNat ≤ 2 ^ 64 ∧
    ∀ a, (c i).uses a → ¬ inRange b (Module.dataLen (c i).cmd).toNat a
  ret : ∀ i b r, y.phase i = .engine b (.returned r) → r.return_code ∈ [0x00, 0x02, 0x40] ∧ r.alloc_len ≤ (Module.dataLen (c i).cmd).toNat

/-- The system after call `i` made a step to phase `ph`. -/
def Spec.Host.to [DecidableEq ι] (y : Host ι σ) (i : ι) (s : σ) (w : World) (ph : Module.Phase) : Host ι σ :=
  ⟨s, w, fun j => if j = i then ph else y.phase j⟩

theorem Spec.Host.to_self [DecidableEq ι] (y : Host ι σ) (i : ι) (s : σ) (w : World) (ph : Module.Phase) : (y.to i s w ph).phase i = ph := by
  simp only [Host.to, if_true]

theorem Spec.Host.to_other [DecidableEq ι] (y : Host ι σ) {i j : ι} (h : j ≠ i) (s : σ) (w : World) (ph : Module.Phase) :
    (y.to i s w ph).phase j = y.phase j := by
  simp only [Host.to, if_neg h]

theorem Spec.Host.to_view [DecidableEq ι] (y : Host ι σ) (i : ι) (s : σ) (w : World) (ph : Module.Phase) :
    (y.to i s w ph).view = y.view.to i s w (viewPh ph) := by
  unfold Host.view Sys.to Host.to
  congr 1
  funext j
  simp only
  split <;> rfl

/-- The kinds of steps. -/
inductive HStepped [DecidableEq ι] (K : Module.Kernel) (junk : World → Nat → Byte) (D : Device σ) (c : ι → Command) (y : Host ι σ) (i : ι) :
    Host ι σ → Prop
  | empty (hp : y.phase i = .queued) (hz : (Module.dataLen (c i).cmd).toNat = 0) :
      HStepped K junk D c y i (y.to i y.dev y.world (.engine (c i).uninit.toNat .called))
  | refused (hp : y.phase i = .queued) (hz : (Module.dataLen (c i).cmd).toNat ≠ 0)
      (h0 : (K.kzalloc y.world (Module.dataLen (c i).cmd).toNat).1 = 0) :
      HStepped K junk D c y i (y.to i y.dev ⟨(K.kzalloc y.world (Module.dataLen (c i).cmd).toNat).2, y.world.trace⟩
        (.done ⟨23, none, (c i).cmd.sg⟩))
  | granted (hp : y.phase i = .queued) (hz : (Module.dataLen (c i).cmd).toNat ≠ 0)
      (h0 : (K.kzalloc y.world (Module.dataLen (c i).cmd).toNat).1 ≠ 0) (m : Mem)
      (hm : m = if (c i).cmd.is_data_in then (K.kzalloc y.world (Module.dataLen (c i).cmd).toNat).2 else
        (K.kzalloc y.world (Module.dataLen (c i).cmd).toNat).2.put (K.kzalloc y.world (Module.dataLen (c i).cmd).toNat).1
          ((c i).cmd.sg.take (Module.dataLen (c i).cmd).toNat)) :
      HStepped K junk D c y i (y.to i y.dev ⟨m, y.world.trace⟩
        (.engine (K.kzalloc y.world (Module.dataLen (c i).cmd).toNat).1 .called))
  | engine {b ph} (hp : y.phase i = .engine b ph) (hr : ∀ r, ph ≠ .returned r) (y1 : Sys ι σ)
      (h : Stepped (Module.env K junk) D (y.reqs c) y.view i y1) :
      HStepped K junk D c y i (y.to i y1.dev y1.world (.engine b (y1.phase i)))
  | finished {b r} (hp : y.phase i = .engine b (.returned r)) (hz : (Module.dataLen (c i).cmd).toNat = 0) :
      HStepped K junk D c y i (y.to i y.dev y.world (.done ⟨r.return_code, none, (c i).cmd.sg⟩))
  | copied {b r bs} (hp : y.phase i = .engine b (.returned r)) (hz : (Module.dataLen (c i).cmd).toNat ≠ 0)
      (hi : (c i).cmd.is_data_in = true) (hb : y.world.mem.read b (min r.alloc_len (c i).cmd.sg.length) = some bs) :
      HStepped K junk D c y i (y.to i y.dev ⟨K.kfree y.world b (Module.dataLen (c i).cmd).toNat, y.world.trace⟩
        (.done ⟨r.return_code, some (((Module.dataLen (c i).cmd).toNat : Int) - (min r.alloc_len (c i).cmd.sg.length : Nat)),
          bs ++ (c i).cmd.sg.drop (min r.alloc_len (c i).cmd.sg.length)⟩))
  | freed {b r} (hp : y.phase i = .engine b (.returned r)) (hz : (Module.dataLen (c i).cmd).toNat ≠ 0)
      (hi : (c i).cmd.is_data_in = false) :
      HStepped K junk D c y i (y.to i y.dev ⟨K.kfree y.world b (Module.dataLen (c i).cmd).toNat, y.world.trace⟩
        (.done ⟨r.return_code, none, (c i).cmd.sg⟩))
  | done {o} (hp : y.phase i = .done o) : HStepped K junk D c y i y

theorem dataLen_zero (c : Module.ScsiCmnd) : Module.dataLen c = 0 ↔ (Module.dataLen c).toNat = 0 :=
  ⟨fun h => by rw [h]; rfl, fun h => BitVec.eq_of_toNat_eq h⟩

theorem viewReq_args {q : Command} (hq : q.Fair) (b : Nat) : (viewReq q b (Module.dataLen q.cmd)).args = Module.engineArgs q.ws q.cmd b := by
  unfold Spec.Request.args viewReq Module.engineArgs
  simp only [hq.len]

/-- A step of the engine. -/
theorem host_engine [DecidableEq ι] (K : Module.Kernel) (junk : World → Nat → Byte) (D : Device σ) (c : ι → Command) (y : Host ι σ) (i : ι)
    (hq : (c i).Fair) {b ph} (hp : y.phase i = .engine b ph) (hr : ∀ r, ph ≠ .returned r) :
    y.step K junk D c i = match y.view.step (Module.env K junk) D (y.reqs c) i with
      | .error e => .error e
      | .ok y1 => .ok (y.to i y1.dev y1.world (.engine b (y1.phase i))) := by
  have hargs : (y.reqs c i).args = Module.engineArgs (c i).ws (c i).cmd b := by
    unfold Host.reqs
    rw [hp]
    exact viewReq_args hq b
  have hv : y.view.phase i = ph := by
    change viewPh (y.phase i) = ph
    rw [hp]; rfl
  unfold Host.step Sys.step
  rw [hp, hargs, hv]
  cases ph with
  | returned r => exact absurd rfl (hr r)
  | called =>
    simp only [Module.advance, M.bind_run]
    rw [show y.view.dev = y.dev from rfl, show y.view.world = y.world from rfl]
    cases Engine.advance (Module.env K junk) D (Module.engineArgs (c i).ws (c i).cmd b) y.dev .called y.world with
    | error e => rfl
    | ok z =>
      obtain ⟨⟨ph', s'⟩, w'⟩ := z
      simp only [M.pure_run, Host.to, if_true]
  | waiting r t todo cs =>
    simp only [Module.advance, M.bind_run]
    rw [show y.view.dev = y.dev from rfl, show y.view.world = y.world from rfl]
    cases Engine.advance (Module.env K junk) D (Module.engineArgs (c i).ws (c i).cmd b) y.dev (.waiting r t todo cs) y.world with
    | error e => rfl
    | ok z =>
      obtain ⟨⟨ph', s'⟩, w'⟩ := z
      simp only [M.pure_run, Host.to, if_true]

theorem host_done [DecidableEq ι] (K : Module.Kernel) (junk : World → Nat → Byte) (D : Device σ) (c : ι → Command) (y : Host ι σ) (i : ι)
    {o} (hp : y.phase i = .done o) : y.step K junk D c i = .ok y := by
  unfold Host.step
  rw [hp]
  simp only [Module.advance, M.pure_run]
  congr 1
  obtain ⟨s, w, ph⟩ := y
  congr 1
  funext j
  split
  · rename_i h; rw [h]; exact hp.symm
  · rfl

theorem hstepped_of [DecidableEq ι] {K : Module.Kernel} {junk : World → Nat → Byte} {D : Device σ} {c : ι → Command} {own} {y y' : Host ι σ} {i : ι}
    (hI : HInv K junk c own y) (hq : (c i).Fair) (h : y.step K junk D c i = .ok y') : HStepped K junk D c y i y' := by
  have hlen : (Module.dataLen (c i).cmd).toNat ≤ (c i).cmd.sg.length := by rw [dataLen_toNat]; exact Nat.mod_le _ _
  cases hp : y.phase i with
  | queued =>
    unfold Host.step at h
    rw [hp] at h
    simp only [Module.advance] at h
    by_cases hz : Module.dataLen (c i).cmd = 0
    · simp only [if_pos hz, M.pure_run] at h
      cases h
      exact .empty hp ((dataLen_zero _).mp hz)
    · simp only [if_neg hz, M.bind_run, Module.kzalloc] at h
      have hz' := mt (dataLen_zero _).mpr hz
      by_cases h0 : (K.kzalloc y.world (Module.dataLen (c i).cmd).toNat).1 = 0
      · simp only [if_pos h0, M.pure_run] at h
        cases h
        exact .refused hp hz' h0
      · simp only [if_neg h0] at h
        by_cases hi : (c i).cmd.is_data_in = true
        · simp only [if_pos hi, M.pure_run] at h
          cases h
          exact .granted hp hz' h0 _ (by rw [if_pos hi])
        · simp only [if_neg hi, M.bind_run, store] at h
          split at h
          · cases h
          · rename_i e
            split at e
            · cases e
            · rename_i e2
              split at e2
              · cases e2
                cases e
                cases h
                exact .granted hp hz' h0 _ (by rw [if_neg hi])
              · cases e2
  | done o =>
    rw [host_done K junk D c y i hp] at h
    cases h
    exact .done hp
  | engine b ph =>
    by_cases hr : ∀ r, ph ≠ .returned r
    · rw [host_engine K junk D c y i hq hp hr] at h
      split at h
      · cases h
      · rename_i y1 e
        cases h
        refine .engine hp hr y1 (stepped_of hI.inv ?_ e)
        unfold Host.reqs
        rw [hp]
        exact hq.short
    · obtain ⟨r, rfl⟩ : ∃ r, ph = .returned r := by
        cases ph with
        | returned r => exact ⟨r, rfl⟩
        | called => exact absurd (fun _ h => by cases h) hr
        | waiting => exact absurd (fun _ h => by cases h) hr
      unfold Host.step at h
      rw [hp] at h
      simp only [Module.advance] at h
      by_cases hz : Module.dataLen (c i).cmd = 0
      · simp only [if_pos hz, M.pure_run] at h
        cases h
        exact .finished hp ((dataLen_zero _).mp hz)
      · have hz' := mt (dataLen_zero _).mpr hz
        simp only [if_neg hz] at h
        by_cases hi : (c i).cmd.is_data_in = true
        · simp only [if_pos hi, M.bind_run, load, Module.kfree, M.pure_run] at h
          cases hb : y.world.mem.read b (min r.alloc_len (c i).cmd.sg.length) with
          | none => rw [hb] at h; cases h
          | some bs =>
            rw [hb] at h
            cases h
            exact .copied hp hz' hi hb
        · simp only [if_neg hi, M.bind_run, Module.kfree, M.pure_run] at h
          cases h
          exact .freed hp hz' (by simpa using hi)

/-! ## Preservation -/

/-- The status of an answer. -/
theorem complete_status {E : Env} {t1 : Translation} (hwf : Wf t1) (r : BeginResponse) {w2 cs din sense c t2 w3}
    (hc : t1.Complete E cs din sense w2 = .ok ((c, t2), w3)) : (answerOf r c).return_code ∈ [0x00, 0x02, 0x40] := by
  have key : ∀ a : Fin 8, ∀ b : Fin 256,
      (Status.StatusToScsi (BitVec.ofFin a) (BitVec.ofFin b)).status.toNat ∈ [0x00, 0x02, 0x40] := by decide +kernel
  unfold answerOf
  split
  · simp
  · simp only
    rcases Complete_inv E t1 hwf _ _ _ _ _ _ _ hc with ⟨-, rfl, -⟩ | ⟨-, -, w', -, hh⟩
    · simp
    · rcases hh with ⟨-, rfl, -⟩ | ⟨-, -, rfl, -⟩ | ⟨-, -, s, hs, rfl, -⟩ | ⟨-, -, -, rfl, -⟩
      · simp
      · simp
      · obtain ⟨-, d, -, -, -, -, e⟩ := firstError_some _ _ hs
        rw [e]
        exact key d.sct.toFin d.sc.toFin
      · simp

/-- What becomes accessible to a call was its own before, or was inaccessible. -/
structure Grown (c : ι → Command) (own own' : ι → Nat → Prop) (y y' : Host ι σ) : Prop where
  own : ∀ j a, own' j a → own j a ∨ y.world.mem a = none
  uses : ∀ j a, (y'.reqs c j).uses a → (y.reqs c j).uses a ∨ y.world.mem a = none

theorem view_uses {q : Command} {b : Nat} {n : U16} {a : Nat} : (viewReq q b n).uses a ↔ q.uses a ∨ inRange b n.toNat a := by
  unfold Spec.Request.uses Spec.Command.uses viewReq
  exact or_assoc.symm

theorem view_uses_empty {q : Command} {a : Nat} : (viewReq q 0 0).uses a ↔ q.uses a := by
  rw [view_uses]
  refine ⟨fun h => h.elim id fun h => ?_, .inl⟩
  unfold inRange at h
  have : (0 : U16).toNat = 0 := rfl
  omega

/-- Every step keeps the invariant, and is confined. -/
theorem HInv.steps [DecidableEq ι] {K : Module.Kernel} (hK : GoodKernel K) {junk : World → Nat → Byte} {D : Device σ}
    (hT : Tame (Module.env K junk) D) {c : ι → Command} {own} {y y' : Host ι σ} {i : ι} (hq : (c i).Fair)
    (hI : HInv K junk c own y) (h : HStepped K junk D c y i y') :
    ∃ own', HInv K junk c own' y' ∧ Confined (y.reqs c) own i y.world.mem y'.world.mem ∧ Grown c own own' y y' ∧
      Passed own own' i y.view y'.view := by
  have hg := (C72_util K hK junk).1
  have hreq : ∀ (s : σ) (w : World) (ph : Module.Phase) (j : ι), j ≠ i → (y.to i s w ph).reqs c j = y.reqs c j := by
    intro s w ph j hj
    unfold Host.reqs
    rw [Host.to_other y hj]
  have hself : ∀ (s : σ) (w : World) (ph : Module.Phase), (y.to i s w ph).reqs c i = viewOf (c i) ph := by
    intro s w ph
    unfold Host.reqs
    rw [Host.to_self]
  have stored : y.phase i = .queued → y.world.mem.read (c i).cmd.cmnd (c i).cdb.length = some (c i).cdb := by
    intro hp
    have := (hI.inv.called i (by change viewPh (y.phase i) = _; rw [hp]; rfl)).1
    unfold Host.reqs at this
    rw [hp] at this
    exact this
  have used : ∀ a, (c i).uses a → (y.world.mem a).isSome := by
    intro a ha
    refine hI.inv.used i a ?_
    unfold Host.reqs viewOf
    split
    · exact view_uses.mpr (.inl ha)
    · exact view_uses.mpr (.inl ha)
    · exact view_uses.mpr (.inl ha)
  -- steps outside the engine
  have outer : ∀ (w : World) (ph : Module.Phase), (∀ a, ¬ own i a) →
      (∀ a, (y.world.mem a).isSome → ¬ (y.reqs c i).uses a → w.mem a = y.world.mem a) →
      (∀ a, (viewOf (c i) ph).uses a → (w.mem a).isSome) →
      (∀ a, (viewOf (c i) ph).uses a → (y.reqs c i).uses a ∨ y.world.mem a = none) →
      (viewPh ph = .called → w.mem.read (c i).cmd.cmnd (c i).cdb.length = some (c i).cdb) →
      (∀ r t todo cs, viewPh ph ≠ .waiting r t todo cs) →
      (∀ b ph', ph = .engine b ph' → b + (Module.dataLen (c i).cmd).toNat ≤ 2 ^ 64 ∧
        ∀ a, (c i).uses a → ¬ inRange b (Module.dataLen (c i).cmd).toNat a) →
      (∀ b r, ph ≠ .engine b (.returned r)) →
      ∃ own', HInv K junk c own' (y.to i y.dev w ph) ∧ Confined (y.reqs c) own i y.world.mem (y.to i y.dev w ph).world.mem ∧
        Grown c own own' y (y.to i y.dev w ph) ∧ Passed own own' i y.view (y.to i y.dev w ph).view := by
    intro w ph ho hc hu hn hca hnw hbuf hret
    have hca' : viewPh ph = .called → w.mem.read ((y.to i y.dev w ph).reqs c i).ptr ((y.to i y.dev w ph).reqs c i).cdb.length =
        some ((y.to i y.dev w ph).reqs c i).cdb := by
      intro e
      rw [hself]
      have := hca e
      cases ph <;> exact this
    obtain ⟨h1, h2⟩ := hI.inv.rebuffer (s' := y.dev) (w' := w) (ph := viewPh ph) (hreq y.dev w ph) hI.apart ho hc (by rw [hself]; exact hu)
      (by rw [hself]; exact hn) hca' hnw
    refine ⟨own, ⟨by rw [Host.to_view]; exact h1, h2, fun j b ph' hp => ?_, fun j b r hp => ?_⟩, fun a h1 h2 _ => hc a h1 h2, ⟨fun j a h => .inl h, fun j a hj => ?_⟩,
      fun _ _ => rfl, fun _ _ _ _ _ _ _ _ _ _ => rfl, fun _ r t todo cs e => ?_⟩
    · by_cases e : j = i
      · subst e
        rw [Host.to_self] at hp
        exact hbuf b ph' hp
      · rw [Host.to_other y e] at hp
        exact hI.buf j b ph' hp
    · by_cases e : j = i
      · subst e
        rw [Host.to_self] at hp
        exact absurd hp (hret b r)
      · rw [Host.to_other y e] at hp
        exact hI.ret j b r hp
    · by_cases e : j = i
      · subst e
        rw [hself] at hj
        exact hn a hj
      · rw [hreq y.dev w ph j e] at hj
        exact .inl hj
    · have e : viewPh ((y.to i y.dev w ph).phase i) = _ := e
      rw [Host.to_self] at e
      exact absurd e (hnw r t todo cs)
  have noown : y.phase i = .queued ∨ (∃ b r, y.phase i = .engine b (.returned r)) → ∀ a, ¬ own i a := by
    rintro (hp | ⟨b, r, hp⟩)
    · exact (hI.inv.called i (by change viewPh (y.phase i) = _; rw [hp]; rfl)).2
    · exact hI.inv.returned i r (by change viewPh (y.phase i) = _; rw [hp]; rfl)
  have free : ∀ {b r} (o : Module.Outcome), y.phase i = .engine b (.returned r) →
      ∃ own', HInv K junk c own' (y.to i y.dev ⟨K.kfree y.world b (Module.dataLen (c i).cmd).toNat, y.world.trace⟩ (.done o)) ∧
        Confined (y.reqs c) own i y.world.mem (y.to i y.dev ⟨K.kfree y.world b (Module.dataLen (c i).cmd).toNat, y.world.trace⟩ (.done o)).world.mem ∧
        Grown c own own' y (y.to i y.dev ⟨K.kfree y.world b (Module.dataLen (c i).cmd).toNat, y.world.trace⟩ (.done o)) ∧
        Passed own own' i y.view (y.to i y.dev ⟨K.kfree y.world b (Module.dataLen (c i).cmd).toNat, y.world.trace⟩ (.done o)).view := by
    intro b r o hp
    have hv : y.reqs c i = viewReq (c i) b (Module.dataLen (c i).cmd) := by
      unfold Host.reqs; rw [hp]; rfl
    have keep : ∀ a, ¬ inRange b (Module.dataLen (c i).cmd).toNat a →
        K.kfree y.world b (Module.dataLen (c i).cmd).toNat a = y.world.mem a := by
      intro a ha
      rw [hK.free]; exact if_neg ha
    refine outer _ _ (noown (.inr ⟨b, r, hp⟩)) (fun a _ ha => keep a fun hr => ha ?_) (fun a ha => ?_) (fun a ha => .inl ?_)
      (fun h => by cases h) (fun _ _ _ _ h => by cases h) (fun _ _ h => by cases h) (fun _ _ h => by cases h)
    · rw [hv]; exact view_uses.mpr (.inr hr)
    · have ha' := view_uses_empty.mp ha
      change (K.kfree y.world b (Module.dataLen (c i).cmd).toNat a).isSome
      rw [keep a ((hI.buf i b _ hp).2 a ha')]
      exact used a ha'
    · rw [hv]; exact view_uses.mpr (.inl (view_uses_empty.mp ha))
  cases h with
  | empty hp hz =>
    have hv : y.reqs c i = viewReq (c i) 0 0 := by unfold Host.reqs; rw [hp]; rfl
    have hu : ∀ a, (viewOf (c i) (.engine (c i).uninit.toNat .called)).uses a → (c i).uses a := by
      intro a ha
      rcases view_uses.mp ha with h | h
      · exact h
      · rw [hz] at h; unfold inRange at h; omega
    refine outer y.world _ (noown (.inl hp)) (fun _ _ _ => rfl) (fun a ha => used a (hu a ha)) (fun a ha => .inl ?_) (fun _ => stored hp)
      (fun _ _ _ _ h => by cases h) (fun b ph' e => ?_) (fun _ _ h => by cases h)
    · rw [hv]; exact view_uses_empty.mpr (hu a ha)
    · cases e
      rw [hz]
      have := (c i).uninit.isLt
      exact ⟨by omega, fun a _ h => by unfold inRange at h; omega⟩
  | refused hp hz h0 =>
    have hv : y.reqs c i = viewReq (c i) 0 0 := by unfold Host.reqs; rw [hp]; rfl
    have hm : (K.kzalloc y.world (Module.dataLen (c i).cmd).toNat).2 = y.world.mem := by
      rcases hK.alloc y.world (Module.dataLen (c i).cmd).toNat with ⟨-, h⟩ | ⟨h, -⟩
      · exact h
      · exact absurd h0 h
    rw [hm]
    refine outer ⟨y.world.mem, y.world.trace⟩ _ (noown (.inl hp)) (fun _ _ _ => rfl) (fun a ha => used a (view_uses_empty.mp ha)) (fun a ha => .inl ?_)
      (fun h => by cases h) (fun _ _ _ _ h => by cases h) (fun b ph' e => by cases e) (fun _ _ h => by cases h)
    rw [hv]; exact ha
  | granted hp hz h0 m hm =>
    have hv : y.reqs c i = viewReq (c i) 0 0 := by unfold Host.reqs; rw [hp]; rfl
    rcases hK.alloc y.world (Module.dataLen (c i).cmd).toNat with ⟨h, -⟩ | ⟨-, -, hsp, hin, hout⟩
    · exact absurd h h0
    · generalize hn : (Module.dataLen (c i).cmd).toNat = n at *
      generalize hb : (K.kzalloc y.world n).1 = b at *
      have hle : n ≤ (c i).cmd.sg.length := by rw [← hn, dataLen_toNat]; exact Nat.mod_le _ _
      have hmin : ∀ x, inRange b n x → (m x).isSome := by
        intro x hx
        have h1 : ((K.kzalloc y.world n).2 x).isSome := by rw [(hin x hx).2]; rfl
        rw [hm]
        split
        · exact h1
        · unfold Mem.put
          split
          · rw [List.getElem?_eq_getElem (by omega)]; rfl
          · exact h1
      have hmout : ∀ x, ¬ inRange b n x → m x = y.world.mem x := by
        intro x hx
        rw [← hout x hx, hm]
        split
        · rfl
        · refine put_outside ?_
          rw [List.length_take]
          unfold inRange at hx
          omega
      have hapart : ∀ a, (y.world.mem a).isSome → ¬ inRange b n a := by
        intro a ha hr
        rw [(hin a hr).1] at ha
        cases ha
      refine outer ⟨m, y.world.trace⟩ _ (noown (.inl hp)) (fun a ha _ => hmout a (hapart a ha)) (fun a ha => ?_) (fun a ha => ?_) (fun _ => ?_)
        (fun _ _ _ _ h => by cases h) (fun b' ph' e => ?_) (fun _ _ h => by cases h)
      · rcases view_uses.mp ha with h | h
        · change (m a).isSome
          rw [hmout a (hapart a (used a h))]; exact used a h
        · rw [hn] at h; exact hmin a h
      · rcases view_uses.mp ha with h | h
        · rw [hv]; exact .inl (view_uses_empty.mpr h)
        · rw [hn] at h; exact .inr (hin a h).1
      · rw [← stored hp]
        exact read_congr fun k hk => hmout _ (hapart _ (used _ (.inl ⟨by omega, by omega⟩)))
      · cases e
        exact ⟨hsp, fun a ha => hapart a (used a ha)⟩
  | @engine b ph hp hr y1 hst =>
    have hv : y.reqs c i = viewReq (c i) b (Module.dataLen (c i).cmd) := by unfold Host.reqs; rw [hp]; rfl
    have hvp : y.view.phase i = ph := by change viewPh (y.phase i) = _; rw [hp]; rfl
    have hf : (y.reqs c i).Fair := by
      rw [hv]
      exact viewReq_fair hq (hI.buf i b ph hp).1 fun a ha => (hI.buf i b ph hp).2 a (.inl ha)
    obtain ⟨own', h1, h2, h3⟩ := hI.inv.moves hT hg hI.apart hf hst
    have hreqs : (y.to i y1.dev y1.world (.engine b (y1.phase i))).reqs c = y.reqs c := by
      funext j
      by_cases e : j = i
      · subst e; rw [hself, hv]; rfl
      · exact hreq _ _ _ j e
    have hphase : ∀ j, j ≠ i → y1.phase j = y.view.phase j := by
      intro j hj
      cases hst with
      | begin => exact if_neg hj
      | submit => exact if_neg hj
      | complete => exact if_neg hj
      | returned => rfl
    have hview : (y.to i y1.dev y1.world (.engine b (y1.phase i))).view = y1 := by
      rw [Host.to_view]
      obtain ⟨s1, w1, p1⟩ := y1
      unfold Sys.to viewPh
      congr 1
      funext j
      simp only
      split
      · rename_i e; rw [e]
      · rename_i e; exact (hphase j e).symm
    refine ⟨own', ⟨by rw [hreqs, hview]; exact h1, by rw [hreqs]; exact hI.apart, fun j b' ph' hp' => ?_, fun j b' r hp' => ?_⟩, ?_, ⟨?_, ?_⟩, by rw [hview]; exact h3⟩
    · by_cases e : j = i
      · subst e
        rw [Host.to_self] at hp'
        cases hp'
        exact hI.buf j b ph hp
      · rw [Host.to_other y e] at hp'
        exact hI.buf j b' ph' hp'
    · by_cases e : j = i
      · subst e
        rw [Host.to_self] at hp'
        simp only [Module.Phase.engine.injEq] at hp'
        obtain ⟨rfl, hp'⟩ := hp'
        cases hst with
        | @begin r' t w1 hp1 hB =>
          simp only [Sys.to, if_true] at hp'
          split at hp'
          · cases hp'; exact ⟨by simp, Nat.zero_le _⟩
          · cases hp'
        | submit =>
          simp only [Sys.to, if_true] at hp'
          cases hp'
        | @complete r' t cs cc t2 w3 hp1 hcall =>
          simp only [Sys.to, if_true] at hp'
          cases hp'
          obtain ⟨w, w1, hb⟩ := hI.inv.waiting j _ _ _ _ hp1
          refine ⟨complete_status (began_wf hb.began) _ hcall, ?_⟩
          have := hb.fits
          rw [hv] at this
          unfold answerOf
          split
          · exact Nat.zero_le _
          · exact this
        | returned hp1 =>
          exact absurd (hvp.symm.trans hp1) (hr _)
      · rw [Host.to_other y e] at hp'
        exact hI.ret j b' r hp'
    · exact h2
    · intro j a ha
      by_cases e : j = i
      · subst e
        cases hst with
        | @begin r' t w1 hp1 hB =>
          by_cases hl : r'.alloc_len.toNat > (y.reqs c j).dataLen.toNat
          · exact absurd ha (h1.returned j ⟨0x40, 0⟩ (by simp only [Sys.to, if_true, if_pos hl]) a)
          · exact .inr ((h3.fresh hp1 _ _ _ _ (by simp only [Sys.to, if_true, if_neg hl]; rfl) a).mp ha).1
        | submit hp1 =>
          left
          rw [h3.kept _ _ _ _ _ _ _ _ hp1 (by simp only [Sys.to, if_true]; rfl)] at ha
          exact ha
        | @complete r' t cs cc t2 w3 hp1 hcall =>
          exact absurd ha (h1.returned j _ (by simp only [Sys.to, if_true]; rfl) a)
        | returned hp1 => exact absurd (hvp.symm.trans hp1) (hr _)
      · rw [h3.others j e] at ha
        exact .inl ha
    · intro j a ha
      rw [hreqs] at ha
      exact .inl ha
  | finished hp hz =>
    rename_i b r
    have hv : y.reqs c i = viewReq (c i) b (Module.dataLen (c i).cmd) := by unfold Host.reqs; rw [hp]; rfl
    refine outer y.world _ (noown (.inr ⟨b, r, hp⟩)) (fun _ _ _ => rfl) (fun a ha => used a (view_uses_empty.mp ha)) (fun a ha => .inl ?_)
      (fun h => by cases h) (fun _ _ _ _ h => by cases h) (fun b ph' e => by cases e) (fun _ _ h => by cases h)
    rw [hv]; exact view_uses.mpr (.inl (view_uses_empty.mp ha))
  | copied hp hz hi hb => exact free _ hp
  | freed hp hz hi => exact free _ hp
  | done hp =>
    refine ⟨own, hI, fun _ _ _ _ => rfl, ⟨fun _ _ h => .inl h, fun _ _ h => .inl h⟩, fun _ _ => rfl, fun _ _ _ _ _ _ _ _ _ _ => rfl, fun e => ?_⟩
    have e : viewPh (y.phase i) = .called := e
    rw [hp] at e
    cases e

theorem HInv.step [DecidableEq ι] {K : Module.Kernel} (hK : GoodKernel K) {junk : World → Nat → Byte} {D : Device σ}
    (hT : Tame (Module.env K junk) D) {c : ι → Command} {own} {y y' : Host ι σ} {i : ι} (hq : (c i).Fair)
    (hI : HInv K junk c own y) (h : HStepped K junk D c y i y') :
    ∃ own', HInv K junk c own' y' ∧ Confined (y.reqs c) own i y.world.mem y'.world.mem ∧ Grown c own own' y y' := by
  obtain ⟨own', h1, h2, h3, -⟩ := hI.steps hK hT hq h
  exact ⟨own', h1, h2, h3⟩

theorem HInv.start {K : Module.Kernel} {junk : World → Nat → Byte} {c : ι → Command} {m0 : Mem} (hc : Disjoint c m0) (s : σ) (tr : List Event) :
    HInv K junk c (fun _ _ => False) (Host.start s m0 tr : Host ι σ) where
  inv :=
    { used := by
        intro i a ha
        change (m0 a).isSome
        rcases view_uses_empty.mp ha with h | h
        · have := read_isSome.mp (show ((c i).mem.read (c i).cmd.cmnd (c i).cdb.length).isSome by rw [(hc.fair i).stored]; rfl) (a - (c i).cmd.cmnd)
            (by unfold inRange at h; omega)
          rwa [hc.mem i, show (c i).cmd.cmnd + (a - (c i).cmd.cmnd) = a by unfold inRange at h; omega] at this
        · have := hc.sense i (a - (c i).cmd.sense_buffer) (by unfold inRange at h; simp only; omega)
          simp only at this
          rwa [show (c i).cmd.sense_buffer + (a - (c i).cmd.sense_buffer) = a by unfold inRange at h; omega] at this
      owned := fun _ _ h => h.elim
      disjoint := fun _ _ _ _ h => h.elim
      clear := fun _ _ _ h => h.elim
      called := by
        intro i _
        refine ⟨?_, fun _ h => h⟩
        change m0.read (c i).cmd.cmnd (c i).cdb.length = some (c i).cdb
        rw [← hc.mem i]
        exact (hc.fair i).stored
      waiting := by intro i r t todo cs h; cases h
      returned := fun _ _ _ _ h => h }
  apart := fun i j hij a h1 h2 => hc.apart i j hij a (view_uses_empty.mp h1) (view_uses_empty.mp h2)
  buf := by intro i b ph h; cases h
  ret := by intro i b r h; cases h

end Scsi2Nvme
