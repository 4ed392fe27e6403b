import Verif.Proofs.Good
import Verif.Spec.Translate
/-!
# From the `switch` of `Begin` to the interface
-/

namespace Scsi2Nvme
open Spec

theorem nsidOf_toNat (lun : U64) : (nsidOf lun).toNat = nsidOfLun lun := by
  unfold nsidOf nsidOfLun
  simp only [BitVec.toNat_add, BitVec.toNat_setWidth]
  simp

theorem prp_toNat (buf : Span) : ((BitVec.ofNat 64 buf.ptr : U64)).toNat = prpOf buf := by
  rw [BitVec.toNat_ofNat]; rfl

theorem Spec.Began.inv {E t w ptr cdb buf lun r t' w'} (h : Began E t w ptr cdb buf lun r t' w')
    (hne : cdb ≠ []) : ∃ p w1,
      beginSwitch E (cdb.headD 0) cdb.tail buf (nsidOf lun) (startPipe t) w = .ok (p, w1) ∧
      p.status ≠ .kUninitialized ∧ p.count ≤ 3 ∧ AllocEffect E t.allocations w p.count p.as w1 ∧
      r = ⟨.kSuccess, p.alloc_len⟩ ∧ t' = finishT ⟨ptr, cdb.length⟩ p ∧ w' = finishW E p w1 := by
  rcases Begin_inv E t h.idle.idle w _ buf lun r t' w' h.call with ⟨h0, -⟩ | ⟨-, bs, p, w1, hr, hrest⟩
  · exact absurd (List.length_eq_zero_iff.mp h0) hne
  · simp only at hr
    rw [h.stored] at hr
    cases hr
    exact ⟨p, w1, hrest⟩

/-- The result of a `Begin` whose `switch` ends with `p`. -/
structure Ends (E : Env) (t : Translation) (ptr : Nat) (cdb : List Byte) (p : Pipe) (w1 : World)
    (r : BeginResponse) (t' : Translation) (w' : World) : Prop where
  acc : Accepted t' ↔ p.status = .kSuccess
  cmds : p.status = .kSuccess → t'.GetNvmeWrappers = p.ws.toList.take p.count
  wss : t'.nvme_wrappers = p.ws
  count : p.status = .kSuccess → t'.nvme_cmd_count = p.count
  none : p.status ≠ .kSuccess → t'.GetNvmeWrappers = []
  resp : r = ⟨.kSuccess, p.alloc_len⟩
  world : p.status = .kSuccess → w' = w1
  worldE : w' = finishW E p w1
  span : t'.scsi_cmd = ⟨ptr, cdb.length⟩

/-- Main rule: evaluate the `switch`, read off the result. -/
theorem Spec.Began.ends {E t w ptr cdb buf lun r t' w'} (h : Began E t w ptr cdb buf lun r t' w')
    (hne : cdb ≠ []) {p w1}
    (hs : beginSwitch E (cdb.headD 0) cdb.tail buf (nsidOf lun) (startPipe t) w = .ok (p, w1)) :
    Ends E t ptr cdb p w1 r t' w' := by
  obtain ⟨p', w1', hs', -, -, -, rfl, rfl, rfl⟩ := h.inv hne
  rw [hs] at hs'
  cases hs'
  constructor
  · unfold Accepted; rw [finishT_status]
  · intro hp; unfold Translation.GetNvmeWrappers finishT; rw [if_pos hp]
  · unfold finishT; split <;> rfl
  · intro hp; unfold finishT; rw [if_pos hp]
  · intro hp; unfold Translation.GetNvmeWrappers finishT; rw [if_neg hp]; rfl
  · rfl
  · intro hp; unfold finishW; rw [if_pos hp]
  · rfl
  · unfold finishT; split <;> rfl

theorem take_one {a : Arr3 α} : a.toList.take 1 = [a.e0] := rfl
theorem take_two {a : Arr3 α} : a.toList.take 2 = [a.e0, a.e1] := rfl

theorem Spec.Began.clean {E t w ptr cdb buf lun r t' w'} (h : Began E t w ptr cdb buf lun r t' w') :
    Clean (startPipe t).as := h.idle.idle.clean

theorem Spec.Began.count0 {E t w ptr cdb buf lun r t' w'} (h : Began E t w ptr cdb buf lun r t' w') :
    (startPipe t).count = 0 := h.idle.idle.count

theorem isRead_ne {cdb : List Byte} (h : isRead (byte cdb 0)) : cdb ≠ [] := by
  rcases h with h | h | h | h <;> exact ne_nil_of_byte h (by decide)

theorem isWrite_ne {cdb : List Byte} (h : isWrite (byte cdb 0)) : cdb ≠ [] := by
  rcases h with h | h | h | h <;> exact ne_nil_of_byte h (by decide)

/-- Concrete runs: a `Begin` whose result has a property. -/
theorem began_of (E : Env) (ws : Arr3 NvmeCmdWrapper) (w : World) (ptr : Nat) (cdb : List Byte) (buf : Span)
    (lun : U64) (P : BeginResponse → Translation → Prop) [∀ r t, Decidable (P r t)]
    (hc : w.mem.read ptr cdb.length = some cdb)
    (h : (match (Translation.init ws).Begin E ⟨ptr, cdb.length⟩ buf lun w with
      | .ok ((r, t'), _) => decide (P r t')
      | .error _ => false) = true) :
    ∃ r t' w', Began E (Translation.init ws) w ptr cdb buf lun r t' w' ∧ P r t' := by
  split at h
  · rename_i r t' w' e
    exact ⟨r, t', w', ⟨IdleObject_init ws, hc, e⟩, of_decide_eq_true h⟩
  · cases h

end Scsi2Nvme
