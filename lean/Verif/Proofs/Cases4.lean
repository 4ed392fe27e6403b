import Verif.Proofs.Cases3
/-!
# Closed forms: MAINTENANCE IN and MODE SENSE(10)
-/

namespace Scsi2Nvme
open Spec

theorem maint_run (E : Env) (cdb : List Byte) (p : Pipe) :
    ∃ st al, beginMaintenanceIn E cdb.tail p
      = beginReportLuns E cdb.tail { p with status := st, count := 0, alloc_len := al } := by
  unfold beginMaintenanceIn
  exact ⟨_, _, rfl⟩

/-- The attributes in a MODE SENSE(10) CDB. -/
def attrsOf10 (cdb : List Byte) : ModeSense.CommonCmdAttributes :=
  ModeSense.attrs10 (Scsi.ModeSense10Command.ofBytes (cdb.tail.take Scsi.ModeSense10Command.size))

theorem attrsOf10_dbd (cdb : List Byte) : (attrsOf10 cdb).dbd = Spec.bit cdb 1 3 :=
  fieldBit cdb 9 3 0 3 (by omega) (by omega) (by omega)

/-- Does MODE SENSE(10) ask for a page before control falls through? -/
def ms10Alloc (cdb : List Byte) : Prop := 10 ≤ cdb.length ∧ Spec.bit cdb 1 3 = false

instance (cdb : List Byte) : Decidable (ms10Alloc cdb) := by unfold ms10Alloc; infer_instance

/-- After the MODE SENSE(10) part, control falls through to REPORT LUNS. -/
theorem ms10_run (E : Env) (cdb : List Byte) (nsid : U32) (p : Pipe) (w : World) (hn : p.count = 0)
    (ha : p.as.e0.data_addr = 0) :
    ∃ p' : Pipe,
      p'.as = (if ms10Alloc cdb then { p.as with e0 := setAl E w } else p.as) ∧
      beginModeSense10 E cdb.tail nsid p w
        = beginReportLuns E cdb.tail p' (if ms10Alloc cdb then setW E w else w) := by
  unfold beginModeSense10 ModeSense.ModeSense10ToNvme
  rcases Nat.lt_or_ge cdb.length 10 with hl | hl
  · rw [readValue_none (by simp [Scsi.ModeSense10Command.size]; omega)]
    rw [if_neg (by unfold ms10Alloc; omega), if_neg (by unfold ms10Alloc; omega)]
    simp only [M.bind_run, M.pure_run]
    obtain ⟨st, al, h⟩ := maint_run E cdb { p with status := .kFailure }
    exact ⟨{ p with status := st, count := 0, alloc_len := al }, rfl, congrFun h w⟩
  rw [readValue_some (by simp [Scsi.ModeSense10Command.size]; omega)]
  simp only [M.bind_run, kPageSize]
  by_cases hd : Spec.bit cdb 1 3 = true
  · rw [if_neg (by unfold ms10Alloc; simp [hd]), if_neg (by unfold ms10Alloc; simp [hd])]
    have := ModeSense_dbd E (attrsOf10 cdb) p.ws p.as.e0 nsid p.count (by omega) w (by rw [attrsOf10_dbd]; exact hd)
    unfold attrsOf10 at this
    rw [this]
    simp only [M.pure_run]
    generalize msPage _ nsid p.ws p.count = r
    obtain ⟨st, al, h⟩ := maint_run E cdb
      { p with status := r.1, count := r.2.2, ws := r.2.1, alloc_len := (ntohs (Scsi.ModeSense10Command.ofBytes (cdb.tail.take Scsi.ModeSense10Command.size)).alloc_length).setWidth 32 }
    exact ⟨{ p with status := st, count := 0, ws := r.2.1, alloc_len := al }, rfl, congrFun h w⟩
  · have hd' : Spec.bit cdb 1 3 = false := by simpa using hd
    have hm : ms10Alloc cdb := ⟨hl, hd'⟩
    rw [if_pos hm, if_pos hm]
    by_cases h0 : setA E w = 0
    · have := ModeSense_fail E (attrsOf10 cdb) p.ws p.as.e0 nsid p.count (by omega) w (by rw [attrsOf10_dbd]; exact hd') ha h0
      unfold attrsOf10 at this
      rw [this]
      simp only [M.pure_run]
      generalize p.ws.put p.count _ = ws'
      obtain ⟨st, al, h⟩ := maint_run E cdb
        { status := .kFailure, count := p.count + 1, ws := ws', as := { p.as with e0 := setAl E w }
          alloc_len := (ntohs (Scsi.ModeSense10Command.ofBytes (cdb.tail.take Scsi.ModeSense10Command.size)).alloc_length).setWidth 32 }
      exact ⟨{ status := st, count := 0, ws := ws', as := { p.as with e0 := setAl E w }, alloc_len := al },
        rfl, congrFun h _⟩
    · have := ModeSense_ok E (attrsOf10 cdb) p.ws p.as.e0 nsid p.count (by omega) w (by rw [attrsOf10_dbd]; exact hd') ha h0
      unfold attrsOf10 at this
      rw [this]
      simp only [M.pure_run]
      generalize msPage _ nsid _ (p.count + 1) = r
      obtain ⟨st, al, h⟩ := maint_run E cdb
        { status := r.1, count := r.2.2, ws := r.2.1, as := { p.as with e0 := setAl E w }
          alloc_len := (ntohs (Scsi.ModeSense10Command.ofBytes (cdb.tail.take Scsi.ModeSense10Command.size)).alloc_length).setWidth 32 }
      exact ⟨{ status := st, count := 0, ws := r.2.1, as := { p.as with e0 := setAl E w }, alloc_len := al },
        rfl, congrFun h _⟩

end Scsi2Nvme
