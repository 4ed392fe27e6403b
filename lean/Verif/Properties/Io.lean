import Verif.Proofs.Disk
import Verif.Properties.Simple
/-!
# C68: completing I/O commands
-/

namespace Scsi2Nvme
open Spec

/-- A command `Begin` handles without requesting pages has no pages to hand back. -/
theorem io_clean {E t w ptr cdb buf lun r t' w'} (h : Began E t w ptr cdb buf lun r t' w')
    (hop : isRead (byte cdb 0) ∨ isWrite (byte cdb 0) ∨ byte cdb 0 = 0x35 ∨ byte cdb 0 = 0x2f) (n : Nat) :
    livePages n t'.allocations = [] := by
  have hclean : Clean t.allocations := h.idle.idle.clean
  have main : ∀ (p : Pipe), p.as = t.allocations → p.count = 1 → cdb ≠ [] →
      beginSwitch E (cdb.headD 0) cdb.tail buf (nsidOf lun) (startPipe t) w = .ok (p, w) → livePages n t'.allocations = [] := by
    intro p has hcount hne hs
    obtain ⟨p', w1, hs', -, -, -, -, rfl, -⟩ := h.inv hne
    rw [hs] at hs'
    cases hs'
    apply livePages_mono_nil
    unfold finishT
    split
    · simp only; rw [has]; exact hclean
    · simp only
      obtain ⟨c0, c1, c2⟩ := (Clean_iff _).mp hclean
      rw [has, hcount]
      refine (Clean_iff _).mpr ⟨?_, c1, c2⟩
      rfl
  rcases hop with hop | hop | hop | hop
  · obtain ⟨x, -, e⟩ := switch_read E cdb buf (nsidOf lun) (startPipe t) hop
    exact main _ rfl rfl (isRead_ne hop) (by rw [e]; rfl)
  · obtain ⟨x, -, e⟩ := switch_write E cdb buf (nsidOf lun) (startPipe t) hop
    exact main _ rfl rfl (isWrite_ne hop) (by rw [e]; rfl)
  · exact main _ rfl rfl (ne_nil_of_byte hop (by decide)) (by rw [switch_sync E cdb buf _ _ hop]; rfl)
  · exact main _ rfl rfl (ne_nil_of_byte hop (by decide)) (by rw [switch_verify E cdb buf _ _ hop]; rfl)

/-- **C68.** Completing a successful READ, WRITE, SYNCHRONIZE CACHE (35h) or VERIFY (2Fh) returns GOOD, changes no
memory and makes no allocator call (the whole world, including the trace of allocator calls, is as before). -/
theorem C68_io_complete (x : Ran) (hop : isRead (byte x.cdb 0) ∨ isWrite (byte x.cdb 0) ∨ byte x.cdb 0 = 0x35 ∨ byte x.cdb 0 = 0x2f)
    (hs : x.succeeded) : x.good ∧ x.w3 = x.w2 := by
  obtain ⟨st, wm, hw, hg, hsw⟩ := x.switch hs
  refine ⟨hg, ?_⟩
  have hwm : wm = x.w2 := by
    rcases hop with hop | hop | hop | hop
    · rw [rw_switch _ _ _ _ _ (.inl hop)] at hsw
      cases hsw; rfl
    · rw [rw_switch _ _ _ _ _ (.inr hop)] at hsw
      cases hsw; rfl
    · rw [opc_of_byte hop (by decide)] at hsw
      cases hsw; rfl
    · rw [opc_of_byte hop (by decide)] at hsw
      cases hsw; rfl
  rw [hw, hwm]
  unfold abortW
  rw [io_clean x.began hop]
  rfl

/-- The hypotheses are met: a READ(10) of two blocks answered with success. -/
example : ∃ x : Ran, isRead (byte x.cdb 0) ∧ x.succeeded := by
  obtain ⟨x, h1, -, -, -, h5, -, -, -, h2, -, -, h3, h4⟩ := ran_of boundedEnv Demo.ws
    ⟨Demo.mem Demo.read10, []⟩ 0x100 Demo.read10 Demo.data 1
    ⟨Demo.mem Demo.read10, []⟩ [Demo.cpl 0 0] Demo.data Demo.sense
    (fun _ t _ _ => Accepted t ∧ t.GetNvmeWrappers.length = 1)
    (by decide +kernel) (by decide +kernel) (by decide +kernel)
  refine ⟨x, by rw [h5]; decide, h3, ?_, ?_⟩
  · unfold Ran.answered Ran.cmds; rw [h2, h4]; rfl
  · rw [h2]
    intro c hc
    simp only [List.mem_cons, List.not_mem_nil, or_false] at hc
    rw [hc]
    exact ⟨rfl, rfl⟩

end Scsi2Nvme
