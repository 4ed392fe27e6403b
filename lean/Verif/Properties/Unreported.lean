import Verif.Properties.InquiryPages3
import Verif.Properties.Capacity
/-!
# Failed back-translation (C15)
-/

namespace Scsi2Nvme
open Spec

/-- The commands answered with data by the translator itself: REQUEST SENSE, INQUIRY, MODE SENSE(6), READ CAPACITY(10),
REPORT LUNS. -/
def answersWithData (opcode : Nat) : Prop := opcode ∈ [0x03, 0x12, 0x1a, 0x25, 0xa0]

/-- **C15**, full statement (false, see `C15_refuted`): if the initiator expects data from the translator, and no data
could be produced, the command does not end with GOOD. -/
def C15_statement : Prop := ∀ (x : Ran), GoodAllocator x.E → x.answered → answersWithData (byte x.cdb 0) →
  0 < allocLenOf x.cdb → x.wroteNothing → x.c.scsi_status ≠ 0

/-- **C15**, the part that holds: a command which could not be translated, or which the device did not execute, does
not end with GOOD, whatever the buffers are.  What is missing: failures to produce the answer afterwards, see
`C15_unreported`. -/
theorem C15_reported_partial (x : Ran) (ha : x.answered) (hn : ¬ x.succeeded) : x.c.scsi_status ≠ 0 := by
  intro h
  obtain ⟨h1, h2⟩ := ((C14_good_iff x ha).2.mp h)
  exact hn ⟨h1, ha, h2⟩

/-- Met by an unknown command. -/
example : ∃ x : Ran, x.answered ∧ ¬ x.succeeded := by
  obtain ⟨x, -, e2, -, -, -, e6, -, -, hr⟩ := Demo.demo_run Demo.env.junk [4, 0, 0, 0, 0, 0] (by decide) 1 [] [] [] 0 (by decide)
    (fun t1 => ¬ Accepted t1) (by
      intro r t1 w1 hb
      have hne : ([4, 0, 0, 0, 0, 0] : List Byte) ≠ [] := by decide
      have e := hb.ends hne (by rw [switch_unknown _ _ _ _ _ (by decide)]; rfl)
      have hr : ¬ Accepted t1 := fun h => absurd (e.acc.mp h) (by simp)
      have hm : t1.GetNvmeWrappers = [] := e.none (by simp)
      refine ⟨hr, fun wr hwr => ?_, ⟨fun h => absurd h (by decide), fun h => absurd h (by decide), fun h => absurd h (by decide)⟩⟩
      rw [hm] at hwr
      cases hwr)
  refine ⟨x, ?_, fun h => hr h.1⟩
  unfold Ran.answered
  rw [e6, x.cmds_rejected hr]
  rfl

/-- Otherwise it always does: no failure to produce the answer is reported. -/
theorem C15_unreported (x : Ran) (h : x.succeeded) : x.good := by
  obtain ⟨st, wm, -, hg, -⟩ := x.switch h
  exact hg

/-- A VPD page which is not supported: GOOD and no data, whatever the size of the buffer. -/
theorem C15_unsupported_page (x : Ran) (page : Nat) (ns ctrl : List Byte) (hg : GoodAllocator x.E)
    (h : Inquired x true page ns ctrl) (hp : page ∉ [0x00, 0x80, 0x83, 0x86, 0xb0, 0xb1, 0xb2]) :
    x.good ∧ x.wroteNothing := C35_unlisted x page ns ctrl hg h hp

/-- A device which reports a logical block size READ CAPACITY cannot express: GOOD and no data, whatever the size of
the buffer. -/
theorem C15_unusable_identify_data (x : Ran) (ns : List Byte) (hg : GoodAllocator x.E) (h : Asked x 0x25 ns)
    (hl : lbads ns < 9 ∨ 31 < lbads ns) : x.good ∧ x.wroteNothing := by
  have := C44_read_capacity_data x ns hg h
  rw [if_neg (by omega)] at this
  exact this

/-- A buffer too small for the data of READ CAPACITY: GOOD and no data. -/
theorem C15_small_buffer (x : Ran) (ns : List Byte) (hg : GoodAllocator x.E) (h : Asked x 0x25 ns)
    (hl : x.din.len < 8) : x.good ∧ x.wroteNothing := by
  have := C44_read_capacity_data x ns hg h
  rw [if_neg (by omega)] at this
  exact this

/-- C15 does not hold, for example for READ CAPACITY(10) on a device which reports a block length of 1. -/
theorem C15_refuted : ¬ C15_statement := by
  intro hall
  obtain ⟨x, h1, h2, -⟩ := Demo.rc_demo [] (by decide) 64 (by decide)
  obtain ⟨a, b⟩ := C15_unusable_identify_data x _ h1 h2 (Or.inl (by decide +kernel))
  refine hall x h1 h2.ok.2.1 ?_ ?_ b (by rw [show x.c = ⟨.kSuccess, 0⟩ from a])
  · rw [h2.opcode]
    unfold answersWithData
    decide
  · unfold allocLenOf
    rw [h2.opcode, if_neg (by decide), if_neg (by decide), if_neg (by decide), if_neg (by decide), if_pos rfl]
    decide

/-- Met by the VPD page 99h. -/
example : ∃ x ns ctrl, GoodAllocator x.E ∧ Inquired x true 0x99 ns ctrl ∧ x.din.len = 64 := by
  obtain ⟨x, -, h1, h2, h3, -⟩ := Demo.inq_demo Demo.env.junk 1 0x99 [] [] (by decide) (by decide) 64 (by decide)
  exact ⟨x, _, _, h1, h2, by rw [h3]⟩

/-- Met by a READ CAPACITY(10) with a buffer of 4 bytes. -/
example : ∃ x ns, GoodAllocator x.E ∧ Asked x 0x25 ns ∧ lbads ns = 9 ∧ x.din.len = 4 := by
  obtain ⟨x, h1, h2, h3, -⟩ := Demo.rc_demo Demo.smallNs (by decide +kernel) 4 (by decide)
  exact ⟨x, _, h1, h2, by decide +kernel, by rw [h3]⟩

end Scsi2Nvme
