import Verif.Properties.Fields
import Verif.Properties.Status
/-!
# C12 and C14 for the completions as the device writes them
-/

namespace Scsi2Nvme
open Spec

/-- Status code type and status code of a completion queue entry of 16 bytes: bits 9-11 and 1-8 of the little endian word
in bytes 14-15. -/
def Spec.sctOf (bs : List Byte) : Nat := leAt bs 14 2 / 512 % 8
def Spec.scOf (bs : List Byte) : Nat := leAt bs 14 2 / 2 % 256

theorem cplOk_image (bs : List Byte) (h : bs.length = 16) :
    cplOk (Nvme.GenericQueueEntryCpl.ofBytes bs) ↔ sctOf bs = 0 ∧ scOf bs = 0 := by
  have e14 : leAt bs 14 2 = leNat bs / 2 ^ 112 := by
    rw [leAt_eq, leNat_slice]
    have := leNat_lt bs
    rw [h] at this
    rw [Nat.mod_eq_of_lt (by omega)]
  unfold cplOk sctOf scOf Nvme.GenericQueueEntryCpl.ofBytes
  simp only [getF_toNat, e14]
  omega

/-- **C12**, with the completions as images: the status reported is that of the first entry whose status field is not 0. -/
theorem C12_image (x : Ran) (hg : GoodAllocator x.E) (hacc : Accepted x.t1) (ha : x.answered) (pre post : List (List Byte))
    (c : List Byte) (hl : ∀ b ∈ pre ++ c :: post, b.length = 16)
    (hc : x.cpl = (pre ++ c :: post).map Nvme.GenericQueueEntryCpl.ofBytes)
    (hpre : ∀ d ∈ pre, sctOf d = 0 ∧ scOf d = 0) (hfail : ¬ (sctOf c = 0 ∧ scOf c = 0)) :
    x.reported (statusOf (sctOf c) (scOf c)) := by
  have lc : c.length = 16 := hl c (by simp)
  have := C12_first_error x hg hacc ha (pre.map Nvme.GenericQueueEntryCpl.ofBytes) (post.map Nvme.GenericQueueEntryCpl.ofBytes)
    (Nvme.GenericQueueEntryCpl.ofBytes c) (by rw [hc]; simp) (by
      intro d hd
      obtain ⟨b, hb, rfl⟩ := List.mem_map.mp hd
      exact (cplOk_image b (hl b (by simp [hb]))).mpr (hpre b hb)) (fun h => hfail ((cplOk_image c lc).mp h))
  rw [(C63_completion_status c lc).1] at this
  exact this

/-- **C14**, with the completions as images: GOOD exactly if the command was accepted and every status field is 0. -/
theorem C14_image (x : Ran) (ha : x.answered) (imgs : List (List Byte)) (hl : ∀ b ∈ imgs, b.length = 16)
    (hc : x.cpl = imgs.map Nvme.GenericQueueEntryCpl.ofBytes) :
    x.c.scsi_status = 0 ↔ Accepted x.t1 ∧ ∀ b ∈ imgs, sctOf b = 0 ∧ scOf b = 0 := by
  rw [(C14_good_iff x ha).2]
  refine and_congr_right fun _ => ?_
  rw [hc]
  constructor
  · intro h b hb
    exact (cplOk_image b (hl b hb)).mp (h _ (List.mem_map.mpr ⟨b, hb, rfl⟩))
  · intro h c hcm
    obtain ⟨b, hb, rfl⟩ := List.mem_map.mp hcm
    exact (cplOk_image b (hl b hb)).mpr (h b hb)

/-- An INQUIRY whose second Identify fails with an internal error (phase bit set): the hypotheses are met. -/
example : ∃ x : Ran, GoodAllocator x.E ∧ Accepted x.t1 ∧ x.answered ∧
    x.cpl = ([List.replicate 14 (0 : Byte) ++ [1, 0]] ++ (List.replicate 14 0 ++ [0x0d, 0]) :: []).map Nvme.GenericQueueEntryCpl.ofBytes ∧
    scOf (List.replicate 14 0 ++ [0x0d, 0]) = 6 ∧ x.c = ⟨.kSuccess, 2⟩ := by
  obtain ⟨x, h1, -, -, -, -, -, -, -, h2, -, -, h3, h4, h5⟩ := ran_of boundedEnv Demo.ws
    ⟨Demo.mem Demo.inquiry, []⟩ 0x100 Demo.inquiry Demo.data 1 ⟨Demo.mem2 Demo.inquiry [] [], []⟩
    (([List.replicate 14 (0 : Byte) ++ [1, 0]] ++ (List.replicate 14 0 ++ [0x0d, 0]) :: []).map Nvme.GenericQueueEntryCpl.ofBytes) Demo.data Demo.sense
    (fun _ t c _ => Accepted t ∧ t.GetNvmeWrappers.length = 2 ∧ c = ⟨.kSuccess, 2⟩)
    (by decide +kernel) (by decide +kernel) (by decide +kernel)
  refine ⟨x, h1 ▸ boundedEnv_good, h3, ?_, h2, by decide, h5⟩
  unfold Ran.answered Ran.cmds
  rw [h2, h4]
  rfl

end Scsi2Nvme
