import Verif.Model.Engine
/-!
# third_party/e2e/engine.cc in steps

The kernel may call `scsi_queuecommand`, hence `ScsiToNvme`, again while an earlier call is still waiting for the
NVMe driver.  A call of `ScsiToNvme` is cut into steps: `Begin`, each submission of an NVMe command, `Complete`.  Between
two steps of one call other calls may make steps of theirs.  A step is atomic.  (The library uses nothing but its own
object, the buffers of the call and pages it allocated - C08, C09 - so a finer cut would not make a difference as long as
different calls have different buffers.)
-/

namespace Scsi2Nvme.Engine
open Scsi2Nvme

/-- The arguments of `ScsiToNvme`: third_party/e2e/engine.cc:20-24, and the contents of the uninitialised wrapper array of
its local `Translation` object. -/
structure Args where
  ws : Arr3 NvmeCmdWrapper
  cmd_buf : Nat
  cmd_len : U16
  lun : U64
  sense_buf : Nat
  sense_len : U16
  data_buf : Nat
  data_len : U16
  is_data_in : Bool

/-- Where a call is: not yet begun; begun, with the NVMe commands still to be submitted and the completions received so far
(the local variables `begin_resp`, `translation`, the loop variable and `cpl_responses` of engine.cc:26-70); returned. -/
inductive Phase
  | called
  | waiting (begin_resp : BeginResponse) (translation : Translation) (todo : List NvmeCmdWrapper)
      (cpls : List Nvme.GenericQueueEntryCpl)
  | returned (resp : ScsiToNvmeResponse)

/-- The next step of a call: third_party/e2e/engine.cc:26-52 (`called`), 55-70 (one pass of the loop), 72-91 (`Complete`). -/
def advance (E : Env) (D : Device σ) (g : Args) (s : σ) : Phase → M (Phase × σ)
  | .called => do
    let (begin_resp, translation) ← (Translation.init g.ws).Begin E ⟨g.cmd_buf, g.cmd_len.toNat⟩
      ⟨g.data_buf, g.data_len.toNat⟩ g.lun
    if begin_resp.status = .kFailure then pure (.returned ⟨Scsi.Status.kTaskAborted.toNat, 0⟩, s)
    else if begin_resp.alloc_len.toNat > g.data_len.toNat then
      pure (.returned ⟨Scsi.Status.kTaskAborted.toNat, 0⟩, s)
    else pure (.waiting begin_resp translation translation.GetNvmeWrappers [], s)
  | .waiting begin_resp translation (wr :: todo) cpls => do
    let w ← M.get
    let r := D s w.mem (submissionOf wr)
    let () ← (fun w => .ok ((), { w with mem := r.2.1 }) : M Unit)
    pure (.waiting begin_resp translation todo (cpls ++ [r.2.2]), r.1)
  | .waiting begin_resp translation [] cpls => do
    let buffer_in : Span := if g.is_data_in then ⟨g.data_buf, begin_resp.alloc_len.toNat⟩ else Span.null
    let sense_buffer : Span := ⟨g.sense_buf, g.sense_len.toNat⟩
    let (cpl_resp, _) ← translation.Complete E cpls buffer_in sense_buffer
    if cpl_resp.status = .kFailure then pure (.returned ⟨0x40, 0⟩, s)
    else pure (.returned ⟨cpl_resp.scsi_status.toNat, begin_resp.alloc_len.toNat⟩, s)
  | .returned resp => pure (.returned resp, s)

/-- `n` steps of one call, nothing else happening: third_party/e2e/engine.cc:20-92 (`ScsiToNvme`) executed in pieces. -/
def advanceN (E : Env) (D : Device σ) (g : Args) : Nat → σ → Phase → M (Phase × σ)
  | 0, s, ph => pure (ph, s)
  | n + 1, s, ph => do
    let (ph, s) ← advance E D g s ph
    advanceN E D g n s ph

end Scsi2Nvme.Engine
