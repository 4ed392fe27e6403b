import Verif.Model.Module
/-!
# The stack when the driver has no namespace

`ns` (third_party/e2e/nvme_driver.c:25) stays null if `nvme_driver_init` fails; `submit_admin_command` and `submit_io_command` read
`ns->ctrl->admin_q` and `ns->queue` without looking.  The functions here are those of `Model/Engine.lean` and `Model/Module.lean`
with the value of `ns` as a parameter (`true`: it points to a namespace).
-/

namespace Scsi2Nvme
open Engine

/-- `submit_admin_command`, `submit_io_command`: third_party/e2e/nvme_driver.c:128-144; `ns` is dereferenced in lines 133 and 142. -/
def Engine.submitNs (ns : Bool) (D : Device σ) (s : σ) (sub : Submission) : M (σ × Nvme.GenericQueueEntryCpl) :=
  if ns = false then M.ub .badAccess
  else do
    let w ← M.get
    let r := D s w.mem sub
    let () ← (fun w => .ok ((), { w with mem := r.2.1 }) : M Unit)
    pure (r.1, r.2.2)

/-- The loop submitting the commands: third_party/e2e/engine.cc:55-70. -/
def Engine.submitAllNs (ns : Bool) (D : Device σ) : List NvmeCmdWrapper → σ → M (List Nvme.GenericQueueEntryCpl × σ)
  | [], s => pure ([], s)
  | wr :: wrs, s => do
    let (s, c) ← submitNs ns D s (submissionOf wr)
    let (cs, s) ← submitAllNs ns D wrs s
    pure (c :: cs, s)

/-- `ScsiToNvme`: third_party/e2e/engine.cc:20-92, as in `Model/Engine.lean`. -/
def Engine.ScsiToNvmeNs (ns : Bool) (E : Env) (D : Device σ) (s : σ) (ws : Arr3 NvmeCmdWrapper)
    (cmd_buf : Nat) (cmd_len : U16) (lun : U64) (sense_buf : Nat) (sense_len : U16)
    (data_buf : Nat) (data_len : U16) (is_data_in : Bool) : M (ScsiToNvmeResponse × σ) := do
  let translation := Translation.init ws
  let scsi_cmd : Span := ⟨cmd_buf, cmd_len.toNat⟩
  let buffer : Span := ⟨data_buf, data_len.toNat⟩
  let (begin_resp, translation) ← translation.Begin E scsi_cmd buffer lun
  if begin_resp.status = .kFailure then pure (⟨Scsi.Status.kTaskAborted.toNat, 0⟩, s)
  else if begin_resp.alloc_len.toNat > data_len.toNat then
    pure (⟨Scsi.Status.kTaskAborted.toNat, 0⟩, s)
  else do
    let (cpls, s) ← submitAllNs ns D translation.GetNvmeWrappers s
    let buffer_in : Span := if is_data_in then ⟨data_buf, begin_resp.alloc_len.toNat⟩ else Span.null
    let sense_buffer : Span := ⟨sense_buf, sense_len.toNat⟩
    let (cpl_resp, _) ← translation.Complete E cpls buffer_in sense_buffer
    if cpl_resp.status = .kFailure then pure (⟨0x40, 0⟩, s)
    else pure (⟨cpl_resp.scsi_status.toNat, begin_resp.alloc_len.toNat⟩, s)

/-- `scsi_queuecommand`: third_party/e2e/scsi_mock_module.c:43-75, as in `Model/Module.lean`. -/
def Module.scsi_queuecommandNs (ns : Bool) (K : Kernel) (junk : World → Nat → Byte) (D : Device σ) (s : σ) (ws : Arr3 NvmeCmdWrapper)
    (uninit : U64) (cmd : ScsiCmnd) : M (Outcome × σ) := do
  let data_len : U16 := BitVec.ofNat 16 cmd.sg.length
  let engine := fun data_buf =>
    ScsiToNvmeNs ns (env K junk) D s ws cmd.cmnd cmd.cmd_len cmd.lun cmd.sense_buffer SCSI_SENSE_BUFFERSIZE data_buf data_len
      cmd.is_data_in
  if data_len = 0 then do
    let (resp, s) ← engine uninit.toNat
    pure (⟨resp.return_code, none, cmd.sg⟩, s)
  else do
    let data_buf ← kzalloc K data_len.toNat
    if data_buf = 0 then pure (⟨23, none, cmd.sg⟩, s)
    else if cmd.is_data_in then do
      let (resp, s) ← engine data_buf
      let sdb_len := min resp.alloc_len cmd.sg.length
      let bs ← load data_buf sdb_len
      kfree K data_buf data_len.toNat
      pure (⟨resp.return_code, some ((data_len.toNat : Int) - sdb_len), bs ++ cmd.sg.drop sdb_len⟩, s)
    else do
      store data_buf (cmd.sg.take data_len.toNat)
      let (resp, s) ← engine data_buf
      kfree K data_buf data_len.toNat
      pure (⟨resp.return_code, none, cmd.sg⟩, s)

end Scsi2Nvme
