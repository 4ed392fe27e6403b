import Verif.Model.Translation
/-!
# Model of third_party/e2e/engine.cc and of the allocator contract of third_party/e2e/util.c

The NVMe driver (`submit_admin_command`, `submit_io_command`, third_party/e2e/nvme_driver.c:128-144) is a
parameter: an arbitrary device with a state of its own which may change the memory and answers with an
arbitrary completion.
-/

namespace Scsi2Nvme.Engine
open Scsi2Nvme

/-- What the engine hands to the driver: admin or I/O queue, the 64 bytes of the command, the data
buffer and its length: the arguments of third_party/e2e/nvme_driver.h submit_admin_command and submit_io_command,
third_party/e2e/nvme_driver.c:128-144. -/
structure Submission where
  is_admin : Bool
  cmd : List Byte
  buffer : U64
  bufflen : U32
deriving DecidableEq, Repr

/-- The driver and the device behind it: third_party/e2e/nvme_driver.h.  `tmp_cpl` is zero initialised
(engine.cc:57); what it holds after the call is the completion. -/
abbrev Device (σ : Type) := σ → Mem → Submission → σ × Mem × Nvme.GenericQueueEntryCpl

/-- third_party/e2e/engine.h, struct ScsiToNvmeResponse -/
structure ScsiToNvmeResponse where
  return_code : Nat
  alloc_len : Nat
deriving DecidableEq, Repr

/-- The submission of a wrapper: third_party/e2e/engine.cc:56-67. -/
def submissionOf (wr : NvmeCmdWrapper) : Submission :=
  { is_admin := wr.is_admin, cmd := wr.cmd.toBytes, buffer := wr.cmd.prp1, bufflen := wr.buffer_len }

/-- The loop submitting the commands: third_party/e2e/engine.cc:55-70. -/
def submitAll (D : Device σ) : List NvmeCmdWrapper → σ → M (List Nvme.GenericQueueEntryCpl × σ)
  | [], s => pure ([], s)
  | wr :: wrs, s => do
    let w ← M.get
    let r := D s w.mem (submissionOf wr)
    let () ← (fun w => .ok ((), { w with mem := r.2.1 }) : M Unit)
    let (cs, s) ← submitAll D wrs r.1
    pure (r.2.2 :: cs, s)

/-- `ScsiToNvme`: third_party/e2e/engine.cc:20-92.  `ws` stands for the uninitialised wrapper array of the
local `Translation` object.  `data_len`, `cmd_len`, `sense_len` are `unsigned short`.  When the function
returns, the translation object is destroyed (it has no destructor that frees pages). -/
def ScsiToNvme (E : Env) (D : Device σ) (s : σ) (ws : Arr3 NvmeCmdWrapper)
    (cmd_buf : Nat) (cmd_len : U16) (lun : U64) (sense_buf : Nat) (sense_len : U16)
    (data_buf : Nat) (data_len : U16) (is_data_in : Bool) : M (ScsiToNvmeResponse × σ) := do
  let translation := Translation.init ws
  let scsi_cmd : Span := ⟨cmd_buf, cmd_len.toNat⟩
  let buffer : Span := ⟨data_buf, data_len.toNat⟩
  let (begin_resp, translation) ← translation.Begin E scsi_cmd buffer lun
  if begin_resp.status = .kFailure then pure (⟨Scsi.Status.kTaskAborted.toNat, 0⟩, s)
  else if begin_resp.alloc_len.toNat > data_len.toNat then
    pure (⟨Scsi.Status.kTaskAborted.toNat, 0⟩, s)
  else do
    let (cpls, s) ← submitAll D translation.GetNvmeWrappers s
    let buffer_in : Span := if is_data_in then ⟨data_buf, begin_resp.alloc_len.toNat⟩ else Span.null
    let sense_buffer : Span := ⟨sense_buf, sense_len.toNat⟩
    let (cpl_resp, _) ← translation.Complete E cpls buffer_in sense_buffer
    if cpl_resp.status = .kFailure then pure (⟨0x40, 0⟩, s)
    else pure (⟨cpl_resp.scsi_status.toNat, begin_resp.alloc_len.toNat⟩, s)

end Scsi2Nvme.Engine
