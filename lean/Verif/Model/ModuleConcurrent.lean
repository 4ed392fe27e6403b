import Verif.Model.Module
import Verif.Model.Concurrent
/-!
# third_party/e2e/scsi_mock_module.c in steps

`scsi_queuecommand` may be called again while an earlier call waits for the NVMe driver.  A call is cut into steps: the
allocation of the data buffer, with the copy into it; the steps of the call of the engine (`Model/Concurrent.lean`); the copy out of
the data buffer, with `kfree`.  A step is atomic.
-/

namespace Scsi2Nvme.Module
open Scsi2Nvme

/-- Where a call of `scsi_queuecommand` (third_party/e2e/scsi_mock_module.c:43-75) is: nothing done yet; in `ScsiToNvme`, with the local variable `data_buf`; finished. -/
inductive Phase
  | queued
  | engine (data_buf : Nat) (ph : Engine.Phase)
  | done (out : Outcome)

/-- `scsi_bufflen(cmd)` as a `u16`: third_party/e2e/scsi_mock_module.c:47 -/
def dataLen (cmd : ScsiCmnd) : U16 := BitVec.ofNat 16 cmd.sg.length

/-- The arguments of the engine: third_party/e2e/scsi_mock_module.c:62-64, `data_buf` being the buffer. -/
def engineArgs (ws : Arr3 NvmeCmdWrapper) (cmd : ScsiCmnd) (data_buf : Nat) : Engine.Args :=
  ⟨ws, cmd.cmnd, cmd.cmd_len, cmd.lun, cmd.sense_buffer, SCSI_SENSE_BUFFERSIZE, data_buf, dataLen cmd, cmd.is_data_in⟩

/-- The next step of a call: third_party/e2e/scsi_mock_module.c:44-61 (`queued`), 62-64 (`engine`), 66-74 (the engine has returned).
Parameters as for `scsi_queuecommand`. -/
def advance (K : Kernel) (junk : World → Nat → Byte) (D : Engine.Device σ) (ws : Arr3 NvmeCmdWrapper) (uninit : U64) (cmd : ScsiCmnd)
    (s : σ) : Phase → M (Phase × σ)
  | .queued =>
    if dataLen cmd = 0 then pure (.engine uninit.toNat .called, s)
    else do
      let data_buf ← kzalloc K (dataLen cmd).toNat
      if data_buf = 0 then pure (.done ⟨23, none, cmd.sg⟩, s)
      else if cmd.is_data_in then pure (.engine data_buf .called, s)
      else do
        store data_buf (cmd.sg.take (dataLen cmd).toNat)
        pure (.engine data_buf .called, s)
  | .engine data_buf (.returned resp) =>
    if dataLen cmd = 0 then pure (.done ⟨resp.return_code, none, cmd.sg⟩, s)
    else if cmd.is_data_in then do
      let sdb_len := min resp.alloc_len cmd.sg.length
      let bs ← load data_buf sdb_len
      kfree K data_buf (dataLen cmd).toNat
      pure (.done ⟨resp.return_code, some (((dataLen cmd).toNat : Int) - sdb_len), bs ++ cmd.sg.drop sdb_len⟩, s)
    else do
      kfree K data_buf (dataLen cmd).toNat
      pure (.done ⟨resp.return_code, none, cmd.sg⟩, s)
  | .engine data_buf .called => do
    let (ph, s) ← Engine.advance (env K junk) D (engineArgs ws cmd data_buf) s .called
    pure (.engine data_buf ph, s)
  | .engine data_buf (.waiting r t todo cpls) => do
    let (ph, s) ← Engine.advance (env K junk) D (engineArgs ws cmd data_buf) s (.waiting r t todo cpls)
    pure (.engine data_buf ph, s)
  | .done out => pure (.done out, s)

/-- `n` steps of one call (third_party/e2e/scsi_mock_module.c:43-75), nothing else happening. -/
def advanceN (K : Kernel) (junk : World → Nat → Byte) (D : Engine.Device σ) (ws : Arr3 NvmeCmdWrapper) (uninit : U64) (cmd : ScsiCmnd) :
    Nat → σ → Phase → M (Phase × σ)
  | 0, s, ph => pure (ph, s)
  | n + 1, s, ph => do
    let (ph, s) ← advance K junk D ws uninit cmd s ph
    advanceN K junk D ws uninit cmd n s ph

end Scsi2Nvme.Module
