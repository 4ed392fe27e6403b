import Verif.Model.Engine
/-!
# Model of third_party/e2e/util.c and third_party/e2e/scsi_mock_module.c

The kernel's `kzalloc` and `kfree` are parameters, as is the NVMe driver (see `Model/Driver.lean`).  Registration of
the module with the kernel (scsi_mock_module.c:77-196) is in `Model/Lifecycle.lean`.
-/

namespace Scsi2Nvme.Module
open Scsi2Nvme Engine

/-- The memory functions of the kernel.  `kzalloc w n` is the address of the block (0 for NULL) and the memory
afterwards.  `kfree w a n`: the size `n` of the block is a ghost argument, the kernel finds it by itself.
Called from third_party/e2e/scsi_mock_module.c:54, 73 and util.c:21, 27. -/
structure Kernel where
  kzalloc : World → Nat → Nat × Mem
  kfree : World → Nat → Nat → Mem

/-- `AllocPages`: third_party/e2e/util.c:18-24.  `page_size * count` is computed in 32 bits. -/
def AllocPages (K : Kernel) (w : World) (page_size : U32) (count : U16) : U64 × Mem :=
  if count = 0 then (0, w.mem)
  else
    let r := K.kzalloc w (page_size * count.setWidth 32).toNat
    (BitVec.ofNat 64 r.1, r.2)

/-- `DeallocPages`: third_party/e2e/util.c:26-28.  The ghost size is that of the pages. -/
def DeallocPages (K : Kernel) (w : World) (addr : U64) (count : U16) : Mem :=
  if addr ≠ 0 then K.kfree w addr.toNat (4096 * count.toNat) else w.mem

/-- `SetEngineCallbacks`: third_party/e2e/engine.cc:15-18. `junk`: indeterminate stack memory. -/
def env (K : Kernel) (junk : World → Nat → Byte) : Env :=
  { allocCb := some (AllocPages K), deallocCb := some (DeallocPages K), junk := junk }

/-- What `scsi_queuecommand` uses of a `struct scsi_cmnd`.  The scatter-gather list is represented by the bytes it
holds; `scsi_bufflen(cmd)` is their number.  third_party/e2e/scsi_mock_module.c:43-75. -/
structure ScsiCmnd where
  /-- `cmd->device->lun` -/
  lun : U64
  /-- `cmd->cmnd`: where the command block is -/
  cmnd : Nat
  cmd_len : U16
  sense_buffer : Nat
  /-- `cmd->sc_data_direction == DMA_FROM_DEVICE` -/
  is_data_in : Bool
  /-- the bytes of the scatter-gather list -/
  sg : List Byte

/-- What the caller sees afterwards: `cmd->result`, the residual count if it was set, the bytes of the scatter-gather
list: third_party/e2e/scsi_mock_module.c:37-75. -/
structure Outcome where
  result : Nat
  resid : Option Int
  sg : List Byte
deriving DecidableEq, Repr

/-- The kernel's constant `SCSI_SENSE_BUFFERSIZE` (include/scsi/scsi_cmnd.h) -/
def SCSI_SENSE_BUFFERSIZE : U16 := 96

/-- `kzalloc`: the call of third_party/e2e/scsi_mock_module.c:54 -/
def kzalloc (K : Kernel) (n : Nat) : M Nat := fun w =>
  let r := K.kzalloc w n
  .ok (r.1, { w with mem := r.2 })

/-- `kfree`: the call of third_party/e2e/scsi_mock_module.c:73 -/
def kfree (K : Kernel) (a n : Nat) : M Unit := fun w => .ok ((), { w with mem := K.kfree w a n })

/-- `scsi_queuecommand`: third_party/e2e/scsi_mock_module.c:43-75, with `respond` (37-41).  `uninit` is the value of the
uninitialised pointer `data_buf`; `ws` as in `ScsiToNvme`.  `scsi_sg_copy_to_buffer` and `sg_copy_from_buffer` copy as
many bytes as were asked for, but not more than the list holds. -/
def scsi_queuecommand (K : Kernel) (junk : World → Nat → Byte) (D : Device σ) (s : σ) (ws : Arr3 NvmeCmdWrapper)
    (uninit : U64) (cmd : ScsiCmnd) : M (Outcome × σ) := do
  let data_len : U16 := BitVec.ofNat 16 cmd.sg.length
  let engine := fun data_buf =>
    ScsiToNvme (env K junk) D s ws cmd.cmnd cmd.cmd_len cmd.lun cmd.sense_buffer SCSI_SENSE_BUFFERSIZE data_buf data_len
      cmd.is_data_in
  if data_len = 0 then do
    let (resp, s) ← engine uninit.toNat
    pure (⟨resp.return_code, none, cmd.sg⟩, s)
  else do
    let data_buf ← kzalloc K data_len.toNat
    if data_buf = 0 then pure (⟨23, none, cmd.sg⟩, s)
    else if cmd.is_data_in then do
      let (resp, s) ← engine data_buf
      let sdb_len := min resp.alloc_len cmd.sg.length
      let bs ← load data_buf sdb_len
      kfree K data_buf data_len.toNat
      pure (⟨resp.return_code, some ((data_len.toNat : Int) - sdb_len), bs ++ cmd.sg.drop sdb_len⟩, s)
    else do
      store data_buf (cmd.sg.take data_len.toNat)
      let (resp, s) ← engine data_buf
      kfree K data_buf data_len.toNat
      pure (⟨resp.return_code, none, cmd.sg⟩, s)

end Scsi2Nvme.Module
