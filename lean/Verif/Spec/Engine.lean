import Verif.Model.Engine
import Verif.Spec.Complete
/-!
# Specification: one SCSI command through the engine
-/

namespace Scsi2Nvme.Spec
open Scsi2Nvme Engine

/-- One call of `ScsiToNvme` which returned. -/
structure Served (σ : Type) where
  /-- the allocator callbacks and the stack contents -/
  E : Env
  /-- the driver and the device -/
  D : Device σ
  /-- the state of the device before -/
  s : σ
  /-- what the memory of the local translation object holds before -/
  ws : Arr3 NvmeCmdWrapper
  /-- the world before -/
  w : World
  /-- where the command block is -/
  ptr : Nat
  /-- the command block -/
  cdb : List Byte
  /-- the LUN -/
  lun : U64
  /-- the sense buffer -/
  sense : Nat
  senseLen : U16
  /-- the data buffer -/
  data : Nat
  dataLen : U16
  /-- the direction of the data transfer -/
  isIn : Bool
  /-- what was returned -/
  resp : ScsiToNvmeResponse
  /-- the state of the device after -/
  s' : σ
  /-- the world after -/
  w' : World
  /-- the command block is in memory; its length is an `unsigned short` -/
  stored : w.mem.read ptr cdb.length = some cdb
  short : cdb.length < 65536
  /-- the call -/
  call : ScsiToNvme E D s ws ptr (BitVec.ofNat 16 cdb.length) lun sense senseLen data dataLen isIn w
    = .ok ((resp, s'), w')

/-- The data buffer. -/
def Served.buf {σ : Type} (x : Served σ) : Span := ⟨x.data, x.dataLen.toNat⟩

/-- The device is given the submissions one after the other, each once, and answers with the completions;
its state and the memory change from `s`, `m` to `s'`, `m'`. -/
inductive Dialog {σ : Type} (D : Device σ) : σ → Mem → List Submission → List Nvme.GenericQueueEntryCpl → σ → Mem → Prop
  | nil {s m} : Dialog D s m [] [] s m
  | cons {s m sub subs cs s' m'} (h : Dialog D (D s m sub).1 (D s m sub).2.1 subs cs s' m') :
    Dialog D s m (sub :: subs) ((D s m sub).2.2 :: cs) s' m'

end Scsi2Nvme.Spec
