import Verif.Model.Request
import Verif.Spec.Engine
/-!
# Specification: what the driver tells the block layer, and what it hears
-/

namespace Scsi2Nvme.Spec
open Scsi2Nvme Engine Driver

/-- The block layer as `Model/Driver.lean` has it: the status in `struct nvme_request` is forgotten. -/
def forget {β : Type} (L : RequestLayer β) : BlockLayer β where
  adminQueue := L.adminQueue
  ioQueue := L.ioQueue
  disk := L.disk
  allocRequest := fun b sub => L.allocRequest b (if nvme_is_write sub.cmd then .drvOut else .drvIn)
  mapKern := L.mapKern
  freeRequest := L.freeRequest
  execute := fun b m sub =>
    let x := L.execute b m sub ⟨if nvme_is_write sub.cmd then .drvOut else .drvIn, 60,
      if sub.buffer ≠ 0 ∧ sub.bufflen ≠ 0 then some (sub.buffer, sub.bufflen) else none⟩ {}
    (x.blk, x.mem, x.special)

/-- The block layer writes where `special` points a completion which is successful exactly if the status it reports is 0. -/
def Echoing {β : Type} (L : RequestLayer β) : Prop :=
  ∀ b m sub rq c, let x := L.execute b m sub rq c
    (x.special.sct.toNat = 0 ∧ x.special.sc.toNat = 0) ↔ x.status = 0

/-- The block layer writes nothing where `special` points: it reports in `struct nvme_request` only. -/
def Mute {β : Type} (L : RequestLayer β) : Prop := ∀ b m sub rq c, (L.execute b m sub rq c).special = c

/-- The requests executed during a call of the engine (latest first). -/
def duringCall {β : Type} (x : Served (FullState β)) (es : List Execution) : Prop := x.s'.done = es ++ x.s.done

/-- Bits 1:0 of an NVMe opcode say which way data is transferred: 00b none, 01b host to controller, 10b controller to host, 11b both. -/
def transferBits (cmd : List Byte) : Nat := byte cmd 0 % 4

end Scsi2Nvme.Spec
