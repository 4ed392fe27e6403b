import Verif.Model.Driver
import Verif.Spec.Engine
/-!
# Specification: the driver below the engine
-/

namespace Scsi2Nvme.Spec
open Scsi2Nvme Engine Driver

/-- The driver can give the submission to the hardware: its queue exists, a request can be had, and if there is a
data buffer, it can be mapped and the disk exists. -/
def reaches {β : Type} (B : BlockLayer β) (b : β) (sub : Submission) : Prop :=
  (if sub.is_admin then B.adminQueue else B.ioQueue) = true ∧
  ∃ b1, B.allocRequest b sub = .ok b1 ∧
    (sub.buffer ≠ 0 → sub.bufflen ≠ 0 → (B.mapKern b1 sub.buffer sub.bufflen).1 = 0 ∧ B.disk = true)

/-- The submissions the hardware executed among the events `evs` (latest first), in the order of execution. -/
def executed (evs : List ReqEvent) : List Submission :=
  evs.reverse.filterMap fun e =>
    match e with
    | .ran sub => some sub
    | _ => none

/-- Requests obtained from the block layer and not given back, counted over the events (latest first); `none` if one
is given back that was not obtained, or if a command is executed without a request. -/
def requestsOut : List ReqEvent → Option Nat
  | [] => some 0
  | .got :: evs => (requestsOut evs).map (· + 1)
  | .ran _ :: evs => (requestsOut evs).bind fun n => if n = 0 then none else some n
  | .freed :: evs => (requestsOut evs).bind fun n => if n = 0 then none else some (n - 1)

/-- Nothing can go wrong in the block layer. -/
structure Reliable {β : Type} (B : BlockLayer β) : Prop where
  adminQueue : B.adminQueue = true
  ioQueue : B.ioQueue = true
  disk : B.disk = true
  request : ∀ b sub, ∃ b', B.allocRequest b sub = .ok b'
  mapping : ∀ b a n, (B.mapKern b a n).1 = 0

end Scsi2Nvme.Spec
