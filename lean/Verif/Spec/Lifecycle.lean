import Verif.Model.Lifecycle
/-!
# Specification: load and unload histories of the kernel module
-/

namespace Scsi2Nvme.Spec.Life
open Lifecycle

/-- What is held after the given log (latest entry first); `none` if something was released that was not held. -/
def held : List Ev → Option (List Res)
  | [] => some []
  | .acq r :: log => (held log).map (r :: ·)
  | .rel r :: log => (held log).bind fun l => if r ∈ l then some (l.erase r) else none

/-- What a user may do with the device through sysfs while the module is loaded. -/
inductive Act where
  /-- release the device from the driver -/
  | unbind
  /-- bind it again; the kernel functions answer as given -/
  | bind (A : Answers)

/-- Perform one of them. -/
def act (s : Sys) : Act → Sys
  | .unbind => kernelUnbind s
  | .bind A => kernelBind A s

/-- One life of the module: how the kernel answers while it is loaded, and what is done before it is unloaded. -/
structure Life where
  answers : Answers
  acts : List Act

/-- The module while it is loaded, after the acts; only if loading succeeds. -/
def loaded (log : List Ev) (x : Life) : Option Sys :=
  let r := scsi_mock_init x.answers log
  if r.1 = 0 then some (x.acts.foldl act r.2) else none

/-- The log after one life. -/
def life (log : List Ev) (x : Life) : List Ev :=
  match loaded log x with
  | some s => (scsi_mock_exit s).log
  | none => (scsi_mock_init x.answers log).2.log

/-- The log after several lives. -/
def lives (log : List Ev) (xs : List Life) : List Ev := xs.foldl life log

/-- Did loading reach the registration of the device, and did that fail? -/
def deviceRefused (A : Answers) : Bool := A.root && A.bus == 0 && A.driver == 0 && A.device != 0

/-- Does loading succeed? -/
def loads (A : Answers) : Bool := A.root && A.bus == 0 && A.driver == 0 && A.device == 0

/-- What one life of the module leaves behind. -/
def leaves (x : Life) : List Res :=
  (if deviceRefused x.answers then [.deviceRef] else []) ++ (if x.answers.openDev then [.blockDevice] else [])

end Scsi2Nvme.Spec.Life
