import Verif.Spec.History
/-!
# Specification: several `Translation` objects used in turn

Any number of objects, named by `ι`, is used in an arbitrary interleaving of API calls.  They share the memory and
the page callbacks; the callbacks may be replaced by others between two calls (`SetAllocPageCallbacks`).
-/

namespace Scsi2Nvme.Spec
open Scsi2Nvme

/-- One call in an interleaving: the object it is made on, the callbacks registered and the memory at that time. -/
structure Move (ι : Type) where
  who : ι
  env : Env
  mem : Mem
  call : Call

/-- Replace the object named `i`. -/
def put [DecidableEq ι] (objs : ι → Translation) (i : ι) (t : Translation) : ι → Translation :=
  fun j => if j = i then t else objs j

/-- Execute an interleaving.  The result is what was observed (with the name of the object), the objects afterwards
and the list of all allocator calls. -/
def runMany [DecidableEq ι] (objs : ι → Translation) (tr : List Event) :
    List (Move ι) → Except UB (List (ι × Obs) × (ι → Translation) × List Event)
  | [] => .ok ([], objs, tr)
  | m :: ms =>
    match m.call.exec m.env (objs m.who) ⟨m.mem, tr⟩ with
    | .error e => .error e
    | .ok ((r, t'), w) =>
      match runMany (put objs m.who t') w.trace ms with
      | .error e => .error e
      | .ok (os, objs', tr') => .ok ((m.who, ⟨m.call, r, t'.GetNvmeWrappers⟩) :: os, objs', tr')

/-- What was observed on one of the objects, in order. -/
def ofObject [DecidableEq ι] (i : ι) (os : List (ι × Obs)) : List Obs :=
  os.filterMap fun o => if o.1 = i then some o.2 else none

end Scsi2Nvme.Spec
