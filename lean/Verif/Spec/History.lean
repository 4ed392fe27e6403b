import Verif.Model.Translation
/-!
# Specification: histories of API calls

A history is a list of calls on one `Translation` object.  Between two calls the rest of the program and
the device may change the memory in any way, so each step carries the memory the call starts with.
-/

namespace Scsi2Nvme.Spec
open Scsi2Nvme

/-- One call of the public interface. -/
inductive Call where
  /-- `Begin(scsi_cmd, buffer_out, lun)` -/
  | begin (cdb buffer : Span) (lun : U64)
  /-- `Complete(cpl_data, buffer_in, sense_buffer)` -/
  | complete (cpl : List Nvme.GenericQueueEntryCpl) (bufferIn sense : Span)
  /-- `AbortPipeline()` -/
  | abort

/-- What a call returns. -/
inductive Ret where
  | begin (r : BeginResponse)
  | complete (r : CompleteResponse)
  | abort
deriving DecidableEq

/-- A call and the memory it starts with. -/
structure Step where
  mem : Mem
  call : Call

/-- What the user sees of a call: the call, its result, and `GetNvmeWrappers()` after it. -/
structure Obs where
  call : Call
  ret : Ret
  cmds : List NvmeCmdWrapper

/-- Execute one call. -/
def Call.exec (E : Env) (t : Translation) : Call → M (Ret × Translation)
  | .begin cdb buffer lun => do
    let (r, t) ← t.Begin E cdb buffer lun
    pure (.begin r, t)
  | .complete cpl bufferIn sense => do
    let (r, t) ← t.Complete E cpl bufferIn sense
    pure (.complete r, t)
  | .abort => do
    let t ← t.AbortPipeline E
    pure (.abort, t)

/-- Execute a history.  `tr` is the list of allocator calls so far.  The result, if no call is undefined,
is what was observed, the final object and the final list of allocator calls.  (A history ending in an
undefined call has a defined longest proper prefix, to which the theorems apply.) -/
def run (E : Env) (t : Translation) (tr : List Event) :
    List Step → Except UB (List Obs × Translation × List Event)
  | [] => .ok ([], t, tr)
  | s :: ss =>
    match s.call.exec E t ⟨s.mem, tr⟩ with
    | .error e => .error e
    | .ok ((r, t'), w) =>
      match run E t' w.trace ss with
      | .error e => .error e
      | .ok (os, t'', tr'') => .ok (⟨s.call, r, t'.GetNvmeWrappers⟩ :: os, t'', tr'')

/-! ## The protocol automaton -/

/-- State of the protocol: `none` idle, `some cs` a command is pending whose NVMe commands are `cs`. -/
abbrev Proto := Option (List NvmeCmdWrapper)

/-- `allowed s o s'`: in state `s` the observation `o` is a correct one and leads to `s'`. -/
inductive allowed : Proto → Obs → Proto → Prop
  /-- `Begin` on an idle object is accepted as a call; at most three commands are to be executed. -/
  | begin {cdb buf lun al cs} (h : cs.length ≤ 3) :
    allowed none ⟨.begin cdb buf lun, .begin ⟨.kSuccess, al⟩, cs⟩ (some cs)
  /-- `Begin` while a command is pending is refused and changes nothing. -/
  | beginBusy {cdb buf lun cs} :
    allowed (some cs) ⟨.begin cdb buf lun, .begin ⟨.kFailure, 0⟩, cs⟩ (some cs)
  /-- `Complete` on an idle object is refused. -/
  | completeIdle {cpl b s} : allowed none ⟨.complete cpl b s, .complete ⟨.kFailure, 0⟩, []⟩ none
  /-- `Complete` with the right number of completions is accepted and makes the object idle. -/
  | complete {cs cpl b s st} (h : cpl.length = cs.length) :
    allowed (some cs) ⟨.complete cpl b s, .complete ⟨.kSuccess, st⟩, []⟩ none
  /-- `Complete` with a wrong number of completions is refused and makes the object idle. -/
  | completeMismatch {cs cpl b s} (h : cpl.length ≠ cs.length) :
    allowed (some cs) ⟨.complete cpl b s, .complete ⟨.kFailure, 0⟩, []⟩ none
  /-- `AbortPipeline` makes the object idle. -/
  | abort {s} : allowed s ⟨.abort, .abort, []⟩ none

/-- A list of observations is one the automaton allows, ending in a given state. -/
inductive Conforms : Proto → List Obs → Proto → Prop
  | nil {s} : Conforms s [] s
  | cons {s s' s'' o os} (h : allowed s o s') (t : Conforms s' os s'') : Conforms s (o :: os) s''

/-! ## Page accounting -/

/-- Page ranges obtained and not yet handed back after the allocator calls `tr` (most recent first), as a
list of (address, page count); `none` if something was handed back which was not outstanding. -/
def outstanding : List Event → Option (List (U64 × U16))
  | [] => some []
  | .alloc _ n a :: tr => (outstanding tr).map fun l => if a = 0 then l else (a, n) :: l
  | .dealloc a n :: tr => (outstanding tr).bind fun l => if (a, n) ∈ l then some (l.erase (a, n)) else none

end Scsi2Nvme.Spec
