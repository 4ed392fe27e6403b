import Verif.Model.Concurrent
import Verif.Spec.Target
/-!
# Specification: calls of the engine made concurrently

Any number of calls, named by `ι`, share the device, the memory and the page allocator.  A schedule says whose turn it is.
-/

namespace Scsi2Nvme.Spec
open Scsi2Nvme Engine

/-- The arguments of the call for a request. -/
def Request.args (q : Request) : Args :=
  ⟨q.ws, q.ptr, BitVec.ofNat 16 q.cdb.length, q.lun, q.sense, q.senseLen, q.data, q.dataLen, q.isIn⟩

/-- The whole system: the device, memory and allocator, and where each call is. -/
structure Sys (ι σ : Type) where
  dev : σ
  world : World
  phase : ι → Phase

/-- No call has begun. -/
def Sys.start {ι σ : Type} (s : σ) (m : Mem) (tr : List Event) : Sys ι σ := ⟨s, ⟨m, tr⟩, fun _ => .called⟩

/-- The call `i` makes a step. -/
def Sys.step {ι σ : Type} [DecidableEq ι] (E : Env) (D : Device σ) (q : ι → Request) (y : Sys ι σ) (i : ι) : Except UB (Sys ι σ) :=
  match advance E D (q i).args y.dev (y.phase i) y.world with
  | .error e => .error e
  | .ok ((ph, s), w) => .ok ⟨s, w, fun j => if j = i then ph else y.phase j⟩

/-- The calls make steps according to a schedule. -/
def Sys.run {ι σ : Type} [DecidableEq ι] (E : Env) (D : Device σ) (q : ι → Request) (y : Sys ι σ) : List ι → Except UB (Sys ι σ)
  | [] => .ok y
  | i :: is =>
    match y.step E D q i with
    | .error e => .error e
    | .ok y' => y'.run E D q is

/-- The memory handed over with a request: command block, sense buffer, data buffer. -/
def Request.uses (q : Request) (a : Nat) : Prop :=
  inRange q.ptr q.cdb.length a ∨ inRange q.sense q.senseLen.toNat a ∨ inRange q.data q.dataLen.toNat a

/-- The calls: all in the same memory, each as for histories, any two with different memory. -/
structure Separate {ι : Type} (q : ι → Request) (m : Mem) : Prop where
  mem : ∀ i, (q i).mem = m
  fair : ∀ i, (q i).Fair
  sound : ∀ i, (q i).Sound
  apart : ∀ i j, i ≠ j → ∀ a, (q i).uses a → ¬ (q j).uses a

/-- The calls of `order`, executed one after the other in this order, answered by `resp`, change the disks from `d` to `d'`,
each as the user of an array of disks expects (`TreatedAll`: a correct READ is answered with GOOD and the contents of the
disks at that time is in its data buffer; a correct WRITE is answered with GOOD and replaces the blocks; any other command
leaves the disks alone). -/
def Sequential {ι : Type} (cap : Nat → Nat) (q : ι → Request) (resp : ι → ScsiToNvmeResponse) (m : Mem) (d : Disk) (order : List ι)
    (d' : Disk) : Prop :=
  TreatedAll cap d (order.map q) (order.map fun i => (resp i, m)) d'

/-- `order` contains, once each, all calls which returned, and no call which has not begun; `resp` is what was returned. -/
structure Covers {ι σ : Type} (y : Sys ι σ) (order : List ι) (resp : ι → ScsiToNvmeResponse) : Prop where
  once : order.Nodup
  begun : ∀ i ∈ order, y.phase i ≠ .called
  returned : ∀ i r, y.phase i = .returned r → i ∈ order ∧ resp i = r

end Scsi2Nvme.Spec
