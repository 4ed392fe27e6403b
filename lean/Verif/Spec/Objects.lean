import Verif.Spec.History
/-!
# Specification: reachable objects, well-behaved allocators
-/

namespace Scsi2Nvme.Spec
open Scsi2Nvme

/-- `t` is a `Translation` object after some history of API calls which the protocol automaton ends in
state `s`: any environment, any initial contents of the uninitialised member array, any calls, any memory
changes in between. -/
def Reached (t : Translation) (s : Proto) : Prop :=
  ∃ (E : Env) (ws : Arr3 NvmeCmdWrapper) (tr tr' : List Event) (steps : List Step) (os : List Obs),
    run E (Translation.init ws) tr steps = .ok (os, t, tr') ∧ Conforms none os s

/-- A `Translation` object with no pending command, whatever it did before. -/
def IdleObject (t : Translation) : Prop := Reached t none

/-- Addresses of the range of `n` bytes at `a`. -/
def inRange (a n x : Nat) : Prop := a ≤ x ∧ x < a + n

/-- What the allocation callbacks are documented to do, for pages of 4096 bytes (the only size the library asks for): a
request is answered with 0 and no effect, or with
the address of memory which was not accessible before, becomes accessible and does not wrap around the
address space; everything else stays unchanged.  Handing back pages affects at most these pages. -/
structure GoodAllocator (E : Env) : Prop where
  alloc : ∀ f, E.allocCb = some f → ∀ w (n : U16),
    ((f w 4096 n).1 = 0 ∧ (f w 4096 n).2 = w.mem) ∨
    ((f w 4096 n).1 ≠ 0 ∧ (f w 4096 n).1.toNat + 4096 * n.toNat ≤ 2 ^ 64 ∧
      (∀ x, inRange (f w 4096 n).1.toNat (4096 * n.toNat) x →
        w.mem x = none ∧ ((f w 4096 n).2 x).isSome) ∧
      ∀ x, ¬ inRange (f w 4096 n).1.toNat (4096 * n.toNat) x → (f w 4096 n).2 x = w.mem x)
  dealloc : ∀ f, E.deallocCb = some f → ∀ w (a : U64) (n : U16) x,
    ¬ inRange a.toNat (4096 * n.toNat) x → f w a n x = w.mem x

/-- Every byte of a span is accessible. -/
def accessible (m : Mem) (s : Span) : Prop := ∀ i, i < s.len → (m (s.ptr + i)).isSome

end Scsi2Nvme.Spec
