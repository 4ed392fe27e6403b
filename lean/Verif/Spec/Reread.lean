import Verif.Spec.Complete
/-!
# Specification: the command block between `Begin` and `Complete`
-/

namespace Scsi2Nvme.Spec
open Scsi2Nvme

/-- Memory `m` and memory `m'` differ at most in the contents of the command block of the run: the caller has
used those bytes for something else after `Begin` returned. -/
structure Reused (x : Ran) (m' : Mem) : Prop where
  /-- the same addresses are accessible -/
  accessible : ∀ a, (m' a).isSome = (x.w2.mem a).isSome
  /-- all else is the same -/
  outside : ∀ a, ¬ inRange x.ptr x.cdb.length a → m' a = x.w2.mem a
  /-- so are the undefined contents of the stack -/
  junk : x.E.junk ⟨m', x.w2.trace⟩ = x.E.junk x.w2

/-- `Complete`, called with memory `m'` instead, does the same: it returns the same response, leaves the object in
the same state and makes the same callback calls, and memory is the same afterwards, apart from the command block
itself and the pages handed back to the allocator. -/
def SameCompletion (x : Ran) (m' : Mem) : Prop :=
  ∃ w', x.t1.Complete x.E x.cpl x.din x.sense ⟨m', x.w2.trace⟩ = .ok ((x.c, x.t2), w') ∧
    w'.trace = x.w3.trace ∧
    ∃ evs, x.w3.trace = evs ++ x.w2.trace ∧
      ∀ a, ¬ inRange x.ptr x.cdb.length a →
        (∀ q n, Event.dealloc q n ∈ evs → ¬ inRange q.toNat (4096 * n.toNat) a) → w'.mem a = x.w3.mem a

/-- The operation codes for which nothing has to be written when the command has been executed: READ and WRITE
(6, 10, 12, 16), TEST UNIT READY, VERIFY(10), SYNCHRONIZE CACHE(10), UNMAP. -/
def silentCodes : List Nat := [0x08, 0x28, 0xa8, 0x88, 0x0a, 0x2a, 0xaa, 0x8a, 0x00, 0x2f, 0x35, 0x42]

end Scsi2Nvme.Spec
