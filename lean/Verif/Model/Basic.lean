/-!
# Machine values, memory, the effect monad

Basis of the model of googleinterns/scsi2nvme.  Machine integers are `BitVec`s, memory is a partial
map from addresses to bytes, undefined behaviour is a distinct outcome.  Definitions here which say "Foundation" are the vocabulary
of C++ itself, used by every file of lib/translator; the places cited are examples.
-/

namespace Scsi2Nvme

/-- `uint8_t` (Foundation; e.g. lib/translator/common.h:134) -/
abbrev Byte := BitVec 8
/-- `uint16_t` (Foundation; e.g. lib/translator/common.h:93) -/
abbrev U16 := BitVec 16
/-- `uint32_t` (Foundation; e.g. lib/translator/common.h:65) -/
abbrev U32 := BitVec 32
/-- `uint64_t` (Foundation; e.g. lib/translator/common.h:82) -/
abbrev U64 := BitVec 64

/-- The memory of the process.  `none`: the byte is not accessible (unmapped, freed or foreign);
touching it is undefined behaviour.  Addresses are natural numbers (`uintptr_t` values).
Foundation; what `Span::data()` points into: lib/translator/common.h:105-130. -/
abbrev Mem := Nat → Option Byte

/-- The ways a C++ execution leaves the defined behaviour.  Foundation; where they can happen is cited at each use. -/
inductive UB where
  /-- access to an inaccessible byte (out of bounds or null dereference), e.g. lib/translator/common.h:137, 146 -/
  | badAccess
  /-- index outside of one of the fixed size member arrays (`nvme_wrappers_[kMaxCommandRatio]`, translation.h:68-69) -/
  | arrayIndex
  /-- `cpl_data[i]` with `i` outside of the completion span: translation.cc:207, 234, 239 -/
  | cplIndex
  /-- shift of an `int` by 32 or more: mode_sense.cc:251, 259, read_capacity_10.cc:93 -/
  | shift
  /-- flowing off the end of a function returning a value -/
  | missingReturn
deriving DecidableEq, Repr

/-- Calls made to the allocation callbacks, recorded as a ghost trace (most recent first): the callbacks
of lib/translator/common.cc:29-31. -/
inductive Event where
  /-- `alloc_pages_callback(page_size, count)` returned `ret` -/
  | alloc (pageSize : U32) (count : U16) (ret : U64)
  /-- `dealloc_pages_callback(addr, count)` was called -/
  | dealloc (addr : U64) (count : U16)
deriving DecidableEq, Repr

/-- Everything outside of the translation object: memory, and the ghost trace of callback calls.
Foundation: the state besides the members of `Translation` (translation.h:65-69). -/
structure World where
  mem : Mem
  trace : List Event

/-- The environment the library is linked to.  Both callbacks may be unset (`nullptr`); they may depend
on everything that happened before (`World` contains the trace).  `junk w i` is the `i`-th byte of
indeterminate stack memory seen in world `w`.

Models the function pointers of lib/translator/common.cc:29-31. -/
structure Env where
  allocCb : Option (World → U32 → U16 → U64 × Mem)
  deallocCb : Option (World → U64 → U16 → Mem)
  junk : World → Nat → Byte

/-- State-and-undefined-behaviour monad: a computation either finishes with a value and a new world
or is undefined.  Foundation: the meaning of every function of lib/translator. -/
abbrev M (α : Type) : Type := World → Except UB (α × World)

namespace M

/-- Return without effect (Foundation). -/
protected def pure (a : α) : M α := fun w => .ok (a, w)

/-- Sequencing; undefined behaviour is absorbing (Foundation). -/
protected def bind (x : M α) (f : α → M β) : M β := fun w =>
  match x w with
  | .error e => .error e
  | .ok (a, w') => f a w'

/-- Statements one after the other (Foundation). -/
instance : Monad M where
  pure := M.pure
  bind := M.bind

/-- Undefined behaviour (Foundation). -/
def ub (e : UB) : M α := fun _ => .error e

/-- Read the current world (Foundation). -/
def get : M World := fun w => .ok (w, w)

end M

/-! ## Bytes and numbers -/

/-- Value of a byte string, least significant byte first: an integer object read from memory (Foundation;
e.g. the `memcpy` of lib/translator/common.h:137). -/
def leNat : List Byte → Nat
  | [] => 0
  | b :: bs => b.toNat + 256 * leNat bs

/-- The `k` least significant bytes of `n`, least significant first: an integer object in memory (Foundation;
e.g. the `memcpy` of lib/translator/common.h:146). -/
def leBytes : Nat → Nat → List Byte
  | 0, _ => []
  | k + 1, n => BitVec.ofNat 8 n :: leBytes k (n / 256)

/-! ## Memory accesses -/

/-- `n` bytes starting at `p`, if all of them are accessible (Foundation). -/
def Mem.read (m : Mem) (p n : Nat) : Option (List Byte) :=
  (List.range n).mapM (fun i => m (p + i))

/-- All `n` bytes starting at `p` are accessible (Foundation). -/
def Mem.mapped (m : Mem) (p n : Nat) : Bool :=
  (List.range n).all (fun i => (m (p + i)).isSome)

/-- Memory with the bytes `bs` placed at `p` (Foundation). -/
def Mem.put (m : Mem) (p : Nat) (bs : List Byte) : Mem := fun a =>
  if p ≤ a ∧ a < p + bs.length then bs[a - p]? else m a

/-- Load `n` bytes (the source side of a `memcpy`, or the reads through a `T*`):
lib/translator/common.h:137, 166-179. -/
def load (p n : Nat) : M (List Byte) := fun w =>
  match w.mem.read p n with
  | some bs => .ok (bs, w)
  | none => .error .badAccess

/-- Store bytes (the destination side of a `memcpy`, or the writes through a `T*`):
lib/translator/common.h:146, 181-195. -/
def store (p : Nat) (bs : List Byte) : M Unit := fun w =>
  if w.mem.mapped p bs.length then .ok ((), { w with mem := w.mem.put p bs })
  else .error .badAccess

/-! ## Fixed size arrays -/

/-- `T a[kMaxCommandRatio]`, `kMaxCommandRatio = 3`: lib/translator/common.h:33, translation.h:68-69. -/
structure Arr3 (α : Type) where
  e0 : α
  e1 : α
  e2 : α
deriving DecidableEq, Repr

/-- lib/translator/common.h:33 -/
def kMaxCommandRatio : Nat := 3

/-- Array read; `none` outside of the bounds: translation.h:68-69. -/
def Arr3.get? (a : Arr3 α) : Nat → Option α
  | 0 => some a.e0
  | 1 => some a.e1
  | 2 => some a.e2
  | _ => none

/-- Array write; `none` outside of the bounds: translation.h:68-69. -/
def Arr3.set? (a : Arr3 α) (i : Nat) (x : α) : Option (Arr3 α) :=
  match i with
  | 0 => some { a with e0 := x }
  | 1 => some { a with e1 := x }
  | 2 => some { a with e2 := x }
  | _ => none

/-- The elements in order: translation.h:68-69. -/
def Arr3.toList (a : Arr3 α) : List α := [a.e0, a.e1, a.e2]

end Scsi2Nvme
