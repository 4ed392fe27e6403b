import Verif.Model.Translation
/-!
# A concrete environment for the examples

Memory: a command block at `0x100`, 32 KiB of zeroes at `0x8000` (data buffers), 64 bytes at `0x400`
(sense).  The allocator hands out fresh zeroed pages from `0x100000` upwards.
-/

namespace Scsi2Nvme.Demo
open Scsi2Nvme

/-- Memory holding the command block `cdb` and the data `data`. -/
def mem (cdb : List Byte) (data : List Byte := []) : Mem := fun a =>
  if a < 0x100 then none
  else if a < 0x100 + cdb.length then cdb[a - 0x100]?
  else if a < 0x400 then none
  else if a < 0x440 then some 0
  else if a < 0x8000 then none
  else if a < 0x8000 + data.length then data[a - 0x8000]?
  else if a < 0x10000 then some 0
  else none

/-- Number of allocator calls in a trace. -/
def allocs : List Event → Nat
  | [] => 0
  | .alloc _ _ _ :: tr => allocs tr + 1
  | .dealloc _ _ :: tr => allocs tr

/-- A bump allocator answering 0 to empty requests; freed pages become inaccessible. -/
def env : Env where
  allocCb := some fun w ps n =>
    if n = 0 then (0, w.mem)
    else
      let a := 0x100000 + 0x10000 * allocs w.trace
      (BitVec.ofNat 64 a, fun x => if a ≤ x ∧ x < a + ps.toNat * n.toNat then some 0 else w.mem x)
  deallocCb := some fun w a n =>
    fun x => if a.toNat ≤ x ∧ x < a.toNat + 4096 * n.toNat then none else w.mem x
  junk := fun _ i => BitVec.ofNat 8 (0xa5 + i)

/-- Uninitialised wrappers of a fresh object. -/
def ws : Arr3 NvmeCmdWrapper :=
  let x : NvmeCmdWrapper := ⟨{ opc := 0xaa, nsid := 7 }, 0xdeadbeef, false⟩
  ⟨x, x, x⟩

/-- Other contents of uninitialised wrappers. -/
def ws' : Arr3 NvmeCmdWrapper :=
  let x : NvmeCmdWrapper := ⟨{ opc := 0x01, nsid := 1, cdw_0 := 77 }, 0x1000, true⟩
  ⟨x, x, x⟩

/-- A completion with the given status. -/
def cpl (sct : BitVec 3) (sc : Byte) : Nvme.GenericQueueEntryCpl := { sct := sct, sc := sc }

/-- The command block span. -/
def cdbSpan (cdb : List Byte) : Span := ⟨0x100, cdb.length⟩

/-- READ(10) of block 5, two blocks, FUA. -/
def read10 : List Byte := [0x28, 0x08, 0, 0, 0, 5, 0, 0, 2, 0]
/-- Standard INQUIRY, allocation length 96. -/
def inquiry : List Byte := [0x12, 0, 0, 0, 96, 0]
/-- Data buffer of two blocks. -/
def data : Span := ⟨0x8000, 0x2000⟩
/-- Sense buffer. -/
def sense : Span := ⟨0x400, 32⟩

/-- Memory when `Complete` is called: like `mem`, and the pages at `0x100000` and `0x120000` (the first two data
pages the allocator hands out) begin with `p0` and `p1` and are zero otherwise. -/
def mem2 (cdb p0 p1 : List Byte) : Mem := fun a =>
  if a < 0x100000 then mem cdb [] a
  else if a < 0x101000 then some (p0.getD (a - 0x100000) 0)
  else if a < 0x120000 then none
  else if a < 0x121000 then some (p1.getD (a - 0x120000) 0)
  else none

end Scsi2Nvme.Demo
