import Verif.Spec.Reply
import Verif.Spec.Engine
/-!
# Specification: a whole call of the engine as a function of the command block and the device
-/

namespace Scsi2Nvme.Spec
open Scsi2Nvme Engine

/-- What the driver is given for a command handed out by `Begin`: the queue, the 64 bytes, the address in bytes 24-31 of
the command, and the length. -/
def submitted (h : Handed) : Submission :=
  { is_admin := h.admin, cmd := h.image, buffer := BitVec.ofNat 64 (leAt h.image 24 8), bufflen := BitVec.ofNat 32 h.len }

/-- The 4096 bytes the `i`-th command points to. -/
def pageAt (m : Mem) (cmds : List Handed) (i : Nat) : List Byte :=
  match cmds[i]? with
  | some c => (m.read (leAt c.image 24 8) 4096).getD []
  | none => []

/-- `sub` is submitted for one of the commands which `Begin` hands out for the command block at `ptr`. -/
def submits (E : Env) (ws : Arr3 NvmeCmdWrapper) (w : World) (ptr : Nat) (cdb : List Byte) (buf : Span) (lun : U64)
    (sub : Submission) : Prop :=
  ∃ r t1 w1, (Translation.init ws).Begin E ⟨ptr, cdb.length⟩ buf lun w = .ok ((r, t1), w1) ∧
    ∃ wr ∈ t1.GetNvmeWrappers, sub = submissionOf wr

/-- A device which, executing the submissions `P`, takes no memory away and does not write over the command block. -/
structure Polite {σ : Type} (D : Device σ) (ptr len : Nat) (P : Submission → Prop) : Prop where
  maps : ∀ sub, P sub → ∀ s m a, (m a).isSome → ((D s m sub).2.1 a).isSome
  spares : ∀ sub, P sub → ∀ s m a, inRange ptr len a → (D s m sub).2.1 a = m a

/-- At the end of the call the bytes `bs` are at address `p`, and the memory the caller could access before is otherwise
`m` (what the device left). -/
def Served.left {σ : Type} (x : Served σ) (m : Mem) (p : Nat) (bs : List Byte) : Prop :=
  ∀ a, (x.w.mem a).isSome → x.w'.mem a = m.put p bs a

/-- The call ended so, with `n` as the length announced. -/
def Served.ended {σ : Type} (x : Served σ) (m : Mem) (n : Nat) : Outcome → Prop
  | .apiFailure => False
  | .failed s bs => x.resp = ⟨s.status, n⟩ ∧ x.left m x.sense (whole x.senseLen.toNat bs)
  | .good data => x.resp = ⟨0, n⟩ ∧ x.left m (if x.isIn then x.data else 0) data

/-! ## Calls that do not return -/

/-- The arguments of a call of `ScsiToNvme`. -/
structure Issued (σ : Type) where
  E : Env
  D : Device σ
  s : σ
  ws : Arr3 NvmeCmdWrapper
  w : World
  ptr : Nat
  cdb : List Byte
  lun : U64
  sense : Nat
  senseLen : U16
  data : Nat
  dataLen : U16
  isIn : Bool
  stored : w.mem.read ptr cdb.length = some cdb
  short : cdb.length < 65536

namespace Issued

/-- The call. -/
def run {σ : Type} (x : Issued σ) : Except UB ((ScsiToNvmeResponse × σ) × World) :=
  ScsiToNvme x.E x.D x.s x.ws x.ptr (BitVec.ofNat 16 x.cdb.length) x.lun x.sense x.senseLen x.data x.dataLen x.isIn x.w

/-- The call returns: no undefined behaviour. -/
def returns {σ : Type} (x : Issued σ) : Prop := ∃ r, x.run = .ok r

/-- The buffers exist, the allocator and the device are well-behaved. -/
structure Ready {σ : Type} (x : Issued σ) : Prop where
  good : GoodAllocator x.E
  polite : Polite x.D x.ptr x.cdb.length (submits x.E x.ws x.w x.ptr x.cdb ⟨x.data, x.dataLen.toNat⟩ x.lun)
  data : accessible x.w.mem ⟨x.data, x.dataLen.toNat⟩
  sense : accessible x.w.mem ⟨x.sense, x.senseLen.toNat⟩

end Issued

/-- The commands whose completion has undefined behaviour, all NVMe commands being successful: MODE SENSE(6) for which
there is no NVMe command; MODE SENSE with room for a block descriptor and a block length of 2^32 or more; MODE SENSE(10)
with room for everything before the page. -/
def traps (cdb : List Byte) (cmds : List Handed) (len : Nat) (page0 : List Byte) : Prop :=
  (byte cdb 0 = 0x1a ∧ (cmds = [] ∨ (bit cdb 1 3 = false ∧ 4 ≤ len ∧ 32 ≤ lbads page0))) ∨
  (byte cdb 0 = 0x5a ∧ 8 ≤ len ∧
    (bit cdb 1 3 = true ∨ 32 ≤ lbads page0 ∨ 8 + (if bit cdb 1 4 then 16 else 8) ≤ len))

end Scsi2Nvme.Spec
