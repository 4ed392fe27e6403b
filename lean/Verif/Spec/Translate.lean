import Verif.Spec.Objects
import Verif.Spec.Wire
/-!
# Specification: one translated command

The situation of a user translating one SCSI command: an idle object (whatever it processed before), a
command block in memory, one call of `Begin`.
-/

namespace Scsi2Nvme.Spec
open Scsi2Nvme

/-- In world `w`, `Begin` was called on the idle object `t` with the command block `cdb` stored at `ptr`, the
data buffer `buf` and the LUN `lun`; it returned `r` and left the object `t'` and the world `w'`.  (`Begin`
always returns: C07.) -/
structure Began (E : Env) (t : Translation) (w : World) (ptr : Nat) (cdb : List Byte) (buf : Span) (lun : U64)
    (r : BeginResponse) (t' : Translation) (w' : World) : Prop where
  /-- the object has no pending command -/
  idle : IdleObject t
  /-- the command block is in memory -/
  stored : w.mem.read ptr cdb.length = some cdb
  /-- the call -/
  call : t.Begin E ⟨ptr, cdb.length⟩ buf lun w = .ok ((r, t'), w')

/-- `Begin` could translate the command.  `BeginResponse` does not tell; the user sees it when the command is
completed: see C14 (`Complete` with successful completions returns GOOD exactly for accepted commands) and
C11 (a rejected command is answered with CHECK CONDITION). -/
def Accepted (t : Translation) : Prop := t.pipeline_status = .kSuccess

instance (t : Translation) : Decidable (Accepted t) := by unfold Accepted; infer_instance

/-- The namespace id of a LUN: the 32-bit number `lun + 1`. -/
def nsidOfLun (lun : U64) : Nat := (lun.toNat + 1) % 2 ^ 32

/-- The 64-bit address of a buffer as it goes into a command. -/
def prpOf (buf : Span) : Nat := buf.ptr % 2 ^ 64

/-- A successful completion of an NVMe command: status code type 0 and status code 0. -/
def cplOk (c : Nvme.GenericQueueEntryCpl) : Prop := c.sct.toNat = 0 ∧ c.sc.toNat = 0

instance (c : Nvme.GenericQueueEntryCpl) : Decidable (cplOk c) := by unfold cplOk; infer_instance

/-- Some request for pages was answered with 0 among the allocator calls `evs`. -/
def pageRefused (evs : List Event) : Prop := ∃ ps n, n ≠ 0 ∧ Event.alloc ps n 0 ∈ evs

/-- Pages could be had: there is an allocation callback, and it refused no request among the calls `evs`. -/
def pagesGranted (E : Env) (evs : List Event) : Prop := E.allocCb ≠ none ∧ ¬ pageRefused evs

/-- The answers the allocator gave to the requests for at least one page among its calls `evs` (latest first), in
the order of the calls; 0 stands for a refusal. -/
def pageAnswers (evs : List Event) : List Nat :=
  evs.reverse.filterMap fun e =>
    match e with
    | .alloc _ n a => if n = 0 then none else some a.toNat
    | .dealloc _ _ => none

/-- The Get Features select value the translator uses for a MODE SENSE page control value: current 0 to
current 0, changeable 1 to saved 2, default 2 to default 1. -/
def selectFor (pc : Nat) : Nat := if pc = 1 then 2 else if pc = 2 then 1 else 0

/-- The mode pages the translator supports: caching 08h, control 0Ah, power condition 1Ah, all 3Fh. -/
def modePages : List Nat := [0x08, 0x0a, 0x1a, 0x3f]

/-- Is the caching page among the pages asked for? -/
def asksCaching (page : Nat) : Prop := page = 0x08 ∨ page = 0x3f

instance (n : Nat) : Decidable (asksCaching n) := by unfold asksCaching; infer_instance

/-- What MODE SENSE(6) checks of its command block: at least six bytes, a supported page, and not the saved
values of the caching page. -/
def modeFieldsOk (cdb : List Byte) : Prop :=
  6 ≤ cdb.length ∧ byte cdb 2 % 64 ∈ modePages ∧ (asksCaching (byte cdb 2 % 64) → byte cdb 2 / 64 ≠ 3)

instance (cdb : List Byte) : Decidable (modeFieldsOk cdb) := by unfold modeFieldsOk; infer_instance

/-- The Get Features (volatile write cache) command MODE SENSE hands out if the caching page is asked for, with
its queue flag. -/
def cachingCmds (nsid : Nat) (cdb : List Byte) : List (List Byte × Bool) :=
  if asksCaching (byte cdb 2 % 64) then [(getFeaturesSqe nsid 6 (selectFor (byte cdb 2 / 64)), true)] else []

/-- The queue an NVMe opcode belongs to, for the commands the translator uses: Identify (06h) and Get Features
(0Ah) are admin commands, Flush, Write, Read, Compare, Dataset Management are I/O commands. -/
def isAdminOpcode (opcode : Nat) : Prop := opcode = 0x06 ∨ opcode = 0x0a

/-- Does the command (64 bytes) address a namespace?  All do except Identify with CNS (byte 40) other than 0:
Identify Controller and the active namespace list. -/
def addressesNamespace (cmd : List Byte) : Prop := ¬ (byte cmd 0 = 0x06 ∧ byte cmd 40 ≠ 0)

/-- Does the NVMe command modify data on the medium?  Write (01h) and Dataset Management (09h) do. -/
def modifiesData (cmd : List Byte) : Prop := byte cmd 0 = 0x01 ∨ byte cmd 0 = 0x09

/-- The allocation length a command block announces: what the initiator expects at most in return. -/
def allocLenOf (cdb : List Byte) : Nat :=
  if byte cdb 0 = 0x12 then beAt cdb 3 2
  else if byte cdb 0 = 0x5a then beAt cdb 7 2
  else if byte cdb 0 = 0xa0 ∨ byte cdb 0 = 0xa3 then beAt cdb 6 4
  else if byte cdb 0 = 0x03 ∨ byte cdb 0 = 0x1a then byte cdb 4
  else if byte cdb 0 = 0x25 then 8
  else if isRead (byte cdb 0) then
    match decodeRw cdb with
    | some rw => rw.blocks * 4096
    | none => 0
  else 0

end Scsi2Nvme.Spec
