import Verif.Spec.Translate
/-!
# Specification: one command from `Begin` to `Complete`
-/

namespace Scsi2Nvme.Spec
open Scsi2Nvme

/-- One SCSI command on one `Translation` object, from `Begin` to `Complete`: `Begin` is called on an idle object
(whatever it processed before); then the caller, the device and the rest of the program do anything to the
memory, except that the command block stays where it is; then `Complete` is called. -/
structure Ran where
  /-- the allocator callbacks and the stack contents -/
  E : Env
  /-- the object before -/
  t : Translation
  /-- the world when `Begin` is called -/
  w : World
  /-- where the command block is -/
  ptr : Nat
  /-- the command block -/
  cdb : List Byte
  /-- the data buffer given to `Begin` -/
  buf : Span
  /-- the LUN -/
  lun : U64
  /-- what `Begin` returned -/
  r : BeginResponse
  /-- the object after `Begin` -/
  t1 : Translation
  /-- the world after `Begin` -/
  w1 : World
  /-- the call of `Begin` -/
  began : Began E t w ptr cdb buf lun r t1 w1
  /-- the world when `Complete` is called -/
  w2 : World
  /-- the command block was left alone -/
  kept : w2.mem.read ptr cdb.length = some cdb
  /-- the completions -/
  cpl : List Nvme.GenericQueueEntryCpl
  /-- the data-in buffer -/
  din : Span
  /-- the sense buffer -/
  sense : Span
  /-- what `Complete` returned -/
  c : CompleteResponse
  /-- the object after `Complete` -/
  t2 : Translation
  /-- the world after `Complete` -/
  w3 : World
  /-- the call of `Complete` -/
  call : t1.Complete E cpl din sense w2 = .ok ((c, t2), w3)

namespace Ran

/-- The NVMe commands to be executed. -/
def cmds (x : Ran) : List NvmeCmdWrapper := x.t1.GetNvmeWrappers

/-- One completion per command was given to `Complete`. -/
def answered (x : Ran) : Prop := x.cpl.length = x.cmds.length

/-- `Begin` could translate the command and the device executed all of its NVMe commands successfully. -/
def succeeded (x : Ran) : Prop := Accepted x.t1 ∧ x.answered ∧ ∀ c ∈ x.cpl, cplOk c

/-- The 4096 bytes in memory the `i`-th NVMe command points to (PRP entry 1, bytes 24-31 of the command) when
`Complete` is called: what the device put there, for an Identify command. -/
def page (x : Ran) (i : Nat) (bs : List Byte) : Prop :=
  ∃ wr, x.cmds[i]? = some wr ∧ x.w2.mem.read (leAt wr.cmd.toBytes 24 8) 4096 = some bs

/-- `Complete` placed the bytes `bs` at address `p` and changed nothing else, except in pages it handed back to
the allocator. -/
def wrote (x : Ran) (p : Nat) (bs : List Byte) : Prop :=
  ∃ evs, x.w3.trace = evs ++ x.w2.trace ∧
    ∀ a, (∀ q n, Event.dealloc q n ∈ evs → ¬ inRange q.toNat (4096 * n.toNat) a) →
      x.w3.mem a = x.w2.mem.put p bs a

/-- `Complete` changed nothing, except in pages it handed back. -/
def wroteNothing (x : Ran) : Prop := x.wrote 0 []

/-- The command was answered with GOOD status. -/
def good (x : Ran) : Prop := x.c = ⟨.kSuccess, 0⟩

end Ran

/-! ## Status and sense data -/

/-- A SCSI status with sense key, additional sense code and qualifier. -/
structure SenseInfo where
  status : Nat
  key : Nat
  asc : Nat
  ascq : Nat
deriving DecidableEq, Repr

/-- The translation table for NVMe status codes: status code type, status code, SCSI status, sense key, ASC,
ASCQ. -/
def statusTable : List (Nat × Nat × SenseInfo) := [
  -- generic command status
  (0, 0x00, ⟨0x00, 0x0, 0x00, 0x00⟩),  -- successful completion: GOOD
  (0, 0x01, ⟨0x02, 0x5, 0x20, 0x00⟩),  -- invalid opcode
  (0, 0x02, ⟨0x02, 0x5, 0x24, 0x00⟩),  -- invalid field
  (0, 0x04, ⟨0x02, 0x3, 0x00, 0x00⟩),  -- data transfer error
  (0, 0x05, ⟨0x40, 0xb, 0x0b, 0x08⟩),  -- aborted: power loss
  (0, 0x06, ⟨0x02, 0x4, 0x44, 0x00⟩),  -- internal device error
  (0, 0x07, ⟨0x40, 0xb, 0x00, 0x00⟩),  -- aborted by request
  (0, 0x08, ⟨0x40, 0xb, 0x00, 0x00⟩),  -- aborted: submission queue deleted
  (0, 0x09, ⟨0x40, 0xb, 0x00, 0x00⟩),  -- aborted: failed fused
  (0, 0x0a, ⟨0x40, 0xb, 0x00, 0x00⟩),  -- aborted: missing fused
  (0, 0x0b, ⟨0x02, 0x5, 0x20, 0x09⟩),  -- invalid namespace or format
  (0, 0x80, ⟨0x02, 0x5, 0x21, 0x00⟩),  -- LBA out of range
  (0, 0x82, ⟨0x02, 0x2, 0x04, 0x00⟩),  -- namespace not ready
  -- command specific status
  (1, 0x00, ⟨0x02, 0x5, 0x00, 0x00⟩),  -- completion queue invalid
  (1, 0x0a, ⟨0x02, 0x5, 0x31, 0x01⟩),  -- invalid format
  (1, 0x80, ⟨0x02, 0x5, 0x24, 0x00⟩),  -- conflicting attributes
  -- media errors
  (2, 0x80, ⟨0x02, 0x3, 0x03, 0x00⟩),  -- write faults
  (2, 0x81, ⟨0x02, 0x3, 0x11, 0x00⟩),  -- unrecovered read error
  (2, 0x82, ⟨0x02, 0x3, 0x10, 0x01⟩),  -- guard check error
  (2, 0x83, ⟨0x02, 0x3, 0x10, 0x02⟩),  -- application tag check error
  (2, 0x84, ⟨0x02, 0x3, 0x10, 0x03⟩),  -- reference tag check error
  (2, 0x85, ⟨0x02, 0xe, 0x1d, 0x00⟩),  -- compare failure
  (2, 0x86, ⟨0x02, 0x5, 0x20, 0x09⟩)]  -- access denied

/-- The SCSI status for an NVMe status: the row of the table, or CHECK CONDITION with NO SENSE. -/
def statusOf (sct sc : Nat) : SenseInfo :=
  match statusTable.find? (fun row => row.1 = sct ∧ row.2.1 = sc) with
  | some row => row.2.2
  | none => ⟨0x02, 0, 0, 0⟩

/-- The SCSI status for a completion. -/
def cplStatus (c : Nvme.GenericQueueEntryCpl) : SenseInfo := statusOf c.sct.toNat c.sc.toNat

/-- `bs` is descriptor format sense data (response code 72h, no additional descriptors) with the given sense
key, ASC and ASCQ.  The reserved bits are not constrained. -/
def isSense (bs : List Byte) (s : SenseInfo) : Prop :=
  bs.length = 8 ∧ byte bs 0 % 128 = 0x72 ∧ byte bs 1 % 16 = s.key ∧ byte bs 2 = s.asc ∧ byte bs 3 = s.ascq ∧
    byte bs 7 = 0

/-- `Complete` reported `s`: it returned the status and, if the sense buffer has room for 8 bytes, wrote sense
data there and nothing else; otherwise nothing at all. -/
def Ran.reported (x : Ran) (s : SenseInfo) : Prop :=
  x.c.status = .kSuccess ∧ x.c.scsi_status.toNat = s.status ∧
    if 8 ≤ x.sense.len then ∃ bs, isSense bs s ∧ x.wrote x.sense.ptr bs else x.wroteNothing

/-! ## INQUIRY -/

/-- The command is an INQUIRY with the given EVPD bit (byte 1, bit 0) and page code (byte 2), the device answered
its two Identify commands successfully, and left `ns` and `ctrl` in the two pages. -/
structure Inquired (x : Ran) (evpd : Bool) (page : Nat) (ns ctrl : List Byte) : Prop where
  opcode : byte x.cdb 0 = 0x12
  evpd : bit x.cdb 1 0 = evpd
  code : byte x.cdb 2 = page
  ok : x.succeeded
  ns : x.page 0 ns
  ctrl : x.page 1 ctrl

end Scsi2Nvme.Spec
