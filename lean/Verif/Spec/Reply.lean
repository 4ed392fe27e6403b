import Verif.Spec.Plan
import Verif.Spec.Complete
import Verif.Spec.Actual
/-!
# Specification: what `Complete` does, as a function

How a command ends, as a function of what `Begin` handed out, the completions, the command block, the data the device put
into the pages, the length of the data-in buffer, and - for the reserved bits of the sense data and VPD page 80h - the
contents of the stack.  This is the library as it is, including where it departs from the SCSI standards.
-/

namespace Scsi2Nvme.Spec
open Scsi2Nvme

/-- How a call of `Complete` ends. -/
inductive Outcome
  /-- API failure: nothing is reported to the initiator -/
  | apiFailure
  /-- a SCSI status other than GOOD with sense data -/
  | failed (s : SenseInfo) (sense : List Byte)
  /-- GOOD, with these bytes in the data-in buffer -/
  | good (data : List Byte)
deriving DecidableEq, Repr

/-- The 8 bytes of sense data.  The reserved bits are taken from the stack. -/
def senseBytes (stack : Nat → Byte) (s : SenseInfo) : List Byte :=
  le 1 (0x72 + 128 * ((stack 0).toNat % 2)) ++ le 1 (s.key + 16 * ((stack 1).toNat % 16)) ++ le 1 s.asc ++ le 1 s.ascq
    ++ [stack 4, stack 3, stack 2, 0]

/-- All or nothing. -/
def whole (len : Nat) (bs : List Byte) : List Byte := if bs.length ≤ len then bs else []

/-- INQUIRY data. -/
def inquiryReply (evpd : Bool) (code nsid len : Nat) (stack ns ctrl : List Byte) : List Byte :=
  if evpd = false then whole len (standardInquiry ns ctrl)
  else match actualVpd stack code ns ctrl nsid with
    | none => []
    | some bs =>
      if bs.length ≤ len then bs else if (code = 0x00 ∨ code = 0x80) ∧ 4 ≤ len then bs.take 4 else []

/-- The MODE SENSE(10) header for a page code which is not supported, with a block descriptor announced. -/
def mode10Head (llbaa : Bool) : List Byte :=
  let bd := if llbaa then 16 else 8
  beBytes 2 (6 + bd) ++ [0x00, 0x10] ++ le 1 llbaa.toNat ++ [0x00] ++ beBytes 2 bd

/-- The data returned for a command all of whose NVMe commands were successful.  `page0`, `page1`: the pages of the
first and the second NVMe command; `dw0`: dword 0 of the first completion. -/
def reply (cdb : List Byte) (nsid len : Nat) (stack page0 page1 : List Byte) (dw0 : Nat) : List Byte :=
  match byte cdb 0 with
  | 0x03 => whole len (noSense (bit cdb 1 0))
  | 0x12 => inquiryReply (bit cdb 1 0) (byte cdb 2) nsid len stack page0 page1
  | 0x1a => fitting len (modeStructures (if bit cdb 1 3 then none else some page0) (byte cdb 2 % 64) (dw0 % 2 = 1))
  | 0x25 => if 9 ≤ lbads page0 ∧ lbads page0 ≤ 31
      then whole len (beBytes 4 (min (nsze page0) 0xffffffff) ++ beBytes 4 (2 ^ lbads page0)) else []
  | 0x5a => whole len (mode10Head (bit cdb 1 4))
  | 0xa0 => if 8 ≤ len then lunList (((nsids page0).map (· - 1)).take ((len - 8) % 2 ^ 32 / 8)) else []
  | 0xa3 => whole len [0x00, 0x01, 0x00, 0x00]
  | _ => []

/-- How a command ends for which `Begin` handed out `result` (`none`: rejected). -/
def outcome (result : Option (List Handed)) (cpl : List Nvme.GenericQueueEntryCpl) (cdb : List Byte) (nsid len : Nat)
    (stack : Nat → Byte) (page0 page1 : List Byte) : Outcome :=
  if cpl.length ≠ (result.getD []).length then .apiFailure
  else match result with
    | none => .failed ⟨0x02, 0x5, 0x24, 0x00⟩ (senseBytes stack ⟨0x02, 0x5, 0x24, 0x00⟩)
    | some _ =>
      match cpl.find? (fun c => (cplStatus c).status ≠ 0) with
      | some c => .failed (cplStatus c) (senseBytes stack (cplStatus c))
      | none => .good (reply cdb nsid len ((List.range 33).map stack) page0 page1 ((cpl.map fun c => c.cdw0.toNat).getD 0 0))

/-- `Complete` ended so: return values, and memory (only the sense buffer or the data-in buffer is changed, apart from
pages handed back to the allocator). -/
def Ran.ended (x : Ran) : Outcome → Prop
  | .apiFailure => x.c.status = .kFailure ∧ x.wroteNothing
  | .failed s bs => x.c.status = .kSuccess ∧ x.c.scsi_status.toNat = s.status ∧
      x.wrote x.sense.ptr (whole x.sense.len bs)
  | .good data => x.c = ⟨.kSuccess, 0⟩ ∧ x.wrote x.din.ptr data

/-- Commands whose answer is made of the page of the first NVMe command. -/
def readsPage (cdb : List Byte) : Bool :=
  byte cdb 0 = 0x12 ∨ byte cdb 0 = 0x25 ∨ byte cdb 0 = 0xa0 ∨ (byte cdb 0 = 0x1a ∧ bit cdb 1 3 = false)

end Scsi2Nvme.Spec
