import Verif.Spec.EngineReply
/-!
# Specification: an NVMe controller which executes Identify and Get Features
-/

namespace Scsi2Nvme.Spec
open Scsi2Nvme Engine

/-- A successful completion with the given dword 0. -/
def success (dw0 : Nat) : Nvme.GenericQueueEntryCpl := { cdw0 := BitVec.ofNat 32 dw0 }

/-- The device executes Identify (admin opcode 06h): it puts the 4096 bytes `ident nsid cns` at the address in bytes 24-31
of the command, where `nsid` is in bytes 4-7 and `cns` in byte 40; and Get Features (0Ah): it answers with `feature nsid
fid sel` in dword 0 of the completion, where `fid` is in byte 40 and `sel` in the low three bits of byte 41.  Both do not
change its state. -/
structure Controller {σ : Type} (D : Device σ) (ident : Nat → Nat → List Byte) (feature : Nat → Nat → Nat → Nat) : Prop where
  identify : ∀ s m sub, sub.is_admin = true → byte sub.cmd 0 = 0x06 →
    D s m sub = (s, m.put (leAt sub.cmd 24 8) (ident (leAt sub.cmd 4 4) (byte sub.cmd 40)), success 0)
  features : ∀ s m sub, sub.is_admin = true → byte sub.cmd 0 = 0x0a →
    D s m sub = (s, m, success (feature (leAt sub.cmd 4 4) (byte sub.cmd 40) (byte sub.cmd 41 % 8)))
  size : ∀ nsid cns, (ident nsid cns).length = 4096

/-- What an information command is about: its allocation length, the pages it is answered from, and dword 0 of the first
completion. -/
structure Query where
  len : Nat
  page0 : List Byte
  page1 : List Byte
  dw0 : Nat

/-- The information commands which the library translates, and what they need: INQUIRY, READ CAPACITY(10), REPORT LUNS
(select report 0-2) and MODE SENSE(6) with at least one NVMe command. -/
def query (cdb : List Byte) (nsid : Nat) (ident : Nat → Nat → List Byte) (feature : Nat → Nat → Nat → Nat) : Option Query :=
  match byte cdb 0 with
  | 0x12 => if 6 ≤ cdb.length then some ⟨beAt cdb 3 2, ident nsid 0, ident 0 1, 0⟩ else none
  | 0x25 => if 10 ≤ cdb.length ∧ bit cdb 9 2 = false then some ⟨8, ident nsid 0, [], 0⟩ else none
  | 0xa0 => if 12 ≤ cdb.length ∧ byte cdb 2 ≤ 2 then some ⟨beAt cdb 6 4, ident 0 2, [], 0⟩ else none
  | 0x1a =>
    if 6 ≤ cdb.length ∧ modeFieldsOk cdb then
      if bit cdb 1 3 = false then some ⟨byte cdb 4, ident nsid 0, [], 0⟩
      else if asksCaching (byte cdb 2 % 64) then some ⟨byte cdb 4, [], [], feature nsid 6 (selectFor (byte cdb 2 / 64))⟩
      else none
    else none
  | _ => none

/-- Not one of the MODE SENSE commands whose completion may have undefined behaviour (C81) if the Identify data of the namespace is
`page`: MODE SENSE(6) with DBD set asks for the caching page; without DBD the data buffer is too short for the header, or the block length
of the namespace is below 2^32; the command block of MODE SENSE(10) has its regular ten (or eleven) bytes. -/
def steady (cdb page : List Byte) : Prop :=
  (byte cdb 0 = 0x1a → if bit cdb 1 3 then asksCaching (byte cdb 2 % 64) else byte cdb 4 < 4 ∨ lbads page < 32) ∧
  (byte cdb 0 = 0x5a → cdb.length < 12)

end Scsi2Nvme.Spec
