import Verif.Model.Basic
/-!
# Specification: wire formats by byte position

Independent of the structure layouts of the model: SCSI command descriptor blocks (CDBs) are read by byte
and bit position as in SPC-4/SBC-3, NVMe submission queue entries are written out as 64 bytes as in the
NVMe specification.
-/

namespace Scsi2Nvme.Spec
open Scsi2Nvme

/-- A byte string as a big endian number (the SCSI convention). -/
def be (bs : List Byte) : Nat := bs.foldl (fun n b => 256 * n + b.toNat) 0

/-- Byte `i` of a byte string (0 beyond its end). -/
def byte (bs : List Byte) (i : Nat) : Nat := (bs.getD i 0).toNat

/-- The big endian number in bytes `pos … pos+len-1`. -/
def beAt (bs : List Byte) (pos len : Nat) : Nat := be ((bs.drop pos).take len)

/-- The little endian number in bytes `pos … pos+len-1` (the NVMe convention). -/
def leAt (bs : List Byte) (pos len : Nat) : Nat := be ((bs.drop pos).take len).reverse

/-- Bit `k` of byte `i`. -/
def bit (bs : List Byte) (i k : Nat) : Bool := byte bs i / 2 ^ k % 2 = 1

/-- `n` as `k` bytes, least significant first. -/
def le (k n : Nat) : List Byte := (List.range k).map fun i => BitVec.ofNat 8 (n / 256 ^ i)

/-- `n` as `k` bytes, most significant first. -/
def beBytes (k n : Nat) : List Byte := (le k n).reverse

/-- `k` zero bytes. -/
def zeros (k : Nat) : List Byte := List.replicate k 0

/-! ## Operation codes -/

/-- A READ command: READ(6), READ(10), READ(12) or READ(16). -/
def isRead (opc : Nat) : Prop := opc = 0x08 ∨ opc = 0x28 ∨ opc = 0xa8 ∨ opc = 0x88

instance (n : Nat) : Decidable (isRead n) := by unfold isRead; infer_instance

/-- A WRITE command: WRITE(6), WRITE(10), WRITE(12) or WRITE(16). -/
def isWrite (opc : Nat) : Prop := opc = 0x0a ∨ opc = 0x2a ∨ opc = 0xaa ∨ opc = 0x8a

instance (n : Nat) : Decidable (isWrite n) := by unfold isWrite; infer_instance

/-- The operation codes the translator knows: TEST UNIT READY, REQUEST SENSE, READ(6), WRITE(6), INQUIRY,
MODE SENSE(6), READ CAPACITY(10), READ(10), WRITE(10), VERIFY(10), SYNCHRONIZE CACHE(10), UNMAP,
MODE SENSE(10), READ(16), WRITE(16), REPORT LUNS, MAINTENANCE IN, READ(12), WRITE(12). -/
def supported : List Nat :=
  [0x00, 0x03, 0x08, 0x0a, 0x12, 0x1a, 0x25, 0x28, 0x2a, 0x2f, 0x35, 0x42, 0x5a, 0x88, 0x8a, 0xa0, 0xa3,
   0xa8, 0xaa]

/-! ## READ and WRITE command descriptor blocks -/

/-- What a READ or WRITE command asks for. `protect = none`: the 6-byte form has no protection field. -/
structure Rw where
  /-- first logical block -/
  lba : Nat
  /-- number of logical blocks -/
  blocks : Nat
  /-- RDPROTECT / WRPROTECT -/
  protect : Option Nat
  /-- force unit access -/
  fua : Bool
deriving DecidableEq, Repr

/-- Decode a READ/WRITE CDB, `none` if it is shorter than the command's fixed length. The command
group (top three bits of the operation code) selects the format: 6, 10, 12 or 16 bytes. -/
def decodeRw (cdb : List Byte) : Option Rw :=
  match byte cdb 0 / 32 with
  | 0 => if cdb.length < 6 then none
         else some { lba := beAt cdb 1 3 % 2 ^ 21
                     blocks := if byte cdb 4 = 0 then 256 else byte cdb 4
                     protect := none, fua := false }
  | 1 => if cdb.length < 10 then none
         else some { lba := beAt cdb 2 4, blocks := beAt cdb 7 2
                     protect := some (byte cdb 1 / 32), fua := bit cdb 1 3 }
  | 5 => if cdb.length < 12 then none
         else some { lba := beAt cdb 2 4, blocks := beAt cdb 6 4
                     protect := some (byte cdb 1 / 32), fua := bit cdb 1 3 }
  | 4 => if cdb.length < 16 then none
         else some { lba := beAt cdb 2 8, blocks := beAt cdb 10 4
                     protect := some (byte cdb 1 / 32), fua := bit cdb 1 3 }
  | _ => none

/-! ## NVMe submission queue entries -/

/-- The 64 bytes of a submission queue entry with the given opcode (byte 0), namespace id (bytes 4-7),
PRP1 (bytes 24-31) and command dwords 10, 11, 12 (bytes 40-51); all other bytes zero. -/
def sqe (opcode nsid prp1 cdw10 cdw11 cdw12 : Nat) : List Byte :=
  le 1 opcode ++ zeros 3 ++ le 4 nsid ++ zeros 16 ++ le 8 prp1 ++ zeros 8
    ++ le 4 cdw10 ++ le 4 cdw11 ++ le 4 cdw12 ++ zeros 12

/-- Command dword 12 of an NVMe Read/Write/Compare: number of blocks (0's based) in bits 15:0, the
protection information field PRCHK in bits 28:26 and PRACT in bit 29, FUA in bit 30. -/
def ioCdw12 (blocks prchk : Nat) (pract fua : Bool) : Nat :=
  (blocks - 1) + 2 ^ 26 * prchk + 2 ^ 29 * pract.toNat + 2 ^ 30 * fua.toNat

/-- NVMe Read (opcode 02h): starting LBA in command dwords 10 and 11. -/
def readSqe (nsid lba blocks prchk : Nat) (pract fua : Bool) (prp1 : Nat) : List Byte :=
  sqe 0x02 nsid prp1 (lba % 2 ^ 32) (lba / 2 ^ 32) (ioCdw12 blocks prchk pract fua)

/-- NVMe Write (opcode 01h). -/
def writeSqe (nsid lba blocks prchk : Nat) (pract fua : Bool) (prp1 : Nat) : List Byte :=
  sqe 0x01 nsid prp1 (lba % 2 ^ 32) (lba / 2 ^ 32) (ioCdw12 blocks prchk pract fua)

/-- NVMe Flush (opcode 00h). -/
def flushSqe (nsid : Nat) : List Byte := sqe 0x00 nsid 0 0 0 0

/-- NVMe Compare (opcode 05h). -/
def compareSqe (nsid lba blocks prchk : Nat) (pract : Bool) : List Byte :=
  sqe 0x05 nsid 0 (lba % 2 ^ 32) (lba / 2 ^ 32) (ioCdw12 blocks prchk pract false)

/-- NVMe Identify (opcode 06h): CNS in the low byte of command dword 10. -/
def identifySqe (nsid cns prp1 : Nat) : List Byte := sqe 0x06 nsid prp1 cns 0 0

/-- NVMe Get Features (opcode 0Ah): feature id in bits 7:0, select in bits 10:8 of dword 10. -/
def getFeaturesSqe (nsid fid sel : Nat) : List Byte := sqe 0x0a nsid 0 (fid + 256 * sel) 0 0

/-- NVMe Dataset Management (opcode 09h) with the Deallocate attribute (bit 2 of dword 11) and `n` ranges
(0's based in bits 7:0 of dword 10). -/
def deallocateSqe (nsid n prp1 : Nat) : List Byte := sqe 0x09 nsid prp1 (n - 1) 4 0

/-- The protection information field of an NVMe Read for RDPROTECT (`none` = READ(6)): `(pract, prchk)`;
`none`: no translation.  SCSI translation reference, protection information tables. -/
def rdProtect : Option Nat → Option (Bool × Nat)
  | none => some (false, 0)
  | some 0 => some (true, 0b111)
  | some 1 => some (false, 0b111)
  | some 5 => some (false, 0b111)
  | some 2 => some (false, 0b011)
  | some 3 => some (false, 0b000)
  | some 4 => some (false, 0b100)
  | some _ => none

/-- The protection information field of an NVMe Write for WRPROTECT. -/
def wrProtect : Option Nat → Option (Bool × Nat)
  | none => some (false, 0)
  | some 0 => some (true, 0b000)
  | some 1 => some (false, 0b111)
  | some 5 => some (false, 0b111)
  | some 2 => some (false, 0b011)
  | some 3 => some (false, 0b000)
  | some 4 => some (false, 0b100)
  | some _ => none

/-- PRCHK of the NVMe Compare for VERIFY, by BYTCHK and VRPROTECT (PRACT is always set). -/
def verifyPrchk (bytchk vrprotect : Nat) : Nat :=
  if bytchk = 0 then
    match vrprotect with
    | 0 | 1 | 5 => 7
    | 2 => 3
    | 4 => 4
    | _ => 0
  else if bytchk = 1 ∧ vrprotect = 0 then 7
  else 0

end Scsi2Nvme.Spec
