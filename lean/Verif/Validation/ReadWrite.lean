import Verif.Model.Read
import Verif.Model.Write
import Verif.Model.Misc
/-!
# The repository's own unit tests, replayed on the model (READ, WRITE, VERIFY, SYNCHRONIZE CACHE)

These are tests of the *model*, not proofs of properties: each `example` evaluates a function of the model
on the literal inputs of one test of test/translator and checks the values that the test expects.  They
show that the model and the code agree wherever the authors of the code wrote down what it does.  An
object that the test leaves uninitialised is replaced by one whose bits are all ones.
-/

namespace Scsi2Nvme.Validation
open Scsi2Nvme

/-- A wrapper that was never initialised. -/
def anyWrapper : NvmeCmdWrapper :=
  { cmd := Nvme.GenericQueueEntryCmd.ofBytes (List.replicate 64 0xff), buffer_len := 0xdeadbeef,
    is_admin := true }

/-- What the tests expect of the wrapper of a read or write command. -/
def Cmd (wr : NvmeCmdWrapper) (opc : Byte) (nsid cdw10 cdw11 cdw12 len : U32) : Prop :=
  wr.cmd.opc = opc ∧ wr.cmd.psdt = 0 ∧ wr.cmd.nsid = nsid ∧ wr.cmd.cdw_0 = cdw10 ∧
    wr.cmd.cdw_1 = cdw11 ∧ wr.cmd.cdw_2 = cdw12 ∧ wr.is_admin = false ∧ wr.buffer_len = len

instance : Decidable (Cmd wr opc nsid a b c l) := by unfold Cmd; infer_instance

/-- test/translator/read_test.cc:31: 256 blocks of 64 bytes at some address -/
def bufferIn : Span := ⟨0x7f0000, 256 * 64⟩

section Read

/-- test/translator/read_test.cc:28 -/
def kNsid : U32 := 0x1a2b3c4d

-- read_test.cc:54 Read6ToNvmeShouldReturnInvalidInputStatus
example : (Read.Read6ToNvme (List.replicate (Scsi.Read6Command.size - 1) 0x5a) anyWrapper kNsid 64
    bufferIn 0).1 = .kInvalidInput := by decide +kernel

-- read_test.cc:66 Read6ToNvmeShouldReturnCorrectTranslation
example :
    let cmd : Scsi.Read6Command :=
      { logical_block_address_1 := 0x1a, logical_block_address_2 := htons 0x2b3c, transfer_length := 50 }
    let r := Read.Read6ToNvme cmd.toBytes anyWrapper kNsid 64 bufferIn 0
    r.1 = .kSuccess ∧ Cmd r.2.1 Nvme.NvmOpcode.kRead kNsid 0x1a2b3c 0 (50 - 1) (50 * 64) ∧
      r.2.2 = 50 * 64 := by decide +kernel

-- read_test.cc:100 Read6ToNvmeShouldRead256BlocksForZeroTransferLen
example :
    let cmd : Scsi.Read6Command :=
      { logical_block_address_1 := 0x1a, logical_block_address_2 := htons 0x2b3c, transfer_length := 0 }
    let r := Read.Read6ToNvme cmd.toBytes anyWrapper kNsid 64 bufferIn 0
    r.1 = .kSuccess ∧ Cmd r.2.1 Nvme.NvmOpcode.kRead kNsid 0x1a2b3c 0 255 (256 * 64) ∧
      r.2.2 = 256 * 64 := by decide +kernel

-- read_test.cc:134 Read10ToNvmeShouldReturnInvalidInputStatus
example : (Read.Read10ToNvme (List.replicate (Scsi.Read10Command.size - 1) 0x5a) anyWrapper kNsid 64
    bufferIn 0).1 = .kInvalidInput := by decide +kernel

-- read_test.cc:146 Read10ToNvmeShouldReturnCorrectTranslation
example :
    let cmd : Scsi.Read10Command :=
      { fua := 1, rd_protect := 0b101, logical_block_address := 0x1a2b3c4d, transfer_length := htons 50 }
    let r := Read.Read10ToNvme cmd.toBytes anyWrapper kNsid 64 bufferIn 0
    r.1 = .kSuccess ∧
      Cmd r.2.1 Nvme.NvmOpcode.kRead kNsid (bswap_32 0x1a2b3c4d) 0
        ((50 - 1) ||| (0b0111 <<< 26) ||| (1 <<< 30)) (50 * 64) ∧
      r.2.2 = 50 * 64 := by decide +kernel

-- read_test.cc:181 Read12ToNvmeShouldReturnInvalidInputStatus
example : (Read.Read12ToNvme (List.replicate (Scsi.Read12Command.size - 1) 0x5a) anyWrapper kNsid 64
    bufferIn 0).1 = .kInvalidInput := by decide +kernel

-- read_test.cc:193 Read12ToNvmeShouldReturnCorrectTranslation
example :
    let cmd : Scsi.Read12Command :=
      { fua := 1, rd_protect := 0b101, logical_block_address := 0x1a2b3c4d, transfer_length := htonl 50 }
    let r := Read.Read12ToNvme cmd.toBytes anyWrapper kNsid 64 bufferIn 0
    r.1 = .kSuccess ∧
      Cmd r.2.1 Nvme.NvmOpcode.kRead kNsid (bswap_32 0x1a2b3c4d) 0
        ((50 - 1) ||| (0b0111 <<< 26) ||| (1 <<< 30)) (50 * 64) ∧
      r.2.2 = 50 * 64 := by decide +kernel

-- read_test.cc:228 Read16ToNvmeShouldReturnInvalidInputStatus
example : (Read.Read16ToNvme (List.replicate (Scsi.Read16Command.size - 1) 0x5a) anyWrapper kNsid 64
    bufferIn 0).1 = .kInvalidInput := by decide +kernel

-- read_test.cc:240 Read16ToNvmeLongTransferLengthShouldReturnInvalidInputStatus
example :
    let cmd : Scsi.Read16Command :=
      { fua := 1, rd_protect := 0b101, logical_block_address := 0x1a2b3c4d5e6f7f8f
        transfer_length := htonl (0xffff + 1) }
    (Read.Read16ToNvme cmd.toBytes anyWrapper kNsid 64 bufferIn 0).1 = .kInvalidInput := by
  decide +kernel

-- read_test.cc:261 Read16ToNvmeShouldReturnCorrectTranslation
example :
    let cmd : Scsi.Read16Command :=
      { fua := 1, rd_protect := 0b101, logical_block_address := htonll 0x1a2b3c4d5e6f7f8f
        transfer_length := htonl 50 }
    let r := Read.Read16ToNvme cmd.toBytes anyWrapper kNsid 64 bufferIn 0
    r.1 = .kSuccess ∧
      Cmd r.2.1 Nvme.NvmOpcode.kRead kNsid 0x5e6f7f8f 0x1a2b3c4d
        ((50 - 1) ||| (0b0111 <<< 26) ||| (1 <<< 30)) (50 * 64) ∧
      r.2.2 = 50 * 64 := by decide +kernel

-- read_test.cc:296 NonRead6ToNvmeShouldReturnNoTranslationForZeroTransferLen
example :
    let cmd : Scsi.Read10Command :=
      { fua := 1, rd_protect := 0b111, logical_block_address := 100, transfer_length := 0 }
    (Read.Read10ToNvme cmd.toBytes anyWrapper kNsid 64 bufferIn 0).1 = .kNoTranslation := by
  decide +kernel

-- read_test.cc:315 ShouldReturnInvalidInputStatusForUnsupportedRdprotect
example :
    let cmd : Scsi.Read10Command :=
      { fua := 1, rd_protect := 0b111, logical_block_address := 100, transfer_length := htons 50 }
    (Read.Read10ToNvme cmd.toBytes anyWrapper kNsid 64 bufferIn 0).1 = .kInvalidInput := by
  decide +kernel

-- read_test.cc:334 InsufficientBufferShouldReturnFailure
example :
    let cmd : Scsi.Read12Command :=
      { fua := 1, rd_protect := 0b101, logical_block_address := 0xffffffff, transfer_length := htonl 16 }
    (Read.Read12ToNvme cmd.toBytes anyWrapper kNsid 64 ⟨0x7f0000, 1⟩ 0).1 = .kFailure := by
  decide +kernel

-- read_test.cc:360 ShouldSuccessfullyReadToScsiDataInBuffer (the device writes through prp1: it is the
-- address of the caller's buffer)
example :
    let cmd : Scsi.Read12Command :=
      { fua := 1, rd_protect := 0b101, logical_block_address := 0xffffffff, transfer_length := htonl 50 }
    let r := Read.Read12ToNvme cmd.toBytes anyWrapper kNsid 64 bufferIn 0
    r.1 = .kSuccess ∧ r.2.2 = 50 * 64 ∧ r.2.1.cmd.prp1.toNat = bufferIn.ptr := by
  decide +kernel

end Read

section Write

/-- test/translator/write_test.cc:36 -/
def kNsidW : U32 := 0x1234abcd

/-- The expectation `BuildCdw12` of the test: test/translator/write_test.cc:39-42. -/
def expectedCdw12 (tl : U16) (prinfo : Byte) (fua : Bool) : U32 :=
  (tl.setWidth 32 - 1) ||| (prinfo.setWidth 32 <<< 26) ||| ((if fua then 1 else 0) <<< 30)

-- write_test.cc:43, 53, 63, 74 ShouldReturnInvalidStatusCode
example :
    (Write.Write6ToNvme (List.replicate (Scsi.Write6Command.size - 1) 0x5a) anyWrapper kNsidW .null).1
      = .kInvalidInput ∧
    (Write.Write10ToNvme (List.replicate (Scsi.Write10Command.size - 1) 0x5a) anyWrapper kNsidW .null).1
      = .kInvalidInput ∧
    (Write.Write12ToNvme (List.replicate (Scsi.Write12Command.size - 1) 0x5a) anyWrapper kNsidW .null).1
      = .kInvalidInput ∧
    (Write.Write16ToNvme (List.replicate (Scsi.Write16Command.size - 1) 0x5a) anyWrapper kNsidW .null).1
      = .kInvalidInput := by decide +kernel

/-- The WRITE(6) command of the tests.  `network_endian_lba_2` is declared `uint8_t` there, so
`htons(0x1234) = 0x3412` is truncated to 0x12. -/
def write6 (tl : Byte) : Scsi.Write6Command :=
  { logical_block_address_1 := 0x1, logical_block_address_2 := 0x12, transfer_length := tl }

-- write_test.cc:85 Write6ShouldReturnValidStatusCode and :161 Write6ShouldBuildCorrectNvmeCommandStruct
example :
    let r := Write.Write6ToNvme (write6 0xff).toBytes anyWrapper kNsidW .null
    r.1 = .kSuccess ∧
      Cmd r.2 Nvme.NvmOpcode.kWrite kNsidW ((1 <<< 16) ||| (ntohs 0x12).setWidth 32) 0 (0xff - 1) 0 ∧
      r.2.cmd.prp1 = 0 := by decide +kernel

-- write_test.cc:102 Write10ShouldReturnValidStatusCode and :192 Write10ShouldBuildCorrectNvmeCommandStruct
example :
    let cmd : Scsi.Write10Command :=
      { fua := 1, wr_protect := 0b010, logical_block_address := htonl 0xffffffff
        transfer_length := htons 0xffff }
    let r := Write.Write10ToNvme cmd.toBytes anyWrapper kNsidW .null
    r.1 = .kSuccess ∧
      Cmd r.2 Nvme.NvmOpcode.kWrite kNsidW 0xffffffff 0 (expectedCdw12 0xffff 0b0011 true) 0 ∧
      r.2.cmd.prp1 = 0 := by decide +kernel

-- write_test.cc:122 Write12ShouldReturnValidStatusCode (the length is in the wrong half of the field there)
example :
    let cmd : Scsi.Write12Command :=
      { fua := 1, wr_protect := 0b010, logical_block_address := htonl 0xffffffff
        transfer_length := (htons 0xffff).setWidth 32 }
    (Write.Write12ToNvme cmd.toBytes anyWrapper kNsidW .null).1 = .kSuccess := by decide +kernel

-- write_test.cc:224 Write12ShouldBuildCorrectNvmeCommandStruct
example :
    let cmd : Scsi.Write12Command :=
      { fua := 1, wr_protect := 0b010, logical_block_address := htonl 0xffffffff
        transfer_length := 0x2b1a0000 }
    let r := Write.Write12ToNvme cmd.toBytes anyWrapper kNsidW .null
    r.1 = .kSuccess ∧
      Cmd r.2 Nvme.NvmOpcode.kWrite kNsidW 0xffffffff 0
        (expectedCdw12 ((ntohl 0x2b1a0000).setWidth 16) 0b0011 true) 0 ∧
      r.2.cmd.prp1 = 0 := by decide +kernel

-- write_test.cc:141 Write16ShouldReturnValidStatusCode and :256 Write16ShouldBuildCorrectNvmeCommandStruct
example :
    let cmd : Scsi.Write16Command :=
      { fua := 1, wr_protect := 0b010, logical_block_address := htolll 0xffffffffffffffff
        transfer_length := 0x2b1a0000 }
    let r := Write.Write16ToNvme cmd.toBytes anyWrapper kNsidW .null
    r.1 = .kSuccess ∧
      Cmd r.2 Nvme.NvmOpcode.kWrite kNsidW 0xffffffff 0xffffffff
        (expectedCdw12 ((ntohl 0x2b1a0000).setWidth 16) 0b0011 true) 0 ∧
      r.2.cmd.prp1 = 0 := by decide +kernel

-- write_test.cc:291 Write10ShoudlFailOnWrongProtectBit
example :
    let cmd : Scsi.Write10Command :=
      { fua := 1, wr_protect := 0b111, logical_block_address := 0xffffffff, transfer_length := 0xffff }
    (Write.Write10ToNvme cmd.toBytes anyWrapper kNsidW .null).1 = .kFailure := by decide +kernel

-- write_test.cc:308 Write12ShoudlFailOnWrongProtectBit
example :
    let cmd : Scsi.Write12Command :=
      { fua := 1, wr_protect := 0b111, logical_block_address := htonl 0xffffffff
        transfer_length := 0x2b1a0000 }
    (Write.Write12ToNvme cmd.toBytes anyWrapper kNsidW .null).1 = .kFailure := by decide +kernel

-- write_test.cc:328 Write16ShoudlFailOnWrongProtectBit
example :
    let cmd : Scsi.Write16Command :=
      { fua := 1, wr_protect := 0b111, logical_block_address := htolll 0xffffffffffffffff
        transfer_length := 0x2b1a0000 }
    (Write.Write16ToNvme cmd.toBytes anyWrapper kNsidW .null).1 = .kFailure := by decide +kernel

-- write_test.cc:349 Write6ShouldWrite256BlocksOnZeroTransferLength
example : (Write.Write6ToNvme (write6 0).toBytes anyWrapper kNsidW .null).2.cmd.cdw_2 = 256 - 1 := by
  decide +kernel

-- write_test.cc:372, 392, 412: Write10/12/16ShouldWriteFailOnZeroTransferLength
example :
    let c10 : Scsi.Write10Command :=
      { fua := 1, wr_protect := 0b010, logical_block_address := htonl 0xffffffff, transfer_length := 0 }
    let c12 : Scsi.Write12Command :=
      { fua := 1, wr_protect := 0b010, logical_block_address := htonl 0xffffffff, transfer_length := 0 }
    let c16 : Scsi.Write16Command :=
      { fua := 1, wr_protect := 0b010, logical_block_address := htolll 0xffffffffffffffff
        transfer_length := 0 }
    (Write.Write10ToNvme c10.toBytes anyWrapper kNsidW .null).1 = .kNoTranslation ∧
    (Write.Write12ToNvme c12.toBytes anyWrapper kNsidW .null).1 = .kNoTranslation ∧
    (Write.Write16ToNvme c16.toBytes anyWrapper kNsidW .null).1 = .kNoTranslation := by decide +kernel

end Write

section Verify

-- verify_test.cc:23 BasicSuccess
example :
    let cmd : Scsi.Verify10Command := { verification_length := htons 1 }
    let r := Verify.VerifyToNvme cmd.toBytes anyWrapper
    r.1 = .kSuccess ∧ r.2.is_admin = false := by decide +kernel

-- verify_test.cc:38 NoOp
example :
    let cmd : Scsi.Verify10Command := { verification_length := htons 0 }
    (Verify.VerifyToNvme cmd.toBytes anyWrapper).1 = .kNoTranslation := by decide +kernel

-- verify_test.cc:52 BadBuffer (`sizeof(1)` is 4)
example :
    let cmd : Scsi.Verify10Command := {}
    (Verify.VerifyToNvme (cmd.toBytes.take 4) anyWrapper).1 = .kInvalidInput := by decide +kernel

-- verify_test.cc:62 BadControlByteNaca
example :
    let cmd : Scsi.Verify10Command := { verification_length := 1, naca := 1 }
    (Verify.VerifyToNvme cmd.toBytes anyWrapper).1 = .kInvalidInput := by decide +kernel

/-- The twelve tests of the protection information differ in these three values. -/
def Protects (bytchk : BitVec 2) (vr_protect : BitVec 3) (prchk : Byte) : Prop :=
  let cmd : Scsi.Verify10Command :=
    { bytchk := bytchk, vr_protect := vr_protect, logical_block_address := htonl 0x12345
      verification_length := htons 1 }
  let r := Verify.VerifyToNvme cmd.toBytes anyWrapper
  r.1 = .kSuccess ∧ r.2.cmd.opc = Nvme.NvmOpcode.kCompare ∧ r.2.cmd.cdw_0 = 0x12345 ∧
    r.2.cmd.cdw_1 = 0 ∧
    r.2.cmd.cdw_2 = (1 - 1) ||| ((0b1000 ||| prchk).setWidth 32 <<< 26) ∧ r.2.is_admin = false

instance : Decidable (Protects b v p) := by unfold Protects; infer_instance

-- verify_test.cc:74-233 Protect000, 001, 101, 010, 011, 100
example : Protects 0 0b000 0b111 ∧ Protects 0 0b001 0b111 ∧ Protects 0 0b101 0b111 ∧
    Protects 0 0b010 0b011 ∧ Protects 0 0b011 0b000 ∧ Protects 0 0b100 0b100 := by decide +kernel

-- verify_test.cc:242-407 Protect000Bytchk1, 001, 010, 011, 100, 101
example : Protects 1 0b000 0b111 ∧ Protects 1 0b001 0 ∧ Protects 1 0b010 0 ∧
    Protects 1 0b011 0 ∧ Protects 1 0b100 0 ∧ Protects 1 0b101 0 := by decide +kernel

end Verify

-- synchronize_cache_test.cc:21 ShouldBuildNvmeFlushCommand
example :
    let wr := SynchronizeCache.SynchronizeCache10ToNvme anyWrapper 0x12345
    wr.cmd.opc = Nvme.NvmOpcode.kFlush ∧ wr.cmd.nsid = 0x12345 ∧ wr.is_admin = false := by
  decide +kernel

end Scsi2Nvme.Validation
