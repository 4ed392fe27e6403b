import Verif.Model.Common
/-!
# Model of lib/translator/write.cc

The wrapper is changed through a reference; the model returns its final value together with the status.
The unused parameters `Allocation&` and `lba_size` are omitted.
-/

namespace Scsi2Nvme.Write
open Scsi2Nvme

/-- `BuildPRInfo`: lib/translator/write.cc:15-53.  `none` stands for the `kFailure` result. -/
def BuildPRInfo (wrprotect : Byte) : Option Byte :=
  let r : Option (Byte × Byte) :=
    match wrprotect.toNat with
    | 0b000 => some (1, 0b000)
    | 0b001 => some (0, 0b111)
    | 0b101 => some (0, 0b111)
    | 0b010 => some (0, 0b011)
    | 0b011 => some (0, 0b000)
    | 0b100 => some (0, 0b100)
    | _ => none
  match r with
  | none => none
  | some (pract, prchk) => some (prchk ||| (pract <<< 3))

/-- `LegacyWrite`: lib/translator/write.cc:60-73.  `buffer_len` takes the low 32 bits of the span size. -/
def LegacyWrite (_nvme_wrapper : NvmeCmdWrapper) (nsid : U32) (buffer_out : Span) :
    StatusCode × NvmeCmdWrapper :=
  (.kSuccess,
    { cmd := { opc := Nvme.NvmOpcode.kWrite, psdt := 0, nsid := nsid,
               prp1 := BitVec.ofNat 64 buffer_out.ptr },
      buffer_len := BitVec.ofNat 32 buffer_out.len, is_admin := false })

/-- `BuildCdw12`: lib/translator/write.cc:76-80. -/
def BuildCdw12 (transfer_length : U16) (prinfo : Byte) (fua : Bool) : U32 :=
  ((if fua then 1#32 else 0#32) <<< 30) ||| (prinfo.setWidth 32 <<< 26)
    ||| (transfer_length.setWidth 32 - 1)

/-- `Write`: lib/translator/write.cc:82-109. -/
def Write (fua : Bool) (wrprotect : Byte) (transfer_length : U32) (nvme_wrapper : NvmeCmdWrapper)
    (nsid : U32) (buffer_out : Span) : StatusCode × NvmeCmdWrapper :=
  if transfer_length = 0 then (.kNoTranslation, nvme_wrapper)
  else
    let transfer_length := transfer_length &&& 0xffff#32
    match LegacyWrite nvme_wrapper nsid buffer_out with
    | (.kSuccess, wr) =>
      match BuildPRInfo wrprotect with
      | none => (.kFailure, wr)
      | some pr_info =>
        (.kSuccess,
          { wr with cmd := { wr.cmd with
              cdw_2 := htoll (BuildCdw12 (transfer_length.setWidth 16) pr_info fua) } })
    | (st, wr) => (st, wr)

/-- `Write6ToNvme`: lib/translator/write.cc:113-145. -/
def Write6ToNvme (scsi_cmd : List Byte) (nvme_wrapper : NvmeCmdWrapper) (nsid : U32)
    (buffer_out : Span) : StatusCode × NvmeCmdWrapper :=
  match readValue Scsi.Write6Command.size Scsi.Write6Command.ofBytes scsi_cmd with
  | none => (.kInvalidInput, nvme_wrapper)
  | some c =>
    let updated_transfer_length : U16 :=
      if c.transfer_length = 0 then 256#16 else c.transfer_length.setWidth 16
    match LegacyWrite nvme_wrapper nsid buffer_out with
    | (.kSuccess, wr) =>
      let host_endian_lba : U32 :=
        (c.logical_block_address_1.setWidth 32 <<< 16)
          + (ntohs c.logical_block_address_2).setWidth 32
      (.kSuccess,
        { wr with cmd := { wr.cmd with
            cdw_0 := htoll host_endian_lba
            cdw_2 := htoll (updated_transfer_length.setWidth 32 - 1) } })
    | (st, wr) => (st, wr)

/-- `Write10ToNvme`: lib/translator/write.cc:147-167. -/
def Write10ToNvme (scsi_cmd : List Byte) (nvme_wrapper : NvmeCmdWrapper) (nsid : U32)
    (buffer_out : Span) : StatusCode × NvmeCmdWrapper :=
  match readValue Scsi.Write10Command.size Scsi.Write10Command.ofBytes scsi_cmd with
  | none => (.kInvalidInput, nvme_wrapper)
  | some c =>
    match Write (c.fua == 1) (c.wr_protect.setWidth 8) ((ntohs c.transfer_length).setWidth 32)
        nvme_wrapper nsid buffer_out with
    | (.kSuccess, wr) =>
      (.kSuccess, { wr with cmd := { wr.cmd with cdw_0 := bswap_32 c.logical_block_address } })
    | (st, wr) => (st, wr)

/-- `Write12ToNvme`: lib/translator/write.cc:168-188. -/
def Write12ToNvme (scsi_cmd : List Byte) (nvme_wrapper : NvmeCmdWrapper) (nsid : U32)
    (buffer_out : Span) : StatusCode × NvmeCmdWrapper :=
  match readValue Scsi.Write12Command.size Scsi.Write12Command.ofBytes scsi_cmd with
  | none => (.kInvalidInput, nvme_wrapper)
  | some c =>
    match Write (c.fua == 1) (c.wr_protect.setWidth 8) (ntohl c.transfer_length)
        nvme_wrapper nsid buffer_out with
    | (.kSuccess, wr) =>
      (.kSuccess, { wr with cmd := { wr.cmd with cdw_0 := bswap_32 c.logical_block_address } })
    | (st, wr) => (st, wr)

/-- `Write16ToNvme`: lib/translator/write.cc:190-213. -/
def Write16ToNvme (scsi_cmd : List Byte) (nvme_wrapper : NvmeCmdWrapper) (nsid : U32)
    (buffer_out : Span) : StatusCode × NvmeCmdWrapper :=
  match readValue Scsi.Write16Command.size Scsi.Write16Command.ofBytes scsi_cmd with
  | none => (.kInvalidInput, nvme_wrapper)
  | some c =>
    match Write (c.fua == 1) (c.wr_protect.setWidth 8) (ntohl c.transfer_length)
        nvme_wrapper nsid buffer_out with
    | (.kSuccess, wr) =>
      let host_endian_lba := ntohll c.logical_block_address
      (.kSuccess,
        { wr with cmd := { wr.cmd with
            cdw_0 := htoll (host_endian_lba.setWidth 32)
            cdw_1 := htoll ((host_endian_lba >>> 32).setWidth 32) } })
    | (st, wr) => (st, wr)

end Scsi2Nvme.Write
