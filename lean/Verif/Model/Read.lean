import Verif.Model.Common
/-!
# Model of lib/translator/read.cc

The functions change the wrapper and `alloc_len` through references; the model returns their final
values together with the status (also on the error paths).  The `Allocation&` parameter is unused by the
code and omitted.
-/

namespace Scsi2Nvme.Read
open Scsi2Nvme

/-- `BuildPrinfo`: lib/translator/read.cc:16-53.  `none` stands for the `kInvalidInput` result. -/
def BuildPrinfo (rd_protect : Byte) : Option Byte :=
  let r : Option (Bool × Byte) :=
    match rd_protect.toNat with
    | 0b000 => some (true, 0b111)
    | 0b001 => some (false, 0b111)
    | 0b101 => some (false, 0b111)
    | 0b010 => some (false, 0b011)
    | 0b011 => some (false, 0b000)
    | 0b100 => some (false, 0b100)
    | _ => none
  match r with
  | none => none
  | some (pract, prchk) => some (prchk ||| ((if pract then 1#8 else 0#8) <<< 3))

/-- `BuildCdw12`: lib/translator/read.cc:56-60.  `transfer_length - 1` is computed in `int` and converted
to `uint32_t`. -/
def BuildCdw12 (transfer_length : U16) (prinfo : Byte) (fua : Bool) : U32 :=
  ((if fua then 1#32 else 0#32) <<< 30) ||| (prinfo.setWidth 32 <<< 26)
    ||| (transfer_length.setWidth 32 - 1)

/-- `LegacyRead`: lib/translator/read.cc:65-87. -/
def LegacyRead (nvme_wrapper : NvmeCmdWrapper) (nsid : U32) (transfer_length : U16) (lba_size : U32)
    (buffer_in : Span) : StatusCode × NvmeCmdWrapper × U32 :=
  let wr1 := { nvme_wrapper with cmd := { opc := Nvme.NvmOpcode.kRead, psdt := 0, nsid := nsid } }
  let alloc_len := transfer_length.setWidth 32 * lba_size
  if buffer_in.len < alloc_len.toNat then (.kFailure, wr1, alloc_len)
  else
    (.kSuccess,
      { cmd := { wr1.cmd with prp1 := BitVec.ofNat 64 buffer_in.ptr },
        buffer_len := alloc_len, is_admin := false },
      alloc_len)

/-- `Read`: lib/translator/read.cc:90-123. -/
def Read (rd_protect : Byte) (fua : Bool) (transfer_length : U32) (nvme_wrapper : NvmeCmdWrapper)
    (nsid lba_size : U32) (buffer_in : Span) (alloc_len : U32) : StatusCode × NvmeCmdWrapper × U32 :=
  if transfer_length = 0 then (.kNoTranslation, nvme_wrapper, alloc_len)
  else if transfer_length > 0xffff#32 then (.kInvalidInput, nvme_wrapper, alloc_len)
  else
    let transfer_length := transfer_length &&& 0xffff#32
    let tl16 : U16 := transfer_length.setWidth 16
    match LegacyRead nvme_wrapper nsid tl16 lba_size buffer_in with
    | (.kSuccess, wr, al) =>
      match BuildPrinfo rd_protect with
      | none => (.kInvalidInput, wr, al)
      | some prinfo =>
        (.kSuccess, { wr with cmd := { wr.cmd with cdw_2 := htoll (BuildCdw12 tl16 prinfo fua) } }, al)
    | (st, wr, al) => (st, wr, al)

/-- `Read6ToNvme`: lib/translator/read.cc:127-160. -/
def Read6ToNvme (scsi_cmd : List Byte) (nvme_wrapper : NvmeCmdWrapper) (nsid lba_size : U32)
    (buffer_in : Span) (alloc_len : U32) : StatusCode × NvmeCmdWrapper × U32 :=
  match readValue Scsi.Read6Command.size Scsi.Read6Command.ofBytes scsi_cmd with
  | none => (.kInvalidInput, nvme_wrapper, alloc_len)
  | some c =>
    let updated_transfer_length : U16 :=
      if c.transfer_length = 0 then 256#16 else c.transfer_length.setWidth 16
    match LegacyRead nvme_wrapper nsid updated_transfer_length lba_size buffer_in with
    | (.kSuccess, wr, al) =>
      let host_endian_lba : U32 :=
        (c.logical_block_address_1.setWidth 32 <<< 16)
          + (ntohs c.logical_block_address_2).setWidth 32
      (.kSuccess,
        { wr with cmd := { wr.cmd with
            cdw_0 := htoll host_endian_lba
            cdw_2 := htoll (updated_transfer_length.setWidth 32 - 1) } }, al)
    | (st, wr, al) => (st, wr, al)

/-- `Read10ToNvme`: lib/translator/read.cc:162-183. -/
def Read10ToNvme (scsi_cmd : List Byte) (nvme_wrapper : NvmeCmdWrapper) (nsid lba_size : U32)
    (buffer_in : Span) (alloc_len : U32) : StatusCode × NvmeCmdWrapper × U32 :=
  match readValue Scsi.Read10Command.size Scsi.Read10Command.ofBytes scsi_cmd with
  | none => (.kInvalidInput, nvme_wrapper, alloc_len)
  | some c =>
    match Read (c.rd_protect.setWidth 8) (c.fua == 1) ((ntohs c.transfer_length).setWidth 32)
        nvme_wrapper nsid lba_size buffer_in alloc_len with
    | (.kSuccess, wr, al) =>
      (.kSuccess, { wr with cmd := { wr.cmd with cdw_0 := bswap_32 c.logical_block_address } }, al)
    | (st, wr, al) => (st, wr, al)

/-- `Read12ToNvme`: lib/translator/read.cc:185-206. -/
def Read12ToNvme (scsi_cmd : List Byte) (nvme_wrapper : NvmeCmdWrapper) (nsid lba_size : U32)
    (buffer_in : Span) (alloc_len : U32) : StatusCode × NvmeCmdWrapper × U32 :=
  match readValue Scsi.Read12Command.size Scsi.Read12Command.ofBytes scsi_cmd with
  | none => (.kInvalidInput, nvme_wrapper, alloc_len)
  | some c =>
    match Read (c.rd_protect.setWidth 8) (c.fua == 1) (ntohl c.transfer_length)
        nvme_wrapper nsid lba_size buffer_in alloc_len with
    | (.kSuccess, wr, al) =>
      (.kSuccess, { wr with cmd := { wr.cmd with cdw_0 := bswap_32 c.logical_block_address } }, al)
    | (st, wr, al) => (st, wr, al)

/-- `Read16ToNvme`: lib/translator/read.cc:208-231. -/
def Read16ToNvme (scsi_cmd : List Byte) (nvme_wrapper : NvmeCmdWrapper) (nsid lba_size : U32)
    (buffer_in : Span) (alloc_len : U32) : StatusCode × NvmeCmdWrapper × U32 :=
  match readValue Scsi.Read16Command.size Scsi.Read16Command.ofBytes scsi_cmd with
  | none => (.kInvalidInput, nvme_wrapper, alloc_len)
  | some c =>
    match Read (c.rd_protect.setWidth 8) (c.fua == 1) (ntohl c.transfer_length)
        nvme_wrapper nsid lba_size buffer_in alloc_len with
    | (.kSuccess, wr, al) =>
      let host_endian_lba := ntohll c.logical_block_address
      (.kSuccess,
        { wr with cmd := { wr.cmd with
            cdw_0 := htoll (host_endian_lba.setWidth 32)
            cdw_1 := htoll ((host_endian_lba >>> 32).setWidth 32) } }, al)
    | (st, wr, al) => (st, wr, al)

end Scsi2Nvme.Read
