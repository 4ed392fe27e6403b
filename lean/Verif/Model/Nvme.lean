import Verif.Model.Layout
/-!
# Model of third_party/spdk/nvme.h
-/

namespace Scsi2Nvme.Nvme
open Scsi2Nvme

/-! ## Enumerations -/

/-- third_party/spdk/nvme.h:16 -/
def StatusCodeType.kGeneric : BitVec 3 := 0
/-- third_party/spdk/nvme.h:17 -/
def StatusCodeType.kCommandSpecific : BitVec 3 := 1
/-- third_party/spdk/nvme.h:18 -/
def StatusCodeType.kMediaError : BitVec 3 := 2

/-- third_party/spdk/nvme.h:144 -/
def AdminOpcode.kIdentify : Byte := 0x06
/-- third_party/spdk/nvme.h:148 -/
def AdminOpcode.kGetFeatures : Byte := 0x0a

/-- third_party/spdk/nvme.h:174 -/
def NvmOpcode.kFlush : Byte := 0x00
/-- third_party/spdk/nvme.h:175 -/
def NvmOpcode.kWrite : Byte := 0x01
/-- third_party/spdk/nvme.h:176 -/
def NvmOpcode.kRead : Byte := 0x02
/-- third_party/spdk/nvme.h:179 -/
def NvmOpcode.kCompare : Byte := 0x05
/-- third_party/spdk/nvme.h:182 -/
def NvmOpcode.kDatasetManagement : Byte := 0x09

/-- third_party/spdk/nvme.h:198 -/
def FeatureSelect.kCurrent : BitVec 2 := 0b00
/-- third_party/spdk/nvme.h:199 -/
def FeatureSelect.kDefault : BitVec 2 := 0b01
/-- third_party/spdk/nvme.h:200 -/
def FeatureSelect.kSaved : BitVec 2 := 0b10

/-- third_party/spdk/nvme.h:241 -/
def FeatureType.kVolatileWriteCache : Byte := 0x06

/-- third_party/spdk/nvme.h:11 -/
def kIdentifyNsListMaxLength : Nat := 1024

/-! ## Queue entries -/

/-- third_party/spdk/nvme.h:218-230 (status word: 205-213) -/
packed_struct GenericQueueEntryCpl where
  cdw0 : 32, rsvd1 : 32, sqhd : 16, sqid : 16, cid : 16,
  p : 1, sc : 8, sct : 3, rsvd2 : 2, m : 1, dnr : 1

/-- third_party/spdk/nvme.h:314-339; the `dptr` union is represented by its `prp` member, the array
`cdw[6]` by `cdw_0` … `cdw_5`. -/
packed_struct GenericQueueEntryCmd where
  opc : 8, fuse : 2, rsvd1 : 4, psdt : 2, cid : 16,
  nsid : 32,
  rsvd2 : 32, rsvd3 : 32,
  mptr : 64,
  prp1 : 64, prp2 : 64,
  cdw_0 : 32, cdw_1 : 32, cdw_2 : 32, cdw_3 : 32, cdw_4 : 32, cdw_5 : 32

/-- third_party/spdk/nvme.h:343-371 -/
packed_struct GetFeaturesCmd where
  opc : 8, fuse : 2, rsvd1 : 4, psdt : 2, cid : 16,
  nsid : 32,
  rsvd2 : 32, rsvd3 : 32,
  mptr : 64,
  prp1 : 64, prp2 : 64,
  fid : 8, sel : 2, rsvd4 : 22, cdw_0 : 32, cdw_1 : 32, cdw_2 : 32, cdw_3 : 32, cdw_4 : 32

/-- third_party/spdk/nvme.h:375-406 -/
packed_struct DatasetManagementCmd where
  opc : 8, fuse : 2, rsvd1 : 4, psdt : 2, cid : 16,
  nsid : 32,
  rsvd2 : 32, rsvd3 : 32,
  mptr : 64,
  prp1 : 64, prp2 : 64,
  nr : 8, rsvd4 : 24, idr : 1, idw : 1, ad : 1, rsvd5 : 29,
  cdw_0 : 32, cdw_1 : 32, cdw_2 : 32, cdw_3 : 32

/-- third_party/spdk/nvme.h:410-415 -/
packed_struct DatasetManagmentRange where
  context_attributes : 32, lb_count : 32, lba : 64

/-! ## Identify structures (read in place) -/

/-- Bytes 0-525 of third_party/spdk/nvme.h:475-697; each nested structure that the translator does not
look into is one field. -/
packed_layout IdentifyControllerData where
  vid : 16, ssvid : 16, sn : 160, mn : 320, fr : 64, rab : 8, ieee : 24, cmic : 8,
  mdts : 8, cntlid : 16, ver : 32, rtd3r : 32, rtd3e : 32, oaes : 32, ctratt : 32,
  reserved_100 : 96, fguid : 128, reserved_128 : 1024,
  oacs : 16, acl : 8, aerl : 8, frmw : 8, lpa : 8, elpe : 8, npss : 8, avscc : 8, apsta : 8,
  wctemp : 16, cctemp : 16, mtfa : 16, hmpre : 32, hmmin : 32, tnvmcap : 128, unvmcap : 128,
  rpmbs : 32, edstt : 16, dsto : 8, fwug : 8, kas : 16, hctma : 16, mntmt : 16, mxtmt : 16,
  sanicap : 32, reserved3 : 1440,
  sqes : 8, cqes : 8, maxcmd : 16, nn : 32,
  oncs_compare : 1, oncs_write_unc : 1, oncs_dsm : 1, oncs_rest : 13,
  fuses_compare_and_write : 1, fuses_reserved : 15,
  fna : 8,
  vwc_present : 1, vwc_rest : 7,
  rest : 28560

/-- Bytes of third_party/spdk/nvme.h:701-821; `lbaf[16]` is one field, see `lbads`. -/
packed_layout IdentifyNamespace where
  nsze : 64, ncap : 64, nuse : 64,
  nsfeat_thin_prov : 1, nsfeat_rest : 7,
  nlbaf : 8,
  flbas_format : 4, flbas_rest : 4,
  mc : 8,
  dpc_pit1 : 1, dpc_pit2 : 1, dpc_pit3 : 1, dpc_md_start : 1, dpc_md_end : 1, dpc_pad : 3,
  dps_pit : 3, dps_md_start : 1, dps_reserved : 4,
  nmic : 8, nsrescap : 8, fpi : 8, dlfeat : 8,
  nawun : 16, nawupf : 16, nacwu : 16, nabsn : 16, nabo : 16, nabspf : 16, noiob : 16,
  nvmcap : 128, reserved64 : 320,
  nguid_0 : 64, nguid_1 : 64, eui64 : 64,
  lbaf : 512,
  reserved6 : 1536, vendor_specific : 29696

/-- `lbaf[i].lbads`: entries of 4 bytes (ms 16 bits, lbads 8 bits, rp 2, reserved 6) starting at `lbaf`.
third_party/spdk/nvme.h:811-816 -/
def IdentifyNamespace.lbads (i : Nat) : Fld 8 := ⟨IdentifyNamespace.lbaf.off + 32 * i + 16⟩

end Scsi2Nvme.Nvme
