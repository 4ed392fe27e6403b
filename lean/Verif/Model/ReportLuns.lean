import Verif.Model.Common
/-!
# Model of lib/translator/report_luns.cc and lib/translator/read_capacity_10.cc
-/

namespace Scsi2Nvme

namespace ReportLuns

/-- `GetNsListLength`: lib/translator/report_luns.cc:30-37.  `page` is the image of the namespace list
(1024 ids of 4 bytes); `fuel` counts down from `kIdentifyNsListMaxLength`. -/
def GetNsListLength : Nat → List Byte → Nat
  | 0, _ => 0
  | n + 1, page =>
    if leNat (page.take 4) = 0 then 0 else GetNsListLength n (page.drop 4) + 1

/-- `ReportLunsToNvme`: lib/translator/report_luns.cc:43-76. -/
def ReportLunsToNvme (E : Env) (scsi_cmd : List Byte) (nvme_wrapper : NvmeCmdWrapper) (page_size : U32)
    (allocation : Allocation) (alloc_len : U32) :
    M (StatusCode × NvmeCmdWrapper × Allocation × U32) :=
  match readValue Scsi.ReportLunsCommand.size Scsi.ReportLunsCommand.ofBytes scsi_cmd with
  | none => pure (.kInvalidInput, nvme_wrapper, allocation, alloc_len)
  | some c =>
    if c.select_report ≠ Scsi.SelectReport.kRestrictedMethods
        ∧ c.select_report ≠ Scsi.SelectReport.kWellKnown
        ∧ c.select_report ≠ Scsi.SelectReport.kAllLogical then
      pure (.kInvalidInput, nvme_wrapper, allocation, alloc_len)
    else do
      let alloc_len := ntohl c.alloc_length
      let wr := { nvme_wrapper with cmd := { opc := Nvme.AdminOpcode.kIdentify, cdw_0 := 0x2 } }
      let (st, allocation) ← allocation.SetPages E page_size 1 0
      if st = .kFailure then pure (.kFailure, wr, allocation, alloc_len)
      else
        pure (.kSuccess,
          { cmd := { wr.cmd with prp1 := allocation.data_addr },
            buffer_len := page_size * 1, is_admin := true },
          allocation, alloc_len)

/-- The loop writing the LUN list: lib/translator/report_luns.cc:116-124, `i` counting up, `n` entries
left. The namespace id is read from memory in each iteration. -/
def writeLuns (ns_list : Nat) (buffer : Span) : Nat → Nat → M Unit
  | _, 0 => pure ()
  | i, n + 1 => do
    let idb ← load (ns_list + 4 * i) 4
    let id : U32 := BitVec.ofNat 32 (leNat idb)
    let lun : U64 := htonll ((htoll id - 1).setWidth 64)
    let ok ← WriteValue' (leBytes 8 lun.toNat) (buffer.subspan (8 + i * 8))
    if ok then writeLuns ns_list buffer (i + 1) n else pure ()

/-- `ReportLunsToScsi`: lib/translator/report_luns.cc:80-127. -/
def ReportLunsToScsi (identify_cmd : Nvme.GenericQueueEntryCmd) (buffer : Span) : M StatusCode :=
  if buffer.len < Scsi.ReportLunsParamData.size then pure .kFailure
  else
    let ns_list := SafePointerCast 4096 ⟨identify_cmd.prp1.toNat, 4096⟩
    if ns_list = 0 then pure .kFailure
    else do
      let page ← load ns_list 4096
      let lun_count := GetNsListLength Nvme.kIdentifyNsListMaxLength page
      let allocated_list_bytes : U32 := BitVec.ofNat 32 (sizeSub buffer.len Scsi.ReportLunsParamData.size)
      let lbl0 : U32 := htonl (BitVec.ofNat 32 (lun_count * 8))
      let trunc : Bool := (ntohl lbl0).toNat > allocated_list_bytes.toNat
      let lbl : U32 := allocated_list_bytes - BitVec.ofNat 32 (allocated_list_bytes.toNat % 8)
      let list_byte_length := if trunc then htonl lbl else lbl0
      let lun_count := if trunc then lbl.toNat / 8 else lun_count
      let rlpd : Scsi.ReportLunsParamData := { list_byte_length := list_byte_length }
      let ok ← WriteValue' rlpd.toBytes buffer
      if ok then do
        writeLuns ns_list buffer 0 lun_count
        pure .kSuccess
      else pure .kSuccess

end ReportLuns

namespace ReadCapacity

/-- `ReadCapacity10ToNvme`: lib/translator/read_capacity_10.cc:25-62. -/
def ReadCapacity10ToNvme (E : Env) (raw_scsi : List Byte) (wrapper : NvmeCmdWrapper)
    (page_size nsid : U32) (allocation : Allocation) (alloc_len : U32) :
    M (StatusCode × NvmeCmdWrapper × Allocation × U32) :=
  match readValue Scsi.ReadCapacity10Command.size Scsi.ReadCapacity10Command.ofBytes raw_scsi with
  | none => pure (.kInvalidInput, wrapper, allocation, alloc_len)
  | some c =>
    if c.naca = 1 then pure (.kInvalidInput, wrapper, allocation, alloc_len)
    else do
      let alloc_len : U32 := 8
      let (st, allocation) ← allocation.SetPages E page_size 1 0
      if st ≠ .kSuccess then pure (st, wrapper, allocation, alloc_len)
      else
        pure (.kSuccess,
          { cmd := { opc := Nvme.AdminOpcode.kIdentify, nsid := nsid,
                     prp1 := allocation.data_addr, cdw_0 := 0x0 },
            buffer_len := page_size * 1, is_admin := true },
          allocation, alloc_len)

/-- `ReadCapacity10ToScsi`: lib/translator/read_capacity_10.cc:64-100. -/
def ReadCapacity10ToScsi (buffer : Span) (gen_identify_ns : Nvme.GenericQueueEntryCmd) :
    M StatusCode :=
  let identify_ns := SafePointerCast 4096 ⟨gen_identify_ns.prp1.toNat, 4096⟩
  if identify_ns = 0 then pure .kFailure
  else do
    let page ← load identify_ns 4096
    let nsze : U64 := htolll (getF page Nvme.IdentifyNamespace.nsze)
    let rlba : U32 := htonl (if nsze > 0xffffffff#64 then 0xffffffff#32 else nsze.setWidth 32)
    let lbads := getF page (Nvme.IdentifyNamespace.lbads
      (getF page Nvme.IdentifyNamespace.flbas_format).toNat)
    if lbads.toNat < 9 then pure .kFailure
    else if lbads.toNat > 31 then pure .kFailure
    else do
      let result : Scsi.ReadCapacity10Data :=
        { returned_logical_block_address := rlba
          block_length := htonl (1#32 <<< lbads.toNat) }
      let ok ← WriteValue' result.toBytes buffer
      pure (if ok then .kSuccess else .kFailure)

end ReadCapacity

end Scsi2Nvme
