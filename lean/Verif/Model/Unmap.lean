import Verif.Model.Common
/-!
# Model of lib/translator/unmap.cc
-/

namespace Scsi2Nvme.Unmap
open Scsi2Nvme

/-- The loop copying the block descriptors: lib/translator/unmap.cc:78-84.  `none`: a `ReadValue`
failed. -/
def readDescriptors : Nat → Span → M (Option (List Scsi.UnmapBlockDescriptor))
  | 0, _ => pure (some [])
  | n + 1, s => do
    let r ← ReadValue Scsi.UnmapBlockDescriptor.size Scsi.UnmapBlockDescriptor.ofBytes s
    match r with
    | none => pure none
    | some d =>
      let rest ← readDescriptors n (s.subspan Scsi.UnmapBlockDescriptor.size)
      match rest with
      | none => pure none
      | some ds => pure (some (d :: ds))

/-- The loop writing the dataset management ranges: lib/translator/unmap.cc:93-103.  The code assigns
`lba` (bytes 8-15 of the 16-byte range) and `lb_count` (bytes 4-7); `context_attributes` is left as it
is.  `false`: the pointer cast failed. -/
def writeRanges : List Scsi.UnmapBlockDescriptor → Span → M Bool
  | [], _ => pure true
  | d :: ds, s =>
    let dme := SafePointerCast Nvme.DatasetManagmentRange.size s
    if dme = 0 then pure false
    else do
      store (dme + 8) (leBytes 8 (bswap_64 d.logical_block_addr).toNat)
      store (dme + 4) (leBytes 4 (bswap_32 d.logical_block_count).toNat)
      writeRanges ds (s.subspan Nvme.DatasetManagmentRange.size)

/-- The NVMe command of lib/translator/unmap.cc:106-113, copied bytewise into the wrapper. -/
def datasetCmd (nsid : U32) (count : Nat) (addr : U64) : Nvme.GenericQueueEntryCmd :=
  let c : Nvme.DatasetManagementCmd :=
    { opc := Nvme.NvmOpcode.kDatasetManagement, nsid := nsid,
      nr := (BitVec.ofNat 32 count - 1).setWidth 8, ad := 1, prp1 := addr }
  Nvme.GenericQueueEntryCmd.ofBytes c.toBytes

/-- `UnmapToNvme`: lib/translator/unmap.cc:29-120. -/
def UnmapToNvme (E : Env) (scsi_cmd : List Byte) (buffer_out : Span) (nvme_wrapper : NvmeCmdWrapper)
    (page_size nsid : U32) (allocation : Allocation) :
    M (StatusCode × NvmeCmdWrapper × Allocation) :=
  match readValue Scsi.UnmapCommand.size Scsi.UnmapCommand.ofBytes scsi_cmd with
  | none => pure (.kFailure, nvme_wrapper, allocation)
  | some c =>
    if (ntohs c.param_list_length).toNat < Scsi.UnmapParamList.size then
      pure (.kFailure, nvme_wrapper, allocation)
    else if c.anchor = 1 then pure (.kNoTranslation, nvme_wrapper, allocation)
    else do
      let r ← ReadValue Scsi.UnmapParamList.size Scsi.UnmapParamList.ofBytes buffer_out
      match r with
      | none => pure (.kFailure, nvme_wrapper, allocation)
      | some param_list =>
        let buffer_out := buffer_out.subspan Scsi.UnmapParamList.size
        let bd_data_length := (ntohs param_list.block_desc_data_length).toNat
        if buffer_out.len < bd_data_length then pure (.kFailure, nvme_wrapper, allocation)
        else if bd_data_length % Scsi.UnmapBlockDescriptor.size ≠ 0 then
          pure (.kInvalidInput, nvme_wrapper, allocation)
        else
          let count := bd_data_length / Scsi.UnmapBlockDescriptor.size
          if count = 0 ∨ count > 256 then pure (.kNoTranslation, nvme_wrapper, allocation)
          else do
            let ds ← readDescriptors count buffer_out
            match ds with
            | none => pure (.kFailure, nvme_wrapper, allocation)
            | some ds =>
              let (st, allocation) ← allocation.SetPages E page_size 1 0
              if st = .kFailure then pure (.kFailure, nvme_wrapper, allocation)
              else do
                let dmr_span : Span :=
                  ⟨allocation.data_addr.toNat, Nvme.DatasetManagmentRange.size * count⟩
                let ok ← writeRanges ds dmr_span
                if ok then
                  pure (.kSuccess,
                    { cmd := datasetCmd nsid count allocation.data_addr,
                      buffer_len := page_size * 1, is_admin := true },
                    allocation)
                else pure (.kFailure, nvme_wrapper, allocation)

end Scsi2Nvme.Unmap
