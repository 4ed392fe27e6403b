import Verif.Model.Common
/-!
# Model of lib/translator/mode_sense.cc
-/

namespace Scsi2Nvme.ModeSense
open Scsi2Nvme

/-- `kCachingModePage`: lib/translator/mode_sense.cc:31-37. -/
def kCachingModePage : Scsi.CachingModePage :=
  { page_code := Scsi.ModePageCode.kCacheMode, spf := 0, ps := 0, page_length := 0x12, ic := 1 }

/-- `kControlModePage`: lib/translator/mode_sense.cc:41-62. -/
def kControlModePage : Scsi.ControlModePage :=
  { page_code := Scsi.ModePageCode.kControlMode, spf := 0, ps := 0, page_length := 0x0a
    rlec := 0, gltsd := 1, d_sense := 1, dpicz := 0, tmf_only := 0, tst := 0
    qerr := 0x01, nuar := 0, qam := 0, swp := 0, ua_intlck_ctrl := 0, rac := 0
    autoload_mode := 0, tas := 0x01, ato := 0, busy_timeout_period := 0xFFFF, estct := 0 }

/-- `kPowerConditionModePage`: lib/translator/mode_sense.cc:66-71. -/
def kPowerConditionModePage : Scsi.PowerConditionModePage :=
  { page_code := Scsi.ModePageCode.kPowerConditionMode, spf := 0, ps := 0, page_length := 0x26
    pm_bg_precedence := 0 }

/-- `CommonCmdAttributes`: lib/translator/mode_sense.cc:73-78. -/
structure CommonCmdAttributes where
  page_code : BitVec 6
  pc : BitVec 2
  dbd : Bool
  llbaa : Bool

/-- `GenerateBlockDescriptorIdentifyCmd`: lib/translator/mode_sense.cc:81-97. -/
def GenerateBlockDescriptorIdentifyCmd (E : Env) (nvme_wrapper : NvmeCmdWrapper)
    (allocation : Allocation) (page_size nsid : U32) :
    M (StatusCode × NvmeCmdWrapper × Allocation) := do
  let wr := { nvme_wrapper with cmd := { opc := Nvme.AdminOpcode.kIdentify, nsid := nsid } }
  let (st, allocation) ← allocation.SetPages E page_size 1 0
  if st = .kFailure then pure (.kFailure, wr, allocation)
  else
    pure (.kSuccess,
      { cmd := { wr.cmd with prp1 := allocation.data_addr },
        buffer_len := page_size * 1, is_admin := true },
      allocation)

/-- `GenerateCacheGetFeaturesCmd`: lib/translator/mode_sense.cc:100-126.  The command is copied bytewise
into the wrapper; `buffer_len` is not assigned. -/
def GenerateCacheGetFeaturesCmd (nvme_wrapper : NvmeCmdWrapper) (pc : BitVec 2) (nsid : U32) :
    StatusCode × NvmeCmdWrapper :=
  let sel : Option (BitVec 2) :=
    if pc = Scsi.PageControl.kCurrent then some Nvme.FeatureSelect.kCurrent
    else if pc = Scsi.PageControl.kChangeable then some Nvme.FeatureSelect.kSaved
    else if pc = Scsi.PageControl.kDefault then some Nvme.FeatureSelect.kDefault
    else none
  match sel with
  | none => (.kFailure, nvme_wrapper)
  | some sel =>
    let tmp : Nvme.GetFeaturesCmd :=
      { opc := Nvme.AdminOpcode.kGetFeatures, nsid := nsid, sel := sel,
        fid := Nvme.FeatureType.kVolatileWriteCache }
    (.kSuccess,
      { nvme_wrapper with cmd := Nvme.GenericQueueEntryCmd.ofBytes tmp.toBytes, is_admin := true })

/-- `GetModeDataLength`: lib/translator/mode_sense.cc:129-160.  All sums are far below `2^16`. -/
def GetModeDataLength (a : CommonCmdAttributes) (is_mode_10 : Bool) : U16 :=
  let total0 := if is_mode_10 then Scsi.ModeParameter10Header.size - 2
    else Scsi.ModeParameter6Header.size - 1
  let total1 :=
    if a.dbd then total0
    else if a.llbaa then total0 + Scsi.LongLbaBlockDescriptor.size
    else total0 + Scsi.ShortLbaBlockDescriptor.size
  let total2 :=
    if a.page_code = Scsi.ModePageCode.kCacheMode then total1 + Scsi.CachingModePage.size
    else if a.page_code = Scsi.ModePageCode.kControlMode then total1 + Scsi.ControlModePage.size
    else if a.page_code = Scsi.ModePageCode.kPowerConditionMode then
      total1 + Scsi.PowerConditionModePage.size
    else if a.page_code = Scsi.ModePageCode.kAllSupportedModes then
      total1 + (Scsi.CachingModePage.size + Scsi.ControlModePage.size
        + Scsi.PowerConditionModePage.size)
    else total1
  BitVec.ofNat 16 total2

/-- `nvme_wrappers[i]`: element of the wrapper array, undefined outside of it: lib/translator/mode_sense.cc:170, 189. -/
def wrapperAt (ws : Arr3 NvmeCmdWrapper) (i : Nat) : M NvmeCmdWrapper :=
  match ws.get? i with
  | some w => pure w
  | none => M.ub .arrayIndex

/-- Assignment to `nvme_wrappers[i]`: lib/translator/mode_sense.cc:170, 189. -/
def setWrapper (ws : Arr3 NvmeCmdWrapper) (i : Nat) (x : NvmeCmdWrapper) : M (Arr3 NvmeCmdWrapper) :=
  match ws.set? i x with
  | some ws' => pure ws'
  | none => M.ub .arrayIndex

/-- The part of `ModeSenseToNvme` after the block descriptors: lib/translator/mode_sense.cc:177-190. -/
def modeSensePage (a : CommonCmdAttributes) (ws : Arr3 NvmeCmdWrapper) (allocation : Allocation)
    (nsid : U32) (cmd_count : Nat) :
    M (StatusCode × Arr3 NvmeCmdWrapper × Allocation × Nat) :=
  if a.page_code ≠ Scsi.ModePageCode.kCacheMode
      ∧ a.page_code ≠ Scsi.ModePageCode.kAllSupportedModes then
    if a.page_code = Scsi.ModePageCode.kControlMode
        ∨ a.page_code = Scsi.ModePageCode.kPowerConditionMode then
      pure (.kSuccess, ws, allocation, cmd_count)
    else pure (.kFailure, ws, allocation, cmd_count)
  else do
    let wr ← wrapperAt ws cmd_count
    let r := GenerateCacheGetFeaturesCmd wr a.pc nsid
    let ws ← setWrapper ws cmd_count r.2
    pure (r.1, ws, allocation, cmd_count + 1)

/-- `ModeSenseToNvme`: lib/translator/mode_sense.cc:163-191. -/
def ModeSenseToNvme (E : Env) (a : CommonCmdAttributes) (ws : Arr3 NvmeCmdWrapper)
    (allocation : Allocation) (page_size nsid : U32) (cmd_count : Nat) :
    M (StatusCode × Arr3 NvmeCmdWrapper × Allocation × Nat) :=
  if a.dbd then modeSensePage a ws allocation nsid cmd_count
  else do
    let wr ← wrapperAt ws cmd_count
    let (st, wr, allocation) ← GenerateBlockDescriptorIdentifyCmd E wr allocation page_size nsid
    let ws ← setWrapper ws cmd_count wr
    if st ≠ .kSuccess then pure (st, ws, allocation, cmd_count + 1)
    else modeSensePage a ws allocation nsid (cmd_count + 1)

/-- `WriteMode6Header`: lib/translator/mode_sense.cc:196-210. -/
def WriteMode6Header (a : CommonCmdAttributes) (buffer : Span) : M Bool :=
  let header : Scsi.ModeParameter6Header :=
    { mode_data_length := (GetModeDataLength a false).setWidth 8
      dpofua := 0b01
      bdl := if a.dbd then 0 else BitVec.ofNat 8 Scsi.ShortLbaBlockDescriptor.size }
  WriteValue' header.toBytes buffer

/-- `WriteMode10Header`: lib/translator/mode_sense.cc:213-232. -/
def WriteMode10Header (a : CommonCmdAttributes) (buffer : Span) : M Bool :=
  let header : Scsi.ModeParameter10Header :=
    { mode_data_length := htons (GetModeDataLength a true)
      dpofua := 0b01
      longlba := if a.llbaa then 1 else 0
      bdl := if a.dbd then 0
        else if a.llbaa then htons (BitVec.ofNat 16 Scsi.LongLbaBlockDescriptor.size)
        else htons (BitVec.ofNat 16 Scsi.ShortLbaBlockDescriptor.size) }
  WriteValue' header.toBytes buffer

/-- `1 << lbads` on an `int`, converted to `uint32_t`: undefined for 32 and more: lib/translator/mode_sense.cc:251, 259. -/
def shiftLbads (lbads : Byte) : M U32 :=
  if lbads.toNat ≥ 32 then M.ub .shift else pure (1#32 <<< lbads.toNat)

/-- `WriteBlockDescriptor`: lib/translator/mode_sense.cc:237-264.  The second component is `write_len`.
The cast cannot fail; a null `prp1` is dereferenced like any other address. -/
def WriteBlockDescriptor (identify : Nvme.GenericQueueEntryCmd) (buffer : Span) (llbaa : Bool) :
    M (Bool × Nat) := do
  let page ← load identify.prp1.toNat 4096
  let ncap := getF page Nvme.IdentifyNamespace.ncap
  let lbads := getF page (Nvme.IdentifyNamespace.lbads
    (getF page Nvme.IdentifyNamespace.flbas_format).toNat)
  if llbaa then do
    let len ← shiftLbads lbads
    let lbd : Scsi.LongLbaBlockDescriptor :=
      { number_of_blocks := bswap_64 ncap, logical_block_length := htonl len }
    let ok ← WriteValue' lbd.toBytes buffer
    pure (ok, Scsi.LongLbaBlockDescriptor.size)
  else do
    let len ← shiftLbads lbads
    let lbl_be : U32 := htonl len
    let lbl_be := if isLittleEndian host then lbl_be >>> 8 else lbl_be
    let sbd : Scsi.ShortLbaBlockDescriptor :=
      { number_of_blocks := htonl ((htolll ncap).setWidth 32),
        logical_block_length := lbl_be.setWidth 24 }
    let ok ← WriteValue' sbd.toBytes buffer
    pure (ok, Scsi.ShortLbaBlockDescriptor.size)

/-- `WritePageData`: lib/translator/mode_sense.cc:267-294.  A page code outside of the four cases flows
off the end of the function. -/
def WritePageData (page_code : BitVec 6) (get_features_result : U32) (buffer : Span) : M Bool :=
  let caching : Scsi.CachingModePage :=
    { kCachingModePage with wce := (1#32 &&& get_features_result).setWidth 1 }
  if page_code = Scsi.ModePageCode.kCacheMode then WriteValue' caching.toBytes buffer
  else if page_code = Scsi.ModePageCode.kControlMode then
    WriteValue' kControlModePage.toBytes buffer
  else if page_code = Scsi.ModePageCode.kPowerConditionMode then
    WriteValue' kPowerConditionModePage.toBytes buffer
  else if page_code = Scsi.ModePageCode.kAllSupportedModes then do
    let ok ← WriteValue' caching.toBytes buffer
    if ok then do
      let buffer := buffer.subspan Scsi.CachingModePage.size
      let ok ← WriteValue' kControlModePage.toBytes buffer
      if ok then
        WriteValue' kPowerConditionModePage.toBytes (buffer.subspan Scsi.ControlModePage.size)
      else pure false
    else pure false
  else M.ub .missingReturn

/-- The part of `ModeSenseToScsi` after the header: lib/translator/mode_sense.cc:309-324. -/
def modeSenseBody (a : CommonCmdAttributes) (get_features_result : U32)
    (identify : Nvme.GenericQueueEntryCmd) (buffer : Span) : M StatusCode :=
  if a.dbd then do
    let _ ← WritePageData a.page_code get_features_result buffer
    pure .kSuccess
  else do
    let (ok, write_len) ← WriteBlockDescriptor identify buffer a.llbaa
    if ok then do
      let _ ← WritePageData a.page_code get_features_result (buffer.subspan write_len)
      pure .kSuccess
    else pure .kSuccess

/-- `ModeSenseToScsi`: lib/translator/mode_sense.cc:296-325. -/
def ModeSenseToScsi (a : CommonCmdAttributes) (is_mode_10 : Bool) (get_features_result : U32)
    (identify : Nvme.GenericQueueEntryCmd) (buffer : Span) : M StatusCode :=
  if is_mode_10 then do
    let ok ← WriteMode10Header a buffer
    if ok then
      modeSenseBody a get_features_result identify (buffer.subspan Scsi.ModeParameter10Header.size)
    else pure .kSuccess
  else do
    let ok ← WriteMode6Header a buffer
    if ok then
      modeSenseBody a get_features_result identify (buffer.subspan Scsi.ModeParameter6Header.size)
    else pure .kSuccess

/-- The attributes taken from a MODE SENSE(6) CDB: lib/translator/mode_sense.cc:344-347, 389-392. -/
def attrs6 (c : Scsi.ModeSense6Command) : CommonCmdAttributes :=
  { page_code := c.page_code, pc := c.pc, dbd := c.dbd == 1, llbaa := false }

/-- The attributes taken from a MODE SENSE(10) CDB: lib/translator/mode_sense.cc:368-371, 410-413. -/
def attrs10 (c : Scsi.ModeSense10Command) : CommonCmdAttributes :=
  { page_code := c.page_code, pc := c.pc, dbd := c.dbd == 1, llbaa := c.llbaa == 1 }

/-- `ModeSense6ToNvme`: lib/translator/mode_sense.cc:331-350. -/
def ModeSense6ToNvme (E : Env) (scsi_cmd : List Byte) (ws : Arr3 NvmeCmdWrapper)
    (allocation : Allocation) (page_size nsid : U32) (cmd_count : Nat) (alloc_len : U32) :
    M (StatusCode × Arr3 NvmeCmdWrapper × Allocation × Nat × U32) :=
  match readValue Scsi.ModeSense6Command.size Scsi.ModeSense6Command.ofBytes scsi_cmd with
  | none => pure (.kFailure, ws, allocation, cmd_count, alloc_len)
  | some c => do
    let (st, ws, allocation, cmd_count) ←
      ModeSenseToNvme E (attrs6 c) ws allocation page_size nsid cmd_count
    pure (st, ws, allocation, cmd_count, c.alloc_length.setWidth 32)

/-- `ModeSense10ToNvme`: lib/translator/mode_sense.cc:354-374. -/
def ModeSense10ToNvme (E : Env) (scsi_cmd : List Byte) (ws : Arr3 NvmeCmdWrapper)
    (allocation : Allocation) (page_size nsid : U32) (cmd_count : Nat) (alloc_len : U32) :
    M (StatusCode × Arr3 NvmeCmdWrapper × Allocation × Nat × U32) :=
  match readValue Scsi.ModeSense10Command.size Scsi.ModeSense10Command.ofBytes scsi_cmd with
  | none => pure (.kFailure, ws, allocation, cmd_count, alloc_len)
  | some c => do
    let (st, ws, allocation, cmd_count) ←
      ModeSenseToNvme E (attrs10 c) ws allocation page_size nsid cmd_count
    pure (st, ws, allocation, cmd_count, (ntohs c.alloc_length).setWidth 32)

/-- `ModeSense6ToScsi`: lib/translator/mode_sense.cc:378-395. -/
def ModeSense6ToScsi (scsi_cmd : List Byte) (identify : Nvme.GenericQueueEntryCmd)
    (get_features_result : U32) (buffer : Span) : M StatusCode :=
  match readValue Scsi.ModeSense6Command.size Scsi.ModeSense6Command.ofBytes scsi_cmd with
  | none => pure .kFailure
  | some c => ModeSenseToScsi (attrs6 c) false get_features_result identify buffer

/-- `ModeSense10ToScsi`: lib/translator/mode_sense.cc:399-416. -/
def ModeSense10ToScsi (scsi_cmd : List Byte) (identify : Nvme.GenericQueueEntryCmd)
    (get_features_result : U32) (buffer : Span) : M StatusCode :=
  match readValue Scsi.ModeSense10Command.size Scsi.ModeSense10Command.ofBytes scsi_cmd with
  | none => pure .kFailure
  | some c => ModeSenseToScsi (attrs10 c) true get_features_result identify buffer

end Scsi2Nvme.ModeSense
