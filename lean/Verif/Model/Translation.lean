import Verif.Model.Read
import Verif.Model.Write
import Verif.Model.Misc
import Verif.Model.Unmap
import Verif.Model.ReportLuns
import Verif.Model.ModeSense
import Verif.Model.Inquiry
import Verif.Model.Status
/-!
# Model of lib/translator/translation.h and lib/translator/translation.cc
-/

namespace Scsi2Nvme

/-- lib/translator/translation.cc:30 -/
def kPageSize : U32 := 4096
/-- lib/translator/translation.cc:31 -/
def kLbaSize : U32 := 4096

/-- lib/translator/translation.h:24 -/
inductive ApiStatus where
  | kSuccess
  | kFailure
deriving DecidableEq, Repr

/-- lib/translator/translation.h:26-29 -/
structure BeginResponse where
  status : ApiStatus
  alloc_len : U32
deriving DecidableEq, Repr

/-- lib/translator/translation.h:31-34 -/
structure CompleteResponse where
  status : ApiStatus
  scsi_status : Byte
deriving DecidableEq, Repr

/-- The data members of `Translation`: lib/translator/translation.h:65-70. -/
structure Translation where
  pipeline_status : StatusCode
  scsi_cmd : Span
  nvme_cmd_count : Nat
  nvme_wrappers : Arr3 NvmeCmdWrapper
  allocations : Arr3 Allocation
deriving DecidableEq, Repr

/-- The constructor: lib/translator/translation.h:38-41.  `nvme_wrappers_` is not initialised; `ws` stands
for its indeterminate contents. -/
def Translation.init (ws : Arr3 NvmeCmdWrapper) : Translation :=
  { pipeline_status := .kUninitialized, scsi_cmd := Span.null, nvme_cmd_count := 0,
    nvme_wrappers := ws, allocations := ⟨{}, {}, {}⟩ }

/-- `GetNvmeWrappers`: lib/translator/translation.cc:290-292.  The span covers the first
`nvme_cmd_count_` elements of the array. -/
def Translation.GetNvmeWrappers (t : Translation) : List NvmeCmdWrapper :=
  t.nvme_wrappers.toList.take t.nvme_cmd_count

/-- The body of the loop of `FlushMemory`: lib/translator/translation.cc:302-310. -/
def flushAllocation (E : Env) (a : Allocation) : M Allocation := do
  let a ←
    if a.data_addr ≠ 0 then do
      DeallocPages E a.data_addr a.data_page_count
      pure { a with data_addr := 0 }
    else pure a
  if a.mdata_addr ≠ 0 then do
    DeallocPages E a.mdata_addr a.mdata_page_count
    pure { a with mdata_addr := 0 }
  else pure a

/-- The loop of `FlushMemory`: lib/translator/translation.cc:301-311, `n` iterations left, at index `i`. -/
def flushLoop (E : Env) : Nat → Nat → Arr3 Allocation → M (Arr3 Allocation)
  | 0, _, as => pure as
  | n + 1, i, as =>
    match as.get? i with
    | none => M.ub .arrayIndex
    | some a => do
      let a ← flushAllocation E a
      match as.set? i a with
      | none => M.ub .arrayIndex
      | some as => flushLoop E n (i + 1) as

/-- `FlushMemory`: lib/translator/translation.cc:300-312. -/
def Translation.FlushMemory (E : Env) (t : Translation) : M Translation := do
  let as ← flushLoop E t.nvme_cmd_count 0 t.allocations
  pure { t with allocations := as }

/-- `AbortPipeline`: lib/translator/translation.cc:294-298. -/
def Translation.AbortPipeline (E : Env) (t : Translation) : M Translation := do
  let t ← ({ t with pipeline_status := .kUninitialized }).FlushMemory E
  pure { t with nvme_cmd_count := 0 }

/-! ## Begin -/

/-- The part of the object, and of the response, which the cases of the `switch` in `Begin` change:
lib/translator/translation.cc:60-163. -/
structure Pipe where
  status : StatusCode
  count : Nat
  ws : Arr3 NvmeCmdWrapper
  as : Arr3 Allocation
  alloc_len : U32

/-- lib/translator/translation.cc:61-66 -/
def beginInquiry (E : Env) (cmd : List Byte) (nsid : U32) (p : Pipe) : M Pipe := do
  let r ← Inquiry.InquiryToNvme E cmd p.ws.e0 p.ws.e1 kPageSize nsid p.as.e0 p.as.e1 p.alloc_len
  pure { status := r.status, count := 2, ws := { p.ws with e0 := r.wr_ns, e1 := r.wr_ctrl }
         as := { p.as with e0 := r.a0, e1 := r.a1 }, alloc_len := r.alloc_len }

/-- lib/translator/translation.cc:71-75 -/
def beginModeSense6 (E : Env) (cmd : List Byte) (nsid : U32) (p : Pipe) : M Pipe := do
  let (st, ws, a, n, al) ←
    ModeSense.ModeSense6ToNvme E cmd p.ws p.as.e0 kPageSize nsid p.count p.alloc_len
  pure { status := st, count := n, ws := ws, as := { p.as with e0 := a }, alloc_len := al }

/-- lib/translator/translation.cc:67-75.  There is no `break` at the end of the UNMAP case: control falls
through to the MODE SENSE(6) case, which also receives the UNMAP command block. -/
def beginUnmap (E : Env) (cmd : List Byte) (buffer : Span) (nsid : U32) (p : Pipe) : M Pipe := do
  let (st, wr, a) ← Unmap.UnmapToNvme E cmd buffer p.ws.e0 kPageSize nsid p.as.e0
  let p := { p with status := st, count := 1, ws := { p.ws with e0 := wr }, as := { p.as with e0 := a } }
  beginModeSense6 E cmd nsid p

/-- lib/translator/translation.cc:85-90 -/
def beginReportLuns (E : Env) (cmd : List Byte) (p : Pipe) : M Pipe := do
  let (st, wr, a, al) ←
    ReportLuns.ReportLunsToNvme E cmd p.ws.e0 kPageSize p.as.e0 p.alloc_len
  pure { status := st, count := 1, ws := { p.ws with e0 := wr }, as := { p.as with e0 := a },
         alloc_len := al }

/-- lib/translator/translation.cc:80-90.  No `break`: falls through to REPORT LUNS. -/
def beginMaintenanceIn (E : Env) (cmd : List Byte) (p : Pipe) : M Pipe :=
  let r := MaintenanceIn.ValidateReportSupportedOpCodes cmd p.alloc_len
  beginReportLuns E cmd { p with status := r.1, count := 0, alloc_len := r.2 }

/-- lib/translator/translation.cc:76-90.  No `break`: falls through to MAINTENANCE IN. -/
def beginModeSense10 (E : Env) (cmd : List Byte) (nsid : U32) (p : Pipe) : M Pipe := do
  let (st, ws, a, n, al) ←
    ModeSense.ModeSense10ToNvme E cmd p.ws p.as.e0 kPageSize nsid p.count p.alloc_len
  beginMaintenanceIn E cmd
    { status := st, count := n, ws := ws, as := { p.as with e0 := a }, alloc_len := al }

/-- lib/translator/translation.cc:91-96 -/
def beginReadCapacity10 (E : Env) (cmd : List Byte) (nsid : U32) (p : Pipe) : M Pipe := do
  let (st, wr, a, al) ←
    ReadCapacity.ReadCapacity10ToNvme E cmd p.ws.e0 kPageSize nsid p.as.e0 p.alloc_len
  pure { status := st, count := 1, ws := { p.ws with e0 := wr }, as := { p.as with e0 := a },
         alloc_len := al }

/-- lib/translator/translation.cc:97-99 -/
def beginRequestSense (cmd : List Byte) (p : Pipe) : Pipe :=
  let r := RequestSense.RequestSenseToNvme cmd p.alloc_len
  { p with status := r.1, alloc_len := r.2 }

/-- The common shape of lib/translator/translation.cc:100-123: the READ translators. -/
def beginRead (r : StatusCode × NvmeCmdWrapper × U32) (p : Pipe) : Pipe :=
  { p with status := r.1, count := 1, ws := { p.ws with e0 := r.2.1 }, alloc_len := r.2.2 }

/-- The common shape of lib/translator/translation.cc:129-132, 139-158: VERIFY and the WRITE
translators. -/
def beginWrite (r : StatusCode × NvmeCmdWrapper) (p : Pipe) : Pipe :=
  { p with status := r.1, count := 1, ws := { p.ws with e0 := r.2 } }

/-- The `switch` of `Begin`: lib/translator/translation.cc:60-163.  `cmd` are the bytes after the
operation code. -/
def beginSwitch (E : Env) (opc : Byte) (cmd : List Byte) (buffer : Span) (nsid : U32) (p : Pipe) :
    M Pipe :=
  if opc = Scsi.OpCode.kInquiry then beginInquiry E cmd nsid p
  else if opc = Scsi.OpCode.kUnmap then beginUnmap E cmd buffer nsid p
  else if opc = Scsi.OpCode.kModeSense6 then beginModeSense6 E cmd nsid p
  else if opc = Scsi.OpCode.kModeSense10 then beginModeSense10 E cmd nsid p
  else if opc = Scsi.OpCode.kMaintenanceIn then beginMaintenanceIn E cmd p
  else if opc = Scsi.OpCode.kReportLuns then beginReportLuns E cmd p
  else if opc = Scsi.OpCode.kReadCapacity10 then beginReadCapacity10 E cmd nsid p
  else if opc = Scsi.OpCode.kRequestSense then pure (beginRequestSense cmd p)
  else if opc = Scsi.OpCode.kRead6 then
    pure (beginRead (Read.Read6ToNvme cmd p.ws.e0 nsid kLbaSize buffer p.alloc_len) p)
  else if opc = Scsi.OpCode.kRead10 then
    pure (beginRead (Read.Read10ToNvme cmd p.ws.e0 nsid kLbaSize buffer p.alloc_len) p)
  else if opc = Scsi.OpCode.kRead12 then
    pure (beginRead (Read.Read12ToNvme cmd p.ws.e0 nsid kLbaSize buffer p.alloc_len) p)
  else if opc = Scsi.OpCode.kRead16 then
    pure (beginRead (Read.Read16ToNvme cmd p.ws.e0 nsid kLbaSize buffer p.alloc_len) p)
  else if opc = Scsi.OpCode.kSync10 then
    pure { p with status := .kSuccess, count := 1,
                  ws := { p.ws with e0 := SynchronizeCache.SynchronizeCache10ToNvme p.ws.e0 nsid } }
  else if opc = Scsi.OpCode.kVerify10 then
    pure (beginWrite (Verify.VerifyToNvme cmd p.ws.e0) p)
  else if opc = Scsi.OpCode.kTestUnitReady then pure { p with status := .kSuccess }
  else if opc = Scsi.OpCode.kWrite6 then
    pure (beginWrite (Write.Write6ToNvme cmd p.ws.e0 nsid buffer) p)
  else if opc = Scsi.OpCode.kWrite10 then
    pure (beginWrite (Write.Write10ToNvme cmd p.ws.e0 nsid buffer) p)
  else if opc = Scsi.OpCode.kWrite12 then
    pure (beginWrite (Write.Write12ToNvme cmd p.ws.e0 nsid buffer) p)
  else if opc = Scsi.OpCode.kWrite16 then
    pure (beginWrite (Write.Write16ToNvme cmd p.ws.e0 nsid buffer) p)
  else pure { p with status := .kFailure }

/-- `Begin`: lib/translator/translation.cc:35-170.  The CDB is fetched once at the start (the code reads
it through the span while it translates; nothing is written in between except to freshly allocated
pages). -/
def Translation.Begin (E : Env) (t : Translation) (scsi_cmd buffer : Span) (lun : U64) :
    M (BeginResponse × Translation) :=
  if t.pipeline_status ≠ .kUninitialized then
    pure (⟨.kFailure, 0⟩, t)
  else if scsi_cmd.len = 0 then
    pure (⟨.kSuccess, 0⟩, { t with pipeline_status := .kFailure })
  else do
    let cdb ← load scsi_cmd.ptr scsi_cmd.len
    let nsid : U32 := lun.setWidth 32 + 1
    let p ← beginSwitch E (cdb.headD 0) cdb.tail buffer nsid
      { status := .kSuccess, count := t.nvme_cmd_count, ws := t.nvme_wrappers, as := t.allocations,
        alloc_len := 0 }
    let t : Translation :=
      { pipeline_status := p.status, scsi_cmd := scsi_cmd, nvme_cmd_count := p.count,
        nvme_wrappers := p.ws, allocations := p.as }
    if p.status ≠ .kSuccess then do
      let t ← t.FlushMemory E
      pure (⟨.kSuccess, p.alloc_len⟩, { t with nvme_cmd_count := 0 })
    else pure (⟨.kSuccess, p.alloc_len⟩, t)

/-! ## Complete -/

/-- The loop over the completions: lib/translator/translation.cc:206-217.  The first status which is not
GOOD, if any. -/
def firstError : List Nvme.GenericQueueEntryCpl → Option ScsiStatus
  | [] => none
  | c :: cs =>
    let s := Status.StatusToScsi c.sct c.sc
    if s.status ≠ Scsi.Status.kGood then some s else firstError cs

/-- `cpl_data[0]`: lib/translator/translation.cc:234, 239 -/
def cplHead (cpl : List Nvme.GenericQueueEntryCpl) : M Nvme.GenericQueueEntryCpl :=
  match cpl with
  | [] => M.ub .cplIndex
  | c :: _ => pure c

/-- The `switch` of `Complete`: lib/translator/translation.cc:223-281.  Result: `pipeline_status_`. -/
def completeSwitch (E : Env) (t : Translation) (opc : Byte) (cmd : List Byte)
    (cpl : List Nvme.GenericQueueEntryCpl) (buffer_in : Span) : M StatusCode :=
  if opc = Scsi.OpCode.kVerify10 then pure t.pipeline_status
  else if opc = Scsi.OpCode.kInquiry then
    Inquiry.InquiryToScsi E cmd buffer_in t.nvme_wrappers.e0.cmd t.nvme_wrappers.e1.cmd
  else if opc = Scsi.OpCode.kModeSense6 then do
    let c ← cplHead cpl
    let _ ← ModeSense.ModeSense6ToScsi cmd t.nvme_wrappers.e0.cmd c.cdw0 buffer_in
    pure t.pipeline_status
  else if opc = Scsi.OpCode.kModeSense10 then do
    let c ← cplHead cpl
    let _ ← ModeSense.ModeSense10ToScsi cmd t.nvme_wrappers.e0.cmd c.cdw0 buffer_in
    pure t.pipeline_status
  else if opc = Scsi.OpCode.kMaintenanceIn then do
    MaintenanceIn.WriteReportSupportedOpCodesResult buffer_in
    pure t.pipeline_status
  else if opc = Scsi.OpCode.kReportLuns then
    ReportLuns.ReportLunsToScsi t.nvme_wrappers.e0.cmd buffer_in
  else if opc = Scsi.OpCode.kUnmap then pure .kSuccess
  else if opc = Scsi.OpCode.kReadCapacity10 then
    ReadCapacity.ReadCapacity10ToScsi buffer_in t.nvme_wrappers.e0.cmd
  else if opc = Scsi.OpCode.kRequestSense then RequestSense.RequestSenseToScsi cmd buffer_in
  else if opc = Scsi.OpCode.kRead6 ∨ opc = Scsi.OpCode.kRead10 ∨ opc = Scsi.OpCode.kRead12
      ∨ opc = Scsi.OpCode.kRead16 then pure .kSuccess
  else if opc = Scsi.OpCode.kSync10 then pure .kSuccess
  else if opc = Scsi.OpCode.kTestUnitReady ∨ opc = Scsi.OpCode.kWrite6 ∨ opc = Scsi.OpCode.kWrite10
      ∨ opc = Scsi.OpCode.kWrite12 ∨ opc = Scsi.OpCode.kWrite16 then pure .kSuccess
  else pure t.pipeline_status

/-- The status reported when `Begin` rejected the command: lib/translator/translation.cc:193-197. -/
def rejectedStatus : ScsiStatus :=
  ⟨Scsi.Status.kCheckCondition, Scsi.SenseKey.kIllegalRequest, Scsi.Asc.kInvalidFieldInCdb,
   Scsi.Ascq.kNoAdditionalSenseInfo⟩

/-- `Complete`: lib/translator/translation.cc:172-288.  The CDB is fetched again through the span saved
by `Begin`.  The completion span is represented by the list of its entries. -/
def Translation.Complete (E : Env) (t : Translation) (cpl : List Nvme.GenericQueueEntryCpl)
    (buffer_in sense_buffer : Span) : M (CompleteResponse × Translation) :=
  if t.pipeline_status = .kUninitialized then pure (⟨.kFailure, 0⟩, t)
  else if cpl.length ≠ t.nvme_cmd_count then do
    let t ← t.AbortPipeline E
    pure (⟨.kFailure, 0⟩, t)
  else if t.pipeline_status ≠ .kSuccess then do
    let _ ← FillSenseBuffer E sense_buffer rejectedStatus
    let t ← t.AbortPipeline E
    pure (⟨.kSuccess, rejectedStatus.status⟩, t)
  else
    match firstError cpl with
    | some s => do
      let _ ← FillSenseBuffer E sense_buffer s
      let t ← t.AbortPipeline E
      pure (⟨.kSuccess, s.status⟩, t)
    | none => do
      let cdb ← load t.scsi_cmd.ptr t.scsi_cmd.len
      let st ← completeSwitch E t (cdb.headD 0) cdb.tail cpl buffer_in
      let t ← ({ t with pipeline_status := st }).AbortPipeline E
      pure (⟨.kSuccess, 0⟩, t)

end Scsi2Nvme
