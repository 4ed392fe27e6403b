import Verif.Model.Driver
/-!
# The requests of third_party/e2e/nvme_driver.c in detail

`Model/Driver.lean` shows of a request to the block layer only what the engine can see.  Here a request has its direction, timeout, mapped
buffer and `special` pointer, and what the block layer reports about it in `struct nvme_request` is kept apart from what it writes where
`special` points.  `C110_same` shows that for the engine the two models are the same.
-/

namespace Scsi2Nvme.Driver
open Scsi2Nvme Engine

/-- `REQ_OP_DRV_IN`, `REQ_OP_DRV_OUT`: third_party/e2e/nvme_driver.c:51 -/
inductive ReqOp where
  | drvIn
  | drvOut
deriving DecidableEq, Repr

/-- What is assigned to a `struct request` before it is executed: third_party/e2e/nvme_driver.c:48-64, 87-103.  Simplified: the flags
`REQ_FAILFAST_DRIVER` and `RQF_DONTPREP`, which are the same for all requests; `special` points to the completion. -/
structure Rq where
  op : ReqOp
  /-- in jiffies (compare the default `60 * HZ` in line 87) -/
  timeout : Nat
  /-- the buffer mapped by `blk_rq_map_kern` -/
  bio : Option (U64 × U32)
deriving DecidableEq, Repr

/-- What `blk_execute_rq` leaves behind: the state of the block layer, the memory, the completion `special` points to, and `status` and
`result` of `struct nvme_request` (third_party/e2e/nvme_driver.c:27-34, 106, 108). -/
structure Ended (β : Type) where
  blk : β
  mem : Mem
  special : Nvme.GenericQueueEntryCpl
  status : U16
  result : U64

/-- The block layer of the kernel and the device behind it, as in `BlockLayer`, with requests: third_party/e2e/nvme_driver.c:40-144.  The
last argument of `execute` is the completion `special` points to, before. -/
structure RequestLayer (β : Type) where
  adminQueue : Bool
  ioQueue : Bool
  disk : Bool
  allocRequest : β → ReqOp → Except Int β
  mapKern : β → U64 → U32 → Int × β
  freeRequest : β → β
  execute : β → Mem → Submission → Rq → Nvme.GenericQueueEntryCpl → Ended β

/-- What `nvme_submit_user_cmd` prints about the status: third_party/e2e/nvme_driver.c:109-115 -/
inductive Said where
  | success
  | linuxError (status : U16)
  | nvmeError (status : U16)
deriving DecidableEq, Repr

/-- One executed request: the submission, the request, the status and result reported in `struct nvme_request`, and what was printed
(ghost state of third_party/e2e/nvme_driver.c:106-116). -/
structure Execution where
  sub : Submission
  rq : Rq
  status : U16
  result : U64
  said : Said
deriving DecidableEq, Repr

/-- The state of the driver, as in `State`, with a ghost list of the executed requests (latest first): third_party/e2e/nvme_driver.c:66-126. -/
structure FullState (β : Type) where
  blk : β
  reqs : List ReqEvent
  done : List Execution

/-- As `Result`: third_party/e2e/nvme_driver.c:66-126 -/
structure FullResult (β : Type) where
  ret : Option Int
  state : FullState β
  mem : Mem
  cpl : Nvme.GenericQueueEntryCpl

/-- The kernel's `nvme_is_write` (include/linux/nvme.h), called in third_party/e2e/nvme_driver.c:51: bit 0 of the opcode.  Simplified: the
opcode 7Fh of fabrics commands, for which it is another bit. -/
def nvme_is_write (cmd : List Byte) : Bool := (cmd.headD 0).getLsbD 0

/-- Lines 109-115 of third_party/e2e/nvme_driver.c; `status` is a `u16`, so `status < 0` is a comparison of ints which is never true. -/
def printStatus (status : U16) : Said :=
  if status = 0 then .success
  else if (status.toNat : Int) < 0 then .linuxError status
  else .nvmeError status

/-- `submit_req_done`: third_party/e2e/nvme_driver.c:40-46 -/
def submit_req_done' (L : RequestLayer β) (st : FullState β) : FullState β := ⟨L.freeRequest st.blk, .freed :: st.reqs, st.done⟩

/-- `blk_execute_rq` and what follows it: third_party/e2e/nvme_driver.c:105-117. -/
def execute_request (L : RequestLayer β) (st : FullState β) (mem : Mem) (sub : Submission) (rq : Rq) (cpl : Nvme.GenericQueueEntryCpl) :
    FullState β × Mem × Nvme.GenericQueueEntryCpl :=
  let x := L.execute st.blk mem sub rq cpl
  let status := x.status
  (⟨x.blk, .ran sub :: st.reqs, ⟨sub, rq, status, x.result, printStatus status⟩ :: st.done⟩, x.mem, x.special)

/-- `nvme_submit_user_cmd`: third_party/e2e/nvme_driver.c:66-126, with `nvme_alloc_request` (48-64).  `HZ` is the kernel's number of jiffies
per second.  For `out_unmap` see `Model/Driver.lean`. -/
def nvme_submit_user_cmd' (HZ : Nat) (L : RequestLayer β) (queue : Bool) (st : FullState β) (mem : Mem) (sub : Submission)
    (cpl : Nvme.GenericQueueEntryCpl) (timeout : Nat) : FullResult β :=
  if queue = false then ⟨none, st, mem, cpl⟩
  else
    let op : ReqOp := if nvme_is_write sub.cmd then .drvOut else .drvIn
    match L.allocRequest st.blk op with
    | .error e => ⟨some e, st, mem, cpl⟩
    | .ok b =>
      let st : FullState β := ⟨b, .got :: st.reqs, st.done⟩
      let rq : Rq := ⟨op, if timeout ≠ 0 then timeout else 60 * HZ, none⟩
      if sub.buffer ≠ 0 ∧ sub.bufflen ≠ 0 then
        let r := L.mapKern st.blk sub.buffer sub.bufflen
        let st := { st with blk := r.2 }
        if r.1 ≠ 0 then ⟨some r.1, submit_req_done' L st, mem, cpl⟩
        else
          let rq := { rq with bio := some (sub.buffer, sub.bufflen) }
          if L.disk = false then ⟨some (-19), submit_req_done' L st, mem, cpl⟩
          else
            let x := execute_request L st mem sub rq cpl
            ⟨some 0, submit_req_done' L x.1, x.2.1, x.2.2⟩
      else
        let x := execute_request L st mem sub rq cpl
        ⟨none, submit_req_done' L x.1, x.2.1, x.2.2⟩

/-- `submit_admin_command`: third_party/e2e/nvme_driver.c:128-135 -/
def submit_admin_command' (HZ : Nat) (L : RequestLayer β) (st : FullState β) (mem : Mem) (sub : Submission)
    (cpl : Nvme.GenericQueueEntryCpl) (timeout : Nat) : FullResult β := nvme_submit_user_cmd' HZ L L.adminQueue st mem sub cpl timeout

/-- `submit_io_command`: third_party/e2e/nvme_driver.c:137-144 -/
def submit_io_command' (HZ : Nat) (L : RequestLayer β) (st : FullState β) (mem : Mem) (sub : Submission)
    (cpl : Nvme.GenericQueueEntryCpl) (timeout : Nat) : FullResult β := nvme_submit_user_cmd' HZ L L.ioQueue st mem sub cpl timeout

/-- third_party/e2e/engine.cc:11 -/
def kTimeout : Nat := 60

/-- The driver as the engine sees it: third_party/e2e/engine.cc:57-69. -/
def fullDevice (HZ : Nat) (L : RequestLayer β) : Device (FullState β) := fun st mem sub =>
  let r := if sub.is_admin then submit_admin_command' HZ L st mem sub {} kTimeout else submit_io_command' HZ L st mem sub {} kTimeout
  (r.state, r.mem, r.cpl)

end Scsi2Nvme.Driver
