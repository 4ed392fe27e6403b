import Verif.Model.Engine
/-!
# Model of third_party/e2e/nvme_driver.c

The Linux block layer and the NVMe hardware are parameters: whether the queues exist, whether a request can be
allocated, whether a buffer can be mapped, and what executing a command does are arbitrary.
-/

namespace Scsi2Nvme.Driver
open Scsi2Nvme Engine

/-- What `nvme_submit_user_cmd` does with the block layer, recorded as a ghost trace (latest first):
third_party/e2e/nvme_driver.c:66-126. -/
inductive ReqEvent where
  /-- `blk_mq_alloc_request` returned a request -/
  | got
  /-- `blk_execute_rq` ran the request with this submission -/
  | ran (sub : Submission)
  /-- `blk_mq_free_request` -/
  | freed
deriving DecidableEq, Repr

/-- The block layer of the kernel and the device behind it; `β` is its state.  The calls are
in third_party/e2e/nvme_driver.c:40-144. -/
structure BlockLayer (β : Type) where
  /-- `ns->ctrl->admin_q` is not null (nvme_driver.c:133) -/
  adminQueue : Bool
  /-- `ns->queue` is not null (nvme_driver.c:142) -/
  ioQueue : Bool
  /-- `bd_disk` is not null (nvme_driver.c:98) -/
  disk : Bool
  /-- `blk_mq_alloc_request(queue, op, 0)`: the error code if it fails (nvme_driver.c:53) -/
  allocRequest : β → Submission → Except Int β
  /-- `blk_rq_map_kern(queue, request, buffer, bufflen, GFP_KERNEL)`: 0 or an error code (nvme_driver.c:91) -/
  mapKern : β → U64 → U32 → Int × β
  /-- `blk_mq_free_request` (nvme_driver.c:44) -/
  freeRequest : β → β
  /-- `blk_execute_rq`: the device executes the command; the completion goes where `request->special` points -/
  execute : Device β

/-- The state of the driver: that of the block layer, and the ghost trace (third_party/e2e/nvme_driver.c:66-126). -/
structure State (β : Type) where
  blk : β
  reqs : List ReqEvent

/-- Result of a submission: the returned `int` (`none`: indeterminate, `ret` was not assigned), the state, the
memory, and the contents of `*cpl`: third_party/e2e/nvme_driver.c:66-126. -/
structure Result (β : Type) where
  ret : Option Int
  state : State β
  mem : Mem
  cpl : Nvme.GenericQueueEntryCpl

/-- `submit_req_done`: third_party/e2e/nvme_driver.c:40-46 -/
def submit_req_done (B : BlockLayer β) (st : State β) : State β := ⟨B.freeRequest st.blk, .freed :: st.reqs⟩

/-- `nvme_submit_user_cmd`: third_party/e2e/nvme_driver.c:66-126, with `nvme_alloc_request` (48-64).  `queue`: is the
queue pointer not null?  `cpl`: the contents of `*cpl` before.  Simplified: `printk`, the timeout, request flags; on
the path `out_unmap` (119-122) the reference count of the block device is not decremented, because the guard
`disk && bdev` is false when that path is taken (`bio->bi_disk = disk` is null).  `ns` null because
`nvme_driver_init` failed: see `Model/Unopened.lean`. -/
def nvme_submit_user_cmd (B : BlockLayer β) (queue : Bool) (st : State β) (mem : Mem) (sub : Submission)
    (cpl : Nvme.GenericQueueEntryCpl) : Result β :=
  if queue = false then ⟨none, st, mem, cpl⟩
  else
    match B.allocRequest st.blk sub with
    | .error e => ⟨some e, st, mem, cpl⟩
    | .ok b =>
      let st : State β := ⟨b, .got :: st.reqs⟩
      if sub.buffer ≠ 0 ∧ sub.bufflen ≠ 0 then
        let r := B.mapKern st.blk sub.buffer sub.bufflen
        let st := { st with blk := r.2 }
        if r.1 ≠ 0 then ⟨some r.1, submit_req_done B st, mem, cpl⟩
        else if B.disk = false then ⟨some (-19), submit_req_done B st, mem, cpl⟩
        else
          let x := B.execute st.blk mem sub
          ⟨some 0, submit_req_done B ⟨x.1, .ran sub :: st.reqs⟩, x.2.1, x.2.2⟩
      else
        let x := B.execute st.blk mem sub
        ⟨none, submit_req_done B ⟨x.1, .ran sub :: st.reqs⟩, x.2.1, x.2.2⟩

/-- `submit_admin_command`: third_party/e2e/nvme_driver.c:128-135 -/
def submit_admin_command (B : BlockLayer β) (st : State β) (mem : Mem) (sub : Submission)
    (cpl : Nvme.GenericQueueEntryCpl) : Result β := nvme_submit_user_cmd B B.adminQueue st mem sub cpl

/-- `submit_io_command`: third_party/e2e/nvme_driver.c:137-144 -/
def submit_io_command (B : BlockLayer β) (st : State β) (mem : Mem) (sub : Submission)
    (cpl : Nvme.GenericQueueEntryCpl) : Result β := nvme_submit_user_cmd B B.ioQueue st mem sub cpl

/-- The driver as the engine sees it: third_party/e2e/engine.cc:57-69.  The completion is zero initialised
(`NvmeCompletion tmp_cpl = {}`), the returned `int` is ignored. -/
def device (B : BlockLayer β) : Device (State β) := fun st mem sub =>
  let r := if sub.is_admin then submit_admin_command B st mem sub {} else submit_io_command B st mem sub {}
  (r.state, r.mem, r.cpl)

end Scsi2Nvme.Driver
