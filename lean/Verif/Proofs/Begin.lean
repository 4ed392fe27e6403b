import Verif.Proofs.Rw
/-!
# Running `Begin`
-/

namespace Scsi2Nvme
open Spec

/-- The namespace id `Begin` computes for a LUN. -/
def nsidOf (lun : U64) : U32 := lun.setWidth 32 + 1

/-- What the `switch` starts from. -/
def startPipe (t : Translation) : Pipe :=
  { status := .kSuccess, count := t.nvme_cmd_count, ws := t.nvme_wrappers, as := t.allocations,
    alloc_len := 0 }

/-- The object and the world after `Begin`, given the result of the `switch`. -/
def finishT (scsi_cmd : Span) (p : Pipe) : Translation :=
  if p.status = .kSuccess then
    { pipeline_status := p.status, scsi_cmd := scsi_cmd, nvme_cmd_count := p.count,
      nvme_wrappers := p.ws, allocations := p.as }
  else
    { pipeline_status := p.status, scsi_cmd := scsi_cmd, nvme_cmd_count := 0,
      nvme_wrappers := p.ws, allocations := clearN p.count p.as }

/-- The world after `Begin`. -/
def finishW (E : Env) (p : Pipe) (w : World) : World :=
  if p.status = .kSuccess then w else deallocAll E (livePages p.count p.as) w

theorem Begin_run (E : Env) (t : Translation) (ht : Idle t) (w : World) (ptr : Nat) (cdb : List Byte)
    (hc : w.mem.read ptr cdb.length = some cdb) (hne : cdb ≠ []) (buf : Span) (lun : U64)
    (p : Pipe) (w' : World)
    (hs : beginSwitch E (cdb.headD 0) cdb.tail buf (nsidOf lun) (startPipe t) w = .ok (p, w'))
    (hp : p.count ≤ 3) :
    t.Begin E ⟨ptr, cdb.length⟩ buf lun w
      = .ok ((⟨.kSuccess, p.alloc_len⟩, finishT ⟨ptr, cdb.length⟩ p), finishW E p w') := by
  unfold Translation.Begin
  rw [if_neg (by simp [ht.status]), if_neg (by simpa using hne)]
  simp only [M.bind_run, load_ok hc]
  unfold startPipe nsidOf at hs
  rw [hs]
  simp only [finishT, finishW]
  by_cases h : p.status = .kSuccess
  · simp [h]
  · simp only [h, ne_eq, not_false_eq_true, if_true, if_false]
    simp only [M.bind_run]
    rw [FlushMemory_run E _ _ (by exact hp)]
    rfl

theorem Begin_ub (E : Env) (t : Translation) (ht : Idle t) (w : World) (ptr : Nat) (cdb : List Byte)
    (hc : w.mem.read ptr cdb.length = some cdb) (hne : cdb ≠ []) (buf : Span) (lun : U64) (e : UB)
    (hs : beginSwitch E (cdb.headD 0) cdb.tail buf (nsidOf lun) (startPipe t) w = .error e) :
    t.Begin E ⟨ptr, cdb.length⟩ buf lun w = .error e := by
  unfold Translation.Begin
  rw [if_neg (by simp [ht.status]), if_neg (by simpa using hne)]
  simp only [M.bind_run, load_ok hc]
  unfold startPipe nsidOf at hs
  rw [hs]

theorem opc_of_byte {cdb : List Byte} {n : Nat} (h : byte cdb 0 = n) (hn : n < 256) :
    cdb.headD 0 = BitVec.ofNat 8 n := by
  apply BitVec.eq_of_toNat_eq
  rw [← byte0_headD, h, BitVec.toNat_ofNat]
  omega

theorem ne_nil_of_byte {cdb : List Byte} {n : Nat} (h : byte cdb 0 = n) (hn : n ≠ 0) : cdb ≠ [] := by
  intro hh; rw [hh] at h; simp [byte] at h; omega

/-! ## Dispatch -/

section dispatch
variable (E : Env) (cdb : List Byte) (buf : Span) (nsid : U32) (p : Pipe)

theorem switch_inquiry (h : byte cdb 0 = 0x12) :
    beginSwitch E (cdb.headD 0) cdb.tail buf nsid p = beginInquiry E cdb.tail nsid p := by
  rw [opc_of_byte h (by decide)]; rfl

theorem switch_unmap (h : byte cdb 0 = 0x42) :
    beginSwitch E (cdb.headD 0) cdb.tail buf nsid p = beginUnmap E cdb.tail buf nsid p := by
  rw [opc_of_byte h (by decide)]; rfl

theorem switch_modesense6 (h : byte cdb 0 = 0x1a) :
    beginSwitch E (cdb.headD 0) cdb.tail buf nsid p = beginModeSense6 E cdb.tail nsid p := by
  rw [opc_of_byte h (by decide)]; rfl

theorem switch_modesense10 (h : byte cdb 0 = 0x5a) :
    beginSwitch E (cdb.headD 0) cdb.tail buf nsid p = beginModeSense10 E cdb.tail nsid p := by
  rw [opc_of_byte h (by decide)]; rfl

theorem switch_maintenance (h : byte cdb 0 = 0xa3) :
    beginSwitch E (cdb.headD 0) cdb.tail buf nsid p = beginMaintenanceIn E cdb.tail p := by
  rw [opc_of_byte h (by decide)]; rfl

theorem switch_reportluns (h : byte cdb 0 = 0xa0) :
    beginSwitch E (cdb.headD 0) cdb.tail buf nsid p = beginReportLuns E cdb.tail p := by
  rw [opc_of_byte h (by decide)]; rfl

theorem switch_readcapacity (h : byte cdb 0 = 0x25) :
    beginSwitch E (cdb.headD 0) cdb.tail buf nsid p = beginReadCapacity10 E cdb.tail nsid p := by
  rw [opc_of_byte h (by decide)]; rfl

theorem switch_requestsense (h : byte cdb 0 = 0x03) :
    beginSwitch E (cdb.headD 0) cdb.tail buf nsid p = pure (beginRequestSense cdb.tail p) := by
  rw [opc_of_byte h (by decide)]; rfl

theorem switch_read (h : isRead (byte cdb 0)) : ∃ r, ReadOutcome cdb nsid buf r ∧
    beginSwitch E (cdb.headD 0) cdb.tail buf nsid p = pure (beginRead r p) := by
  rcases h with h | h | h | h
  · exact ⟨_, Read6_spec cdb h p.ws.e0 nsid buf p.alloc_len, by rw [opc_of_byte h (by decide)]; rfl⟩
  · exact ⟨_, Read10_spec cdb h p.ws.e0 nsid buf p.alloc_len, by rw [opc_of_byte h (by decide)]; rfl⟩
  · exact ⟨_, Read12_spec cdb h p.ws.e0 nsid buf p.alloc_len, by rw [opc_of_byte h (by decide)]; rfl⟩
  · exact ⟨_, Read16_spec cdb h p.ws.e0 nsid buf p.alloc_len, by rw [opc_of_byte h (by decide)]; rfl⟩

theorem switch_sync (h : byte cdb 0 = 0x35) :
    beginSwitch E (cdb.headD 0) cdb.tail buf nsid p = pure { p with
      status := .kSuccess, count := 1
      ws := { p.ws with e0 := SynchronizeCache.SynchronizeCache10ToNvme p.ws.e0 nsid } } := by
  rw [opc_of_byte h (by decide)]; rfl

theorem switch_verify (h : byte cdb 0 = 0x2f) :
    beginSwitch E (cdb.headD 0) cdb.tail buf nsid p
      = pure (beginWrite (Verify.VerifyToNvme cdb.tail p.ws.e0) p) := by
  rw [opc_of_byte h (by decide)]; rfl

theorem switch_tur (h : byte cdb 0 = 0x00) :
    beginSwitch E (cdb.headD 0) cdb.tail buf nsid p = pure { p with status := .kSuccess } := by
  rw [opc_of_byte h (by decide)]; rfl

theorem switch_write (h : isWrite (byte cdb 0)) : ∃ r, WriteOutcome cdb nsid buf r ∧
    beginSwitch E (cdb.headD 0) cdb.tail buf nsid p = pure (beginWrite r p) := by
  rcases h with h | h | h | h
  · exact ⟨_, Write6_spec cdb h p.ws.e0 nsid buf, by rw [opc_of_byte h (by decide)]; rfl⟩
  · exact ⟨_, Write10_spec cdb h p.ws.e0 nsid buf, by rw [opc_of_byte h (by decide)]; rfl⟩
  · exact ⟨_, Write12_spec cdb h p.ws.e0 nsid buf, by rw [opc_of_byte h (by decide)]; rfl⟩
  · exact ⟨_, Write16_spec cdb h p.ws.e0 nsid buf, by rw [opc_of_byte h (by decide)]; rfl⟩

end dispatch

end Scsi2Nvme
