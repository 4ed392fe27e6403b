import Verif.Spec.Disk
import Verif.Proofs.Engine
import Verif.Properties.ReadWrite
import Verif.Properties.Status
import Verif.Properties.Safety
/-!
# READ and WRITE through the engine
-/

namespace Scsi2Nvme
open Spec Engine

/-! ## Fields of the submission queue entry -/

theorem sqe_fields (op nsid prp lba c12 : Nat) (h0 : op < 256) (h1 : nsid < 2 ^ 32) (h2 : prp < 2 ^ 64) (h3 : lba < 2 ^ 64) :
    byte (sqe op nsid prp (lba % 2 ^ 32) (lba / 2 ^ 32) c12) 0 = op ∧
    leAt (sqe op nsid prp (lba % 2 ^ 32) (lba / 2 ^ 32) c12) 4 4 = nsid ∧
    leAt (sqe op nsid prp (lba % 2 ^ 32) (lba / 2 ^ 32) c12) 24 8 = prp ∧
    leAt (sqe op nsid prp (lba % 2 ^ 32) (lba / 2 ^ 32) c12) 40 8 = lba ∧
    leAt (sqe op nsid prp (lba % 2 ^ 32) (lba / 2 ^ 32) c12) 48 2 = c12 % 65536 := by
  unfold sqe leAt be le zeros byte
  simp [List.range, List.range.loop]
  omega

theorem decodeRw_lba {cdb : List Byte} {rw_ : Rw} (h : decodeRw cdb = some rw_) : rw_.lba < 2 ^ 64 := by
  unfold decodeRw at h
  split at h
  · split at h
    · cases h
    · cases h; simp only; omega
  · split at h
    · cases h
    · cases h; have := beAt_lt cdb 2 4; simp only; omega
  · split at h
    · cases h
    · cases h; have := beAt_lt cdb 2 4; simp only; omega
  · split at h
    · cases h
    · cases h; have := beAt_lt cdb 2 8; simp only; omega
  · cases h

/-! ## Begin and Complete -/

/-- `Begin` of a READ or WRITE returns, allocates nothing and changes nothing. -/
theorem rw_begin (E : Env) (ws : Arr3 NvmeCmdWrapper) (w : World) (ptr : Nat) (cdb : List Byte) (buf : Span) (lun : U64)
    (hst : w.mem.read ptr cdb.length = some cdb) (hop : isRead (byte cdb 0) ∨ isWrite (byte cdb 0)) :
    ∃ r t1, Began E (Translation.init ws) w ptr cdb buf lun r t1 w ∧ Clean t1.allocations := by
  have hclean := (Idle_init ws).clean
  have main : ∀ p : Pipe, p.as = (Translation.init ws).allocations → p.count = 1 → cdb ≠ [] →
      beginSwitch E (cdb.headD 0) cdb.tail buf (nsidOf lun) (startPipe (Translation.init ws)) w = .ok (p, w) →
      ∃ r t1, Began E (Translation.init ws) w ptr cdb buf lun r t1 w ∧ Clean t1.allocations := by
    intro p has hcount hne hs
    have := Begin_run E _ (Idle_init ws) w ptr cdb hst hne buf lun p w hs (by omega)
    have hw : finishW E p w = w := by
      unfold finishW
      rw [has, livePages_mono_nil hclean]
      split <;> rfl
    rw [hw] at this
    refine ⟨_, _, ⟨IdleObject_init ws, hst, this⟩, ?_⟩
    unfold finishT
    split
    · rw [has]; exact hclean
    · simp only [has, hcount]
      rfl
  rcases hop with hop | hop
  · obtain ⟨x, -, e⟩ := switch_read E cdb buf (nsidOf lun) (startPipe (Translation.init ws)) hop
    exact main _ rfl rfl (isRead_ne hop) (by rw [e]; rfl)
  · obtain ⟨x, -, e⟩ := switch_write E cdb buf (nsidOf lun) (startPipe (Translation.init ws)) hop
    exact main _ rfl rfl (isWrite_ne hop) (by rw [e]; rfl)

/-- The `switch` of `Complete` does nothing for READ and WRITE. -/
theorem rw_switch (E : Env) (t : Translation) (cdb : List Byte) (cpl : List Nvme.GenericQueueEntryCpl) (din : Span)
    (hop : isRead (byte cdb 0) ∨ isWrite (byte cdb 0)) (w : World) :
    completeSwitch E t (cdb.headD 0) cdb.tail cpl din w = .ok (.kSuccess, w) := by
  rcases hop with (h | h | h | h) | (h | h | h | h) <;> rw [opc_of_byte h (by decide)] <;> rfl

/-- `Complete` of a READ or WRITE. -/
theorem rw_complete {E ws w ptr cdb buf lun r t1 w1} (hB : Began E (Translation.init ws) w ptr cdb buf lun r t1 w1)
    (hclean : Clean t1.allocations) (hop : isRead (byte cdb 0) ∨ isWrite (byte cdb 0))
    (cs : List Nvme.GenericQueueEntryCpl) (hcs : cs.length = t1.GetNvmeWrappers.length) (din sense : Span) (w2 : World)
    (hk : w2.mem.read ptr cdb.length = some cdb) (hs : accessible w2.mem sense) :
    ∃ c t2 w3, t1.Complete E cs din sense w2 = .ok ((c, t2), w3) ∧ c.status = .kSuccess ∧
      (c.scsi_status = 0 ↔ Accepted t1 ∧ ∀ d ∈ cs, cplOk d) ∧ (c.scsi_status = 0 → w3 = w2) := by
  have hwf := began_wf hB
  obtain ⟨⟨⟨c, t2⟩, w3⟩, hc⟩ := Complete_defined (E := E) hwf (w := w2) (cpl := cs) (din := din) (sense := sense) hs (by
    intro hp _ _
    rw [(began_span hB hp).2]
    exact ⟨cdb, hk, _, _, rw_switch E t1 cdb cs din hop w2⟩)
  have hg := C14_good_iff ⟨E, _, w, ptr, cdb, buf, lun, r, t1, w1, hB, w2, hk, cs, din, sense, c, t2, w3, hc⟩ hcs
  refine ⟨c, t2, w3, hc, hg.1, hg.2, fun h0 => ?_⟩
  obtain ⟨hacc, hok⟩ := hg.2.mp h0
  obtain ⟨st, wm, e1, -, e2⟩ := Ran.switch ⟨E, _, w, ptr, cdb, buf, lun, r, t1, w1, hB, w2, hk, cs, din, sense, c, t2, w3, hc⟩
    ⟨hacc, hcs, hok⟩
  simp only at e1 e2
  rw [rw_switch E t1 cdb cs din hop w2] at e2
  simp only [Except.ok.injEq, Prod.mk.injEq] at e2
  rw [e1, ← e2.2]
  unfold abortW
  rw [livePages_mono_nil hclean]
  rfl

/-- A READ or WRITE through the engine, with a device which leaves the command block alone and the sense buffer
accessible. -/
theorem rw_served {σ : Type} (E : Env) (D : Device σ) (s : σ) (q : Request) (tr : List Event) (hq : q.Valid)
    (hkeep : ∀ r t1, Began E (Translation.init q.ws) ⟨q.mem, tr⟩ q.ptr q.cdb ⟨q.data, q.dataLen.toNat⟩ q.lun r t1 ⟨q.mem, tr⟩ →
      ∀ cs s' m, Dialog D s q.mem (t1.GetNvmeWrappers.map submissionOf) cs s' m →
        m.read q.ptr q.cdb.length = some q.cdb ∧ accessible m ⟨q.sense, q.senseLen.toNat⟩) :
    ∃ r t1, Began E (Translation.init q.ws) ⟨q.mem, tr⟩ q.ptr q.cdb ⟨q.data, q.dataLen.toNat⟩ q.lun r t1 ⟨q.mem, tr⟩ ∧
      if r.alloc_len.toNat ≤ q.dataLen.toNat then
        ∃ cs s' m c w', Dialog D s q.mem (t1.GetNvmeWrappers.map submissionOf) cs s' m ∧
          ScsiToNvme E D s q.ws q.ptr (BitVec.ofNat 16 q.cdb.length) q.lun q.sense q.senseLen q.data q.dataLen q.isIn ⟨q.mem, tr⟩
            = .ok ((⟨BitVec.toNat (w := 8) c, r.alloc_len.toNat⟩, s'), w') ∧
          (c = 0 ↔ Accepted t1 ∧ ∀ d ∈ cs, cplOk d) ∧ (c = 0 → w' = ⟨m, tr⟩)
      else ScsiToNvme E D s q.ws q.ptr (BitVec.ofNat 16 q.cdb.length) q.lun q.sense q.senseLen q.data q.dataLen q.isIn ⟨q.mem, tr⟩
            = .ok ((⟨0x40, 0⟩, s), ⟨q.mem, tr⟩) := by
  obtain ⟨r, t1, hB, hclean⟩ := rw_begin E q.ws ⟨q.mem, tr⟩ q.ptr q.cdb ⟨q.data, q.dataLen.toNat⟩ q.lun hq.stored hq.op
  refine ⟨r, t1, hB, ?_⟩
  have hlen : (BitVec.ofNat 16 q.cdb.length).toNat = q.cdb.length := by
    rw [BitVec.toNat_ofNat]; exact Nat.mod_eq_of_lt hq.short
  have hst : r.status = .kSuccess := by
    rcases Begin_inv E _ (Idle_init q.ws) _ _ _ _ _ _ _ hB.call with ⟨-, hr, -⟩ | ⟨-, bs, p, w', -, -, -, -, -, hr, -⟩ <;> rw [hr]
  obtain ⟨cs, s', m, e1, e2⟩ := submitAll_run D t1.GetNvmeWrappers s ⟨q.mem, tr⟩
  have hcs : cs.length = t1.GetNvmeWrappers.length := by rw [e2.length, List.length_map]
  obtain ⟨k1, k2⟩ := hkeep r t1 hB cs s' m e2
  obtain ⟨c, t2, w3, hc, hc1, hc2, hc3⟩ := rw_complete hB hclean hq.op cs hcs
    (if q.isIn = true then ⟨q.data, r.alloc_len.toNat⟩ else Span.null) ⟨q.sense, q.senseLen.toNat⟩ ⟨m, tr⟩ k1 k2
  split
  · rename_i hl
    refine ⟨cs, s', m, c.scsi_status, w3, e2, ?_, hc2, hc3⟩
    unfold ScsiToNvme
    simp only [M.bind_run, hlen, hB.call]
    rw [if_neg (by rw [hst]; simp), if_neg (by omega)]
    simp only [M.bind_run, e1, hc]
    rw [if_neg (by rw [hc1]; simp)]
    rfl
  · rename_i hl
    unfold ScsiToNvme
    simp only [M.bind_run, hlen, hB.call]
    rw [if_neg (by rw [hst]; simp), if_pos (by omega)]
    rfl

/-! ## The ideal device -/

theorem Spec.Dialog.keepsSome {σ : Type} {D : Device σ} {s m subs cs s' m'} (h : Dialog D s m subs cs s' m') (a : Nat)
    (ha : ∀ s m, ∀ sub ∈ subs, (m a).isSome → ((D s m sub).2.1 a).isSome) (h0 : (m a).isSome) : (m' a).isSome := by
  induction h with
  | nil => exact h0
  | cons h ih => exact ih (fun s m sub hs => ha s m sub (by simp [hs])) (ha _ _ _ (by simp) h0)

theorem Disk.read_length (d : Disk) (k pos n : Nat) : (Disk.read d k pos n).length = n := by
  simp [Disk.read]

/-- What the ideal device does to the memory. -/
theorem ideal_mem (cap : Nat → Nat) (d : Disk) (m : Mem) (sub : Submission) :
    (idealDevice cap d m sub).2.1 = m ∨
    (byte sub.cmd 0 = 0x02 ∧ m.mapped (leAt sub.cmd 24 8) (4096 * (leAt sub.cmd 48 2 + 1)) = true ∧
      ∃ bs, bs.length = 4096 * (leAt sub.cmd 48 2 + 1) ∧ (idealDevice cap d m sub).2.1 = m.put (leAt sub.cmd 24 8) bs) := by
  unfold idealDevice
  simp only
  split
  · exact .inl rfl
  · split
    · exact .inl rfl
    · split
      · rename_i h2
        split
        · rename_i h3
          exact .inr ⟨h2, h3, _, Disk.read_length .., rfl⟩
        · exact .inl rfl
      · split <;> exact .inl rfl

theorem write_opcode {E t w ptr cdb buf lun r t' w'} (h : Began E t w ptr cdb buf lun r t' w')
    (hop : isWrite (byte cdb 0)) (wr : NvmeCmdWrapper) (hwr : wr ∈ t'.GetNvmeWrappers) : byte wr.cmd.toBytes 0 = 0x01 := by
  have ha : Accepted t' := (h.accepted_of_mem hwr).1
  obtain ⟨rw_, pract, prchk, wr', hd, -, -, hc, hb, -⟩ := C21_write_all _ _ _ _ _ _ _ _ _ _ h hop ha
  rw [hc] at hwr
  simp only [List.mem_cons, List.not_mem_nil, or_false] at hwr
  subst hwr
  rw [hb]
  split
  · exact (sqe_fields 1 _ _ _ _ (by decide) (nsidOfLun_lt lun) (Nat.mod_lt _ (by decide)) (decodeRw_lba hd)).1
  · exact (sqe_fields 1 _ _ _ _ (by decide) (nsidOfLun_lt lun) (Nat.mod_lt _ (by decide)) (decodeRw_lba hd)).1

/-- The ideal device only changes the data buffer. -/
theorem ideal_frame (cap : Nat → Nat) {E tr r t1} {q : Request} (hq : q.Valid)
    (hB : Began E (Translation.init q.ws) ⟨q.mem, tr⟩ q.ptr q.cdb ⟨q.data, q.dataLen.toNat⟩ q.lun r t1 ⟨q.mem, tr⟩)
    {d cs d' m} (hD : Dialog (idealDevice cap) d q.mem (t1.GetNvmeWrappers.map submissionOf) cs d' m) :
    (∀ a, ¬ inRange q.data q.dataLen.toNat a → m a = q.mem a) ∧ ∀ a, (q.mem a).isSome → (m a).isSome := by
  have key : ∀ (d : Disk) (m : Mem), ∀ sub ∈ t1.GetNvmeWrappers.map submissionOf,
      (∀ a, ¬ inRange q.data q.dataLen.toNat a → (idealDevice cap d m sub).2.1 a = m a) ∧
      ∀ a, (m a).isSome → ((idealDevice cap d m sub).2.1 a).isSome := by
    intro d m sub hsub
    obtain ⟨wr, hwr, rfl⟩ := List.mem_map.mp hsub
    rcases ideal_mem cap d m (submissionOf wr) with h | ⟨h1, h2, bs, h3, h4⟩
    · rw [h]; exact ⟨fun _ _ => rfl, fun _ h => h⟩
    · have hr : isRead (byte q.cdb 0) := by
        rcases hq.op with h | h
        · exact h
        · have := write_opcode hB h wr hwr
          change byte wr.cmd.toBytes 0 = 2 at h1
          omega
      obtain ⟨e1, e2, e3⟩ := C20_read_fits _ _ _ _ _ _ _ _ _ _ hB hr wr hwr
      change m.mapped (leAt wr.cmd.toBytes 24 8) (4096 * (leAt wr.cmd.toBytes 48 2 + 1)) = true at h2
      change bs.length = 4096 * (leAt wr.cmd.toBytes 48 2 + 1) at h3
      change _ = m.put (leAt wr.cmd.toBytes 24 8) bs at h4
      have e4 : prpOf ⟨q.data, q.dataLen.toNat⟩ = q.data := by
        have h5 := hq.space
        have h6 : 0 < q.dataLen.toNat := by
          have : wr.buffer_len.toNat ≤ q.dataLen.toNat := e2
          omega
        exact Nat.mod_eq_of_lt (show q.data < 2 ^ 64 by omega)
      have e5 : bs.length ≤ q.dataLen.toNat := by
        have : wr.buffer_len.toNat ≤ q.dataLen.toNat := e2
        omega
      rw [h4]
      refine ⟨fun a ha => put_outside ?_, fun a ha => ?_⟩
      · rw [e3, e4]
        unfold inRange at ha
        omega
      · rw [put_isSome (by rw [h3]; exact h2)]; exact ha
  exact ⟨fun a ha => hD.keeps a fun s m sub hs => (key s m sub hs).1 a ha,
    fun a ha => hD.keepsSome a (fun s m sub hs h => (key s m sub hs).2 a h) ha⟩

theorem Spec.Dialog.one {σ : Type} {D : Device σ} {s m sub cs s' m'} (h : Dialog D s m [sub] cs s' m') :
    s' = (D s m sub).1 ∧ m' = (D s m sub).2.1 ∧ cs = [(D s m sub).2.2] := by
  cases h with
  | cons h =>
    cases h
    exact ⟨rfl, rfl, rfl⟩

theorem Spec.Dialog.zero {σ : Type} {D : Device σ} {s m cs s' m'} (h : Dialog D s m [] cs s' m') :
    s' = s ∧ m' = m ∧ cs = [] := by
  cases h
  exact ⟨rfl, rfl, rfl⟩

/-- The disks of a device, indexed by LUN: LUN `l` is namespace `l + 1`. -/
def luns (d : Disk) : Disk := fun l a => d (l + 1) a

theorem luns_write (d : Disk) (l pos : Nat) (bs : List Byte) : luns (d.write (l + 1) pos bs) = (luns d).write l pos bs := by
  funext k a
  unfold luns Disk.write
  simp only [Nat.add_right_cancel_iff]

theorem generic_ok (sc : Byte) : cplOk (generic sc) ↔ sc = 0 := by
  unfold cplOk generic
  constructor
  · intro h; exact BitVec.eq_of_toNat_eq h.2
  · rintro rfl; exact ⟨rfl, rfl⟩

/-- One READ or WRITE with the ideal device. -/
theorem ideal_step (cap : Nat → Nat) (E : Env) (d : Disk) (q : Request) (tr : List Event) (hq : q.Valid) :
    ∃ r d' w', ScsiToNvme E (idealDevice cap) d q.ws q.ptr (BitVec.ofNat 16 q.cdb.length) q.lun q.sense q.senseLen q.data
        q.dataLen q.isIn ⟨q.mem, tr⟩ = .ok ((r, d'), w') ∧
      Expected (fun l => cap (l + 1)) (luns d) q r w'.mem (luns d') := by
  obtain ⟨r, t1, hB, h⟩ := rw_served E (idealDevice cap) d q tr hq (by
    intro r t1 hB cs d' m hD
    obtain ⟨k1, k2⟩ := ideal_frame cap hq hB hD
    refine ⟨?_, fun i hi => k2 _ (hq.sense i hi)⟩
    rw [← hq.stored]
    apply read_congr
    intro i hi
    exact k1 _ (hq.apart _ ⟨by omega, by omega⟩))
  have hns : nsidOfLun q.lun = q.lun.toNat + 1 := Nat.mod_eq_of_lt hq.lun
  have hlt : q.dataLen.toNat < 65536 := q.dataLen.isLt
  -- a rejected command, or one whose completion is an error
  have bad : (∀ lba n, ¬ q.asks (cap (q.lun.toNat + 1)) lba n) →
      (Accepted t1 → ∀ cs d' m, Dialog (idealDevice cap) d q.mem (t1.GetNvmeWrappers.map submissionOf) cs d' m →
        d' = d ∧ ¬ ∀ c ∈ cs, cplOk c) →
      ∃ r d' w', ScsiToNvme E (idealDevice cap) d q.ws q.ptr (BitVec.ofNat 16 q.cdb.length) q.lun q.sense q.senseLen q.data
        q.dataLen q.isIn ⟨q.mem, tr⟩ = .ok ((r, d'), w') ∧ Expected (fun l => cap (l + 1)) (luns d) q r w'.mem (luns d') := by
    intro hno hd
    split at h
    · obtain ⟨cs, d', m, c, w', hD, he, hc1, hc2⟩ := h
      have hcne : ¬ c = 0 := by
        intro h0
        obtain ⟨ha, hall⟩ := hc1.mp h0
        exact (hd ha cs d' m hD).2 hall
      have hdd : d' = d := by
        by_cases ha : Accepted t1
        · exact (hd ha cs d' m hD).1
        · rw [hB.rejected ha] at hD
          exact hD.zero.1
      refine ⟨_, d', w', he, ?_⟩
      rw [hdd]
      refine .failed hno fun h0 => hcne ?_
      exact BitVec.eq_of_toNat_eq h0
    · exact ⟨_, d, _, h, .failed hno (by decide)⟩
  rcases hq.op with hop | hop
  · -- READ
    by_cases ha : Accepted t1
    · obtain ⟨rw_, pract, prchk, wr, hd, hp, hcmds, hb, had, hbl, -, hal, -⟩ := C18_read _ _ _ _ _ _ _ _ _ _ hB hop ha
      obtain ⟨rw', hd', h5, hb1, hb2, hb3⟩ := (C19_read_accepted _ _ _ _ _ _ _ _ _ _ hB hop).mp ha
      rw [hd] at hd'
      cases hd'
      have hb3 : rw_.blocks * 4096 ≤ q.dataLen.toNat := hb3
      have hprp : prpOf ⟨q.data, q.dataLen.toNat⟩ = q.data := by
        have := hq.space
        exact Nat.mod_eq_of_lt (show q.data < 2 ^ 64 by omega)
      rw [if_pos (by omega)] at h
      obtain ⟨cs, d', m, c, w', hD, he, hc1, hc2⟩ := h
      have hf := sqe_fields 2 (nsidOfLun q.lun) (prpOf ⟨q.data, q.dataLen.toNat⟩) rw_.lba
        (ioCdw12 rw_.blocks prchk pract rw_.fua) (by decide) (nsidOfLun_lt _) (Nat.mod_lt _ (by decide)) (decodeRw_lba hd)
      change byte (readSqe _ _ _ _ _ _ _) 0 = _ ∧ leAt (readSqe _ _ _ _ _ _ _) 4 4 = _ ∧ leAt (readSqe _ _ _ _ _ _ _) 24 8 = _ ∧
        leAt (readSqe _ _ _ _ _ _ _) 40 8 = _ ∧ leAt (readSqe _ _ _ _ _ _ _) 48 2 = _ at hf
      rw [← hb] at hf
      obtain ⟨f0, f1, f2, f3, f4⟩ := hf
      have f4' : leAt wr.cmd.toBytes 48 2 + 1 = rw_.blocks := by
        rw [f4]; unfold ioCdw12; omega
      have hdev : idealDevice cap d q.mem (submissionOf wr) = if cap (q.lun.toNat + 1) < rw_.lba + rw_.blocks then (d, q.mem, generic 0x80)
          else (d, q.mem.put q.data (d.read (q.lun.toNat + 1) (4096 * rw_.lba) (4096 * rw_.blocks)), generic 0) := by
        unfold idealDevice submissionOf
        simp only [f0, f1, f2, f3, f4', had, hns, hprp]
        rw [if_neg (by simp)]
        split
        · rfl
        · rw [if_pos trivial, if_pos]
          refine mapped_iff.mpr fun i hi => hq.data i ?_
          change i < q.dataLen.toNat
          omega
      by_cases hcap : cap (q.lun.toNat + 1) < rw_.lba + rw_.blocks
      · refine bad ?_ ?_
        · rintro lba n ⟨rw', e, -, rfl, rfl, -, -, e2⟩
          rw [hd] at e
          cases e
          omega
        · intro _ cs d' m hD
          rw [hcmds] at hD
          obtain ⟨e1, -, e3⟩ := hD.one
          rw [hdev, if_pos hcap] at e1 e3
          refine ⟨e1, ?_⟩
          rw [e3]
          intro hall
          exact absurd ((generic_ok _).mp (hall _ (List.mem_cons_self ..))) (by decide)
      · rw [hcmds] at hD
        obtain ⟨e1, e2, e3⟩ := hD.one
        rw [hdev, if_neg hcap] at e1 e2 e3
        have hc0 : c = 0 := hc1.mpr ⟨ha, by
          rw [e3]
          intro x hx
          simp only [List.mem_cons, List.not_mem_nil, or_false] at hx
          rw [hx]
          exact (generic_ok 0).mpr rfl⟩
        refine ⟨_, d', w', he, ?_⟩
        rw [e1]
        refine .read (lba := rw_.lba) (n := rw_.blocks) hop ⟨rw_, hd, h5, rfl, rfl, hb1, by omega, by omega⟩ (by rw [hc0]; rfl) ?_ ?_
        · rw [hal]; exact Nat.mul_comm ..
        · rw [hc2 hc0]
          simp only
          rw [e2]
          have := read_put_self (m := q.mem) (p := q.data) (bs := d.read (q.lun.toNat + 1) (4096 * rw_.lba) (4096 * rw_.blocks))
          rw [Disk.read_length] at this
          exact this
    · refine bad ?_ fun h => absurd h ha
      rintro lba n ⟨rw_, e, e1, rfl, rfl, e2, e3, -⟩
      apply ha
      refine (C19_read_accepted _ _ _ _ _ _ _ _ _ _ hB hop).mpr ⟨rw_, e, e1, e2, by omega, ?_⟩
      change _ ≤ q.dataLen.toNat
      omega
  · -- WRITE
    by_cases ha : Accepted t1
    · obtain ⟨rw_, pract, prchk, wr, hd, hp, hb1, hcmds, hb, had, hbl, hr, -⟩ := C21_write_all _ _ _ _ _ _ _ _ _ _ hB hop ha
      obtain ⟨rw', hd', h5, -⟩ := (C22_write_accepted _ _ _ _ _ _ _ _ _ _ hB hop).mp ha
      rw [hd] at hd'
      cases hd'
      have hb3 : 4096 * rw_.blocks ≤ q.dataLen.toNat := hq.matching hop rw_ hd
      have hprp : prpOf ⟨q.data, q.dataLen.toNat⟩ = q.data := by
        have := hq.space
        exact Nat.mod_eq_of_lt (show q.data < 2 ^ 64 by omega)
      rw [if_pos (by rw [hr]; exact Nat.zero_le _)] at h
      obtain ⟨cs, d', m, c, w', hD, he, hc1, hc2⟩ := h
      rw [if_neg (by omega), Nat.mod_eq_of_lt (by omega)] at hb
      have hf := sqe_fields 1 (nsidOfLun q.lun) (prpOf ⟨q.data, q.dataLen.toNat⟩) rw_.lba
        (ioCdw12 rw_.blocks prchk pract rw_.fua) (by decide) (nsidOfLun_lt _) (Nat.mod_lt _ (by decide)) (decodeRw_lba hd)
      change byte (writeSqe _ _ _ _ _ _ _) 0 = _ ∧ leAt (writeSqe _ _ _ _ _ _ _) 4 4 = _ ∧ leAt (writeSqe _ _ _ _ _ _ _) 24 8 = _ ∧
        leAt (writeSqe _ _ _ _ _ _ _) 40 8 = _ ∧ leAt (writeSqe _ _ _ _ _ _ _) 48 2 = _ at hf
      rw [← hb] at hf
      obtain ⟨f0, f1, f2, f3, f4⟩ := hf
      have f4' : leAt wr.cmd.toBytes 48 2 + 1 = rw_.blocks := by
        rw [f4]; unfold ioCdw12; omega
      obtain ⟨bs, hbs⟩ : ∃ bs, q.mem.read q.data (4096 * rw_.blocks) = some bs := by
        refine Option.isSome_iff_exists.mp (read_isSome.mpr fun i hi => hq.data i ?_)
        change i < q.dataLen.toNat
        omega
      have hdev : idealDevice cap d q.mem (submissionOf wr) = if cap (q.lun.toNat + 1) < rw_.lba + rw_.blocks then (d, q.mem, generic 0x80)
          else (d.write (q.lun.toNat + 1) (4096 * rw_.lba) bs, q.mem, generic 0) := by
        unfold idealDevice submissionOf
        simp only [f0, f1, f2, f3, f4', had, hns, hprp]
        rw [if_neg (by simp)]
        split
        · rfl
        · rw [if_neg (by decide), hbs]
      by_cases hcap : cap (q.lun.toNat + 1) < rw_.lba + rw_.blocks
      · refine bad ?_ ?_
        · rintro lba n ⟨rw', e, -, rfl, rfl, -, -, e2⟩
          rw [hd] at e
          cases e
          omega
        · intro _ cs d' m hD
          rw [hcmds] at hD
          obtain ⟨e1, -, e3⟩ := hD.one
          rw [hdev, if_pos hcap] at e1 e3
          refine ⟨e1, ?_⟩
          rw [e3]
          intro hall
          exact absurd ((generic_ok _).mp (hall _ (List.mem_cons_self ..))) (by decide)
      · rw [hcmds] at hD
        obtain ⟨e1, e2, e3⟩ := hD.one
        rw [hdev, if_neg hcap] at e1 e2 e3
        have hc0 : c = 0 := hc1.mpr ⟨ha, by
          rw [e3]
          intro x hx
          simp only [List.mem_cons, List.not_mem_nil, or_false] at hx
          rw [hx]
          exact (generic_ok 0).mpr rfl⟩
        refine ⟨_, d', w', he, ?_⟩
        rw [e1]
        simp only
        rw [luns_write]
        exact .write (lba := rw_.lba) (n := rw_.blocks) hop ⟨rw_, hd, h5, rfl, rfl, hb1, by omega, by omega⟩ (by rw [hc0]; rfl) hbs
    · refine bad ?_ fun h => absurd h ha
      rintro lba n ⟨rw_, e, e1, rfl, rfl, e2, e3, -⟩
      apply ha
      exact (C22_write_accepted _ _ _ _ _ _ _ _ _ _ hB hop).mpr ⟨rw_, e, e1, e2⟩

end Scsi2Nvme
