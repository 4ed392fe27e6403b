import Verif.Properties.Module
/-!
# C75: the block store behind the kernel module
-/

namespace Scsi2Nvme
open Spec Engine Module

/-- The request the module makes of the engine. -/
def Spec.Command.request (q : Command) (mem : Mem) (data : Nat) : Request :=
  { mem := mem, ws := q.ws, ptr := q.cmd.cmnd, cdb := q.cdb, lun := q.cmd.lun, sense := q.cmd.sense_buffer
    senseLen := SCSI_SENSE_BUFFERSIZE, data := data, dataLen := BitVec.ofNat 16 q.cmd.sg.length, isIn := q.cmd.is_data_in }

theorem Spec.Command.Valid.request {q : Command} (h : q.Valid) (mem : Mem) (data L : Nat) (hL : q.cmd.sg.length % 65536 = L)
    (hm : isWrite (byte q.cdb 0) → ∀ rw, decodeRw q.cdb = some rw → 4096 * rw.blocks ≤ L)
    (hkeep : ∀ a, (q.mem a).isSome → mem a = q.mem a ∧ ¬ inRange data L a)
    (hd : ∀ i, i < L → (mem (data + i)).isSome) (hsp : data + L ≤ 2 ^ 64) :
    (q.request mem data).Valid := by
  have hlen : (BitVec.ofNat 16 q.cmd.sg.length).toNat = L := by
    rw [BitVec.toNat_ofNat, ← hL]
  have hcdb : ∀ i, i < q.cdb.length → (q.mem (q.cmd.cmnd + i)).isSome := by
    intro i hi
    rw [(read_eq_some.mp h.stored).2 i hi, List.getElem?_eq_getElem hi]
    rfl
  constructor
  · change mem.read q.cmd.cmnd q.cdb.length = some q.cdb
    rw [← h.stored]
    exact read_congr fun i hi => (hkeep _ (hcdb i hi)).1
  · exact h.short
  · rcases h.op with ⟨h, -⟩ | ⟨h, -⟩
    · exact .inl h
    · exact .inr h
  · intro i hi
    have := h.sense i hi
    change (q.mem (q.cmd.sense_buffer + i)).isSome at this
    change (mem (q.cmd.sense_buffer + i)).isSome
    rw [(hkeep _ this).1]
    exact this
  · intro i hi
    change i < (BitVec.ofNat 16 q.cmd.sg.length).toNat at hi
    rw [hlen] at hi
    exact hd i hi
  · change data + (BitVec.ofNat 16 q.cmd.sg.length).toNat ≤ 2 ^ 64
    rw [hlen]; exact hsp
  · intro a ha
    change ¬ inRange data (BitVec.ofNat 16 q.cmd.sg.length).toNat a
    rw [hlen]
    change inRange q.cmd.cmnd q.cdb.length a at ha
    have := hcdb (a - q.cmd.cmnd) (by unfold inRange at ha; omega)
    rw [Nat.add_sub_cancel' ha.1] at this
    exact (hkeep a this).2
  · exact h.lun
  · intro hw rw_ hd
    change _ ≤ (BitVec.ofNat 16 q.cmd.sg.length).toNat
    rw [hlen]
    exact hm hw rw_ hd

theorem ideal_accessible (cap : Nat → Nat) (d : Disk) (m : Mem) (sub : Submission) (a : Nat) (h : (m a).isSome) :
    ((idealDevice cap d m sub).2.1 a).isSome := by
  rcases ideal_mem cap d m sub with e | ⟨-, -, bs, -, e⟩
  · rw [e]; exact h
  · rw [e]
    unfold Mem.put
    split
    · rename_i hr
      rw [List.getElem?_eq_getElem (by omega)]
      rfl
    · exact h

/-- The status codes the engine returns. -/
theorem served_status {σ : Type} (x : Served σ) : x.resp.return_code ∈ [0x00, 0x02, 0x40] := by
  have key : ∀ a : Fin 8, ∀ b : Fin 256,
      (Status.StatusToScsi (BitVec.ofFin a) (BitVec.ofFin b)).status.toNat ∈ [0x00, 0x02, 0x40] := by decide +kernel
  obtain ⟨r, t1, w1, hB, -, h⟩ := served_began x
  rcases h with ⟨-, h, -⟩ | ⟨-, cs, m, c, t2, hd, hc, hok, h⟩
  · rw [h]; simp
  · rw [h]
    simp only
    have hwf : Wf t1 := began_wf hB
    rcases Complete_inv x.E t1 hwf _ _ _ _ _ _ _ hc with ⟨-, rfl, -⟩ | ⟨-, -, w', -, hh⟩
    · simp
    · rcases hh with ⟨-, rfl, -⟩ | ⟨-, -, rfl, -⟩ | ⟨-, -, s, hs, rfl, -⟩ | ⟨-, -, -, rfl, -⟩
      · simp
      · simp
      · obtain ⟨-, d, -, -, -, -, e⟩ := firstError_some _ _ hs
        rw [e]
        exact key d.sct.toFin d.sc.toFin
      · simp

/-! ## Runs of the module -/

section
variable {σ : Type} (K : Kernel) (junk : World → Nat → Byte) (D : Device σ) (s : σ) (ws : Arr3 NvmeCmdWrapper)
  (uninit : U64) (c : ScsiCmnd) (w : World)

theorem queue_zero (r : ScsiToNvmeResponse) (s' : σ) (w' : World) (hz : BitVec.ofNat 16 c.sg.length = 0)
    (he : ScsiToNvme (Module.env K junk) D s ws c.cmnd c.cmd_len c.lun c.sense_buffer SCSI_SENSE_BUFFERSIZE uninit.toNat
      (BitVec.ofNat 16 c.sg.length) c.is_data_in w = .ok ((r, s'), w')) :
    scsi_queuecommand K junk D s ws uninit c w = .ok ((⟨r.return_code, none, c.sg⟩, s'), w') := by
  unfold scsi_queuecommand
  rw [if_pos hz]
  simp only [M.bind_run, he]
  rfl

theorem queue_none (n : Nat) (m : Mem) (hz : BitVec.ofNat 16 c.sg.length ≠ 0)
    (hn : (BitVec.ofNat 16 c.sg.length).toNat = n) (hk : K.kzalloc w n = (0, m)) :
    scsi_queuecommand K junk D s ws uninit c w = .ok ((⟨23, none, c.sg⟩, s), ⟨m, w.trace⟩) := by
  unfold scsi_queuecommand
  rw [if_neg hz]
  simp only [M.bind_run, Module.kzalloc, hn, hk]
  rw [if_pos trivial]
  rfl

theorem queue_in (n a : Nat) (m : Mem) (r : ScsiToNvmeResponse) (s' : σ) (w1 : World) (bs : List Byte)
    (hz : BitVec.ofNat 16 c.sg.length ≠ 0) (hn : (BitVec.ofNat 16 c.sg.length).toNat = n) (hk : K.kzalloc w n = (a, m))
    (ha : a ≠ 0) (hi : c.is_data_in = true)
    (he : ScsiToNvme (Module.env K junk) D s ws c.cmnd c.cmd_len c.lun c.sense_buffer SCSI_SENSE_BUFFERSIZE a
      (BitVec.ofNat 16 c.sg.length) c.is_data_in ⟨m, w.trace⟩ = .ok ((r, s'), w1))
    (hr : w1.mem.read a (min r.alloc_len c.sg.length) = some bs) :
    scsi_queuecommand K junk D s ws uninit c w =
      .ok ((⟨r.return_code, some (n - min r.alloc_len c.sg.length), bs ++ c.sg.drop (min r.alloc_len c.sg.length)⟩, s'),
        ⟨K.kfree w1 a n, w1.trace⟩) := by
  unfold scsi_queuecommand
  rw [if_neg hz]
  simp only [M.bind_run, Module.kzalloc, hn, hk]
  rw [if_neg ha, if_pos hi]
  simp only [M.bind_run, he, load, hr, Module.kfree]
  rfl

theorem queue_out (n a : Nat) (m : Mem) (r : ScsiToNvmeResponse) (s' : σ) (w1 : World)
    (hz : BitVec.ofNat 16 c.sg.length ≠ 0) (hn : (BitVec.ofNat 16 c.sg.length).toNat = n) (hk : K.kzalloc w n = (a, m))
    (ha : a ≠ 0) (hi : c.is_data_in = false) (hm : m.mapped a (c.sg.take n).length = true)
    (he : ScsiToNvme (Module.env K junk) D s ws c.cmnd c.cmd_len c.lun c.sense_buffer SCSI_SENSE_BUFFERSIZE a
      (BitVec.ofNat 16 c.sg.length) c.is_data_in ⟨m.put a (c.sg.take n), w.trace⟩ = .ok ((r, s'), w1)) :
    scsi_queuecommand K junk D s ws uninit c w = .ok ((⟨r.return_code, none, c.sg⟩, s'), ⟨K.kfree w1 a n, w1.trace⟩) := by
  unfold scsi_queuecommand
  rw [if_neg hz]
  simp only [M.bind_run, Module.kzalloc, hn, hk]
  rw [if_neg ha, if_neg (by rw [hi]; simp)]
  simp only [M.bind_run, store]
  simp only [if_pos hm, he, Module.kfree]
  rfl

end

theorem asks_request {q : Command} (hl : q.cmd.sg.length < 65536) (mem : Mem) (data cap lba n : Nat) :
    (q.request mem data).asks cap lba n ↔ q.asks cap lba n := by
  have hlen : (BitVec.ofNat 16 q.cmd.sg.length).toNat = q.cmd.sg.length := by
    rw [BitVec.toNat_ofNat, Nat.mod_eq_of_lt hl]
  unfold Request.asks Command.asks
  change (∃ rw, decodeRw q.cdb = some rw ∧ _ ∧ _ ∧ _ ∧ _ ∧ 4096 * n ≤ (BitVec.ofNat 16 q.cmd.sg.length).toNat ∧ _) ↔ _
  rw [hlen]

/-- One READ or WRITE through the module without a buffer. -/
theorem module_empty (K : Kernel) (junk : World → Nat → Byte) (cap : Nat → Nat) (d : Disk) (q : Command)
    (tr : List Event) (hq : q.Valid) (h0 : q.cmd.sg.length % 65536 = 0)
    (hm : isWrite (byte q.cdb 0) → ∀ rw, decodeRw q.cdb = some rw → 4096 * rw.blocks ≤ 0) :
    ∃ o d' w', scsi_queuecommand K junk (idealDevice cap) d q.ws q.uninit q.cmd ⟨q.mem, tr⟩ = .ok ((o, d'), w') ∧
      o.result ≠ 0 ∧ o.result ≠ 23 ∧ o.sg = q.cmd.sg ∧ luns d' = luns d := by
  have hz : BitVec.ofNat 16 q.cmd.sg.length = 0 := BitVec.eq_of_toNat_eq (by rw [BitVec.toNat_ofNat]; exact h0)
  have hv : (q.request q.mem q.uninit.toNat).Valid :=
    hq.request _ _ 0 h0 hm (fun a _ => ⟨rfl, fun h => by unfold inRange at h; omega⟩) (fun i hi => by omega)
      (by have := q.uninit.isLt; omega)
  obtain ⟨r, d', w', he, hx⟩ := ideal_step cap (Module.env K junk) d (q.request q.mem q.uninit.toNat) tr hv
  refine ⟨_, d', w', queue_zero K junk _ d q.ws q.uninit q.cmd _ r d' w' hz (by rw [hq.len]; exact he), ?_⟩
  have hno : ∀ l lba n, ¬ (q.request q.mem q.uninit.toNat).asks l lba n := by
    rintro l lba n ⟨rw_, -, -, -, -, h1, h2, -⟩
    change _ ≤ (BitVec.ofNat 16 q.cmd.sg.length).toNat at h2
    rw [hz] at h2
    change _ ≤ 0 at h2
    omega
  have h23 : r.return_code ≠ 23 := by
    have h := served_status ⟨Module.env K junk, idealDevice cap, d, q.ws, ⟨q.mem, tr⟩, q.cmd.cmnd, q.cdb, q.cmd.lun, q.cmd.sense_buffer,
      SCSI_SENSE_BUFFERSIZE, q.uninit.toNat, BitVec.ofNat 16 q.cmd.sg.length, q.cmd.is_data_in, r, d', w', hv.stored, hq.short, he⟩
    change r.return_code ∈ _ at h
    intro e
    rw [e] at h
    exact absurd h (by decide)
  generalize hdd : luns d' = dd at hx
  cases hx with
  | read _ h => exact absurd h (hno _ _ _)
  | write _ h => exact absurd h (hno _ _ _)
  | failed h bad => exact ⟨bad, h23, rfl, rfl⟩

/-- A READ through the module with a buffer. -/
theorem module_read (K : Kernel) (hK : GoodKernel K) (junk : World → Nat → Byte) (cap : Nat → Nat) (d : Disk) (q : Command)
    (tr : List Event) (hq : q.Valid) (hop : isRead (byte q.cdb 0)) (L : Nat) (hL : q.cmd.sg.length % 65536 = L) (h0 : L ≠ 0)
    (ha : (K.kzalloc ⟨q.mem, tr⟩ L).1 ≠ 0) :
    ∃ r bs d' w' w1 mem data, scsi_queuecommand K junk (idealDevice cap) d q.ws q.uninit q.cmd ⟨q.mem, tr⟩ =
        .ok ((⟨r.return_code, some (L - r.alloc_len), bs ++ q.cmd.sg.drop r.alloc_len⟩, d'), w') ∧
      bs.length = r.alloc_len ∧ r.alloc_len ≤ L ∧ w1.read data r.alloc_len = some bs ∧ (q.request mem data).data = data ∧
      Expected (fun l => cap (l + 1)) (luns d) (q.request mem data) r w1 (luns d') := by
  have hlen : (BitVec.ofNat 16 q.cmd.sg.length).toNat = L := by
    rw [BitVec.toNat_ofNat, ← hL]
  have hLle : L ≤ q.cmd.sg.length := by rw [← hL]; exact Nat.mod_le _ _
  have hz : BitVec.ofNat 16 q.cmd.sg.length ≠ 0 := by
    intro h
    rw [h] at hlen
    exact h0 hlen.symm
  have hi : q.cmd.is_data_in = true := by
    rcases hq.op with ⟨-, h⟩ | ⟨h, -⟩
    · exact h
    · exact absurd h fun h => read_not_write hop h
  generalize hk : K.kzalloc ⟨q.mem, tr⟩ L = am at ha
  obtain ⟨a, m⟩ := am
  have hgood := hK.alloc ⟨q.mem, tr⟩ L
  rw [hk] at hgood
  simp only at hgood
  rcases hgood with ⟨ha', -⟩ | ⟨ha, h64, hsp, hin, hout⟩
  · exact absurd ha' ha
  have hfresh : ∀ x, (q.mem x).isSome → ¬ inRange a L x := by
    intro x hx hr
    rw [(hin x hr).1] at hx
    cases hx
  have hv : (q.request m a).Valid := hq.request _ _ L hL (fun hw => absurd hw fun h => read_not_write hop h)
      (fun x hx => ⟨hout x (hfresh x hx), hfresh x hx⟩)
      (fun i hi => by rw [(hin (a + i) ⟨by omega, by omega⟩).2]; rfl) hsp
  obtain ⟨r, d', w', he, hx⟩ := ideal_step cap (Module.env K junk) d (q.request m a) tr hv
  let y : Served Disk := ⟨Module.env K junk, idealDevice cap, d, q.ws, ⟨m, tr⟩, q.cmd.cmnd, q.cdb, q.cmd.lun, q.cmd.sense_buffer,
    SCSI_SENSE_BUFFERSIZE, a, BitVec.ofNat 16 q.cmd.sg.length, q.cmd.is_data_in, r, d', w', hv.stored, hq.short, he⟩
  have hal : r.alloc_len ≤ L := by
    have := C56_alloc_len y
    change r.alloc_len ≤ (BitVec.ofNat 16 q.cmd.sg.length).toNat at this
    rw [hlen] at this
    exact this
  have hmin : min r.alloc_len q.cmd.sg.length = r.alloc_len := Nat.min_eq_left (by omega)
  have hacc : w'.mem.mapped a r.alloc_len = true := by
    refine mapped_iff.mpr fun i hi => ?_
    refine served_accessible y (C72_util K hK junk).1 (a + i) ?_ (fun s m sub => ideal_accessible cap s m sub _)
    change (m (a + i)).isSome
    rw [(hin (a + i) ⟨by omega, by omega⟩).2]
    rfl
  obtain ⟨bs, hbs⟩ := Option.isSome_iff_exists.mp (mapped_iff_read.mp hacc)
  have := queue_in K junk (idealDevice cap) d q.ws q.uninit q.cmd ⟨q.mem, tr⟩ _ a m r d' w' bs hz hlen hk ha hi
    (by rw [hq.len]; exact he) (by rw [hmin]; exact hbs)
  rw [hmin] at this
  exact ⟨r, bs, d', _, w'.mem, m, a, this, read_length hbs, hal, hbs, rfl, hx⟩

/-- One READ or WRITE through the module. -/
theorem module_step (K : Kernel) (hK : GoodKernel K) (junk : World → Nat → Byte) (cap : Nat → Nat) (d : Disk) (q : Command)
    (tr : List Event) (hq : q.Valid) (hl : q.cmd.sg.length < 65536) :
    ∃ o d' w', scsi_queuecommand K junk (idealDevice cap) d q.ws q.uninit q.cmd ⟨q.mem, tr⟩ = .ok ((o, d'), w') ∧
      Handled (outOfMemory K tr q) (fun l => cap (l + 1)) (luns d) q o (luns d') := by
  have hlen : (BitVec.ofNat 16 q.cmd.sg.length).toNat = q.cmd.sg.length := by
    rw [BitVec.toNat_ofNat, Nat.mod_eq_of_lt hl]
  have hmod : q.cmd.sg.length % 65536 = q.cmd.sg.length := Nat.mod_eq_of_lt hl
  by_cases h0 : q.cmd.sg.length = 0
  · obtain ⟨o, d', w', h1, h2, -, h3, h4⟩ := module_empty K junk cap d q tr hq (by rw [h0])
      (fun h rw_ hd => by have := hq.matching h rw_ hd; omega)
    refine ⟨o, d', w', h1, ?_⟩
    rw [h4]
    refine .failed ?_ h2
    rintro lba n ⟨rw_, -, -, -, -, h1, h2, -⟩
    omega
  · have hz : BitVec.ofNat 16 q.cmd.sg.length ≠ 0 := by
      intro h
      rw [h] at hlen
      exact h0 hlen.symm
    generalize hk : K.kzalloc ⟨q.mem, tr⟩ q.cmd.sg.length = am
    obtain ⟨a, m⟩ := am
    have hgood := hK.alloc ⟨q.mem, tr⟩ q.cmd.sg.length
    rw [hk] at hgood
    simp only at hgood
    rcases hgood with ⟨ha, -⟩ | ⟨ha, h64, hsp, hin, hout⟩
    · refine ⟨_, d, _, queue_none K junk _ d q.ws q.uninit q.cmd ⟨q.mem, tr⟩ _ m hz hlen (by rw [hk, ha]), ?_⟩
      refine .noMemory ?_ rfl rfl
      unfold outOfMemory
      rw [hmod, hk]
      exact ha
    · have hfresh : ∀ x, (q.mem x).isSome → ¬ inRange a q.cmd.sg.length x := by
        intro x hx hr
        rw [(hin x hr).1] at hx
        cases hx
      rcases hq.op with ⟨hop, hi⟩ | ⟨hop, hi⟩
      · -- READ
        obtain ⟨r, bs, d', w', w1, mem, data, e1, e2, e3, e4, e5, hx⟩ := module_read K hK junk cap d q tr hq hop _ hmod h0
          (by rw [hk]; exact ha)
        refine ⟨_, d', w', e1, ?_⟩
        generalize hdd : luns d' = dd at hx
        cases hx with
        | write hw => exact absurd hw fun h => read_not_write hop h
        | @read lba n _ h good len data =>
          have h := (asks_request hl _ _ _ _ _).mp h
          refine .read hop h good ?_ ?_
          · simp only
            rw [len] at e4 ⊢
            change w1.read _ _ = some (Disk.read _ q.cmd.lun.toNat _ _) at data
            rw [e5, e4] at data
            cases data
            rfl
          · simp only
            rw [len, Int.natCast_mul]
            rfl
        | failed h bad => exact .failed (fun lba n hh => h lba n ((asks_request hl _ _ _ _ _).mpr hh)) bad
      · -- WRITE
        have htake : q.cmd.sg.take q.cmd.sg.length = q.cmd.sg := List.take_length
        have hmap : m.mapped a (q.cmd.sg.take q.cmd.sg.length).length = true := by
          rw [htake]
          refine mapped_iff.mpr fun i hi => ?_
          rw [(hin (a + i) ⟨by omega, by omega⟩).2]
          rfl
        have hputin : ∀ i, i < q.cmd.sg.length → (m.put a q.cmd.sg) (a + i) = q.cmd.sg[i]? := by
          intro i hi
          simp only [Mem.put]
          rw [if_pos (by omega), Nat.add_sub_cancel_left]
        have hputout : ∀ x, ¬ inRange a q.cmd.sg.length x → (m.put a q.cmd.sg) x = m x := by
          intro x hx
          simp only [Mem.put]
          exact if_neg hx
        obtain ⟨r, d', w', he, hx⟩ := ideal_step cap (Module.env K junk) d (q.request (m.put a q.cmd.sg) a) tr
          (hq.request _ _ _ hmod hq.matching
            (fun x hx => ⟨by rw [hputout x (hfresh x hx)]; exact hout x (hfresh x hx), hfresh x hx⟩)
            (fun i hi => by rw [hputin i hi, List.getElem?_eq_getElem hi]; rfl) hsp)
        refine ⟨_, d', _, queue_out K junk _ d q.ws q.uninit q.cmd ⟨q.mem, tr⟩ _ a m r d' w' hz hlen hk ha hi hmap
          (by rw [hq.len, htake]; exact he), ?_⟩
        generalize hdd : luns d' = dd at hx
        cases hx with
        | read hr => exact absurd hop fun h => read_not_write hr h
        | @write lba n bs _ h good data =>
          have h := (asks_request hl _ _ _ _ _).mp h
          have hbs : bs = q.cmd.sg.take (4096 * n) := by
            obtain ⟨-, -, -, -, -, -, h6, -⟩ := h
            obtain ⟨hl1, hl2⟩ := read_eq_some.mp data
            apply List.ext_getElem?
            intro i
            by_cases hi' : i < 4096 * n
            · rw [← hl2 i hi', List.getElem?_take, if_pos hi']
              exact hputin i (by omega)
            · rw [List.getElem?_eq_none (by omega), List.getElem?_take, if_neg hi']
          rw [hbs]
          exact .write hop h good rfl
        | failed h bad => exact .failed (fun lba n hh => h lba n ((asks_request hl _ _ _ _ _).mpr hh)) bad

theorem Spec.Handled.mono {P Q : Prop} (hpq : P → Q) {cap d q o d'} (h : Handled P cap d q o d') : Handled Q cap d q o d' := by
  cases h with
  | read a b c e f => exact .read a b c e f
  | write a b c e => exact .write a b c e
  | failed a b => exact .failed a b
  | noMemory a b c => exact .noMemory (hpq a) b c

/-- **C75 (partial).** The module on top of an ideal device, driven by any history of READ and WRITE commands over any
LUNs with scatter-gather lists of less than 65536 bytes, is an array of disks.  Missing: longer lists, see `C75_refuted`. -/
theorem C75_block_store_partial (K : Kernel) (hK : GoodKernel K) (junk : World → Nat → Byte) (cap : Nat → Nat) (d : Disk)
    (tr : List Event) (qs : List Command) (hv : ∀ q ∈ qs, q.Valid ∧ q.cmd.sg.length < 65536) :
    ∃ os d', queueAll K junk (idealDevice cap) d tr qs = .ok (os, d') ∧
      HandledAll (fun l => cap (l + 1)) (fun q => ∃ tr, outOfMemory K tr q) (fun l a => d (l + 1) a) qs os
        (fun l a => d' (l + 1) a) := by
  induction qs generalizing d tr with
  | nil => exact ⟨[], d, rfl, .nil⟩
  | cons q qs ih =>
    obtain ⟨hq, hl⟩ := hv q (List.mem_cons_self ..)
    obtain ⟨o, d1, w1, h1, h2⟩ := module_step K hK junk cap d q tr hq hl
    obtain ⟨os, d', h3, h4⟩ := ih d1 w1.trace fun q hq => hv q (List.mem_cons_of_mem _ hq)
    refine ⟨o :: os, d', by simp only [queueAll, h1, h3], .cons (h2.mono fun h => ⟨_, h⟩) h4⟩

/-- **C75 (exact).** A READ asking for more bytes than the remainder of the length of the scatter-gather list modulo 65536
is never answered with result 0, whatever the device holds: so is every READ of 64 KiB and more whose list is as long as the
data asked for. -/
theorem C75_long_read (K : Kernel) (hK : GoodKernel K) (junk : World → Nat → Byte) (cap : Nat → Nat) (d : Disk) (q : Command)
    (tr : List Event) (hq : q.Valid) (hop : isRead (byte q.cdb 0)) (rw_ : Rw) (hdec : decodeRw q.cdb = some rw_)
    (hlong : q.cmd.sg.length % 65536 < 4096 * rw_.blocks) :
    ∃ o d' w', scsi_queuecommand K junk (idealDevice cap) d q.ws q.uninit q.cmd ⟨q.mem, tr⟩ = .ok ((o, d'), w') ∧
      o.result ≠ 0 ∧ ∀ l, d' (l + 1) = d (l + 1) := by
  have hnw : ¬ isWrite (byte q.cdb 0) := fun h => read_not_write hop h
  by_cases h0 : q.cmd.sg.length % 65536 = 0
  · obtain ⟨o, d', w', h1, h2, -, -, h4⟩ := module_empty K junk cap d q tr hq h0 (fun h => absurd h hnw)
    exact ⟨o, d', w', h1, h2, fun l => congrFun h4 l⟩
  · by_cases ha : (K.kzalloc ⟨q.mem, tr⟩ (q.cmd.sg.length % 65536)).1 = 0
    · have hz : BitVec.ofNat 16 q.cmd.sg.length ≠ 0 := by
        intro h
        have := congrArg BitVec.toNat h
        rw [BitVec.toNat_ofNat] at this
        exact h0 this
      generalize hk : K.kzalloc ⟨q.mem, tr⟩ (q.cmd.sg.length % 65536) = am at ha
      obtain ⟨a, m⟩ := am
      refine ⟨_, d, _, queue_none K junk _ d q.ws q.uninit q.cmd ⟨q.mem, tr⟩ _ m hz (BitVec.toNat_ofNat ..) ?_, by simp, fun l => rfl⟩
      rw [show (a, m) = (0, m) by rw [show a = 0 from ha]] at hk
      exact hk
    · obtain ⟨r, bs, d', w', w1, mem, data, e1, -, -, -, -, hx⟩ := module_read K hK junk cap d q tr hq hop _ rfl h0 ha
      refine ⟨_, d', w', e1, ?_⟩
      generalize hdd : luns d' = dd at hx
      cases hx with
      | write hw => exact absurd hw hnw
      | failed h bad => exact ⟨bad, fun l => congrFun hdd l⟩
      | @read lba n _ h good len dat =>
        exfalso
        obtain ⟨rw2, h1, -, -, h3, -, h4, -⟩ := h
        change decodeRw q.cdb = some rw2 at h1
        rw [hdec] at h1
        cases h1
        change 4096 * n ≤ (BitVec.ofNat 16 q.cmd.sg.length).toNat at h4
        rw [BitVec.toNat_ofNat, ← h3] at h4
        omega

/-- The full property: no bound on the lists. -/
def C75_statement : Prop :=
  ∀ (K : Kernel), GoodKernel K → ∀ (junk : World → Nat → Byte) (cap : Nat → Nat) (d : Disk) (tr : List Event) (qs : List Command),
    (∀ q ∈ qs, q.Valid) →
    ∃ os d', queueAll K junk (idealDevice cap) d tr qs = .ok (os, d') ∧
      HandledAll (fun l => cap (l + 1)) (fun q => ∃ tr, outOfMemory K tr q) (fun l a => d (l + 1) a) qs os
        (fun l a => d' (l + 1) a)

/-! ## A kernel and commands -/

/-- A kernel with one block of memory, at address 0x100000. -/
def demoKernel : Kernel :=
  { kzalloc := fun w n =>
      if n ≤ 0x100000 ∧ (List.range n).all (fun i => (w.mem (0x100000 + i)).isNone) then
        (0x100000, fun x => if 0x100000 ≤ x ∧ x < 0x100000 + n then some 0 else w.mem x)
      else (0, w.mem)
    kfree := fun w a n x => if a ≤ x ∧ x < a + n then none else w.mem x }

theorem demoKernel_good : GoodKernel demoKernel where
  alloc := by
    intro w n
    simp only [demoKernel]
    split
    · rename_i h
      right
      refine ⟨by simp, by simp, ?_, ?_, ?_⟩
      · simp only; omega
      · intro x hx
        simp only [inRange] at hx ⊢
        refine ⟨?_, if_pos hx⟩
        have := List.all_eq_true.mp h.2 (x - 0x100000) (List.mem_range.mpr (by omega))
        rw [Nat.add_sub_cancel' hx.1] at this
        simpa using this
      · intro x hx
        exact if_neg hx
    · exact .inl ⟨rfl, rfl⟩
  free := fun _ _ _ _ => rfl

/-- A command for LUN 3: the command block at 0x100, the sense buffer at 0x400. -/
def demoCommand (cdb sg : List Byte) (isIn : Bool) : Command :=
  { mem := fun a => if 0x100 ≤ a ∧ a < 0x100 + cdb.length then cdb[a - 0x100]? else if 0x400 ≤ a ∧ a < 0x460 then some 0xee else none
    ws := Demo.ws, uninit := 0xdead, cdb := cdb
    cmd := { lun := 3, cmnd := 0x100, cmd_len := BitVec.ofNat 16 cdb.length, sense_buffer := 0x400, is_data_in := isIn, sg := sg } }

theorem demoCommand_valid (cdb sg : List Byte) (isIn : Bool) (hl : cdb.length < 100)
    (hop : (isRead (byte cdb 0) ∧ isIn = true) ∨ (isWrite (byte cdb 0) ∧ isIn = false))
    (hm : isWrite (byte cdb 0) → ∀ rw, decodeRw cdb = some rw → 4096 * rw.blocks ≤ sg.length) :
    (demoCommand cdb sg isIn).Valid where
  stored := by
    refine read_eq_some.mpr ⟨rfl, fun i hi => ?_⟩
    have hi : i < cdb.length := hi
    simp only [demoCommand]
    rw [if_pos (by omega), Nat.add_sub_cancel_left]
  short := by change cdb.length < 65536; omega
  len := rfl
  op := hop
  sense := by
    intro i hi
    have hi : i < 96 := hi
    simp only [demoCommand]
    rw [if_neg (by omega), if_pos (by omega)]
    rfl
  lun := by change 3 + 1 < 2 ^ 32; decide
  matching := hm

theorem demoCommand_length (cdb : List Byte) (n : Nat) (b : Byte) (isIn : Bool) :
    (demoCommand cdb (List.replicate n b) isIn).cmd.sg.length = n := List.length_replicate

/-- Two WRITEs and a READ that meet the hypotheses of `C75_block_store_partial`, and what they ask for. -/
example : let W := demoCommand [0x2a, 0, 0, 0, 0, 9, 0, 0, 2, 0] (List.replicate 8192 0x5a) false
    let R := demoCommand [0x88, 0, 0, 0, 0, 0, 0, 0, 0, 9, 0, 0, 0, 2, 0, 0] (List.replicate 12288 0) true
    (∀ q ∈ [W, W, R], q.Valid ∧ q.cmd.sg.length < 65536) ∧ W.asks 100 9 2 ∧ R.asks 100 9 2 ∧ GoodKernel demoKernel := by
  refine ⟨?_, ?_, ?_, demoKernel_good⟩
  · intro q hq
    simp only [List.mem_cons, List.not_mem_nil, or_false] at hq
    rcases hq with rfl | rfl | rfl
    · exact ⟨demoCommand_valid _ _ _ (by decide) (by decide) (by
        intro _ rw_ h; rw [List.length_replicate]; revert h; decide +revert), by rw [demoCommand_length]; decide⟩
    · exact ⟨demoCommand_valid _ _ _ (by decide) (by decide) (by
        intro _ rw_ h; rw [List.length_replicate]; revert h; decide +revert), by rw [demoCommand_length]; decide⟩
    · exact ⟨demoCommand_valid _ _ _ (by decide) (by decide) (fun h => absurd h (by decide)), by rw [demoCommand_length]; decide⟩
  · exact ⟨⟨9, 2, some 0, false⟩, by decide +kernel, by intro c h; cases h; decide, rfl, rfl, by decide, (by rw [demoCommand_length]; decide), by decide⟩
  · exact ⟨⟨9, 2, some 0, false⟩, by decide +kernel, by intro c h; cases h; decide, rfl, rfl, by decide, (by rw [demoCommand_length]; decide), by decide⟩

/-- READ(10) of 16 blocks into a list of exactly 64 KiB -/
def longRead : Command := demoCommand [0x28, 0, 0, 0, 0, 9, 0, 0, 16, 0] (List.replicate 65536 0) true

theorem longRead_valid : longRead.Valid :=
  demoCommand_valid _ _ _ (by decide) (by decide) (fun h => absurd h (by decide))

theorem longRead_asks : longRead.asks 100 9 16 :=
  ⟨⟨9, 16, some 0, false⟩, by decide +kernel, by intro c h; cases h; decide, rfl, rfl, by decide, (by unfold longRead; rw [demoCommand_length]; decide), by decide⟩

/-- **C75** is false as stated: READs of 64 KiB fail although the device has the data (the length of the list is truncated to
16 bits, and the engine sees a data buffer of 0 bytes). -/
theorem C75_refuted : ¬ C75_statement := by
  intro h
  obtain ⟨os, d', h1, h2⟩ := h demoKernel demoKernel_good (fun _ _ => 0) (fun _ => 100) (fun _ _ => 0) [] [longRead]
    (fun q hq => by rw [List.mem_singleton.mp hq]; exact longRead_valid)
  obtain ⟨o, d1, w1, e1, e2, e3, -, -⟩ := module_empty demoKernel (fun _ _ => 0) (fun _ => 100) (fun _ _ => 0) longRead [] longRead_valid
    (by unfold longRead; rw [demoCommand_length]) (fun h => absurd h (by decide))
  simp only [queueAll, e1, Except.ok.injEq, Prod.mk.injEq] at h1
  obtain ⟨rfl, -⟩ := h1
  generalize (fun l a => d' (l + 1) a) = dd at h2
  cases h2 with
  | cons h t =>
    cases h with
    | read _ _ good => exact e2 good
    | write op => exact absurd op (by decide)
    | failed h => exact h _ _ longRead_asks
    | noMemory _ bad => exact e3 bad

theorem demoKernel_some (w : World) (n : Nat) (hn : n ≤ 0x100000) (h : ∀ i, i < n → w.mem (0x100000 + i) = none) :
    (demoKernel.kzalloc w n).1 ≠ 0 := by
  simp only [demoKernel]
  rw [if_pos ⟨hn, List.all_eq_true.mpr fun i hi => by rw [h i (List.mem_range.mp hi)]; rfl⟩]
  simp

theorem demoCommand_alloc (cdb sg : List Byte) (isIn : Bool) (tr : List Event) (n : Nat) (hn : n ≤ 0x100000) (hl : cdb.length < 100) :
    (demoKernel.kzalloc ⟨(demoCommand cdb sg isIn).mem, tr⟩ n).1 ≠ 0 := by
  refine demoKernel_some _ _ hn fun i hi => ?_
  simp only [demoCommand]
  rw [if_neg (by omega), if_neg (by omega)]

/-- A call of `scsi_queuecommand` that meets the hypotheses of `C73_transfer`, `C74_no_stale` and `C74_frame`: a READ of two
blocks beyond the end of the disk, which gets a buffer and fails. -/
example : ∃ x : Queued Disk, GoodKernel x.K ∧ x.out.result ≠ 0 ∧ x.cmd.is_data_in = true ∧ x.cmd.sg.length % 65536 ≠ 0 ∧
    (x.K.kzalloc x.w (x.cmd.sg.length % 65536)).1 ≠ 0 ∧ accessible x.w.mem ⟨x.cmd.sense_buffer, 96⟩ := by
  let q := demoCommand [0x28, 0, 0, 0, 0, 99, 0, 0, 2, 0] (List.replicate 8192 7) true
  have hl : q.cmd.sg.length = 8192 := demoCommand_length ..
  have hv : q.Valid := demoCommand_valid _ _ _ (by decide) (by decide) (fun h => absurd h (by decide))
  have hk : (demoKernel.kzalloc ⟨q.mem, []⟩ (q.cmd.sg.length % 65536)).1 ≠ 0 := by
    rw [hl]; exact demoCommand_alloc _ _ _ _ _ (by decide) (by decide)
  obtain ⟨o, d', w', h1, h2⟩ := module_step demoKernel demoKernel_good (fun _ _ => 0) (fun _ => 100) (fun _ _ => 0) q [] hv (by omega)
  have hbad : o.result ≠ 0 := by
    have dec : decodeRw q.cdb = some ⟨99, 2, some 0, false⟩ := by decide +kernel
    generalize luns d' = dd at h2
    cases h2 with
    | @read lba n _ h =>
      obtain ⟨rw_, e, -, e1, e2, -, -, e3⟩ := h
      rw [dec] at e
      cases e
      simp only at e1 e2
      omega
    | @write lba n op => exact absurd op (by decide)
    | failed h bad => exact bad
    | noMemory _ bad => rw [bad]; decide
  exact ⟨⟨demoKernel, fun _ _ => 0, idealDevice fun _ => 100, fun _ _ => 0, q.ws, q.uninit, ⟨q.mem, []⟩, q.cmd, o, d', w', q.cdb,
    hv.short, hv.len, hv.stored, h1⟩, demoKernel_good, hbad, rfl, (by change q.cmd.sg.length % 65536 ≠ 0; omega), hk, hv.sense⟩

end Scsi2Nvme
