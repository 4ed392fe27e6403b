import Verif.Spec.ModuleTarget
import Verif.Properties.ModuleDisk
import Verif.Properties.Target
/-!
# C93: histories of arbitrary commands through the kernel module
-/

namespace Scsi2Nvme
open Spec Engine Module

variable {σ : Type}

/-- The command block is still there when the buffer was allocated. -/
theorem kzalloc_keeps {K : Kernel} (hK : GoodKernel K) (w : World) (n : Nat) (ptr : Nat) (cdb : List Byte)
    (hs : w.mem.read ptr cdb.length = some cdb) : (K.kzalloc w n).2.read ptr cdb.length = some cdb := by
  have hsome : ∀ i, i < cdb.length → (w.mem (ptr + i)).isSome := fun i hi => read_isSome.mp (by rw [hs]; rfl) i hi
  rcases hK.alloc w n with ⟨-, h⟩ | ⟨-, -, -, h1, h2⟩
  · rw [h]; exact hs
  · rw [← hs]
    refine read_congr fun i hi => h2 _ fun hr => ?_
    have := hsome i hi
    rw [(h1 _ hr).1] at this
    cases this

theorem kzalloc_put_keeps {K : Kernel} (hK : GoodKernel K) (w : World) (n : Nat) (ptr : Nat) (cdb bs : List Byte) (hl : bs.length ≤ n)
    (h0 : (K.kzalloc w n).1 ≠ 0)
    (hs : w.mem.read ptr cdb.length = some cdb) :
    ((K.kzalloc w n).2.put (K.kzalloc w n).1 bs).read ptr cdb.length = some cdb := by
  have hsome : ∀ i, i < cdb.length → (w.mem (ptr + i)).isSome := fun i hi => read_isSome.mp (by rw [hs]; rfl) i hi
  rw [← kzalloc_keeps hK w n ptr cdb hs]
  rcases hK.alloc w n with ⟨h, -⟩ | ⟨-, -, -, h1, h2⟩
  · exact absurd h h0
  · refine read_congr fun i hi => put_outside ?_
    have := hsome i hi
    by_cases hr : inRange (K.kzalloc w n).1 n (ptr + i)
    · rw [(h1 _ hr).1] at this
      cases this
    · unfold inRange at hr
      omega

/-- The module does not see the difference between devices which agree on what they are given. -/
theorem queue_congr (K : Kernel) (hK : GoodKernel K) (junk : World → Nat → Byte) (D D' : Device σ) (s : σ) (ws : Arr3 NvmeCmdWrapper)
    (uninit : U64) (c : ScsiCmnd) (w : World) (cdb : List Byte) (hs : w.mem.read c.cmnd cdb.length = some cdb)
    (h : ∀ data w', w'.mem.read c.cmnd cdb.length = some cdb →
      ScsiToNvme (Module.env K junk) D s ws c.cmnd c.cmd_len c.lun c.sense_buffer SCSI_SENSE_BUFFERSIZE data
        (BitVec.ofNat 16 c.sg.length) c.is_data_in w' =
      ScsiToNvme (Module.env K junk) D' s ws c.cmnd c.cmd_len c.lun c.sense_buffer SCSI_SENSE_BUFFERSIZE data
        (BitVec.ofNat 16 c.sg.length) c.is_data_in w') :
    scsi_queuecommand K junk D s ws uninit c w = scsi_queuecommand K junk D' s ws uninit c w := by
  unfold scsi_queuecommand
  simp only
  split
  · simp only [M.bind_run, h _ w hs]
  · simp only [M.bind_run, Module.kzalloc]
    split
    · rfl
    · rename_i h0
      split
      · simp only [M.bind_run]
        rw [h _ _ (kzalloc_keeps hK w _ _ _ hs)]
      · simp only [M.bind_run, store]
        split
        · rfl
        · rename_i he
          split at he
          · cases he
            rw [h]
            exact kzalloc_put_keeps hK w _ _ _ _ (by rw [List.length_take]; omega) h0 hs
          · cases he

/-- The call of the engine inside a call of the module which did not run out of memory. -/
theorem Spec.Queued.calls (x : Queued σ) (hK : GoodKernel x.K) :
    (x.out.result = 23 ∧ x.out.sg = x.cmd.sg ∧ x.s' = x.s ∧ (x.K.kzalloc x.w (x.cmd.sg.length % 65536)).1 = 0) ∨
    ∃ y : Served σ, y.D = x.D ∧ y.s = x.s ∧ y.s' = x.s' ∧ y.cdb = x.cdb ∧ x.out.result = y.resp.return_code := by
  rcases x.inv with ⟨-, r, he, e⟩ | ⟨-, h0, e, hs, -⟩ | ⟨-, h0, -, r, w1, he, -, h⟩
  · right
    exact ⟨⟨Module.env x.K x.junk, x.D, x.s, x.ws, x.w, x.cmd.cmnd, x.cdb, x.cmd.lun, x.cmd.sense_buffer, SCSI_SENSE_BUFFERSIZE, _,
      BitVec.ofNat 16 x.cmd.sg.length, x.cmd.is_data_in, r, x.s', x.w', x.stored, x.short, he⟩, rfl, rfl, rfl, rfl, by rw [e]⟩
  · left
    rw [e]
    exact ⟨rfl, rfl, hs, h0⟩
  · right
    refine ⟨x.served hK h0 he, rfl, rfl, rfl, rfl, ?_⟩
    change x.out.result = r.return_code
    split at h
    · obtain ⟨bs, -, e⟩ := h
      rw [e]
    · rw [h]

theorem managed_step (cap : Nat → Nat) (K : Kernel) (hK : GoodKernel K) (junk : World → Nat → Byte) (D : Device Disk)
    (hS : Storage D cap) (d : Disk) (q : Command) (tr : List Event) (hq : q.Fair) (o d' w')
    (h : scsi_queuecommand K junk D d q.ws q.uninit q.cmd ⟨q.mem, tr⟩ = .ok ((o, d'), w')) :
    Managed (outOfMemory K tr q) (fun l => cap (l + 1)) (luns d) q o (luns d') := by
  have hlen : (BitVec.ofNat 16 q.cdb.length).toNat = q.cdb.length := by
    rw [BitVec.toNat_ofNat]; exact Nat.mod_eq_of_lt hq.short
  by_cases hop : isRead (byte q.cdb 0) ∨ isWrite (byte q.cdb 0)
  · refine .rw hop ?_
    obtain ⟨hv, hl⟩ := hq.rw hop
    rw [queue_congr K hK junk D (idealDevice cap) d q.ws q.uninit q.cmd ⟨q.mem, tr⟩ q.cdb hq.stored] at h
    · obtain ⟨o1, d1, w1, h1, h2⟩ := module_step K hK junk cap d q tr hv hl
      rw [h] at h1
      simp only [Except.ok.injEq, Prod.mk.injEq] at h1
      obtain ⟨⟨rfl, rfl⟩, rfl⟩ := h1
      exact h2
    · intro data w' hs
      refine ScsiToNvme_congr _ _ _ _ _ _ _ _ _ _ _ _ _ _ ?_
      intro r t1 w1 hb wr hwr s m
      rw [hq.len, hlen] at hb
      obtain ⟨h1, h2, h3⟩ := rw_commands ⟨IdleObject_init _, hs, hb⟩ hop (BitVec.isLt _) (fun hw rw_ hd => by
        rw [BitVec.toNat_ofNat, Nat.mod_eq_of_lt hl]
        exact hv.matching hw rw_ hd) wr hwr
      exact hS.io s m _ h1 h2 h3
  · let x : Queued Disk := ⟨K, junk, D, d, q.ws, q.uninit, ⟨q.mem, tr⟩, q.cmd, o, d', w', q.cdb, hq.short, hq.len, hq.stored, h⟩
    have hsg : o.sg.length = q.cmd.sg.length := (C73_transfer x hK).1
    rcases x.calls hK with ⟨h1, h2, h3, h4⟩ | ⟨y, h1, h2, h3, h4, h5⟩
    · change d' = d at h3
      rw [h3]
      exact .other (not_or.mp hop) hsg (.inr ⟨h4, h1⟩)
    · have hst := served_status y
      rw [← h5] at hst
      have := C83_untouched cap y (by rw [h1]; exact hS) (by rw [h4]; exact fun hw => hop (.inr hw)) (by rw [h4]; exact hq.unmap)
      rw [h2, h3] at this
      change d' = d at this
      rw [this]
      exact .other (not_or.mp hop) hsg (.inl hst)

theorem Spec.Managed.mono {P Q : Prop} (hpq : P → Q) {cap d q o d'} (h : Managed P cap d q o d') : Managed Q cap d q o d' := by
  cases h with
  | rw op h => exact .rw op (h.mono hpq)
  | other op len st => exact .other op len (st.imp_right fun h => ⟨hpq h.1, h.2⟩)

/-- **C93.** The module with a device that stores data, driven by any history of commands whatsoever: READ and WRITE (with
lists of less than 65536 bytes) behave as those of an array of disks, LUN `l` being namespace `l + 1`, and no other
command changes the disks or the length of a list. -/
theorem C93_history (cap : Nat → Nat) (K : Kernel) (hK : GoodKernel K) (junk : World → Nat → Byte) (D : Device Disk)
    (hS : Storage D cap) (d : Disk) (tr : List Event) (qs : List Command) (hv : ∀ q ∈ qs, q.Fair) (os d')
    (h : queueAll K junk D d tr qs = .ok (os, d')) :
    ManagedAll (fun l => cap (l + 1)) (fun q => ∃ tr, outOfMemory K tr q) (fun l a => d (l + 1) a) qs os
      (fun l a => d' (l + 1) a) := by
  induction qs generalizing d tr os with
  | nil =>
    unfold queueAll at h
    cases h
    exact .nil
  | cons q qs ih =>
    unfold queueAll at h
    split at h
    · cases h
    · rename_i o d1 w1 e1
      split at h
      · cases h
      · rename_i os' d2 e2
        cases h
        exact .cons ((managed_step cap K hK junk D hS d q tr (hv q (List.mem_cons_self ..)) o d1 w1 e1).mono fun h => ⟨_, h⟩)
          (ih d1 w1.trace (fun q hq => hv q (List.mem_cons_of_mem _ hq)) os' e2)

/-! ## The last write is read -/

theorem Spec.ManagedAll.append {cap nm d qs os d' qs'} (h : ManagedAll cap nm d (qs ++ qs') os d') :
    ∃ os1 os2 d1, os = os1 ++ os2 ∧ ManagedAll cap nm d qs os1 d1 ∧ ManagedAll cap nm d1 qs' os2 d' := by
  induction qs generalizing d os with
  | nil => exact ⟨[], os, d, rfl, .nil, h⟩
  | cons q qs ih =>
    cases h with
    | cons h1 h2 =>
      obtain ⟨os1, os2, d1, rfl, h3, h4⟩ := ih h2
      exact ⟨_ :: os1, os2, d1, rfl, .cons h1 h3, h4⟩

theorem Spec.ManagedAll.length {cap nm d qs os d'} (h : ManagedAll cap nm d qs os d') : os.length = qs.length := by
  induction h with
  | nil => rfl
  | cons _ _ ih => simp [ih]

theorem Spec.Command.asks_unique {q : Command} {cap cap' lba n lba' n' : Nat} (h : q.asks cap lba n) (h' : q.asks cap' lba' n') :
    lba' = lba ∧ n' = n := by
  obtain ⟨rw1, e1, -, rfl, rfl, -⟩ := h
  obtain ⟨rw2, e2, -, rfl, rfl, -⟩ := h'
  rw [e1] at e2
  cases e2
  exact ⟨rfl, rfl⟩

theorem Spec.ManagedAll.keeps {cap nm d qs os d'} (h : ManagedAll cap nm d qs os d') (lun lba n : Nat)
    (hs : ∀ q ∈ qs, Command.sparing q cap lun lba n) :
    Disk.read d' lun (4096 * lba) (4096 * n) = Disk.read d lun (4096 * lba) (4096 * n) := by
  induction h with
  | nil => rfl
  | @cons d q o d1 qs os d2 h t ih =>
    rw [ih fun q hq => hs q (List.mem_cons_of_mem _ hq)]
    cases h with
    | other => rfl
    | rw op h =>
      cases h with
      | read => rfl
      | failed => rfl
      | noMemory => rfl
      | @write lba' n' op h good data =>
        apply Disk.read_write_other
        by_cases hl : q.cmd.lun.toNat = lun
        · have := hs q (List.mem_cons_self ..) op hl lba' n' (by rw [← hl]; exact h)
          obtain ⟨-, -, -, -, -, -, h6, -⟩ := h
          rw [List.length_take]
          omega
        · exact .inl fun e => hl e.symm

/-- **C93**, the last write is read: in any history that contains a correct WRITE of some blocks of a LUN, then any commands
at all except WRITEs of these blocks, then a correct READ of the blocks, and memory for the buffers of the two, both are
answered with result 0, and the READ puts into its list what the list of the WRITE held. -/
theorem C93_read_last_write (cap : Nat → Nat) (K : Kernel) (hK : GoodKernel K) (junk : World → Nat → Byte) (D : Device Disk)
    (hS : Storage D cap) (d : Disk) (tr : List Event)
    (pre mid : List Command) (W R : Command) (hv : ∀ q ∈ pre ++ W :: (mid ++ [R]), q.Fair) (lba n : Nat)
    (hW : isWrite (byte W.cdb 0)) (hWa : W.asks (cap (W.cmd.lun.toNat + 1)) lba n)
    (hR : isRead (byte R.cdb 0)) (hRa : R.asks (cap (W.cmd.lun.toNat + 1)) lba n) (hlun : R.cmd.lun = W.cmd.lun)
    (hmem : ∀ tr, ¬ outOfMemory K tr W ∧ ¬ outOfMemory K tr R)
    (hmid : ∀ q ∈ mid, Command.sparing q (fun l => cap (l + 1)) W.cmd.lun.toNat lba n) (os d')
    (h : queueAll K junk D d tr (pre ++ W :: (mid ++ [R])) = .ok (os, d')) :
    ∃ oW oR, os[pre.length]? = some oW ∧ os.getLast? = some oR ∧ oW.result = 0 ∧ oR.result = 0 ∧
      oR.sg = W.cmd.sg.take (4096 * n) ++ R.cmd.sg.drop (4096 * n) ∧
      oR.resid = some ((R.cmd.sg.length : Int) - 4096 * n) := by
  have h2 := C93_history cap K hK junk D hS d tr _ hv os d' h
  clear h hv
  generalize (fun l a => d' (l + 1) a) = dd at h2
  obtain ⟨os1, os2, d1, rfl, b1, b2⟩ := h2.append
  have l1 : os1.length = pre.length := b1.length
  cases b2 with
  | @cons _ _ oW d2 _ os3 _ hw b3 =>
    obtain ⟨os4, os5, d3, rfl, b4, b5⟩ := b3.append
    cases b5 with
    | @cons _ _ oR d4 _ _ _ hr b6 =>
      cases b6 with
      | nil =>
        cases hw with
        | other op => exact absurd hW op.2
        | rw _ hw =>
        cases hr with
        | other op => exact absurd hR op.1
        | rw _ hr =>
        cases hw with
        | read op => exact absurd hW fun h => read_not_write op h
        | failed h => exact absurd hWa (h lba n)
        | noMemory h => obtain ⟨tr, h⟩ := h; exact absurd h (hmem tr).1
        | @write lbaW nW op hwa goodW dataW =>
          obtain ⟨rfl, rfl⟩ := Command.asks_unique hWa hwa
          cases hr with
          | write op => exact absurd op fun h => read_not_write hR h
          | failed h => rw [hlun] at h; exact absurd hRa (h _ _)
          | noMemory h => obtain ⟨tr, h⟩ := h; exact absurd h (hmem tr).2
          | @read lbaR nR opR hra goodR dataR residR =>
            obtain ⟨rfl, rfl⟩ := Command.asks_unique hRa hra
            refine ⟨oW, oR, ?_, ?_, goodW, goodR, ?_, residR⟩
            · rw [List.getElem?_append_right (by omega), l1, Nat.sub_self]
              rfl
            · rw [← List.cons_append, ← List.append_assoc]
              exact List.getLast?_concat
            · rw [dataR, hlun, b4.keeps _ _ _ hmid]
              obtain ⟨-, -, -, -, -, -, h6, -⟩ := hwa
              have hl : (W.cmd.sg.take (4096 * nR)).length = 4096 * nR := by rw [List.length_take]; omega
              have := Disk.read_write_self d1 W.cmd.lun.toNat (4096 * lbaR) (W.cmd.sg.take (4096 * nR))
              rw [hl] at this
              rw [this]

/-! ## Every history of commands is served -/

theorem fair_request {q : Command} (hq : q.Fair) (hop : ¬ (isRead (byte q.cdb 0) ∨ isWrite (byte q.cdb 0))) (mem : Mem) (data : Nat)
    (hs : mem.read q.cmd.cmnd q.cdb.length = some q.cdb) : (q.request mem data).Fair where
  stored := hs
  short := hq.short
  unmap := hq.unmap
  rw := fun h => absurd h hop

theorem queue_returns (cap : Nat → Nat) {ident feature} (K : Kernel) (hK : GoodKernel K) (junk : World → Nat → Byte) (D : Device Disk)
    (hS : Storage D cap) (hC : Controller D ident feature) (hT : tidy D) (hM : keepsMapped D) (d : Disk) (q : Command)
    (tr : List Event) (hq : q.Fair) (hs : accessible q.mem ⟨q.cmd.sense_buffer, 96⟩)
    (hop : steady q.cdb (ident (nsidOfLun q.cmd.lun) 0)) :
    ∃ y, scsi_queuecommand K junk D d q.ws q.uninit q.cmd ⟨q.mem, tr⟩ = .ok y := by
  have hlen : (BitVec.ofNat 16 q.cdb.length).toNat = q.cdb.length := by
    rw [BitVec.toNat_ofNat]; exact Nat.mod_eq_of_lt hq.short
  by_cases hrw : isRead (byte q.cdb 0) ∨ isWrite (byte q.cdb 0)
  · obtain ⟨hv, hl⟩ := hq.rw hrw
    rw [queue_congr K hK junk D (idealDevice cap) d q.ws q.uninit q.cmd ⟨q.mem, tr⟩ q.cdb hq.stored]
    · obtain ⟨o1, d1, w1, h1, -⟩ := module_step K hK junk cap d q tr hv hl
      exact ⟨_, h1⟩
    · intro data w' hs
      refine ScsiToNvme_congr _ _ _ _ _ _ _ _ _ _ _ _ _ _ ?_
      intro r t1 w1 hb wr hwr s m
      rw [hq.len, hlen] at hb
      obtain ⟨h1, h2, h3⟩ := rw_commands ⟨IdleObject_init _, hs, hb⟩ hrw (BitVec.isLt _) (fun hw rw_ hd => by
        rw [BitVec.toNat_ofNat, Nat.mod_eq_of_lt hl]
        exact hv.matching hw rw_ hd) wr hwr
      exact hS.io s m _ h1 h2 h3
  · have hg := (C72_util K hK junk).1
    -- the engine returns
    have engine : ∀ (m : Mem) (data : Nat), m.read q.cmd.cmnd q.cdb.length = some q.cdb → (∀ a, (q.mem a).isSome → (m a).isSome) →
        (∀ i, i < q.cmd.sg.length % 65536 → (m (data + i)).isSome) →
        ∃ r s' w', ScsiToNvme (Module.env K junk) D d q.ws q.cmd.cmnd q.cmd.cmd_len q.cmd.lun q.cmd.sense_buffer
          SCSI_SENSE_BUFFERSIZE data (BitVec.ofNat 16 q.cmd.sg.length) q.cmd.is_data_in ⟨m, tr⟩ = .ok ((r, s'), w') ∧
          r.alloc_len ≤ q.cmd.sg.length % 65536 ∧ ∀ a, (m a).isSome → (w'.mem a).isSome := by
      intro m data h1 h2 h3
      obtain ⟨⟨⟨r, s'⟩, w'⟩, h⟩ := fair_returns cap (Module.env K junk) D hg hS hC hT d (q.request m data) tr (fair_request hq hrw m data h1)
        ⟨fun i hi => h2 _ (hs i hi), fun i hi => h3 i (by
          change i < (BitVec.ofNat 16 q.cmd.sg.length).toNat at hi
          rwa [BitVec.toNat_ofNat] at hi)⟩ hop
      let y : Served Disk := ⟨Module.env K junk, D, d, q.ws, ⟨m, tr⟩, q.cmd.cmnd, q.cdb, q.cmd.lun, q.cmd.sense_buffer,
        SCSI_SENSE_BUFFERSIZE, data, BitVec.ofNat 16 q.cmd.sg.length, q.cmd.is_data_in, r, s', w', h1, hq.short, h⟩
      refine ⟨r, s', w', by rw [hq.len]; exact h, ?_, fun a ha => served_accessible y hg a ha fun s m sub => hM s m sub a⟩
      have := C56_alloc_len y
      change r.alloc_len ≤ (BitVec.ofNat 16 q.cmd.sg.length).toNat at this
      rwa [BitVec.toNat_ofNat] at this
    by_cases h0 : q.cmd.sg.length % 65536 = 0
    · have hz : BitVec.ofNat 16 q.cmd.sg.length = 0 := BitVec.eq_of_toNat_eq (by rw [BitVec.toNat_ofNat]; exact h0)
      obtain ⟨r, s', w', h, -, -⟩ := engine q.mem q.uninit.toNat hq.stored (fun _ h => h) (fun i hi => by omega)
      exact ⟨_, queue_zero K junk D d q.ws q.uninit q.cmd _ r s' w' hz h⟩
    · have hn : (BitVec.ofNat 16 q.cmd.sg.length).toNat = q.cmd.sg.length % 65536 := BitVec.toNat_ofNat ..
      have hz : BitVec.ofNat 16 q.cmd.sg.length ≠ 0 := by
        intro h
        rw [h] at hn
        exact h0 hn.symm
      generalize hL : q.cmd.sg.length % 65536 = L at *
      have hLle : L ≤ q.cmd.sg.length := by rw [← hL]; exact Nat.mod_le _ _
      have hkeep := kzalloc_keeps hK ⟨q.mem, tr⟩ L _ _ hq.stored
      have hkeep' := fun bs hl h0 => kzalloc_put_keeps hK ⟨q.mem, tr⟩ L _ _ bs hl h0 hq.stored
      have hgood := hK.alloc ⟨q.mem, tr⟩ L
      generalize hk : K.kzalloc ⟨q.mem, tr⟩ L = am at *
      obtain ⟨a, m⟩ := am
      simp only at hgood hkeep hkeep'
      rcases hgood with ⟨ha, -⟩ | ⟨ha, -, -, hin, hout⟩
      · subst ha
        exact ⟨_, queue_none K junk D d q.ws q.uninit q.cmd ⟨q.mem, tr⟩ L m hz hn hk⟩
      · have hmap : ∀ i, i < L → (m (a + i)).isSome := fun i hi => by
          rw [(hin (a + i) ⟨by omega, by omega⟩).2]; rfl
        have hsome : ∀ x, (q.mem x).isSome → (m x).isSome := by
          intro x hx
          by_cases hr : inRange a L x
          · rw [(hin x hr).2]; rfl
          · rw [hout x hr]; exact hx
        cases hi : q.cmd.is_data_in with
        | true =>
          obtain ⟨r, s', w', h, hal, hacc⟩ := engine m a hkeep hsome hmap
          have hmin : min r.alloc_len q.cmd.sg.length = r.alloc_len := Nat.min_eq_left (by omega)
          have hm : w'.mem.mapped a r.alloc_len = true := mapped_iff.mpr fun i hi => hacc _ (hmap i (by omega))
          obtain ⟨bs, hbs⟩ := Option.isSome_iff_exists.mp (mapped_iff_read.mp hm)
          exact ⟨_, queue_in K junk D d q.ws q.uninit q.cmd ⟨q.mem, tr⟩ L a m r s' w' bs hz hn hk ha hi h (by rw [hmin]; exact hbs)⟩
        | false =>
          have hl : (q.cmd.sg.take L).length = L := by rw [List.length_take]; omega
          have hput : ∀ x, (m x).isSome → ((m.put a (q.cmd.sg.take L)) x).isSome := by
            intro x hx
            unfold Mem.put
            split
            · rw [List.getElem?_eq_getElem (by omega)]; rfl
            · exact hx
          obtain ⟨r, s', w', h, -, -⟩ := engine (m.put a (q.cmd.sg.take L)) a (hkeep' _ (by omega) ha) (fun x hx => hput x (hsome x hx))
            (fun i hi => hput _ (hmap i hi))
          exact ⟨_, queue_out K junk D d q.ws q.uninit q.cmd ⟨q.mem, tr⟩ L a m r s' w' hz hn hk ha hi
            (mapped_iff.mpr fun i hi => hmap i (by omega)) h⟩

/-- **C93**, total: with a controller that also executes Identify and Get Features, every history of
`steady` commands (all but some MODE SENSE commands, see C81) is handled to the end, and as `C93_history` says. -/
theorem C93_served (cap : Nat → Nat) (ident feature) (K : Kernel) (hK : GoodKernel K) (junk : World → Nat → Byte) (D : Device Disk)
    (hS : Storage D cap) (hC : Controller D ident feature) (hT : tidy D) (hM : keepsMapped D) (d : Disk) (tr : List Event)
    (qs : List Command) (hv : ∀ q ∈ qs, q.Fair) (hs : ∀ q ∈ qs, accessible q.mem ⟨q.cmd.sense_buffer, 96⟩)
    (hop : ∀ q ∈ qs, steady q.cdb (ident (nsidOfLun q.cmd.lun) 0)) :
    ∃ os d', queueAll K junk D d tr qs = .ok (os, d') ∧ os.length = qs.length ∧
      ManagedAll (fun l => cap (l + 1)) (fun q => ∃ tr, outOfMemory K tr q) (fun l a => d (l + 1) a) qs os
        (fun l a => d' (l + 1) a) := by
  have key : ∃ os d', queueAll K junk D d tr qs = .ok (os, d') := by
    induction qs generalizing d tr with
    | nil => exact ⟨[], d, rfl⟩
    | cons q qs ih =>
      obtain ⟨⟨⟨o, d1⟩, w1⟩, h1⟩ := queue_returns cap K hK junk D hS hC hT hM d q tr (hv q (List.mem_cons_self ..)) (hs q (List.mem_cons_self ..))
        (hop q (List.mem_cons_self ..))
      obtain ⟨os, d2, h2⟩ := ih d1 w1.trace (fun q hq => hv q (List.mem_cons_of_mem _ hq)) (fun q hq => hs q (List.mem_cons_of_mem _ hq))
        (fun q hq => hop q (List.mem_cons_of_mem _ hq))
      refine ⟨o :: os, d2, ?_⟩
      unfold queueAll
      simp only [h1, h2]
  obtain ⟨os, d', h⟩ := key
  have := C93_history cap K hK junk D hS d tr qs hv os d' h
  exact ⟨os, d', h, this.length, this⟩

/-! ## A concrete history -/

theorem demoTarget_keepsMapped (cap ident feature) : keepsMapped (demoTarget cap ident feature) := by
  have put : ∀ (m : Mem) p bs a, (m a).isSome → ((m.put p bs) a).isSome := by
    intro m p bs a h
    unfold Mem.put
    split
    · rw [List.getElem?_eq_getElem (by omega)]; rfl
    · exact h
  intro d m sub a h
  unfold demoTarget
  split
  · split
    · exact put _ _ _ _ h
    · split <;> exact h
  · exact ideal_accessible _ _ _ _ _ h

theorem demoCommand_stored (cdb sg : List Byte) (isIn : Bool) :
    (demoCommand cdb sg isIn).mem.read 0x100 cdb.length = some cdb := by
  refine read_eq_some.mpr ⟨rfl, fun i hi => ?_⟩
  simp only [demoCommand]
  rw [if_pos (by omega), Nat.add_sub_cancel_left]

theorem demoCommand_sense (cdb sg : List Byte) (isIn : Bool) (hl : cdb.length < 100) :
    accessible (demoCommand cdb sg isIn).mem ⟨0x400, 96⟩ := by
  intro i hi
  have hi : i < 96 := hi
  simp only [demoCommand]
  rw [if_neg (by omega), if_pos (by omega)]
  rfl

theorem demoCommand_fair (cdb sg : List Byte) (isIn : Bool) (hl : cdb.length < 100) (h42 : byte cdb 0 ≠ 0x42)
    (hrw : isRead (byte cdb 0) ∨ isWrite (byte cdb 0) → (demoCommand cdb sg isIn).Valid ∧ sg.length < 65536) :
    (demoCommand cdb sg isIn).Fair where
  stored := demoCommand_stored cdb sg isIn
  short := by change cdb.length < 65536; omega
  len := rfl
  unmap := fun h => absurd h h42
  rw := hrw

/-- WRITE(10) of two blocks, INQUIRY, SYNCHRONIZE CACHE(10), READ(16) of the blocks, all through the module: the hypotheses of
the three theorems are met, so the READ puts into its list what the WRITE wrote. -/
example (cap : Nat → Nat) (hcap : 100 ≤ cap 4) (ident : Nat → Nat → List Byte) (feature : Nat → Nat → Nat → Nat)
    (hs : ∀ n c, (ident n c).length = 4096) (d : Disk) :
    ∃ os d' oW oR, queueAll demoKernel (fun _ _ => 0) (demoTarget cap ident feature) d []
        [demoCommand [0x2a, 0, 0, 0, 0, 9, 0, 0, 2, 0] (List.replicate 8192 0x5a) false,
         demoCommand Demo.inquiry (List.replicate 96 0) true, demoCommand [0x35, 0, 0, 0, 0, 0, 0, 0, 0, 0] [] false,
         demoCommand [0x88, 0, 0, 0, 0, 0, 0, 0, 0, 9, 0, 0, 0, 2, 0, 0] (List.replicate 12288 0) true] = .ok (os, d') ∧
      os[0]? = some oW ∧ os.getLast? = some oR ∧ oW.result = 0 ∧ oR.result = 0 ∧ oR.resid = some 4096 ∧
      oR.sg = (List.replicate 8192 0x5a).take 8192 ++ (List.replicate 12288 0).drop 8192 := by
  have f1 : (demoCommand [0x2a, 0, 0, 0, 0, 9, 0, 0, 2, 0] (List.replicate 8192 0x5a) false).Fair :=
    demoCommand_fair _ _ _ (by decide) (by decide) fun _ => ⟨demoCommand_valid _ _ _ (by decide) (by decide) (by
        intro _ rw_ h; rw [List.length_replicate]; revert h; decide +revert), by rw [List.length_replicate]; decide⟩
  have f2 : (demoCommand Demo.inquiry (List.replicate 96 0) true).Fair :=
    demoCommand_fair _ _ _ (by decide) (by decide) fun h => absurd h (by decide)
  have f3 : (demoCommand [0x35, 0, 0, 0, 0, 0, 0, 0, 0, 0] [] false).Fair :=
    demoCommand_fair _ _ _ (by decide) (by decide) fun h => absurd h (by decide)
  have f4 : (demoCommand [0x88, 0, 0, 0, 0, 0, 0, 0, 0, 9, 0, 0, 0, 2, 0, 0] (List.replicate 12288 0) true).Fair :=
    demoCommand_fair _ _ _ (by decide) (by decide) fun _ =>
      ⟨demoCommand_valid _ _ _ (by decide) (by decide) (fun h => absurd h (by decide)), by rw [List.length_replicate]; decide⟩
  have asks : ∀ cdb n b i, decodeRw cdb = some ⟨9, 2, some 0, false⟩ → 8192 ≤ n →
      (demoCommand cdb (List.replicate n b) i).asks (cap 4) 9 2 := fun cdb n b i hd hn =>
    ⟨⟨9, 2, some 0, false⟩, hd, by intro c h; cases h; decide, rfl, rfl, by decide, (by rw [demoCommand_length]; omega), by omega⟩
  have hF : ∀ q ∈ [] ++ demoCommand [0x2a, 0, 0, 0, 0, 9, 0, 0, 2, 0] (List.replicate 8192 0x5a) false ::
      ([demoCommand Demo.inquiry (List.replicate 96 0) true, demoCommand [0x35, 0, 0, 0, 0, 0, 0, 0, 0, 0] [] false] ++
       [demoCommand [0x88, 0, 0, 0, 0, 0, 0, 0, 0, 9, 0, 0, 0, 2, 0, 0] (List.replicate 12288 0) true]), q.Fair := by
    intro q hq
    simp only [List.nil_append, List.cons_append, List.mem_cons, List.not_mem_nil, or_false] at hq
    rcases hq with rfl | rfl | rfl | rfl
    · exact f1
    · exact f2
    · exact f3
    · exact f4
  obtain ⟨os, d', h, -, -⟩ := C93_served cap ident feature demoKernel demoKernel_good (fun _ _ => 0) (demoTarget cap ident feature)
    (demoTarget_storage cap ident feature) (demoTarget_controller cap ident feature hs) (demoTarget_tidy cap ident feature)
    (demoTarget_keepsMapped cap ident feature) d [] _ hF
    (by
      intro q hq
      simp only [List.nil_append, List.cons_append, List.mem_cons, List.not_mem_nil, or_false] at hq
      rcases hq with rfl | rfl | rfl | rfl <;> exact demoCommand_sense _ _ _ (by decide))
    (by
      intro q hq
      simp only [List.nil_append, List.cons_append, List.mem_cons, List.not_mem_nil, or_false] at hq
      rcases hq with rfl | rfl | rfl | rfl
      · exact steady_of ⟨by decide, by decide⟩ _
      · exact steady_of ⟨by decide, by decide⟩ _
      · exact steady_of ⟨by decide, by decide⟩ _
      · exact steady_of ⟨by decide, by decide⟩ _)
  have hmemn : ∀ cdb n b i tr, n ≤ 0x10000 → cdb.length < 100 → ¬ outOfMemory demoKernel tr (demoCommand cdb (List.replicate n b) i) := by
    intro cdb n b i tr hn hl
    unfold outOfMemory
    exact demoCommand_alloc _ _ _ _ _ (by rw [demoCommand_length]; omega) hl
  obtain ⟨oW, oR, h1, h2, h3, h4, h5, h6⟩ := C93_read_last_write cap demoKernel demoKernel_good (fun _ _ => 0) _
    (demoTarget_storage cap ident feature) d [] [] _ _ _
    hF 9 2 (by decide) (asks _ _ _ _ (by decide +kernel) (by decide)) (by decide) (asks _ _ _ _ (by decide +kernel) (by decide)) rfl
    (fun tr => ⟨hmemn _ _ _ _ _ (by decide) (by decide), hmemn _ _ _ _ _ (by decide) (by decide)⟩) (by
      intro q hq
      simp only [List.mem_cons, List.not_mem_nil, or_false] at hq
      rcases hq with rfl | rfl
      · exact fun hw => absurd hw (by decide)
      · exact fun hw => absurd hw (by decide)) os d' h
  refine ⟨os, d', oW, oR, h, h1, h2, h3, h4, ?_, h5⟩
  rw [h6, demoCommand_length]
  rfl

end Scsi2Nvme
