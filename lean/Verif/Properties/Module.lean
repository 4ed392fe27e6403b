import Verif.Spec.Module
import Verif.Properties.Engine
import Verif.Properties.Disk
/-!
# C72-C75: the kernel module
-/

namespace Scsi2Nvme
open Spec Engine Module

variable {σ : Type}

/-! ## C72 -/

theorem pages_size (n : U16) : ((4096 : U32) * n.setWidth 32).toNat = 4096 * n.toNat := by
  rw [BitVec.toNat_mul, BitVec.toNat_setWidth]
  have := n.isLt
  rw [Nat.mod_eq_of_lt (show n.toNat < 2 ^ 32 by omega)]
  change 4096 * n.toNat % 2 ^ 32 = _
  omega

/-- **C72.** The allocation functions of util.c, on top of a kernel that does what it should, are a well-behaved
allocator as assumed by the other properties, and answer a request for zero pages with 0. -/
theorem C72_util (K : Kernel) (hK : GoodKernel K) (junk : World → Nat → Byte) :
    GoodAllocator (Module.env K junk) ∧ ZeroIsNull (Module.env K junk) := by
  constructor
  · constructor
    · intro f hf w n
      simp only [Module.env, Option.some.injEq] at hf
      subst hf
      unfold Module.AllocPages
      by_cases hn : n = 0
      · rw [if_pos hn]; exact .inl ⟨rfl, rfl⟩
      · rw [if_neg hn]
        simp only [pages_size]
        rcases hK.alloc w (4096 * n.toNat) with ⟨h1, h2⟩ | ⟨h1, h2, h3, h4, h5⟩
        · left; rw [h1, h2]; exact ⟨rfl, rfl⟩
        · right
          have ht : (BitVec.ofNat 64 (K.kzalloc w (4096 * n.toNat)).1 : U64).toNat = (K.kzalloc w (4096 * n.toNat)).1 := by
            rw [BitVec.toNat_ofNat, Nat.mod_eq_of_lt h2]
          rw [ht]
          refine ⟨fun e => h1 ?_, h3, fun x hx => ?_, h5⟩
          · rw [← ht, e]; rfl
          · rw [(h4 x hx).2]; exact ⟨(h4 x hx).1, rfl⟩
    · intro f hf w a n x hx
      simp only [Module.env, Option.some.injEq] at hf
      subst hf
      unfold Module.DeallocPages
      split
      · rw [hK.free]
        exact if_neg hx
      · rfl
  · intro f hf w ps
    simp only [Module.env, Option.some.injEq] at hf
    subst hf
    rfl

/-! ## The engine called by the module -/

/-- What was accessible before a call of the engine is accessible afterwards, if the device does not change this. -/
theorem served_accessible (x : Served σ) (hg : GoodAllocator x.E) (a : Nat) (ha : (x.w.mem a).isSome)
    (hd : ∀ s m sub, (m a).isSome → ((x.D s m sub).2.1 a).isSome) : (x.w'.mem a).isSome := by
  obtain ⟨r, t1, w1, hB, -, h⟩ := served_began x
  have h1 : (w1.mem a).isSome := by rw [Begin_keeps hg (Idle_init _) hB.call a ha]; exact ha
  rcases h with ⟨-, -, -, hw⟩ | ⟨hl, cs, m, c, t2, hD, hc, -, hr⟩
  · rw [hw]; exact h1
  · have h2 : (m a).isSome := hD.keepsSome a (fun s m sub _ => hd s m sub) h1
    have hwf := began_wf hB
    have h3 : ∀ wm, x.w' = abortW x.E t1 wm → (wm.mem a).isSome → (x.w'.mem a).isSome := by
      intro wm e1 e2
      rw [e1]
      have := dealloc_keeps hg (livePages t1.nvme_cmd_count t1.allocations) wm a (began_avoids hg hB a ha)
      change ((deallocAll _ _ _).mem a).isSome
      rw [this]
      exact e2
    rcases Complete_inv x.E t1 hwf _ _ _ _ _ _ _ hc with ⟨-, -, -, hw⟩ | ⟨-, -, w2, hw, hh⟩
    · rw [hw]; exact h2
    · refine h3 w2 hw ?_
      rcases hh with ⟨-, -, e⟩ | ⟨-, -, -, ok, hf⟩ | ⟨-, -, s, -, -, ok, hf⟩ | ⟨-, -, -, -, bs, st, -, hf⟩
      · rw [e]; exact h2
      · rw [(FillSenseBuffer_framed _ _ _ _ _ _ hf).2.2 a]; exact h2
      · rw [(FillSenseBuffer_framed _ _ _ _ _ _ hf).2.2 a]; exact h2
      · rw [(completeSwitch_framed _ _ _ _ _ _ _ _ _ hf).2.2 a]; exact h2

/-- The length of the buffer the module uses. -/
def Spec.Queued.size (x : Queued σ) : Nat := x.cmd.sg.length % 65536

/-- The address `kzalloc` gives for it. -/
def Spec.Queued.addr (x : Queued σ) : Nat := (x.K.kzalloc x.w x.size).1

/-- The world after `kzalloc`. -/
def Spec.Queued.wA (x : Queued σ) : World := ⟨(x.K.kzalloc x.w x.size).2, x.w.trace⟩

/-- The world after the data of a command that is not data-in was copied. -/
def Spec.Queued.wB (x : Queued σ) : World :=
  if x.cmd.is_data_in then x.wA else ⟨x.wA.mem.put x.addr (x.cmd.sg.take x.size), x.w.trace⟩

/-- The call of the engine. -/
def Spec.Queued.engine (x : Queued σ) (data : Nat) (w : World) : Except UB ((ScsiToNvmeResponse × σ) × World) :=
  ScsiToNvme (Module.env x.K x.junk) x.D x.s x.ws x.cmd.cmnd (BitVec.ofNat 16 x.cdb.length) x.cmd.lun x.cmd.sense_buffer
    SCSI_SENSE_BUFFERSIZE
    data (BitVec.ofNat 16 x.cmd.sg.length) x.cmd.is_data_in w

theorem Spec.Queued.inv (x : Queued σ) :
    (x.size = 0 ∧ ∃ r, x.engine x.uninit.toNat x.w = .ok ((r, x.s'), x.w') ∧ x.out = ⟨r.return_code, none, x.cmd.sg⟩) ∨
    (x.size ≠ 0 ∧ x.addr = 0 ∧ x.out = ⟨23, none, x.cmd.sg⟩ ∧ x.s' = x.s ∧ x.w' = x.wA) ∨
    (x.size ≠ 0 ∧ x.addr ≠ 0 ∧ (x.cmd.is_data_in = false → x.wA.mem.mapped x.addr x.size = true) ∧ ∃ r w1,
      x.engine x.addr x.wB = .ok ((r, x.s'), w1) ∧ x.w' = ⟨x.K.kfree w1 x.addr x.size, w1.trace⟩ ∧
      if x.cmd.is_data_in then ∃ bs, w1.mem.read x.addr (min r.alloc_len x.cmd.sg.length) = some bs ∧
        x.out = ⟨r.return_code, some (x.size - min r.alloc_len x.cmd.sg.length),
          bs ++ x.cmd.sg.drop (min r.alloc_len x.cmd.sg.length)⟩
      else x.out = ⟨r.return_code, none, x.cmd.sg⟩) := by
  have hcall := x.call
  have hsz : (BitVec.ofNat 16 x.cmd.sg.length).toNat = x.size := BitVec.toNat_ofNat _ _
  unfold scsi_queuecommand at hcall
  rw [x.len] at hcall
  by_cases h0 : BitVec.ofNat 16 x.cmd.sg.length = 0
  · left
    have hz : x.size = 0 := by rw [← hsz, h0]; rfl
    refine ⟨hz, ?_⟩
    simp only [if_pos h0] at hcall
    simp only [M.bind_run] at hcall
    cases he : x.engine x.uninit.toNat x.w with
    | error e =>
      unfold Spec.Queued.engine at he
      simp only [he] at hcall
      cases hcall
    | ok y =>
      obtain ⟨⟨r, s1⟩, w1⟩ := y
      unfold Spec.Queued.engine at he
      simp only [he, M.pure_run, Except.ok.injEq, Prod.mk.injEq] at hcall
      obtain ⟨⟨e1, e2⟩, e3⟩ := hcall
      exact ⟨r, by rw [e2, e3], e1.symm⟩
  · right
    have hz : x.size ≠ 0 := by
      intro h
      rw [← hsz] at h
      exact h0 (BitVec.eq_of_toNat_eq h)
    simp only [if_neg h0] at hcall
    simp only [M.bind_run, Module.kzalloc, hsz] at hcall
    change (if x.addr = 0 then (pure _ : M _) else _) x.wA = _ at hcall
    by_cases ha : x.addr = 0
    · left
      rw [if_pos ha] at hcall
      simp only [M.pure_run, Except.ok.injEq, Prod.mk.injEq] at hcall
      obtain ⟨⟨e1, e2⟩, e3⟩ := hcall
      exact ⟨hz, ha, e1.symm, e2.symm, e3.symm⟩
    · right
      rw [if_neg ha] at hcall
      refine ⟨hz, ha, ?_⟩
      unfold Spec.Queued.wB
      have haddr : (x.K.kzalloc x.w x.size).1 = x.addr := rfl
      simp only [haddr] at hcall
      by_cases hi : x.cmd.is_data_in = true
      · simp only [if_pos hi]
        rw [if_pos hi] at hcall
        simp only [M.bind_run] at hcall
        refine ⟨fun h => (by rw [hi] at h; cases h), ?_⟩
        cases he : x.engine x.addr x.wA with
        | error e =>
          unfold Spec.Queued.engine at he
          simp only [he] at hcall
          cases hcall
        | ok y =>
          obtain ⟨⟨r, s1⟩, w1⟩ := y
          unfold Spec.Queued.engine at he
          simp only [he, M.bind_run, load] at hcall
          cases hr : w1.mem.read x.addr (min r.alloc_len x.cmd.sg.length) with
          | none => simp only [hr] at hcall; cases hcall
          | some bs =>
            simp only [hr, Module.kfree, M.pure_run, Except.ok.injEq, Prod.mk.injEq] at hcall
            obtain ⟨⟨e1, e2⟩, e3⟩ := hcall
            exact ⟨r, w1, by rw [e2], e3.symm, bs, hr, e1.symm⟩
      · rw [if_neg hi] at hcall
        simp only [if_neg hi]
        simp only [M.bind_run, store] at hcall
        have hlen : (x.cmd.sg.take x.size).length = x.size := by
          rw [List.length_take]
          exact Nat.min_eq_left (Nat.mod_le _ _)
        by_cases hm : x.wA.mem.mapped x.addr (x.cmd.sg.take x.size).length = true
        · simp only [if_pos hm] at hcall
          rw [hlen] at hm
          refine ⟨fun _ => hm, ?_⟩
          cases he : x.engine x.addr ⟨x.wA.mem.put x.addr (x.cmd.sg.take x.size), x.w.trace⟩ with
          | error e =>
            unfold Spec.Queued.engine at he
            have hw : ({ x.wA with mem := x.wA.mem.put x.addr (x.cmd.sg.take x.size) } : World)
              = ⟨x.wA.mem.put x.addr (x.cmd.sg.take x.size), x.w.trace⟩ := rfl
            simp only [hw, he] at hcall
            cases hcall
          | ok y =>
            obtain ⟨⟨r, s1⟩, w1⟩ := y
            unfold Spec.Queued.engine at he
            have hw : ({ x.wA with mem := x.wA.mem.put x.addr (x.cmd.sg.take x.size) } : World)
              = ⟨x.wA.mem.put x.addr (x.cmd.sg.take x.size), x.w.trace⟩ := rfl
            simp only [hw, he, M.bind_run, Module.kfree, M.pure_run, Except.ok.injEq, Prod.mk.injEq] at hcall
            obtain ⟨⟨e1, e2⟩, e3⟩ := hcall
            exact ⟨r, w1, by rw [e2], e3.symm, e1.symm⟩
        · simp only [if_neg hm] at hcall
          cases hcall

/-! ### With a good kernel -/

theorem Spec.Queued.size_le (x : Queued σ) : x.size ≤ x.cmd.sg.length := Nat.mod_le _ _

theorem Spec.Queued.size_lt (x : Queued σ) : x.size < 65536 := Nat.mod_lt _ (by decide)

/-- The buffer is new: what was accessible before is outside of it. -/
theorem Spec.Queued.fresh (x : Queued σ) (hK : GoodKernel x.K) (h0 : x.addr ≠ 0) (a : Nat) (ha : (x.w.mem a).isSome) :
    ¬ inRange x.addr x.size a := by
  intro hr
  rcases hK.alloc x.w x.size with ⟨h, -⟩ | ⟨-, -, -, h, -⟩
  · exact h0 h
  · rw [(h a hr).1] at ha; cases ha

theorem Spec.Queued.wB_outside (x : Queued σ) (hK : GoodKernel x.K) (a : Nat) (ha : ¬ inRange x.addr x.size a) :
    x.wB.mem a = x.w.mem a := by
  have h1 : x.wA.mem a = x.w.mem a := by
    rcases hK.alloc x.w x.size with ⟨-, h⟩ | ⟨-, -, -, -, h⟩
    · exact congrFun h a
    · exact h a ha
  unfold Spec.Queued.wB
  split
  · exact h1
  · rw [← h1]
    simp only [Mem.put]
    rw [if_neg]
    rw [List.length_take, Nat.min_eq_left x.size_le]
    exact ha

/-- The buffer holds zeros or, if the command is not data-in, the beginning of the data. -/
theorem Spec.Queued.wB_inside (x : Queued σ) (hK : GoodKernel x.K) (h0 : x.addr ≠ 0) :
    x.wB.mem.read x.addr x.size =
      some (if x.cmd.is_data_in then List.replicate x.size 0 else x.cmd.sg.take x.size) := by
  have h1 : ∀ i, i < x.size → x.wA.mem (x.addr + i) = some 0 := by
    intro i hi
    rcases hK.alloc x.w x.size with ⟨h, -⟩ | ⟨-, -, -, h, -⟩
    · exact absurd h h0
    · exact (h (x.addr + i) ⟨by unfold Spec.Queued.addr; omega, by unfold Spec.Queued.addr; omega⟩).2
  unfold Spec.Queued.wB
  split
  · refine read_eq_some.mpr ⟨by simp, fun i hi => ?_⟩
    rw [h1 i hi, List.getElem?_replicate, if_pos hi]
  · have hl : (x.cmd.sg.take x.size).length = x.size := by rw [List.length_take, Nat.min_eq_left x.size_le]
    refine read_eq_some.mpr ⟨hl, fun i hi => ?_⟩
    simp only [Mem.put]
    rw [if_pos (by omega), Nat.add_sub_cancel_left]

theorem Spec.Queued.storedB (x : Queued σ) (hK : GoodKernel x.K) (h0 : x.addr ≠ 0) :
    x.wB.mem.read x.cmd.cmnd x.cdb.length = some x.cdb := by
  rw [← x.stored]
  apply read_congr
  intro i hi
  apply x.wB_outside hK
  apply x.fresh hK h0
  have := (read_eq_some.mp x.stored).2 i hi
  rw [this, List.getElem?_eq_getElem hi]
  rfl

/-- The call of the engine, if the module got its buffer. -/
def Spec.Queued.served (x : Queued σ) (hK : GoodKernel x.K) (h0 : x.addr ≠ 0) {r w1}
    (h : x.engine x.addr x.wB = .ok ((r, x.s'), w1)) : Served σ where
  E := Module.env x.K x.junk
  D := x.D
  s := x.s
  ws := x.ws
  w := x.wB
  ptr := x.cmd.cmnd
  cdb := x.cdb
  lun := x.cmd.lun
  sense := x.cmd.sense_buffer
  senseLen := SCSI_SENSE_BUFFERSIZE
  data := x.addr
  dataLen := BitVec.ofNat 16 x.cmd.sg.length
  isIn := x.cmd.is_data_in
  resp := r
  s' := x.s'
  w' := w1
  stored := x.storedB hK h0
  short := x.short
  call := h

/-! ## C73 -/

/-- **C73.** The module transfers data into the scatter-gather list only for data-in commands, and then exactly a
prefix of at most the (16-bit) buffer length; what follows the prefix is unchanged and the length of the list stays the
same; the residual count is the part of the buffer length that was not transferred. -/
theorem C73_transfer (x : Queued σ) (hK : GoodKernel x.K) : x.out.sg.length = x.cmd.sg.length ∧
    (x.cmd.is_data_in = false → x.out.sg = x.cmd.sg ∧ x.out.resid = none) ∧
    ∃ n, n ≤ x.cmd.sg.length % 65536 ∧ x.out.sg.drop n = x.cmd.sg.drop n ∧
      ((x.out.resid = none ∧ n = 0) ∨ x.out.resid = some (((x.cmd.sg.length % 65536 : Nat) : Int) - n)) := by
  rcases x.inv with ⟨-, r, -, e⟩ | ⟨-, -, e, -⟩ | ⟨-, h0, -, r, w1, he, -, h⟩
  · rw [e]; exact ⟨rfl, fun _ => ⟨rfl, rfl⟩, 0, Nat.zero_le _, rfl, .inl ⟨rfl, rfl⟩⟩
  · rw [e]; exact ⟨rfl, fun _ => ⟨rfl, rfl⟩, 0, Nat.zero_le _, rfl, .inl ⟨rfl, rfl⟩⟩
  · split at h
    · rename_i hi
      obtain ⟨bs, hr, e⟩ := h
      have hl := read_length hr
      have hle : r.alloc_len ≤ x.size := by
        have := C56_alloc_len (x.served hK h0 he)
        change r.alloc_len ≤ (BitVec.ofNat 16 x.cmd.sg.length).toNat at this
        rw [BitVec.toNat_ofNat] at this
        exact this
      have := x.size_le
      rw [e]
      refine ⟨?_, fun h => (by rw [hi] at h; cases h), min r.alloc_len x.cmd.sg.length, by
        change min r.alloc_len x.cmd.sg.length ≤ x.size
        omega, ?_, .inr rfl⟩
      · simp only [List.length_append, List.length_drop, hl]
        omega
      · simp only
        rw [List.drop_append_of_le_length (by omega), List.drop_eq_nil_of_le (by omega), List.nil_append]
    · rw [h]; exact ⟨rfl, fun _ => ⟨rfl, rfl⟩, 0, Nat.zero_le _, rfl, .inl ⟨rfl, rfl⟩⟩

/-- **C73.** What the engine gets and what happens with its answer.  If the module gets its buffer, it calls the engine
once, with the command block, LUN and sense buffer of the command, and the buffer, which holds zeros or (for a command that
is not data-in) the data to be sent; the result is the status the engine returns; and for a data-in command exactly
the bytes which the engine says it has put into the buffer are transferred.  If there is no memory for the buffer, the device
is not involved. -/
theorem C73_engine (x : Queued σ) (hK : GoodKernel x.K) (hn : x.cmd.sg.length % 65536 ≠ 0) :
    let n := x.cmd.sg.length % 65536
    let a := (x.K.kzalloc x.w n).1
    (a = 0 → x.out = ⟨23, none, x.cmd.sg⟩ ∧ x.s' = x.s ∧ x.w' = x.w) ∧
    (a ≠ 0 → ∃ y : Served σ, y.D = x.D ∧ y.s = x.s ∧ y.s' = x.s' ∧ y.cdb = x.cdb ∧ y.lun = x.cmd.lun ∧
      y.sense = x.cmd.sense_buffer ∧ y.senseLen.toNat = 96 ∧ y.data = a ∧ y.dataLen.toNat = n ∧ y.isIn = x.cmd.is_data_in ∧
      y.w.mem.read a n = some (if x.cmd.is_data_in then List.replicate n 0 else x.cmd.sg.take n) ∧
      x.out.result = y.resp.return_code ∧
      (x.cmd.is_data_in = true → y.w'.mem.read a y.resp.alloc_len = some (x.out.sg.take y.resp.alloc_len) ∧
        x.out.sg.drop y.resp.alloc_len = x.cmd.sg.drop y.resp.alloc_len ∧
        x.out.resid = some ((n : Int) - y.resp.alloc_len))) := by
  rcases x.inv with ⟨h0, -⟩ | ⟨-, h0, e, hs, hw⟩ | ⟨-, h0, -, r, w1, he, -, h⟩
  · exact absurd h0 hn
  · refine ⟨fun _ => ⟨e, hs, ?_⟩, fun h => absurd h0 h⟩
    rw [hw]
    rcases hK.alloc x.w x.size with ⟨-, h⟩ | ⟨h, -⟩
    · show (⟨(x.K.kzalloc x.w x.size).2, x.w.trace⟩ : World) = x.w
      rw [h]
    · exact absurd h0 h
  · refine ⟨fun h => absurd h h0, fun _ => ?_⟩
    have hsz : (BitVec.ofNat 16 x.cmd.sg.length).toNat = x.size := BitVec.toNat_ofNat _ _
    have hle : r.alloc_len ≤ x.size := by
      have := C56_alloc_len (x.served hK h0 he)
      change r.alloc_len ≤ (BitVec.ofNat 16 x.cmd.sg.length).toNat at this
      rw [hsz] at this
      exact this
    have hmin : min r.alloc_len x.cmd.sg.length = r.alloc_len := Nat.min_eq_left (by have := x.size_le; omega)
    refine ⟨x.served hK h0 he, rfl, rfl, rfl, rfl, rfl, rfl, rfl, rfl, hsz, rfl, x.wB_inside hK h0, ?_, ?_⟩
    · change x.out.result = r.return_code
      split at h
      · obtain ⟨bs, -, e⟩ := h
        rw [e]
      · rw [h]
    · intro hi
      rw [if_pos hi, hmin] at h
      obtain ⟨bs, hr, e⟩ := h
      have hl := read_length hr
      change w1.mem.read x.addr r.alloc_len = some (x.out.sg.take r.alloc_len) ∧ x.out.sg.drop r.alloc_len = _ ∧ _
      rw [e]
      refine ⟨?_, ?_, rfl⟩
      · rw [hr]
        simp only
        rw [List.take_append_of_le_length (by omega), List.take_of_length_le (by omega)]
      · simp only
        rw [List.drop_append_of_le_length (by omega), List.drop_eq_nil_of_le (by omega), List.nil_append]
        rfl

/-! ## C74 -/

/-- A command the engine does not answer with GOOD: memory is changed by the device and in the sense buffer only. -/
theorem served_bad_keeps (x : Served σ) (hg : GoodAllocator x.E) (hbad : x.resp.return_code ≠ 0) (a : Nat)
    (ha : (x.w.mem a).isSome) (hd : ∀ s m sub, (x.D s m sub).2.1 a = m a) (hs : ¬ inRange x.sense x.senseLen.toNat a) :
    x.w'.mem a = x.w.mem a := by
  obtain ⟨r, t1, w1, hB, -, h⟩ := served_began x
  have h1 : w1.mem a = x.w.mem a := Begin_keeps hg (Idle_init _) hB.call a ha
  rcases h with ⟨-, -, -, hw⟩ | ⟨hl, cs, m, c, t2, hD, hc, -, hr⟩
  · rw [hw]; exact h1
  · have h2 : m a = w1.mem a := hD.keeps a fun s m sub _ => hd s m sub
    have hwf := began_wf hB
    have h3 : ∀ wm, x.w' = abortW x.E t1 wm → wm.mem a = m a → x.w'.mem a = x.w.mem a := by
      intro wm e1 e2
      rw [e1]
      have := dealloc_keeps hg (livePages t1.nvme_cmd_count t1.allocations) wm a (began_avoids hg hB a ha)
      change (deallocAll _ _ _).mem a = _
      rw [this, e2, h2, h1]
    rcases Complete_inv x.E t1 hwf _ _ _ _ _ _ _ hc with ⟨-, -, -, hw⟩ | ⟨-, -, w2, hw, hh⟩
    · rw [hw]; simp only; rw [h2, h1]
    · refine h3 w2 hw ?_
      rcases hh with ⟨-, -, e⟩ | ⟨-, -, -, ok, hf⟩ | ⟨-, -, s, -, -, ok, hf⟩ | ⟨-, -, -, e, -⟩
      · rw [e]
      · exact (FillSenseBuffer_framed _ _ _ _ _ _ hf).2.1 a hs
      · exact (FillSenseBuffer_framed _ _ _ _ _ _ hf).2.1 a hs
      · rw [hr, e] at hbad
        exact absurd rfl hbad

/-- **C74.** If a command is not answered with result 0 and the device does not write into the buffer of the module, the
transferred bytes are zeros: no stale kernel memory gets to the initiator. -/
theorem C74_no_stale (x : Queued σ) (hK : GoodKernel x.K) (hbad : x.out.result ≠ 0)
    (hs : accessible x.w.mem ⟨x.cmd.sense_buffer, 96⟩)
    (hd : ∀ s m sub a, inRange (x.K.kzalloc x.w (x.cmd.sg.length % 65536)).1 (x.cmd.sg.length % 65536) a →
      (x.D s m sub).2.1 a = m a) :
    ∃ n, n ≤ x.cmd.sg.length ∧ x.out.sg = List.replicate n 0 ++ x.cmd.sg.drop n := by
  rcases x.inv with ⟨-, r, -, e⟩ | ⟨-, -, e, -⟩ | ⟨-, h0, -, r, w1, he, -, h⟩
  · exact ⟨0, Nat.zero_le _, by rw [e]; rfl⟩
  · exact ⟨0, Nat.zero_le _, by rw [e]; rfl⟩
  · split at h
    · rename_i hi
      obtain ⟨bs, hr, e⟩ := h
      refine ⟨min r.alloc_len x.cmd.sg.length, Nat.min_le_right _ _, ?_⟩
      have hle : r.alloc_len ≤ x.size := by
        have := C56_alloc_len (x.served hK h0 he)
        change r.alloc_len ≤ (BitVec.ofNat 16 x.cmd.sg.length).toNat at this
        rw [BitVec.toNat_ofNat] at this
        exact this
      rw [e]
      simp only
      congr 1
      obtain ⟨hl, hb⟩ := read_eq_some.mp hr
      have hin := (read_eq_some.mp (x.wB_inside hK h0)).2
      apply List.ext_getElem?
      intro i
      by_cases hi' : i < min r.alloc_len x.cmd.sg.length
      · rw [← hb i hi', List.getElem?_replicate, if_pos hi']
        have hi2 : i < x.size := by omega
        have := hin i hi2
        rw [if_pos hi, List.getElem?_replicate, if_pos hi2] at this
        rw [← this]
        rw [e] at hbad
        refine served_bad_keeps (x.served hK h0 he) (C72_util x.K hK x.junk).1 hbad (x.addr + i) ?_ ?_ ?_
        · change (x.wB.mem (x.addr + i)).isSome
          rw [this]; rfl
        · exact fun s m sub => hd s m sub _ ⟨by unfold Spec.Queued.addr Spec.Queued.size; omega, by
            unfold Spec.Queued.addr Spec.Queued.size; unfold Spec.Queued.size at hi2; omega⟩
        · intro hin
          change inRange x.cmd.sense_buffer 96 _ at hin
          unfold inRange at hin
          have h96 := hs (x.addr + i - x.cmd.sense_buffer) (by change _ < 96; omega)
          simp only at h96
          rw [Nat.add_sub_cancel' hin.1] at h96
          exact x.fresh hK h0 _ h96 ⟨by omega, by omega⟩
      · rw [List.getElem?_eq_none (by omega), List.getElem?_eq_none (by simpa using hi')]
    · exact ⟨0, Nat.zero_le _, by rw [h]; rfl⟩

/-- **C74.** The buffer of the module is handed back, and of what was accessible before the call the module changes at
most the sense buffer. -/
theorem C74_frame (x : Queued σ) (hK : GoodKernel x.K) :
    (x.cmd.sg.length % 65536 ≠ 0 → (x.K.kzalloc x.w (x.cmd.sg.length % 65536)).1 ≠ 0 →
      ∀ a, inRange (x.K.kzalloc x.w (x.cmd.sg.length % 65536)).1 (x.cmd.sg.length % 65536) a → x.w'.mem a = none) ∧
    ∀ a, (x.w.mem a).isSome → (∀ s m sub, (x.D s m sub).2.1 a = m a) → ¬ inRange x.cmd.sense_buffer 96 a →
      x.w'.mem a = x.w.mem a := by
  rcases x.inv with ⟨h0, r, he, -⟩ | ⟨-, h0, -, -, e⟩ | ⟨-, h0, -, r, w1, he, hw, -⟩
  · refine ⟨fun h => absurd h0 h, fun a ha hd hs => ?_⟩
    have hz : (BitVec.ofNat 16 x.cmd.sg.length).toNat = 0 := by rw [BitVec.toNat_ofNat]; exact h0
    let y : Served σ := ⟨Module.env x.K x.junk, x.D, x.s, x.ws, x.w, x.cmd.cmnd, x.cdb, x.cmd.lun, x.cmd.sense_buffer,
      SCSI_SENSE_BUFFERSIZE, x.uninit.toNat, BitVec.ofNat 16 x.cmd.sg.length, x.cmd.is_data_in, r, x.s', x.w', x.stored, x.short, he⟩
    have hy := C56_alloc_len y
    change r.alloc_len ≤ _ at hy
    refine C56_frame y (C72_util x.K hK x.junk).1 a ha hd hs ?_
    intro _ hr
    change inRange _ r.alloc_len a at hr
    unfold inRange at hr
    change r.alloc_len ≤ (BitVec.ofNat 16 x.cmd.sg.length).toNat at hy
    omega
  · refine ⟨fun _ h => absurd h0 h, fun a _ _ _ => ?_⟩
    rw [e]
    rcases hK.alloc x.w x.size with ⟨-, h⟩ | ⟨h, -⟩
    · exact congrFun h a
    · exact absurd h0 h
  · rw [hw]
    refine ⟨fun _ _ a ha => ?_, fun a ha hd hs => ?_⟩
    · simp only
      rw [hK.free]
      exact if_pos ha
    · have hf := x.fresh hK h0 a ha
      simp only
      rw [hK.free, if_neg (show ¬ (x.addr ≤ a ∧ a < x.addr + x.size) from hf)]
      have hy := C56_alloc_len (x.served hK h0 he)
      rw [← x.wB_outside hK a hf]
      refine C56_frame (x.served hK h0 he) (C72_util x.K hK x.junk).1 a ?_ hd hs ?_
      · change (x.wB.mem a).isSome
        rw [x.wB_outside hK a hf]; exact ha
      · intro _ hr
        change r.alloc_len ≤ (BitVec.ofNat 16 x.cmd.sg.length).toNat at hy
        rw [BitVec.toNat_ofNat] at hy
        change inRange x.addr r.alloc_len a at hr
        have hy : r.alloc_len ≤ x.size := hy
        unfold inRange at hr hf
        omega

end Scsi2Nvme
