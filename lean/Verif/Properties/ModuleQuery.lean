import Verif.Properties.ModuleTarget
/-!
# C94: information commands through the kernel module
-/

namespace Scsi2Nvme
open Spec Engine Module

variable {σ : Type}

theorem whole_length (len : Nat) (bs : List Byte) : (whole len bs).length ≤ len := by
  unfold whole
  split
  · assumption
  · exact Nat.zero_le _

theorem fitting_length (len : Nat) (ss : List (List Byte)) : (fitting len ss).length ≤ len := by
  induction ss generalizing len with
  | nil => exact Nat.zero_le _
  | cons s ss ih =>
    unfold fitting
    split
    · have := ih (len - s.length)
      rw [List.length_append]
      omega
    · exact Nat.zero_le _

theorem lunList_length (luns : List Nat) : (lunList luns).length = 8 + 8 * luns.length := by
  have hb : ∀ n v, (beBytes n v).length = n := Spec.beBytes_length
  have : ∀ l : List Nat, ((l.map (beBytes 8)).flatten).length = 8 * l.length := by
    intro l
    induction l with
    | nil => rfl
    | cons a l ih =>
      simp only [List.map_cons, List.flatten_cons, List.length_append, List.length_cons, ih, hb]
      omega
  unfold lunList zeros
  rw [List.length_append, List.length_append, this, hb, List.length_replicate]

/-- The answer to a command never exceeds the data-in buffer. -/
theorem reply_length (cdb : List Byte) (nsid len : Nat) (stack p0 p1 : List Byte) (dw0 : Nat) :
    (reply cdb nsid len stack p0 p1 dw0).length ≤ len := by
  unfold reply
  split
  · exact whole_length ..
  · unfold inquiryReply
    split
    · exact whole_length ..
    · split
      · exact Nat.zero_le _
      · split
        · assumption
        · split
          · rename_i h
            rw [List.length_take]
            omega
          · exact Nat.zero_le _
  · exact fitting_length ..
  · split
    · exact whole_length ..
    · exact Nat.zero_le _
  · exact whole_length ..
  · split
    · rw [lunList_length, List.length_take]
      have := Nat.div_mul_le_self ((len - 8) % 2 ^ 32) 8
      have := Nat.mod_le (len - 8) (2 ^ 32)
      omega
    · exact Nat.zero_le _
  · exact whole_length ..
  · exact Nat.zero_le _

/-- **C94.** Information commands through the module: over a controller which executes Identify and Get Features, and with
memory for the buffer and the pages, every data-in INQUIRY, READ CAPACITY(10), REPORT LUNS and MODE SENSE(6) which `query`
covers and whose allocation length fits in the (16-bit) buffer length is answered with result 0; the state of the device
is unchanged; the scatter-gather list begins with exactly the bytes of `reply`, filled up with zeros to the allocation
length, and is unchanged behind that; and the residual count is what the allocation length leaves of the buffer length.
(`stack` is the uninitialised stack memory which reaches the answer of VPD page 80h.) -/
theorem C94_information (x : Queued σ) (hK : GoodKernel x.K) (ident feature) (hC : Controller x.D ident feature)
    (hi : x.cmd.is_data_in = true) (hn : x.cmd.sg.length % 65536 ≠ 0)
    (hbuf : (x.K.kzalloc x.w (x.cmd.sg.length % 65536)).1 ≠ 0)
    (hG : ∃ evs, x.w'.trace = evs ++ x.w.trace ∧ pagesGranted (Module.env x.K x.junk) evs) (q : Query)
    (hq : query x.cdb (nsidOfLun x.cmd.lun) ident feature = some q) (hl : q.len ≤ x.cmd.sg.length % 65536) :
    x.s' = x.s ∧ ∃ stack : List Byte, stack.length = 33 ∧
      let bs := reply x.cdb (nsidOfLun x.cmd.lun) q.len stack q.page0 q.page1 (q.dw0 % 2 ^ 32)
      bs.length ≤ q.len ∧
      x.out = ⟨0, some (((x.cmd.sg.length % 65536 : Nat) : Int) - q.len),
        bs ++ List.replicate (q.len - bs.length) 0 ++ x.cmd.sg.drop q.len⟩ := by
  rcases x.inv with ⟨h0, -⟩ | ⟨-, h0, -⟩ | ⟨-, h0, -, r, w1, he, hw, h⟩
  · exact absurd h0 hn
  · exact absurd h0 hbuf
  · rw [if_pos hi] at h
    obtain ⟨bs, hr, ho⟩ := h
    have hsz : (BitVec.ofNat 16 x.cmd.sg.length).toNat = x.size := BitVec.toNat_ofNat _ _
    have hin := x.wB_inside hK h0
    rw [if_pos hi] at hin
    have hbufm : accessible x.wB.mem ⟨x.addr, x.size⟩ := fun i hi => read_isSome.mp (by rw [hin]; rfl) i hi
    have htr : x.wB.trace = x.w.trace := by
      unfold Spec.Queued.wB
      split <;> rfl
    have hG' : ∃ evs, w1.trace = evs ++ x.wB.trace ∧ pagesGranted (Module.env x.K x.junk) evs := by
      obtain ⟨evs, e1, e2⟩ := hG
      rw [hw] at e1
      exact ⟨evs, by rw [htr]; exact e1, e2⟩
    obtain ⟨e1, e2, stack, e3, e4⟩ := C82_information (x.served hK h0 he) (C72_util x.K hK x.junk).1 ident feature hC
      (by
        change accessible x.wB.mem ⟨x.addr, (BitVec.ofNat 16 x.cmd.sg.length).toNat⟩
        rw [hsz]; exact hbufm)
      hG' q hq (by change q.len ≤ (BitVec.ofNat 16 x.cmd.sg.length).toNat; rw [hsz]; exact hl)
    change r = _ at e1
    refine ⟨e2, stack, e3, ?_⟩
    have hR := reply_length x.cdb (nsidOfLun x.cmd.lun) q.len stack q.page0 q.page1 (q.dw0 % 2 ^ 32)
    have e4 : ∀ a, (x.wB.mem a).isSome → w1.mem a = x.wB.mem.put x.addr
        (reply x.cdb (nsidOfLun x.cmd.lun) q.len stack q.page0 q.page1 (q.dw0 % 2 ^ 32)) a := by
      intro a ha
      have := e4 a ha
      change w1.mem a = x.wB.mem.put (if x.cmd.is_data_in then x.addr else 0)
        (reply x.cdb (nsidOfLun x.cmd.lun) (if x.cmd.is_data_in then q.len else 0) stack q.page0 q.page1 (q.dw0 % 2 ^ 32)) a at this
      rw [if_pos hi, if_pos hi] at this
      exact this
    generalize reply x.cdb (nsidOfLun x.cmd.lun) q.len stack q.page0 q.page1 (q.dw0 % 2 ^ 32) = R at hR e4
    have hszle := x.size_le
    have hl' : q.len ≤ x.size := hl
    have hmin : min r.alloc_len x.cmd.sg.length = q.len := by rw [e1]; simp only; omega
    rw [hmin] at hr ho
    refine ⟨hR, ?_⟩
    rw [ho, e1]
    have hbs : bs = R ++ List.replicate (q.len - R.length) 0 := by
      obtain ⟨l1, l2⟩ := read_eq_some.mp hr
      obtain ⟨l3, l4⟩ := read_eq_some.mp hin
      apply List.ext_getElem?
      intro i
      by_cases hil : i < q.len
      · have := l4 i (by omega)
        rw [List.getElem?_replicate, if_pos (by omega)] at this
        rw [← l2 i hil, e4 _ (by rw [this]; rfl)]
        unfold Mem.put
        split
        · rename_i hc
          rw [List.getElem?_append_left (by omega), Nat.add_sub_cancel_left]
        · rename_i hc
          rw [List.getElem?_append_right (by omega), List.getElem?_replicate, if_pos (by omega), this]
      · rw [List.getElem?_eq_none (by omega), List.getElem?_eq_none (by rw [List.length_append, List.length_replicate]; omega)]
    rw [hbs]
    rfl

/-! ## A concrete call -/

/-- A kernel with three blocks of memory. -/
def demoKernel3 : Kernel :=
  { kzalloc := fun w n =>
      let free := fun a => n ≤ 0x100000 ∧ (List.range n).all (fun i => (w.mem (a + i)).isNone) = true
      let take : Nat → Nat × Mem := fun a => (a, fun x => if a ≤ x ∧ x < a + n then some 0 else w.mem x)
      if free 0x100000 then take 0x100000 else if free 0x200000 then take 0x200000
      else if free 0x300000 then take 0x300000 else (0, w.mem)
    kfree := fun w a n x => if a ≤ x ∧ x < a + n then none else w.mem x }

theorem demoKernel3_good : GoodKernel demoKernel3 where
  alloc := by
    intro w n
    have key : ∀ a, a ∈ [0x100000, 0x200000, 0x300000] →
        (n ≤ 0x100000 ∧ (List.range n).all (fun i => (w.mem (a + i)).isNone) = true) →
        (a ≠ 0 ∧ a < 2 ^ 64 ∧ a + n ≤ 2 ^ 64 ∧
          (∀ x, inRange a n x → w.mem x = none ∧ (if a ≤ x ∧ x < a + n then some (0 : Byte) else w.mem x) = some 0) ∧
          ∀ x, ¬ inRange a n x → (if a ≤ x ∧ x < a + n then some (0 : Byte) else w.mem x) = w.mem x) := by
      intro a ha h
      have ha : a ≠ 0 ∧ a ≤ 0x300000 := by
        simp only [List.mem_cons, List.not_mem_nil, or_false] at ha
        omega
      refine ⟨ha.1, by omega, by omega, ?_, fun x hx => if_neg hx⟩
      intro x hx
      simp only [inRange] at hx
      refine ⟨?_, if_pos hx⟩
      have := List.all_eq_true.mp h.2 (x - a) (List.mem_range.mpr (by omega))
      rw [Nat.add_sub_cancel' hx.1] at this
      simpa using this
    simp only [demoKernel3]
    split
    · rename_i h; exact .inr (key _ (by simp) h)
    · split
      · rename_i h; exact .inr (key _ (by simp) h)
      · split
        · rename_i h; exact .inr (key _ (by simp) h)
        · exact .inl ⟨rfl, rfl⟩
  free := fun _ _ _ _ => rfl

theorem Spec.Queued.served_buf (x : Queued σ) (hK : GoodKernel x.K) (h0 : x.addr ≠ 0) {r w1}
    (h : x.engine x.addr x.wB = .ok ((r, x.s'), w1)) : (x.served hK h0 h).buf = ⟨x.addr, x.size⟩ := by
  show (⟨x.addr, (BitVec.ofNat 16 x.cmd.sg.length).toNat⟩ : Span) = _
  rw [BitVec.toNat_ofNat]
  rfl

/-- INQUIRY into a list of 200 bytes. -/
def demoInquiry : Command := demoCommand Demo.inquiry (List.replicate 200 7) true

theorem demoInquiry_address : (demoKernel3.kzalloc ⟨demoInquiry.mem, []⟩ 200).1 = 0x100000 := by decide +kernel

theorem demoInquiry_buffer : (demoKernel3.kzalloc ⟨demoInquiry.mem, []⟩ 200).1 ≠ 0 := by rw [demoInquiry_address]; decide

theorem demoInquiry_began : ∃ r t1 w1, Began (Module.env demoKernel3 (fun _ _ => 0)) (Translation.init demoInquiry.ws)
    ⟨(demoKernel3.kzalloc ⟨demoInquiry.mem, []⟩ 200).2, []⟩ 0x100 Demo.inquiry ⟨0x100000, 200⟩ 3 r t1 w1 ∧ Accepted t1 :=
  began_of _ _ _ _ _ _ _ (fun _ t' => Accepted t') (by decide +kernel) (by decide +kernel)

/-- The hypotheses of C94 are met by INQUIRY into a list of 200 bytes, for any controller data. -/
example (ident : Nat → Nat → List Byte) (feature : Nat → Nat → Nat → Nat) (hs : ∀ n c, (ident n c).length = 4096) (d : Disk) :
    ∃ (x : Queued Disk) (q : Query), GoodKernel x.K ∧ Controller x.D ident feature ∧ x.cmd.is_data_in = true ∧
      x.cmd.sg.length % 65536 ≠ 0 ∧ (x.K.kzalloc x.w (x.cmd.sg.length % 65536)).1 ≠ 0 ∧
      (∃ evs, x.w'.trace = evs ++ x.w.trace ∧ pagesGranted (Module.env x.K x.junk) evs) ∧
      query x.cdb (nsidOfLun x.cmd.lun) ident feature = some q ∧ q.len ≤ x.cmd.sg.length % 65536 ∧ q.page0 = ident 4 0 := by
  let Q := demoInquiry
  have hC := demoTarget_controller (fun _ => 100) ident feature hs
  have hF : Q.Fair := demoCommand_fair _ _ _ (by decide) (by decide) fun h => absurd h (by decide)
  obtain ⟨⟨⟨o, d'⟩, w'⟩, h⟩ := queue_returns (fun _ => 100) demoKernel3 demoKernel3_good (fun _ _ => 0) _
    (demoTarget_storage _ ident feature) hC (demoTarget_tidy _ _ _) (demoTarget_keepsMapped _ _ _) d Q [] hF
    (demoCommand_sense _ _ _ (by decide)) (steady_of (by decide) _)
  let x : Queued Disk := ⟨demoKernel3, fun _ _ => 0, demoTarget (fun _ => 100) ident feature, d, Q.ws, Q.uninit, ⟨Q.mem, []⟩, Q.cmd, o, d',
    w', Q.cdb, hF.short, hF.len, hF.stored, h⟩
  have hsz : x.size = 200 := by
    show (List.replicate 200 (7 : Byte)).length % 65536 = 200
    rw [List.length_replicate]
  have hbuf : x.addr ≠ 0 := by
    unfold Spec.Queued.addr
    rw [hsz]
    exact demoInquiry_buffer
  have hwB : x.wB = ⟨(demoKernel3.kzalloc ⟨demoInquiry.mem, []⟩ 200).2, []⟩ := by
    unfold Spec.Queued.wB Spec.Queued.wA
    rw [hsz]
    exact if_pos rfl
  rcases x.inv with ⟨h0, -⟩ | ⟨-, h0, -⟩ | ⟨-, h0, -, r, w1, he, hw, -⟩
  · rw [hsz] at h0; cases h0
  · exact absurd h0 hbuf
  · let y := x.served demoKernel3_good h0 he
    have haddr : x.addr = 0x100000 := by
      unfold Spec.Queued.addr
      rw [hsz]
      exact demoInquiry_address
    obtain ⟨r1, t1, w2, hB, hacc⟩ := demoInquiry_began
    rw [← hwB, ← haddr] at hB
    have hinf := informed_inquiry hC (C72_util demoKernel3 demoKernel3_good (fun _ _ => 0)).1 hB (by decide) hacc
    have hpol := controller_polite hC hB hinf.all
    have o3 : byte Demo.inquiry 0 = 0x12 := by decide
    have o2 : ¬ byte Demo.inquiry 0 = 0x42 := by decide
    have hbuf2 : accessible x.wB.mem ⟨x.addr, 200⟩ := by
      have := x.wB_inside demoKernel3_good h0
      rw [hsz] at this
      exact fun i hi => read_isSome.mp (by rw [this]; rfl) i hi
    have hyb : y.buf = ⟨x.addr, 200⟩ := by
      rw [← hsz]
      exact x.served_buf demoKernel3_good h0 he
    rw [← hyb] at hB hpol hbuf2
    obtain ⟨evs, m1, ⟨r2, t2, hB2⟩, -, ⟨ds, hd, hdd⟩, -⟩ := C80_engine y (C72_util demoKernel3 demoKernel3_good (fun _ _ => 0)).1 hpol hbuf2 []
      (fun h => absurd h o2)
    refine ⟨x, ⟨96, ident 4 0, ident 0 1, 0⟩, demoKernel3_good, hC, rfl, ?_, hbuf, ⟨ds ++ evs, ?_, ?_⟩, rfl, ?_, rfl⟩
    · change x.size ≠ 0
      rw [hsz]; decide
    · rw [hw]
      change w1.trace = _
      rw [List.append_assoc]
      exact hd
    · obtain ⟨evs', e1, e2⟩ := C33_inquiry_accepted _ _ _ _ _ _ _ _ _ _ hB2 o3
      have hh := hB.call.symm.trans hB2.call
      simp only [Except.ok.injEq, Prod.mk.injEq] at hh
      obtain ⟨⟨rfl, rfl⟩, rfl⟩ := hh
      have : evs' = evs := (List.append_cancel_right e1).symm
      subst this
      obtain ⟨g1, g2⟩ := (e2.mp hacc).2
      refine ⟨g1, ?_⟩
      rw [refused_append]
      rintro (⟨ps, n, -, hm⟩ | hm)
      · obtain ⟨a, k, e⟩ := hdd _ hm
        cases e
      · exact g2 hm
    · change 96 ≤ x.size
      rw [hsz]; decide

end Scsi2Nvme
