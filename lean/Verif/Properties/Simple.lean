import Verif.Properties.Capacity
/-!
# REQUEST SENSE, TEST UNIT READY, MAINTENANCE IN, unknown operation codes (C48, C53, C54, C55)
-/

namespace Scsi2Nvme
open Spec

/-- A rejected command that requested no pages leaves the world as it was. -/
theorem finish_clean {E t w ptr cdb buf lun r t' w'} (h : Began E t w ptr cdb buf lun r t' w') {p : Pipe} {w1 : World}
    (e : Ends E t ptr cdb p w1 r t' w') (ha : p.as = t.allocations) : w' = w1 := by
  rw [e.worldE]
  unfold finishW
  split
  · rfl
  · have := livePages_mono_nil h.clean p.count
    rw [ha]
    change livePages p.count t.allocations = [] at this
    rw [this]; rfl

/-! ## REQUEST SENSE -/

/-- **C48**, `Begin`: REQUEST SENSE is accepted exactly if the command block is complete and NACA (bit 2 of byte 5) is
0; it needs no NVMe command and no page, and announces the allocation length in byte 4. -/
theorem C48_request_sense_begin (E t w ptr cdb buf lun r t' w') (h : Began E t w ptr cdb buf lun r t' w')
    (hop : byte cdb 0 = 0x03) :
    (Accepted t' ↔ 6 ≤ cdb.length ∧ Spec.bit cdb 5 2 = false) ∧ t'.GetNvmeWrappers = [] ∧ w' = w ∧
      r.status = .kSuccess ∧ r.alloc_len.toNat = if Accepted t' then byte cdb 4 else 0 := by
  have hne := ne_nil_of_byte hop (by decide)
  have e := h.ends hne (by rw [switch_requestsense E cdb buf _ _ hop, rs_closed]; rfl)
  have hlt : (BitVec.ofNat 32 (byte cdb 4) : U32).toNat = byte cdb 4 := by
    rw [BitVec.toNat_ofNat]
    have := byte_lt cdb 4
    omega
  by_cases hc : cdb.length < 6 ∨ Spec.bit cdb 5 2 = true
  · rw [if_pos hc] at e
    have hna : ¬ Accepted t' := fun ha => absurd (e.acc.mp ha) (by simp)
    refine ⟨⟨fun ha => absurd ha hna, fun hh => ?_⟩, e.none (by simp), finish_clean h e rfl, by rw [e.resp], ?_⟩
    · rcases hc with hc | hc
      · omega
      · rw [hh.2] at hc; cases hc
    · rw [if_neg hna, e.resp]; rfl
  · rw [if_neg hc] at e
    have hacc := e.acc.mpr rfl
    simp only [not_or, Bool.not_eq_true] at hc
    refine ⟨⟨fun _ => ⟨by omega, hc.2⟩, fun _ => hacc⟩, ?_, finish_clean h e rfl, by rw [e.resp], ?_⟩
    · rw [e.cmds rfl]
      simp only [h.count0, List.take_zero]
    · rw [if_pos hacc, e.resp]
      exact hlt

theorem noSense_length (d : Bool) : (noSense d).length = if d then 8 else 18 := by
  cases d <;> rfl

/-- **C48**, `Complete`: REQUEST SENSE returns GOOD status and writes the sense data "no sense", in descriptor format
(8 bytes) if DESC (bit 0 of byte 1) is set and in fixed format (18 bytes) otherwise, and nothing else.  If the buffer is
smaller nothing is written. -/
theorem C48_request_sense_data (x : Ran) (hg : GoodAllocator x.E) (hop : byte x.cdb 0 = 0x03) (hs : x.succeeded) :
    x.good ∧ if (if Spec.bit x.cdb 1 0 then 8 else 18) ≤ x.din.len
      then x.wrote x.din.ptr (if Spec.bit x.cdb 1 0 then 0x72 :: zeros 7 else 0x70 :: zeros 17)
      else x.wroteNothing := by
  obtain ⟨st, wm, hw, hgd, hsw⟩ := x.switch hs
  refine ⟨hgd, ?_⟩
  have hlen : 6 ≤ x.cdb.length := ((C48_request_sense_begin _ _ _ _ _ _ _ _ _ _ x.began hop).1.mp hs.1).1
  rw [opc_of_byte hop (by decide)] at hsw
  unfold completeSwitch at hsw
  rw [if_neg (by decide), if_neg (by decide), if_neg (by decide), if_neg (by decide), if_neg (by decide),
    if_neg (by decide), if_neg (by decide), if_neg (by decide), if_pos (by decide)] at hsw
  unfold RequestSense.RequestSenseToScsi at hsw
  rw [readValue_some (by rw [List.length_tail]; simp only [Scsi.RequestSenseCommand.size]; omega)] at hsw
  simp only at hsw
  have hn : (Scsi.RequestSenseCommand.ofBytes (x.cdb.tail.take Scsi.RequestSenseCommand.size)).desc = 1
      ↔ Spec.bit x.cdb 1 0 = true := bit_false_iff x.cdb 5 0 0 0 (by omega) (by omega) (by omega)
  rw [show (if Spec.bit x.cdb 1 0 then 8 else 18) = (noSense (Spec.bit x.cdb 1 0)).length from (noSense_length _).symm]
  change if _ then x.wrote x.din.ptr (noSense (Spec.bit x.cdb 1 0)) else _
  have key : (noSense (Spec.bit x.cdb 1 0)).length ≤ x.din.len ∧
      wm = { x.w2 with mem := x.w2.mem.put x.din.ptr (noSense (Spec.bit x.cdb 1 0)) } ∨
      x.din.len < (noSense (Spec.bit x.cdb 1 0)).length ∧ wm = x.w2 := by
    by_cases hd : Spec.bit x.cdb 1 0 = true
    · rw [if_pos (hn.mpr hd)] at hsw
      unfold RequestSense.TranslateDescriptorSenseData at hsw
      rw [noSense_eq.1] at hsw
      rw [hd]
      rcases write'_status hsw with ⟨a, -, b⟩ | ⟨a, -, b⟩
      · exact Or.inl ⟨a, b⟩
      · exact Or.inr ⟨a, b⟩
    · rw [if_neg (fun hh => hd (hn.mp hh))] at hsw
      unfold RequestSense.TranslateFixedSenseData at hsw
      rw [noSense_eq.2] at hsw
      rw [Bool.not_eq_true] at hd
      rw [hd]
      rcases write'_status hsw with ⟨a, -, b⟩ | ⟨a, -, b⟩
      · exact Or.inl ⟨a, b⟩
      · exact Or.inr ⟨a, b⟩
  rcases key with ⟨a, b⟩ | ⟨a, b⟩
  · rw [if_pos a]
    exact x.wrote_of hg hw b
  · rw [if_neg (by omega)]
    exact x.wroteNothing_of hg hw b

namespace Demo

/-- A command without NVMe commands, in the memory of the demo. -/
theorem simple_demo (cdb : List Byte) (hc : cdb.length ≤ 0x300) (len : Nat) (hl : len ≤ 0x8000)
    (P : Translation → Prop) (h5a : byte cdb 0 ≠ 0x5a) (h1a : byte cdb 0 ≠ 0x1a)
    (hP : ∀ r t1 w1, Began (stack env.junk) (Translation.init ws) ⟨mem cdb [], []⟩ 0x100 cdb data 1 r t1 w1 →
      P t1 ∧ t1.GetNvmeWrappers = []) :
    ∃ x : Ran, GoodAllocator x.E ∧ x.cdb = cdb ∧ P x.t1 ∧ x.answered ∧ x.cpl = [] ∧
      x.din = ⟨0x8000, len⟩ ∧ x.w = ⟨mem cdb [], []⟩ ∧ x.w2 = ⟨mem2 cdb [] [], []⟩ := by
  obtain ⟨x, e1, e2, e3, e4, e5, e6, e7, -, a, b⟩ := demo_run env.junk cdb hc 1 [] [] [] len hl
    (fun t1 => P t1 ∧ t1.GetNvmeWrappers = []) (by
      intro r t1 w1 hb
      obtain ⟨h1, h2⟩ := hP r t1 w1 hb
      refine ⟨⟨h1, h2⟩, ?_, ⟨fun h => absurd h h5a, fun h => absurd h h1a, fun h => absurd h h1a⟩⟩
      intro wr hwr
      rw [h2] at hwr
      cases hwr)
  refine ⟨x, e1 ▸ stack_good _, e2, a, ?_, e6, e7, e4, e5⟩
  unfold Ran.answered Ran.cmds
  rw [e6, b]; rfl

end Demo

/-- Met by a REQUEST SENSE for descriptor format sense data. -/
example : ∃ x : Ran, GoodAllocator x.E ∧ byte x.cdb 0 = 0x03 ∧ x.succeeded ∧ Spec.bit x.cdb 1 0 = true ∧ x.din.len = 8 := by
  obtain ⟨x, h1, h2, h3, h4, h5, h6, -⟩ := Demo.simple_demo [3, 1, 0, 0, 8, 0] (by decide) 8 (by decide) Accepted
    (by decide) (by decide) (by
      intro r t1 w1 hb
      have := C48_request_sense_begin _ _ _ _ _ _ _ _ _ _ hb rfl
      exact ⟨this.1.mpr (by decide), this.2.1⟩)
  refine ⟨x, h1, by rw [h2]; rfl, ⟨h3, h4, by rw [h5]; simp⟩, by rw [h2]; rfl, by rw [h6]⟩

/-! ## TEST UNIT READY -/

/-- **C54**, `Begin`: TEST UNIT READY is accepted, whatever the rest of the command block is; no NVMe command, no page,
no data. -/
theorem C54_test_unit_ready_begin (E t w ptr cdb buf lun r t' w') (h : Began E t w ptr cdb buf lun r t' w')
    (hne : cdb ≠ []) (hop : byte cdb 0 = 0x00) :
    Accepted t' ∧ t'.GetNvmeWrappers = [] ∧ w' = w ∧ r = ⟨.kSuccess, 0⟩ := by
  have e := h.ends hne (by rw [switch_tur E cdb buf _ _ hop]; rfl)
  refine ⟨e.acc.mpr rfl, ?_, finish_clean h e rfl, by rw [e.resp]; rfl⟩
  rw [e.cmds rfl]
  simp only [h.count0, List.take_zero]

/-- **C54**, `Complete`: GOOD status, no memory is changed. -/
theorem C54_test_unit_ready (x : Ran) (hne : x.cdb ≠ []) (hop : byte x.cdb 0 = 0x00) (hc : x.cpl = []) :
    x.good ∧ x.w3 = x.w2 := by
  obtain ⟨h1, h2, -⟩ := C54_test_unit_ready_begin _ _ _ _ _ _ _ _ _ _ x.began hne hop
  have hs : x.succeeded := ⟨h1, by unfold Ran.answered Ran.cmds; rw [hc, h2]; rfl, by rw [hc]; simp⟩
  obtain ⟨st, wm, hw, hgd, hsw⟩ := x.switch hs
  refine ⟨hgd, ?_⟩
  rw [opc_of_byte hop (by decide)] at hsw
  unfold completeSwitch at hsw
  rw [if_neg (by decide), if_neg (by decide), if_neg (by decide), if_neg (by decide), if_neg (by decide),
    if_neg (by decide), if_neg (by decide), if_neg (by decide), if_neg (by decide), if_neg (by decide),
    if_neg (by decide), if_pos (by decide)] at hsw
  simp only [M.pure_run, Except.ok.injEq, Prod.mk.injEq] at hsw
  rw [hw, ← hsw.2]
  have e := x.began.ends hne (by rw [switch_tur x.E x.cdb x.buf _ _ hop]; rfl)
  unfold abortW
  rw [e.count rfl, x.began.count0]
  rfl

example : ∃ x : Ran, x.cdb = [0, 0xff, 1, 2, 3] ∧ x.cpl = [] := by
  obtain ⟨x, h1, h2, h3, h4, h5, h6, -⟩ := Demo.simple_demo [0, 0xff, 1, 2, 3] (by decide) 8 (by decide) Accepted
    (by decide) (by decide) (by
      intro r t1 w1 hb
      have := C54_test_unit_ready_begin _ _ _ _ _ _ _ _ _ _ hb (by decide) rfl
      exact ⟨this.1, this.2.1⟩)
  exact ⟨x, h2, h5⟩

/-! ## Unknown operation codes -/

/-- **C55**, `Begin`: a command with an operation code that is not supported is not accepted, yields no NVMe command,
requests no page and announces no data. -/
theorem C55_unknown_begin (E t w ptr cdb buf lun r t' w') (h : Began E t w ptr cdb buf lun r t' w')
    (hne : cdb ≠ []) (hop : byte cdb 0 ∉ supported) :
    ¬ Accepted t' ∧ t'.GetNvmeWrappers = [] ∧ w' = w ∧ r = ⟨.kSuccess, 0⟩ := by
  have e := h.ends hne (by rw [switch_unknown E cdb buf _ _ hop]; rfl)
  exact ⟨fun ha => absurd (e.acc.mp ha) (by simp), e.none (by simp), finish_clean h e rfl, by rw [e.resp]; rfl⟩

/-- **C55**, `Complete`: it is answered with CHECK CONDITION, ILLEGAL REQUEST. -/
theorem C55_unknown (x : Ran) (hg : GoodAllocator x.E) (hne : x.cdb ≠ []) (hop : byte x.cdb 0 ∉ supported)
    (hc : x.cpl = []) : x.reported ⟨0x02, 0x5, 0x24, 0x00⟩ :=
  (C11_rejected x hg (C55_unknown_begin _ _ _ _ _ _ _ _ _ _ x.began hne hop).1).2 hc

/-- **C55**, the converse: each of the supported operation codes has a command block that is accepted. -/
theorem C55_supported (op : Nat) (h : op ∈ supported) : ∃ E t w ptr cdb buf lun r t' w',
    Began E t w ptr cdb buf lun r t' w' ∧ byte cdb 0 = op ∧ Accepted t' := by
  have key : ∀ cdb : List Byte, byte cdb 0 = op → (Demo.mem cdb : Mem).read 0x100 cdb.length = some cdb →
      (match (Translation.init Demo.ws).Begin Demo.env ⟨0x100, cdb.length⟩ Demo.data 0 ⟨Demo.mem cdb, []⟩ with
      | .ok ((_, t'), _) => decide (Accepted t')
      | .error _ => false) = true →
      ∃ E t w ptr cdb buf lun r t' w', Began E t w ptr cdb buf lun r t' w' ∧ byte cdb 0 = op ∧ Accepted t' := by
    intro cdb h1 h2 h3
    obtain ⟨r, t', w', hb, ha⟩ := began_of Demo.env Demo.ws ⟨Demo.mem cdb, []⟩ 0x100 cdb Demo.data 0
      (fun _ t' => Accepted t') h2 h3
    exact ⟨_, _, _, _, _, _, _, _, _, _, hb, h1, ha⟩
  simp only [supported, List.mem_cons, List.not_mem_nil, or_false] at h
  rcases h with rfl | rfl | rfl | rfl | rfl | rfl | rfl | rfl | rfl | rfl | rfl | rfl | rfl | rfl | rfl | rfl | rfl | rfl | rfl
  · exact key [0x00, 0, 0, 0, 0, 0] (by decide) (by decide +kernel) (by decide +kernel)
  · exact key [0x03, 0, 0, 0, 18, 0] (by decide) (by decide +kernel) (by decide +kernel)
  · exact key [0x08, 0, 0, 0, 2, 0] (by decide) (by decide +kernel) (by decide +kernel)
  · exact key [0x0a, 0, 0, 0, 2, 0] (by decide) (by decide +kernel) (by decide +kernel)
  · exact key [0x12, 0, 0, 0, 96, 0] (by decide) (by decide +kernel) (by decide +kernel)
  · exact key [0x1a, 8, 8, 0, 96, 0] (by decide) (by decide +kernel) (by decide +kernel)
  · exact key [0x25, 0, 0, 0, 0, 0, 0, 0, 0, 0] (by decide) (by decide +kernel) (by decide +kernel)
  · exact key [0x28, 0, 0, 0, 0, 0, 0, 0, 2, 0] (by decide) (by decide +kernel) (by decide +kernel)
  · exact key [0x2a, 0, 0, 0, 0, 0, 0, 0, 2, 0] (by decide) (by decide +kernel) (by decide +kernel)
  · exact key [0x2f, 2, 0, 0, 0, 0, 0, 0, 2, 0] (by decide) (by decide +kernel) (by decide +kernel)
  · exact key [0x35, 0, 0, 0, 0, 0, 0, 0, 2, 0] (by decide) (by decide +kernel) (by decide +kernel)
  · exact key [0x42, 8, 0x0a, 0, 0, 0, 0, 0, 40, 0] (by decide) (by decide +kernel) (by decide +kernel)
  · exact key [0x5a, 8, 0, 0, 0, 0, 0, 0, 96, 0, 0, 0] (by decide) (by decide +kernel) (by decide +kernel)
  · exact key [0x88, 0, 0, 0, 0, 0, 0, 0, 0, 0, 0, 0, 0, 2, 0, 0] (by decide) (by decide +kernel) (by decide +kernel)
  · exact key [0x8a, 0, 0, 0, 0, 0, 0, 0, 0, 0, 0, 0, 0, 2, 0, 0] (by decide) (by decide +kernel) (by decide +kernel)
  · exact key [0xa0, 0, 0, 0, 0, 0, 0, 0, 0, 96, 0, 0] (by decide) (by decide +kernel) (by decide +kernel)
  · exact key [0xa3, 0x0c, 1, 0x93, 0, 0, 0, 0, 0, 4, 0, 0] (by decide) (by decide +kernel) (by decide +kernel)
  · exact key [0xa8, 0, 0, 0, 0, 0, 0, 0, 0, 2, 0, 0] (by decide) (by decide +kernel) (by decide +kernel)
  · exact key [0xaa, 0, 0, 0, 0, 0, 0, 0, 0, 2, 0, 0] (by decide) (by decide +kernel) (by decide +kernel)

/-- Met by FORMAT UNIT (04h). -/
example : ∃ x : Ran, GoodAllocator x.E ∧ x.cdb = [4, 0, 0, 0, 0, 0] ∧ x.cpl = [] ∧ 0x04 ∉ supported := by
  obtain ⟨x, h1, h2, h3, h4, h5, h6, -⟩ := Demo.simple_demo [4, 0, 0, 0, 0, 0] (by decide) 8 (by decide) (fun _ => True)
    (by decide) (by decide) (by
      intro r t1 w1 hb
      have := C55_unknown_begin _ _ _ _ _ _ _ _ _ _ hb (by decide) (by decide)
      exact ⟨trivial, this.2.1⟩)
  exact ⟨x, h1, h2, h5, by decide⟩

/-! ## MAINTENANCE IN -/

/-- **C53**, `Complete`: "not supported" is answered (byte 1, bits 0-2: 001b), if the buffer has room for the 4 bytes.
Missing: see `C53_maintenance_in_partial`. -/
theorem C53_data_partial (x : Ran) (hg : GoodAllocator x.E) (hop : byte x.cdb 0 = 0xa3) (hs : x.succeeded) :
    x.good ∧ if 4 ≤ x.din.len then x.wrote x.din.ptr [0x00, 0x01, 0x00, 0x00] else x.wroteNothing := by
  obtain ⟨st, wm, hw, hgd, hsw⟩ := x.switch hs
  refine ⟨hgd, ?_⟩
  rw [opc_of_byte hop (by decide)] at hsw
  unfold completeSwitch at hsw
  rw [if_neg (by decide), if_neg (by decide), if_neg (by decide), if_neg (by decide), if_pos (by decide)] at hsw
  unfold MaintenanceIn.WriteReportSupportedOpCodesResult at hsw
  simp only [M.bind_run, notSupported_eq] at hsw
  cases hv : WriteValue' [0x00, 0x01, 0x00, 0x00] x.din x.w2 with
  | error e => rw [hv] at hsw; cases hsw
  | ok y =>
    obtain ⟨ok, w1⟩ := y
    rw [hv] at hsw
    simp only [M.pure_run, Except.ok.injEq, Prod.mk.injEq] at hsw
    rw [hsw.2] at hv
    rcases WriteValue'_inv hv with ⟨a, -, -, b⟩ | ⟨a, -, b⟩
    · rw [if_pos (show 4 ≤ x.din.len from a)]
      exact x.wrote_of hg hw b
    · rw [if_neg (show ¬ 4 ≤ x.din.len from Nat.not_le.mpr a)]
      exact x.wroteNothing_of hg hw b

/-- Met by the conforming command and a buffer of 4 bytes. -/
example : ∃ x : Ran, GoodAllocator x.E ∧ byte x.cdb 0 = 0xa3 ∧ x.succeeded ∧ x.din.len = 4 := by
  have hc : maintenanceIn.length ≤ 0x300 := by decide
  obtain ⟨x, e1, e2, e3, e4, e5, e6, e7, -, a, b⟩ := Demo.demo_run Demo.env.junk maintenanceIn hc 1 [] [] [Demo.cpl 0 0] 4 (by decide)
    (fun t1 => Accepted t1 ∧ t1.GetNvmeWrappers = [identifyWr 0 2 0x100000#64]) (by
      intro r t1 w1 hb
      obtain ⟨st, al, em⟩ := maint_run (Demo.stack Demo.env.junk) maintenanceIn (startPipe (Translation.init Demo.ws))
      have hsw := switch_maintenance (Demo.stack Demo.env.junk) maintenanceIn Demo.data (nsidOf 1)
        (startPipe (Translation.init Demo.ws)) (by decide)
      rw [em] at hsw
      obtain ⟨q0, -⟩ := Demo.pages_stack Demo.env.junk maintenanceIn hc
      generalize hq : ({ startPipe (Translation.init Demo.ws) with status := st, count := 0, alloc_len := al } : Pipe) = q at hsw
      have hqa : q.as.e0.data_addr = 0 := by rw [← hq]; exact clean_e0 hb.clean
      have e := hb.ends (by decide) (by
        rw [hsw, rl_ok (Demo.stack Demo.env.junk) maintenanceIn q _ (by decide) (by decide) hqa (by rw [q0]; decide)])
      rw [q0] at e
      have hm : t1.GetNvmeWrappers = [identifyWr 0 2 0x100000#64] := by
        rw [e.cmds rfl]; rfl
      refine ⟨⟨e.acc.mpr rfl, hm⟩, ?_, ⟨fun hh => absurd hh (by decide), fun hh => absurd hh (by decide),
        fun hh => absurd hh (by decide)⟩⟩
      intro wr hwr _
      rw [hm] at hwr
      simp only [List.mem_cons, List.not_mem_nil, or_false] at hwr
      rw [prp1_bytes]
      rcases hwr with rfl
      exact Demo.acc_page0 _ _ _)
  refine ⟨x, e1 ▸ Demo.stack_good _, by rw [e2]; rfl, ⟨a, ?_, ?_⟩, by rw [e7]⟩
  · unfold Ran.answered Ran.cmds
    rw [e6, b]
    rfl
  · rw [e6]
    simp only [List.forall_mem_cons, List.not_mem_nil, false_implies, implies_true, and_true]
    decide

end Scsi2Nvme
