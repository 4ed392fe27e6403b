import Verif.Spec.Complete
import Verif.Proofs.BeginApi
import Verif.Properties.Memory
import Verif.Properties.BeginAll
/-!
# From the `switch` of `Complete` to the interface
-/

namespace Scsi2Nvme
open Spec

/-! ## Packing by chunks -/

theorem packVal_append (fs gs : List (Nat × Nat)) :
    packVal (fs ++ gs) = packVal fs + 2 ^ packWidth fs * packVal gs := by
  induction fs with
  | nil => simp [packVal, packWidth]
  | cons f fs ih =>
    obtain ⟨w, v⟩ := f
    simp only [List.cons_append, packVal, packWidth, ih, Nat.pow_add, Nat.mul_add, Nat.mul_assoc, Nat.add_assoc]

theorem packWidth_append (fs gs : List (Nat × Nat)) : packWidth (fs ++ gs) = packWidth fs + packWidth gs := by
  induction fs with
  | nil => simp [packWidth]
  | cons f fs ih => simp only [List.cons_append, packWidth, ih, Nat.add_assoc]

/-- Fields filling whole bytes are packed independently of what follows. -/
theorem packBits_chunk (k : Nat) (fs gs : List (Nat × Nat)) (h : ∀ p ∈ fs, p.2 < 2 ^ p.1)
    (hk : packWidth fs = 8 * k) :
    packBits 0 0 (fs ++ gs) = leBytes k (packVal fs) ++ packBits 0 0 gs := by
  rw [packBits_zero, packBits_zero, packWidth_append, packVal_append, hk,
    show (8 * k + packWidth gs) / 8 = k + packWidth gs / 8 by omega, leBytes_append, two_pow_eight_mul]
  have hlt : packVal fs < 256 ^ k := by
    have := packVal_lt fs h
    rwa [hk, two_pow_eight_mul] at this
  rw [← leBytes_mod k (packVal fs + _), Nat.add_mul_mod_self_left, leBytes_mod,
    Nat.add_mul_div_left _ _ (Nat.pow_pos (by omega)), Nat.div_eq_of_lt hlt, Nat.zero_add]

/-- Fields grouped into whole bytes. -/
theorem packBits_groups (Ls : List (List (Nat × Nat)))
    (h : ∀ l ∈ Ls, (∀ p ∈ l, p.2 < 2 ^ p.1) ∧ packWidth l = 8 * (packWidth l / 8)) :
    packBits 0 0 Ls.flatten = (Ls.map fun l => leBytes (packWidth l / 8) (packVal l)).flatten := by
  induction Ls with
  | nil => rfl
  | cons l Ls ih =>
    simp only [List.flatten_cons, List.map_cons]
    rw [packBits_chunk (packWidth l / 8) l _ (h l (by simp)).1 (h l (by simp)).2,
      ih fun l' hl => h l' (by simp [hl])]

/-! ## Writes -/

theorem WriteValue_inv {bytes : List Byte} {out : Span} {n : Nat} {w w' : World} {b : Bool}
    (h : WriteValue bytes out n w = .ok (b, w')) :
    (n ≤ out.len ∧ n ≤ bytes.length ∧ b = true ∧ w.mem.mapped out.ptr n ∧
      w' = { w with mem := w.mem.put out.ptr (bytes.take n) }) ∨
    ((n > out.len ∨ n > bytes.length) ∧ b = false ∧ w' = w) := by
  unfold WriteValue at h
  split at h
  · rename_i hc
    simp only [M.pure_run, Except.ok.injEq, Prod.mk.injEq] at h
    exact Or.inr ⟨hc, h.1.symm, h.2.symm⟩
  · rename_i hc
    left
    simp only [not_or, Nat.not_lt] at hc
    simp only [M.bind_run] at h
    cases hs : store out.ptr (bytes.take n) w with
    | error e => rw [hs] at h; cases h
    | ok x =>
      obtain ⟨u, w1⟩ := x
      rw [hs] at h
      obtain ⟨rfl, hm⟩ := store_inv hs
      simp only [M.pure_run, Except.ok.injEq, Prod.mk.injEq] at h
      refine ⟨hc.1, hc.2, h.1.symm, ?_, h.2.symm⟩
      rw [List.length_take, Nat.min_eq_left hc.2] at hm
      exact hm

theorem WriteValue'_inv {bytes : List Byte} {out : Span} {w w' : World} {b : Bool}
    (h : WriteValue' bytes out w = .ok (b, w')) :
    (bytes.length ≤ out.len ∧ b = true ∧ w.mem.mapped out.ptr bytes.length ∧
      w' = { w with mem := w.mem.put out.ptr bytes }) ∨
    (bytes.length > out.len ∧ b = false ∧ w' = w) := by
  rcases WriteValue_inv h with ⟨h1, -, h2, h3, h4⟩ | ⟨h1, h2⟩
  · rw [List.take_length] at h4; exact Or.inl ⟨h1, h2, h3, h4⟩
  · exact Or.inr ⟨by omega, h2⟩

/-! ## Sense data -/

theorem senseData_length (j : Nat → Byte) (s : ScsiStatus) : (senseData j s).toBytes.length = 8 :=
  Scsi.DescriptorFormatSenseData.toBytes_length _

theorem senseData_bytes (j : Nat → Byte) (s : ScsiStatus) :
    (senseData j s).toBytes = leBytes 1 (0x72 + 128 * ((j 0).toNat % 2))
      ++ leBytes 1 (s.sense_key.toNat % 16 + 16 * ((j 1).toNat % 16))
      ++ leBytes 1 s.asc.toNat ++ leBytes 1 s.ascq.toNat
      ++ leBytes 3 (j 2 ++ j 3 ++ j 4 : BitVec 24).toNat ++ leBytes 1 0 := by
  have e0 : ((j 0).setWidth 1).toNat = (j 0).toNat % 2 := by simp [BitVec.toNat_setWidth]
  have e1 : ((j 1).setWidth 4).toNat = (j 1).toNat % 16 := by simp [BitVec.toNat_setWidth]
  have e2 : (s.sense_key.setWidth 4).toNat = s.sense_key.toNat % 16 := by simp [BitVec.toNat_setWidth]
  have e3 := (j 2 ++ j 3 ++ j 4 : BitVec 24).isLt
  unfold senseData Scsi.DescriptorFormatSenseData.toBytes
  simp only [e0, e1, e2]
  generalize (j 2 ++ j 3 ++ j 4 : BitVec 24).toNat = v at e3
  rw [show (Scsi.SenseResponse.kCurrentDescriptorError.setWidth 7 : BitVec 7).toNat = 0x72 from rfl]
  have h1 := s.asc.isLt
  have h2 := s.ascq.isLt
  have h3 : (j 0).toNat % 2 < 2 := by omega
  have h4 : (j 1).toNat % 16 < 16 := by omega
  have h5 : s.sense_key.toNat % 16 < 16 := by omega
  refine (packBits_groups [[(7, 0x72), (1, (j 0).toNat % 2)], [(4, s.sense_key.toNat % 16), (4, (j 1).toNat % 16)],
    [(8, s.asc.toNat)], [(8, s.ascq.toNat)], [(24, v)], [(8, 0)]] ?_).trans ?_
  · simp only [List.forall_mem_cons, List.not_mem_nil, false_implies, implies_true, and_true, packWidth]
    omega
  · simp only [packWidth, packVal, List.map_cons, List.map_nil, List.flatten_cons, List.flatten_nil,
      List.append_assoc, List.append_nil, Nat.reduceAdd, Nat.reduceDiv, Nat.reducePow, Nat.mul_zero, Nat.add_zero]

/-- The specification's view of a status of the model. -/
def infoOf (s : ScsiStatus) : SenseInfo := ⟨s.status.toNat, s.sense_key.toNat, s.asc.toNat, s.ascq.toNat⟩

theorem senseData_isSense (j : Nat → Byte) (s : ScsiStatus) (hk : s.sense_key.toNat < 16) :
    isSense (senseData j s).toBytes (infoOf s) := by
  have h1 := s.asc.isLt
  have h2 := s.ascq.isLt
  refine ⟨senseData_length j s, ?_⟩
  rw [senseData_bytes]
  generalize (j 2 ++ j 3 ++ j 4 : BitVec 24).toNat = v
  simp only [leBytes, byte, infoOf, List.cons_append, List.nil_append, List.getD_cons_zero, List.getD_cons_succ,
    BitVec.toNat_ofNat]
  refine ⟨by omega, by omega, by omega, by omega, trivial⟩

theorem statusOf_eq (sct : BitVec 3) (sc : Byte) :
    infoOf (Status.StatusToScsi sct sc) = statusOf sct.toNat sc.toNat ∧
      (Status.StatusToScsi sct sc).sense_key.toNat < 16 := by
  have key : ∀ a : Fin 8, ∀ b : Fin 256,
      infoOf (Status.StatusToScsi (BitVec.ofFin a) (BitVec.ofFin b)) = statusOf a.val b.val ∧
      (Status.StatusToScsi (BitVec.ofFin a) (BitVec.ofFin b)).sense_key.toNat < 16 := by
    decide +kernel
  exact key sct.toFin sc.toFin

theorem statusOf_good (a b : Nat) : (statusOf a b).status = 0 ↔ a = 0 ∧ b = 0 := by
  constructor
  · intro h
    unfold statusOf at h
    cases hf : statusTable.find? (fun row => row.1 = a ∧ row.2.1 = b) with
    | none => rw [hf] at h; cases h
    | some row =>
      rw [hf] at h
      have h1 := List.find?_some hf
      have h2 := List.mem_of_find?_eq_some hf
      simp only [Bool.decide_and, Bool.and_eq_true, decide_eq_true_eq] at h1
      have : ∀ row ∈ statusTable, row.2.2.status = 0 → row.1 = 0 ∧ row.2.1 = 0 := by decide
      rw [← h1.1, ← h1.2]
      exact this row h2 h
  · rintro ⟨rfl, rfl⟩; rfl

theorem good_iff (sct : BitVec 3) (sc : Byte) :
    (Status.StatusToScsi sct sc).status = Scsi.Status.kGood ↔ sct.toNat = 0 ∧ sc.toNat = 0 := by
  rw [← statusOf_good, ← (statusOf_eq sct sc).1]
  unfold infoOf
  constructor
  · intro h; simp only [h]; rfl
  · intro h; exact BitVec.eq_of_toNat_eq h

theorem firstError_none (cs : List Nvme.GenericQueueEntryCpl) : firstError cs = none ↔ ∀ c ∈ cs, cplOk c := by
  induction cs with
  | nil => simp [firstError]
  | cons c cs ih =>
    unfold firstError
    have := good_iff c.sct c.sc
    simp only
    split
    · rename_i h
      constructor
      · intro h; cases h
      · intro h'
        exact absurd (this.mpr (h' c (by simp))) h
    · rename_i h
      rw [ih]
      simp only [ne_eq, Decidable.not_not] at h
      simp only [List.forall_mem_cons]
      exact ⟨fun h' => ⟨this.mp h, h'⟩, fun h' => h'.2⟩

theorem firstError_some (cs : List Nvme.GenericQueueEntryCpl) (s : ScsiStatus) (h : firstError cs = some s) :
    ∃ pre c post, cs = pre ++ c :: post ∧ (∀ d ∈ pre, cplOk d) ∧ ¬ cplOk c ∧ s = Status.StatusToScsi c.sct c.sc := by
  induction cs with
  | nil => cases h
  | cons c cs ih =>
    unfold firstError at h
    have := good_iff c.sct c.sc
    simp only at h
    split at h
    · rename_i hn
      cases h
      exact ⟨[], c, cs, rfl, by simp, fun hok => hn (this.mpr hok), rfl⟩
    · rename_i hn
      simp only [ne_eq, Decidable.not_not] at hn
      obtain ⟨pre, d, post, rfl, h1, h2, h3⟩ := ih h
      refine ⟨c :: pre, d, post, rfl, ?_, h2, h3⟩
      intro e he
      rcases List.mem_cons.mp he with rfl | he
      · exact this.mp hn
      · exact h1 e he

theorem firstError_split (pre : List Nvme.GenericQueueEntryCpl) (c : Nvme.GenericQueueEntryCpl)
    (post : List Nvme.GenericQueueEntryCpl) (h1 : ∀ d ∈ pre, cplOk d) (h2 : ¬ cplOk c) :
    firstError (pre ++ c :: post) = some (Status.StatusToScsi c.sct c.sc) := by
  induction pre with
  | nil =>
    have := good_iff c.sct c.sc
    simp only [List.nil_append, firstError]
    rw [if_pos (fun h => h2 (this.mp h))]
  | cons d pre ih =>
    have := good_iff d.sct d.sc
    simp only [List.cons_append, firstError]
    rw [if_neg (by simpa using this.mpr (h1 d (by simp)))]
    exact ih fun e he => h1 e (by simp [he])

/-! ## The object between `Begin` and `Complete` -/

namespace Spec.Ran

theorem wf (x : Ran) : Wf x.t1 ∧ x.t1.pipeline_status ≠ .kUninitialized := by
  have hi := x.began.idle.idle
  rcases Begin_inv _ _ hi _ _ _ _ _ _ _ x.began.call with ⟨-, -, h, -⟩ | ⟨-, bs, p, w1, -, -, hs, hc, he, -, h, -⟩
  · rw [h]
    exact ⟨⟨hi.wf.count, hi.wf.pages, fun _ => hi.count⟩, by simp⟩
  · rw [h]
    exact ⟨finishT_wf hi.clean hc he, by rw [finishT_status]; exact hs⟩

theorem count_le (x : Ran) : x.t1.nvme_cmd_count ≤ 3 := x.wf.1.count

theorem cmds_length (x : Ran) : x.cmds.length = x.t1.nvme_cmd_count := by
  unfold cmds Translation.GetNvmeWrappers
  rw [List.length_take]
  have := x.count_le
  simp only [Arr3.toList, List.length_cons, List.length_nil]
  omega

theorem cmds_rejected (x : Ran) (h : ¬ Accepted x.t1) : x.cmds = [] := x.began.rejected h

theorem cdb_ne (x : Ran) (h : Accepted x.t1) : x.cdb ≠ [] := by
  intro h0
  have hb := x.began
  rw [h0] at hb
  exact hb.nil.1 h

theorem span (x : Ran) (h : Accepted x.t1) : x.t1.scsi_cmd = ⟨x.ptr, x.cdb.length⟩ := by
  have hne := x.cdb_ne h
  obtain ⟨p, w1, hs, -⟩ := x.began.inv hne
  exact (x.began.ends hne hs).span

/-- The four ways `Complete` ends. -/
theorem inv (x : Ran) : ∃ wm, x.w3 = abortW x.E x.t1 wm ∧ x.t2 = abortT x.t1 ∧
    ((¬ x.answered ∧ x.c = ⟨.kFailure, 0⟩ ∧ wm = x.w2) ∨
     (x.answered ∧ ¬ Accepted x.t1 ∧ x.c = ⟨.kSuccess, 2⟩ ∧
        ∃ ok, FillSenseBuffer x.E x.sense rejectedStatus x.w2 = .ok (ok, wm)) ∨
     (x.answered ∧ Accepted x.t1 ∧ ∃ s, firstError x.cpl = some s ∧ x.c = ⟨.kSuccess, s.status⟩ ∧
        ∃ ok, FillSenseBuffer x.E x.sense s x.w2 = .ok (ok, wm)) ∨
     (x.answered ∧ Accepted x.t1 ∧ firstError x.cpl = none ∧ x.c = ⟨.kSuccess, 0⟩ ∧
        ∃ st, completeSwitch x.E x.t1 (x.cdb.headD 0) x.cdb.tail x.cpl x.din x.w2 = .ok (st, wm))) := by
  obtain ⟨hwf, hu⟩ := x.wf
  have hl := x.cmds_length
  rcases Complete_inv _ _ hwf _ _ _ _ _ _ _ x.call with ⟨h, -⟩ | ⟨-, ht, w1, hw, h⟩
  · exact absurd h hu
  · refine ⟨w1, hw, ht, ?_⟩
    unfold answered
    rw [hl]
    rcases h with ⟨h1, h2, h3⟩ | ⟨h1, h2, h3, h4⟩ | ⟨h1, h2, s, h3⟩ | ⟨h1, h2, h3, h4, bs, st, h5, h6⟩
    · exact Or.inl ⟨h1, h2, h3⟩
    · exact Or.inr (Or.inl ⟨h1, h2, h3, h4⟩)
    · exact Or.inr (Or.inr (Or.inl ⟨h1, h2, s, h3⟩))
    · refine Or.inr (Or.inr (Or.inr ⟨h1, h2, h3, h4, st, ?_⟩))
      rw [x.span h2] at h5
      simp only at h5
      rw [x.kept] at h5
      cases h5
      exact h6

/-- Writes up to the return of the pages. -/
theorem wrote_of (x : Ran) (hg : GoodAllocator x.E) {wm : World} (hw : x.w3 = abortW x.E x.t1 wm) {p : Nat}
    {bs : List Byte} (h : wm = { x.w2 with mem := x.w2.mem.put p bs }) : x.wrote p bs := by
  obtain ⟨evs, e1, e2⟩ := dealloc_frame hg (livePages x.t1.nvme_cmd_count x.t1.allocations) wm
  refine ⟨evs, ?_, ?_⟩
  · rw [hw]
    refine e1.trans ?_
    rw [h]
  · intro a ha
    rw [hw]
    refine (e2 a ha).trans ?_
    rw [h]

theorem wroteNothing_of (x : Ran) (hg : GoodAllocator x.E) {wm : World} (hw : x.w3 = abortW x.E x.t1 wm)
    (h : wm = x.w2) : x.wroteNothing := by
  apply x.wrote_of hg hw
  rw [h, put_nil]

theorem sense_of (x : Ran) (hg : GoodAllocator x.E) {wm : World} (hw : x.w3 = abortW x.E x.t1 wm) {s : ScsiStatus}
    (hk : s.sense_key.toNat < 16) {ok : Bool} (hf : FillSenseBuffer x.E x.sense s x.w2 = .ok (ok, wm)) :
    if 8 ≤ x.sense.len then ∃ bs, isSense bs (infoOf s) ∧ x.wrote x.sense.ptr bs else x.wroteNothing := by
  unfold FillSenseBuffer at hf
  simp only [M.bind_run, M.get_run] at hf
  rcases WriteValue'_inv hf with ⟨h1, -, -, h3⟩ | ⟨h1, -, h3⟩
  · rw [senseData_length] at h1
    rw [if_pos h1]
    exact ⟨_, senseData_isSense _ s hk, x.wrote_of hg hw h3⟩
  · rw [senseData_length] at h1
    rw [if_neg (by omega)]
    exact x.wroteNothing_of hg hw h3

/-- The successful case: evaluate the `switch`. -/
theorem switch (x : Ran) (h : x.succeeded) : ∃ st wm, x.w3 = abortW x.E x.t1 wm ∧ x.good ∧
    completeSwitch x.E x.t1 (x.cdb.headD 0) x.cdb.tail x.cpl x.din x.w2 = .ok (st, wm) := by
  obtain ⟨ha, hl, hc⟩ := h
  obtain ⟨wm, hw, -, h⟩ := x.inv
  rcases h with ⟨h1, -⟩ | ⟨-, h1, -⟩ | ⟨-, -, s, h1, -⟩ | ⟨-, -, -, h1, st, h2⟩
  · exact absurd hl h1
  · exact absurd ha h1
  · rw [(firstError_none _).mpr hc] at h1; cases h1
  · exact ⟨st, wm, hw, h1, h2⟩

end Spec.Ran

/-! ## Concrete runs -/

/-- A run with given inputs whose results have a property. -/
theorem ran_of (E : Env) (ws : Arr3 NvmeCmdWrapper) (w : World) (ptr : Nat) (cdb : List Byte) (buf : Span)
    (lun : U64) (w2 : World) (cpl : List Nvme.GenericQueueEntryCpl) (din sense : Span)
    (Q : BeginResponse → Translation → CompleteResponse → World → Prop) [∀ r t c w, Decidable (Q r t c w)]
    (hc : w.mem.read ptr cdb.length = some cdb) (hk : w2.mem.read ptr cdb.length = some cdb)
    (h : (match (Translation.init ws).Begin E ⟨ptr, cdb.length⟩ buf lun w with
      | .ok ((r, t1), _) =>
        match t1.Complete E cpl din sense w2 with
        | .ok ((c, _), w3) => decide (Q r t1 c w3)
        | .error _ => false
      | .error _ => false) = true) :
    ∃ x : Ran, x.E = E ∧ x.t = Translation.init ws ∧ x.w = w ∧ x.ptr = ptr ∧ x.cdb = cdb ∧ x.buf = buf ∧
      x.lun = lun ∧ x.w2 = w2 ∧ x.cpl = cpl ∧ x.din = din ∧ x.sense = sense ∧ Q x.r x.t1 x.c x.w3 := by
  split at h
  · rename_i r t1 w1 e
    split at h
    · rename_i c t2 w3 e2
      exact ⟨⟨E, Translation.init ws, w, ptr, cdb, buf, lun, r, t1, w1, ⟨IdleObject_init ws, hc, e⟩, w2, hk, cpl,
        din, sense, c, t2, w3, e2⟩, rfl, rfl, rfl, rfl, rfl, rfl, rfl, rfl, rfl, rfl, rfl, of_decide_eq_true h⟩
    · cases h
  · cases h

end Scsi2Nvme
