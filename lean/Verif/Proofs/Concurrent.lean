import Verif.Spec.Concurrent
import Verif.Properties.Target
import Verif.Properties.EngineExact
/-!
# Calls of the engine made concurrently: what a step of one call does to the others
-/

namespace Scsi2Nvme
open Spec Engine

variable {ι σ : Type}

/-! ## Steps of a call by itself -/

theorem advanceN_returned (E : Env) (D : Device σ) (g : Args) (n : Nat) (s : σ) (r : ScsiToNvmeResponse) (w : World) :
    advanceN E D g n s (.returned r) w = .ok ((.returned r, s), w) := by
  induction n with
  | zero => rfl
  | succ n ih =>
    simp only [advanceN, advance, M.bind_run, M.pure_run]
    exact ih

/-- What is left to do for a call with NVMe commands to submit. -/
def finishCall (E : Env) (D : Device σ) (g : Args) (r : BeginResponse) (t : Translation) (todo : List NvmeCmdWrapper)
    (cs : List Nvme.GenericQueueEntryCpl) (s : σ) : M (Phase × σ) := do
  let (cs', s) ← submitAll D todo s
  let (c, _) ← t.Complete E (cs ++ cs') (if g.is_data_in then ⟨g.data_buf, r.alloc_len.toNat⟩ else Span.null) ⟨g.sense_buf, g.sense_len.toNat⟩
  if c.status = .kFailure then pure (.returned ⟨0x40, 0⟩, s)
  else pure (.returned ⟨c.scsi_status.toNat, r.alloc_len.toNat⟩, s)

theorem advanceN_waiting (E : Env) (D : Device σ) (g : Args) (r : BeginResponse) (t : Translation) (todo : List NvmeCmdWrapper) (n : Nat)
    (hn : todo.length < n) (cs : List Nvme.GenericQueueEntryCpl) (s : σ) (w : World) :
    advanceN E D g n s (.waiting r t todo cs) w = finishCall E D g r t todo cs s w := by
  induction todo generalizing n cs s w with
  | nil =>
    obtain ⟨n, rfl⟩ : ∃ k, n = k + 1 := ⟨n - 1, by simp at hn; omega⟩
    simp only [advanceN, advance, finishCall, submitAll, M.bind_run, M.pure_run, List.append_nil]
    cases t.Complete E cs (if g.is_data_in = true then ⟨g.data_buf, r.alloc_len.toNat⟩ else Span.null) ⟨g.sense_buf, g.sense_len.toNat⟩ w with
    | error e => rfl
    | ok y =>
      obtain ⟨⟨c, t2⟩, w3⟩ := y
      simp only
      by_cases hf : c.status = .kFailure
      · simp only [if_pos hf]
        exact advanceN_returned E D g n s _ w3
      · simp only [if_neg hf]
        exact advanceN_returned E D g n s _ w3
  | cons wr todo ih =>
    obtain ⟨n, rfl⟩ : ∃ k, n = k + 1 := ⟨n - 1, by simp at hn; omega⟩
    simp only [advanceN, advance, M.bind_run, M.pure_run, M.get_run]
    rw [ih n (by simp at hn; omega)]
    simp only [finishCall, submitAll, M.bind_run, M.get_run]
    cases submitAll D todo (D s w.mem (submissionOf wr)).1 ⟨(D s w.mem (submissionOf wr)).2.1, w.trace⟩ with
    | error e => rfl
    | ok y =>
      obtain ⟨⟨cs', s'⟩, w'⟩ := y
      simp only [M.pure_run, List.append_assoc, List.cons_append, List.nil_append]

/-- A call which makes its steps undisturbed is a call of `ScsiToNvme`; five steps are enough. -/
theorem advance_alone (E : Env) (D : Device σ) (g : Args) (s : σ) (w : World) :
    advanceN E D g 5 s .called w =
      match ScsiToNvme E D s g.ws g.cmd_buf g.cmd_len g.lun g.sense_buf g.sense_len g.data_buf g.data_len g.is_data_in w with
      | .error e => .error e
      | .ok ((r, s'), w') => .ok ((.returned r, s'), w') := by
  rw [show (5 : Nat) = 4 + 1 from rfl]
  unfold advanceN advance ScsiToNvme
  simp only [M.bind_run]
  cases (Translation.init g.ws).Begin E ⟨g.cmd_buf, g.cmd_len.toNat⟩ ⟨g.data_buf, g.data_len.toNat⟩ g.lun w with
  | error e => rfl
  | ok y =>
    obtain ⟨⟨r, t⟩, w1⟩ := y
    simp only
    by_cases hf : r.status = .kFailure
    · simp only [if_pos hf]
      exact advanceN_returned E D g 4 s _ w1
    · simp only [if_neg hf]
      by_cases hl : r.alloc_len.toNat > g.data_len.toNat
      · simp only [if_pos hl]
        exact advanceN_returned E D g 4 s _ w1
      · simp only [if_neg hl]
        have hl : t.GetNvmeWrappers.length < 4 := by
          unfold Translation.GetNvmeWrappers
          rw [List.length_take]
          simp only [Arr3.toList, List.length_cons, List.length_nil]
          omega
        simp only [M.pure_run]
        rw [advanceN_waiting E D g r t _ 4 hl]
        simp only [finishCall, M.bind_run, List.nil_append]
        cases submitAll D t.GetNvmeWrappers s w1 with
        | error e => rfl
        | ok y =>
          obtain ⟨⟨cs, s1⟩, w2⟩ := y
          simp only
          cases t.Complete E cs (if g.is_data_in = true then ⟨g.data_buf, r.alloc_len.toNat⟩ else Span.null) ⟨g.sense_buf, g.sense_len.toNat⟩ w2 with
          | error e => rfl
          | ok y =>
            obtain ⟨⟨c, t2⟩, w3⟩ := y
            simp only
            split <;> rfl

/-! ## The pages of a call -/

theorem setAl_live {E : Env} (hg : GoodAllocator E) (w : World) (x : Nat) (p : U64 × U16) (hp : p ∈ pagesOf (setAl E w))
    (hx : inRange p.1.toNat (4096 * p.2.toNat) x) : ((setW E w).mem x).isSome := by
  unfold pagesOf setAl at hp
  simp only [List.mem_append] at hp
  rcases hp with hp | hp
  · split at hp
    · simp only [List.mem_cons, List.not_mem_nil, or_false] at hp
      subst hp
      rcases set_good hg w with ⟨h, -⟩ | ⟨-, -, h1, -⟩
      · contradiction
      · exact (h1 x (by simpa using hx)).2
    · cases hp
  · split at hp
    · simp only [List.mem_cons, List.not_mem_nil, or_false] at hp
      subst hp
      simp [inRange] at hx
      omega
    · cases hp

theorem AllocEffect.live {E : Env} (hg : GoodAllocator E) {as as' : Arr3 Allocation} {w w' : World} {n : Nat}
    (hc : Clean as) (h : AllocEffect E as w n as' w') (x : Nat) (p : U64 × U16) (hp : p ∈ livePages n as')
    (hx : inRange p.1.toNat (4096 * p.2.toNat) x) : (w'.mem x).isSome := by
  rw [← h.pages hc] at hp
  obtain ⟨c0, c1, c2⟩ := (Clean_iff as).mp hc
  cases h with
  | none => rw [hc] at hp; cases hp
  | one _ hn _ ht hs ho hz =>
    rw [hs]
    exact setAl_live hg w x p (by simpa [livePages, Arr3.toList, c1, c2] using hp) hx
  | two =>
    simp only [livePages, Arr3.toList, List.take, List.flatMap_cons, c2, List.flatMap_nil, List.append_nil,
      List.mem_append] at hp
    rcases hp with hp | hp
    · have := setAl_live hg w x p hp hx
      rw [set_keeps hg (setW E w) x this]
      exact this
    · exact setAl_live hg (setW E w) x p hp hx
  | again => exact setAl_live hg (setW E w) x p (by simpa [livePages, Arr3.toList, c1, c2] using hp) hx

/-- The pages an object holds after `Begin` are accessible. -/
theorem began_live {E t w ptr cdb buf lun r t' w'} (hg : GoodAllocator E) (h : Began E t w ptr cdb buf lun r t' w')
    (a : Nat) (p : U64 × U16) (hp : p ∈ livePages t'.nvme_cmd_count t'.allocations) (ha : inRange p.1.toNat (4096 * p.2.toNat) a) :
    (w'.mem a).isSome := by
  have hi := h.idle.idle
  rcases Begin_inv _ _ hi _ _ _ _ _ _ _ h.call with ⟨-, -, h, -⟩ | ⟨-, bs, q, w1, -, -, hs, hc, he, -, h, hw⟩
  · rw [h] at hp
    simp only [hi.count] at hp
    cases hp
  · rw [h] at hp
    unfold finishT at hp
    unfold finishW at hw
    split at hp
    · rename_i hst
      rw [if_pos hst] at hw
      rw [hw]
      exact he.live hg hi.clean a p hp ha
    · cases hp

/-- `Complete` changes accessible memory in the data-in buffer, the sense buffer and the pages of the object only, and takes
away only these pages. -/
theorem complete_outside {E t w ptr cdb buf lun r t1 w1} (hg : GoodAllocator E) (hB : Began E t w ptr cdb buf lun r t1 w1)
    {w2 cs din sense c t2 w3} (h : t1.Complete E cs din sense w2 = .ok ((c, t2), w3)) :
    (∀ a, ¬ inRange din.ptr din.len a → ¬ inRange sense.ptr sense.len a →
      ¬ (w.mem a = none ∧ (w1.mem a).isSome) → w3.mem a = w2.mem a) ∧
    (∀ a, ¬ (w.mem a = none ∧ (w1.mem a).isSome) → (w2.mem a).isSome → (w3.mem a).isSome) := by
  have hav : ∀ a, ¬ (w.mem a = none ∧ (w1.mem a).isSome) → avoids (livePages t1.nvme_cmd_count t1.allocations) a := by
    intro a ha p hp hr
    refine ha ⟨?_, began_live hg hB a p hp hr⟩
    cases hx : w.mem a with
    | none => rfl
    | some v => exact absurd hr (began_avoids hg hB a (by rw [hx]; rfl) p hp)
  rcases Complete_inv E t1 (began_wf hB) w2 cs din sense c t2 w3 h with ⟨-, -, -, rfl⟩ | ⟨-, -, wm, rfl, hc⟩
  · exact ⟨fun _ _ _ _ => rfl, fun _ _ h => h⟩
  · have hw : (∀ x, ¬ inRange din.ptr din.len x → ¬ inRange sense.ptr sense.len x → wm.mem x = w2.mem x) ∧
        ∀ x, (wm.mem x).isSome = (w2.mem x).isSome := by
      rcases hc with ⟨-, -, rfl⟩ | ⟨-, -, -, ok, hf⟩ | ⟨-, -, s, -, -, ok, hf⟩ | ⟨-, -, -, -, bs, st, -, hf⟩
      · exact ⟨fun _ _ _ => rfl, fun _ => rfl⟩
      · have := FillSenseBuffer_framed _ _ _ _ _ _ hf
        exact ⟨fun x _ h2 => this.2.1 x h2, this.2.2⟩
      · have := FillSenseBuffer_framed _ _ _ _ _ _ hf
        exact ⟨fun x _ h2 => this.2.1 x h2, this.2.2⟩
      · have := completeSwitch_framed _ _ _ _ _ _ _ _ _ hf
        exact ⟨fun x h1 _ => this.2.1 x h1, this.2.2⟩
    refine ⟨fun a h1 h2 h3 => ?_, fun a h1 h2 => ?_⟩
    · unfold abortW
      rw [dealloc_keeps hg _ _ _ (hav a h3)]
      exact hw.1 a h1 h2
    · unfold abortW
      rw [dealloc_keeps hg _ _ _ (hav a h1), hw.2]
      exact h2

/-! ## One submission -/

theorem ideal_frame1 (cap : Nat → Nat) {E ws w ptr cdb lun r t1 w1} {data len : Nat}
    (hB : Began E (Translation.init ws) w ptr cdb ⟨data, len⟩ lun r t1 w1) (hop : isRead (byte cdb 0) ∨ isWrite (byte cdb 0))
    (hsp : data + len ≤ 2 ^ 64) (wr : NvmeCmdWrapper) (hwr : wr ∈ t1.GetNvmeWrappers) (d : Disk) (m : Mem) :
    (∀ a, ¬ inRange data len a → (idealDevice cap d m (submissionOf wr)).2.1 a = m a) ∧
      ∀ a, (m a).isSome → ((idealDevice cap d m (submissionOf wr)).2.1 a).isSome := by
  rcases ideal_mem cap d m (submissionOf wr) with h | ⟨h1, h2, bs, h3, h4⟩
  · rw [h]; exact ⟨fun _ _ => rfl, fun _ h => h⟩
  · have hr : isRead (byte cdb 0) := by
      rcases hop with h | h
      · exact h
      · have := write_opcode hB h wr hwr
        change byte wr.cmd.toBytes 0 = 2 at h1
        omega
    obtain ⟨e1, e2, e3⟩ := C20_read_fits _ _ _ _ _ _ _ _ _ _ hB hr wr hwr
    change m.mapped (leAt wr.cmd.toBytes 24 8) (4096 * (leAt wr.cmd.toBytes 48 2 + 1)) = true at h2
    change bs.length = 4096 * (leAt wr.cmd.toBytes 48 2 + 1) at h3
    change _ = m.put (leAt wr.cmd.toBytes 24 8) bs at h4
    have e2' : wr.buffer_len.toNat ≤ len := e2
    have e4 : prpOf ⟨data, len⟩ = data := Nat.mod_eq_of_lt (show data < 2 ^ 64 by omega)
    rw [h4]
    refine ⟨fun a ha => put_outside ?_, fun a ha => ?_⟩
    · rw [e3, e4]
      unfold inRange at ha
      omega
    · rw [put_isSome (by rw [h3]; exact h2)]; exact ha

/-- A device of the kind C83 is about. -/
structure Target (D : Device Disk) (cap : Nat → Nat) (ident : Nat → Nat → List Byte) (feature : Nat → Nat → Nat → Nat) : Prop where
  storage : Storage D cap
  controller : Controller D ident feature
  tidy : tidy D

/-- One submission changes the data buffer (if the command is a READ) or pages of the call. -/
theorem submit_effect {D cap ident feature} (hT : Target D cap ident feature) {E} (hg : GoodAllocator E) {q : Request} (hq : q.Fair)
    {w r t1 w1} (hB : Began E (Translation.init q.ws) w q.ptr q.cdb ⟨q.data, q.dataLen.toNat⟩ q.lun r t1 w1)
    (wr : NvmeCmdWrapper) (hwr : wr ∈ t1.GetNvmeWrappers) (d : Disk) (m : Mem) :
    (∀ a, ¬ (isRead (byte q.cdb 0) ∧ inRange q.data q.dataLen.toNat a) → ¬ (w.mem a = none ∧ (w1.mem a).isSome) →
      (D d m (submissionOf wr)).2.1 a = m a) ∧
    (∀ a, (m a).isSome → ((D d m (submissionOf wr)).2.1 a).isSome) ∧
    (¬ isWrite (byte q.cdb 0) → (D d m (submissionOf wr)).1 = d) := by
  by_cases hop : isRead (byte q.cdb 0) ∨ isWrite (byte q.cdb 0)
  · have hv := hq.rw hop
    obtain ⟨h1, h2, h3⟩ := rw_commands hB hop q.dataLen.isLt hv.matching wr hwr
    have hio := hT.storage.io d m (submissionOf wr) h1 h2 h3
    obtain ⟨k1, k2⟩ := ideal_frame1 cap hB hop hv.space wr hwr d m
    rw [hio]
    refine ⟨fun a h _ => ?_, k2, fun hw => ?_⟩
    · rcases hop with hr | hw
      · exact k1 a fun ha => h ⟨hr, ha⟩
      · rcases ideal_mem cap d m (submissionOf wr) with h | ⟨h1, -⟩
        · rw [h]
        · have := write_opcode hB hw wr hwr
          change byte wr.cmd.toBytes 0 = 2 at h1
          omega
    · rw [← hio]
      refine hT.storage.quiet d m _ fun hm => hw ?_
      exact C65_modifies_partial _ _ _ _ _ _ _ _ _ _ hB (by unfold isRead isWrite at hop; omega) wr hwr hm
  · have h42 : byte q.cdb 0 ≠ 0x42 := by
      intro h
      rw [(C28_conforming_rejected _ _ _ _ _ _ _ _ _ _ hB h (hq.unmap h)).2] at hwr
      cases hwr
    obtain ⟨h6, h2⟩ := harmless_all hB hg h42 wr hwr
    have had := C29_routing_partial _ _ _ _ _ _ _ _ _ _ hB h42 wr hwr
    have hquiet : ¬ isWrite (byte q.cdb 0) → (D d m (submissionOf wr)).1 = d := fun hw =>
      hT.storage.quiet d m _ fun hm => hw (C65_modifies_partial _ _ _ _ _ _ _ _ _ _ hB h42 wr hwr hm)
    have same : (D d m (submissionOf wr)).2.1 = m → _ := fun e =>
      (⟨fun a _ _ => by rw [e], fun a h => by rw [e]; exact h, hquiet⟩ :
        (∀ a, ¬ (isRead (byte q.cdb 0) ∧ inRange q.data q.dataLen.toNat a) → ¬ (w.mem a = none ∧ (w1.mem a).isSome) →
          (D d m (submissionOf wr)).2.1 a = m a) ∧
        (∀ a, (m a).isSome → ((D d m (submissionOf wr)).2.1 a).isSome) ∧
        (¬ isWrite (byte q.cdb 0) → (D d m (submissionOf wr)).1 = d))
    cases hx : wr.is_admin with
    | false => exact same (hT.tidy d m _ hx fun h => hop (.inl (h2 h)))
    | true =>
      rcases had.mp hx with h | h
      · have hput := hT.controller.identify d m (submissionOf wr) hx h
        have hlen := hT.controller.size (leAt (submissionOf wr).cmd 4 4) (byte (submissionOf wr).cmd 40)
        refine ⟨fun a _ ha => ?_, fun a ha => ?_, hquiet⟩
        · rw [hput]
          simp only
          refine put_outside ?_
          rw [hlen]
          have := h6 h a
          by_cases hin : inRange (leAt wr.cmd.toBytes 24 8) 4096 a
          · have hacc := granted_pages hB hg h42 wr hwr h (a - leAt wr.cmd.toBytes 24 8) (by unfold inRange at hin; simp only; omega)
            rw [show leAt wr.cmd.toBytes 24 8 + (a - leAt wr.cmd.toBytes 24 8) = a by unfold inRange at hin; omega] at hacc
            exact absurd ⟨this hin, hacc⟩ ha
          · change a < leAt wr.cmd.toBytes 24 8 ∨ leAt wr.cmd.toBytes 24 8 + 4096 ≤ a
            unfold inRange at hin
            omega
        · rw [hput]
          simp only
          unfold Mem.put
          split
          · rw [List.getElem?_eq_getElem (by omega)]
            rfl
          · exact ha
      · exact same (by rw [hT.controller.features d m (submissionOf wr) hx h])

/-- What one submission may do to the memory: as `submit_effect` says. -/
def Tame (E : Env) (D : Device σ) : Prop :=
  ∀ (q : Request), q.Fair → ∀ (w : World) (r : BeginResponse) (t1 : Translation) (w1 : World),
    Began E (Translation.init q.ws) w q.ptr q.cdb ⟨q.data, q.dataLen.toNat⟩ q.lun r t1 w1 →
    ∀ wr ∈ t1.GetNvmeWrappers, ∀ (s : σ) (m : Mem),
    (∀ a, ¬ (isRead (byte q.cdb 0) ∧ inRange q.data q.dataLen.toNat a) → ¬ (w.mem a = none ∧ (w1.mem a).isSome) →
      (D s m (submissionOf wr)).2.1 a = m a) ∧
    (∀ a, (m a).isSome → ((D s m (submissionOf wr)).2.1 a).isSome)

theorem Target.tame {D cap ident feature} (hT : Target D cap ident feature) {E} (hg : GoodAllocator E) : Tame E D :=
  fun _ hq _ _ _ _ hB wr hwr s m => ⟨(submit_effect hT hg hq hB wr hwr s m).1, (submit_effect hT hg hq hB wr hwr s m).2.1⟩

/-! ## The invariant -/

/-- A call which has begun: `Begin` was called in world `w` and returned in `w1`; `own` are the bytes it made accessible. -/
structure Busy (E : Env) (q : Request) (own : Nat → Prop) (m : Mem) (w w1 : World) (r : BeginResponse) (t : Translation)
    (todo : List NvmeCmdWrapper) (cs : List Nvme.GenericQueueEntryCpl) : Prop where
  began : Began E (Translation.init q.ws) w q.ptr q.cdb ⟨q.data, q.dataLen.toNat⟩ q.lun r t w1
  fits : r.alloc_len.toNat ≤ q.dataLen.toNat
  progress : ∃ done, t.GetNvmeWrappers = done ++ todo ∧ cs.length = done.length
  owned : ∀ a, own a ↔ w.mem a = none ∧ (w1.mem a).isSome
  early : ∀ a, q.uses a → (w.mem a).isSome
  stored : m.read q.ptr q.cdb.length = some q.cdb

/-- The memory of the calls is accessible; bytes made accessible by calls which have begun are, too, and belong to one call. -/
structure Inv (E : Env) (q : ι → Request) (own : ι → Nat → Prop) (y : Sys ι σ) : Prop where
  used : ∀ i a, (q i).uses a → (y.world.mem a).isSome
  owned : ∀ i a, own i a → (y.world.mem a).isSome
  disjoint : ∀ i j, i ≠ j → ∀ a, own i a → ¬ own j a
  clear : ∀ i j a, own i a → ¬ (q j).uses a
  called : ∀ i, y.phase i = .called → y.world.mem.read (q i).ptr (q i).cdb.length = some (q i).cdb ∧ ∀ a, ¬ own i a
  waiting : ∀ i r t todo cs, y.phase i = .waiting r t todo cs → ∃ w w1, Busy E (q i) (own i) y.world.mem w w1 r t todo cs
  returned : ∀ i r, y.phase i = .returned r → ∀ a, ¬ own i a

theorem uses_cdb {q : Request} {i : Nat} (h : i < q.cdb.length) : q.uses (q.ptr + i) := .inl ⟨by omega, by omega⟩

/-- What call `i` does is confined to memory which was not accessible, its own memory and its own pages. -/
def Confined (q : ι → Request) (own : ι → Nat → Prop) (i : ι) (m m' : Mem) : Prop :=
  ∀ a, (m a).isSome → ¬ (q i).uses a → ¬ own i a → m' a = m a

theorem Inv.others [DecidableEq ι] {E : Env} {q : ι → Request} {own : ι → Nat → Prop} {y : Sys ι σ} (h : Inv E q own y) {i : ι}
    {m' : Mem} (hc : Confined q own i y.world.mem m') (hs : ∀ i j, i ≠ j → ∀ a, (q i).uses a → ¬ (q j).uses a) (j : ι) (hj : j ≠ i) :
    (∀ a, (q j).uses a → m' a = y.world.mem a) ∧ (∀ a, own j a → m' a = y.world.mem a) ∧
    ∀ {bs}, y.world.mem.read (q j).ptr (q j).cdb.length = some bs → m'.read (q j).ptr (q j).cdb.length = some bs := by
  have h1 : ∀ a, (q j).uses a → m' a = y.world.mem a := fun a ha =>
    hc a (h.used j a ha) (hs j i hj a ha) fun ho => h.clear i j a ho ha
  refine ⟨h1, fun a ha => ?_, fun hb => ?_⟩
  · exact hc a (h.owned j a ha) (h.clear j i a ha) (h.disjoint j i hj a ha)
  · rw [← hb]
    exact read_congr fun k hk => h1 _ (uses_cdb hk)

/-- Preservation: the step of `i` is confined, its own memory stays accessible, and its new phase is in order. -/
theorem Inv.next [DecidableEq ι] {E : Env} {q : ι → Request} {own : ι → Nat → Prop} {y : Sys ι σ} (h : Inv E q own y) {i : ι}
    {s' : σ} {w' : World} {ph : Phase} (hs : ∀ i j, i ≠ j → ∀ a, (q i).uses a → ¬ (q j).uses a)
    (hc : Confined q own i y.world.mem w'.mem)
    (hu : ∀ a, (q i).uses a → (w'.mem a).isSome) (o : Nat → Prop) (ho : ∀ a, o a → (w'.mem a).isSome)
    (hd : ∀ a, o a → own i a ∨ y.world.mem a = none)
    (hca : ph = .called → w'.mem.read (q i).ptr (q i).cdb.length = some (q i).cdb ∧ ∀ a, ¬ o a)
    (hwa : ∀ r t todo cs, ph = .waiting r t todo cs → ∃ w w1, Busy E (q i) o w'.mem w w1 r t todo cs)
    (hre : ∀ r, ph = .returned r → ∀ a, ¬ o a) :
    Inv E q (fun j => if j = i then o else own j) ⟨s', w', fun j => if j = i then ph else y.phase j⟩ := by
  have oth := h.others hc hs
  constructor
  · intro j a ha
    by_cases hj : j = i
    · rw [hj] at ha; exact hu a ha
    · change (w'.mem a).isSome
      rw [(oth j hj).1 a ha]; exact h.used j a ha
  · intro j a ha
    by_cases hj : j = i
    · simp only [if_pos hj] at ha; exact ho a ha
    · simp only [if_neg hj] at ha
      change (w'.mem a).isSome
      rw [(oth j hj).2.1 a ha]; exact h.owned j a ha
  · intro j k hjk a hj hk
    by_cases ej : j = i
    · have ek : k ≠ i := fun e => hjk (ej.trans e.symm)
      simp only [if_pos ej] at hj
      simp only [if_neg ek] at hk
      rcases hd a hj with h1 | h1
      · exact h.disjoint i k (Ne.symm ek) a h1 hk
      · have := h.owned k a hk
        rw [h1] at this; cases this
    · simp only [if_neg ej] at hj
      by_cases ek : k = i
      · simp only [if_pos ek] at hk
        rcases hd a hk with h1 | h1
        · exact h.disjoint i j (Ne.symm ej) a h1 hj
        · have := h.owned j a hj
          rw [h1] at this; cases this
      · simp only [if_neg ek] at hk
        exact h.disjoint j k hjk a hj hk
  · intro j k a hj hk
    by_cases ej : j = i
    · simp only [if_pos ej] at hj
      rcases hd a hj with h1 | h1
      · exact h.clear i k a h1 hk
      · have := h.used k a hk
        rw [h1] at this; cases this
    · simp only [if_neg ej] at hj
      exact h.clear j k a hj hk
  · intro j hp
    by_cases ej : j = i
    · simp only [if_pos ej] at hp ⊢
      rw [ej]; exact hca hp
    · simp only [if_neg ej] at hp ⊢
      obtain ⟨h1, h2⟩ := h.called j hp
      exact ⟨(oth j ej).2.2 h1, h2⟩
  · intro j r t todo cs hp
    by_cases ej : j = i
    · simp only [if_pos ej] at hp ⊢
      rw [ej]; exact hwa r t todo cs hp
    · simp only [if_neg ej] at hp ⊢
      obtain ⟨w, w1, hb⟩ := h.waiting j r t todo cs hp
      exact ⟨w, w1, hb.began, hb.fits, hb.progress, hb.owned, hb.early, (oth j ej).2.2 hb.stored⟩
  · intro j r hp
    by_cases ej : j = i
    · simp only [if_pos ej] at hp ⊢
      exact hre r hp
    · simp only [if_neg ej] at hp ⊢
      exact h.returned j r hp

/-! ## Steps -/

/-- The system after call `i` made a step to phase `ph`. -/
def Spec.Sys.to [DecidableEq ι] (y : Sys ι σ) (i : ι) (s : σ) (w : World) (ph : Phase) : Sys ι σ :=
  ⟨s, w, fun j => if j = i then ph else y.phase j⟩

/-- The data-in buffer of a call. -/
def Spec.Request.din (q : Request) (n : Nat) : Span := if q.isIn then ⟨q.data, n⟩ else Span.null

/-- What a call returns, given what `Begin` announced and `Complete` returned. -/
def answerOf (r : BeginResponse) (c : CompleteResponse) : ScsiToNvmeResponse :=
  if c.status = .kFailure then ⟨0x40, 0⟩ else ⟨c.scsi_status.toNat, r.alloc_len.toNat⟩

theorem args_len {q : Request} (h : q.cdb.length < 65536) : q.args.cmd_len.toNat = q.cdb.length := by
  change (BitVec.ofNat 16 q.cdb.length).toNat = _
  rw [BitVec.toNat_ofNat]; exact Nat.mod_eq_of_lt h

theorem step_called [DecidableEq ι] (E : Env) (D : Device σ) (q : ι → Request) (y : Sys ι σ) (i : ι) (hs : (q i).cdb.length < 65536)
    (hp : y.phase i = .called) :
    y.step E D q i =
      match (Translation.init (q i).ws).Begin E ⟨(q i).ptr, (q i).cdb.length⟩ ⟨(q i).data, (q i).dataLen.toNat⟩ (q i).lun y.world with
      | .error e => .error e
      | .ok ((r, t), w1) => .ok (y.to i y.dev w1
          (if r.status = .kFailure ∨ r.alloc_len.toNat > (q i).dataLen.toNat then .returned ⟨0x40, 0⟩
            else .waiting r t t.GetNvmeWrappers [])) := by
  unfold Sys.step
  rw [hp]
  unfold advance
  simp only [M.bind_run, args_len hs, show (q i).args.ws = (q i).ws from rfl, show (q i).args.cmd_buf = (q i).ptr from rfl,
    show (q i).args.data_buf = (q i).data from rfl, show (q i).args.data_len = (q i).dataLen from rfl,
    show (q i).args.lun = (q i).lun from rfl]
  cases (Translation.init (q i).ws).Begin E ⟨(q i).ptr, (q i).cdb.length⟩ ⟨(q i).data, (q i).dataLen.toNat⟩ (q i).lun y.world with
  | error e => rfl
  | ok z =>
    obtain ⟨⟨r, t⟩, w1⟩ := z
    simp only
    by_cases hf : r.status = .kFailure
    · simp only [if_pos hf, if_pos (Or.inl hf : r.status = .kFailure ∨ r.alloc_len.toNat > (q i).dataLen.toNat), M.pure_run]
      rfl
    · by_cases hl : r.alloc_len.toNat > (q i).dataLen.toNat
      · simp only [if_neg hf, if_pos (Or.inr hl : r.status = .kFailure ∨ r.alloc_len.toNat > (q i).dataLen.toNat)]
        rw [if_pos hl]
        rfl
      · simp only [if_neg hf, if_neg (not_or.mpr ⟨hf, hl⟩)]
        rw [if_neg hl]
        rfl

theorem step_submit [DecidableEq ι] (E : Env) (D : Device σ) (q : ι → Request) (y : Sys ι σ) (i : ι) {r t wr todo cs}
    (hp : y.phase i = .waiting r t (wr :: todo) cs) :
    y.step E D q i = .ok (y.to i (D y.dev y.world.mem (submissionOf wr)).1 ⟨(D y.dev y.world.mem (submissionOf wr)).2.1, y.world.trace⟩
      (.waiting r t todo (cs ++ [(D y.dev y.world.mem (submissionOf wr)).2.2]))) := by
  unfold Sys.step
  rw [hp]
  rfl

theorem step_complete [DecidableEq ι] (E : Env) (D : Device σ) (q : ι → Request) (y : Sys ι σ) (i : ι) {r t cs}
    (hp : y.phase i = .waiting r t [] cs) :
    y.step E D q i =
      match t.Complete E cs ((q i).din r.alloc_len.toNat) ⟨(q i).sense, (q i).senseLen.toNat⟩ y.world with
      | .error e => .error e
      | .ok ((c, _), w3) => .ok (y.to i y.dev w3 (.returned (answerOf r c))) := by
  unfold Sys.step
  rw [hp]
  unfold advance
  simp only [M.bind_run, show (if (q i).args.is_data_in = true then ⟨(q i).args.data_buf, r.alloc_len.toNat⟩ else Span.null) =
    (q i).din r.alloc_len.toNat from rfl, show (q i).args.sense_buf = (q i).sense from rfl,
    show (q i).args.sense_len = (q i).senseLen from rfl]
  cases t.Complete E cs ((q i).din r.alloc_len.toNat) ⟨(q i).sense, (q i).senseLen.toNat⟩ y.world with
  | error e => rfl
  | ok z =>
    obtain ⟨⟨c, t2⟩, w3⟩ := z
    simp only
    unfold answerOf
    by_cases hf : c.status = .kFailure
    · simp only [if_pos hf]; rfl
    · simp only [if_neg hf]; rfl

theorem step_returned [DecidableEq ι] (E : Env) (D : Device σ) (q : ι → Request) (y : Sys ι σ) (i : ι) {r}
    (hp : y.phase i = .returned r) : y.step E D q i = .ok y := by
  unfold Sys.step
  rw [hp]
  simp only [advance, M.pure_run]
  congr 1
  obtain ⟨s, w, ph⟩ := y
  congr 1
  funext j
  split
  · rename_i h; rw [h]; exact hp.symm
  · rfl

theorem began_success {E ws w ptr cdb buf lun r t w1} (hB : Began E (Translation.init ws) w ptr cdb buf lun r t w1) : r.status = .kSuccess := by
  rcases Begin_inv E _ (Idle_init ws) _ _ _ _ _ _ _ hB.call with ⟨-, hr, -⟩ | ⟨-, bs, p, w', -, -, -, -, -, hr, -⟩ <;> rw [hr]

/-- The three kinds of steps. -/
inductive Stepped [DecidableEq ι] (E : Env) (D : Device σ) (q : ι → Request) (y : Sys ι σ) (i : ι) : Sys ι σ → Prop
  | begin {r t w1} (hp : y.phase i = .called)
      (hB : Began E (Translation.init (q i).ws) y.world (q i).ptr (q i).cdb ⟨(q i).data, (q i).dataLen.toNat⟩ (q i).lun r t w1) :
      Stepped E D q y i (y.to i y.dev w1 (if r.alloc_len.toNat > (q i).dataLen.toNat then .returned ⟨0x40, 0⟩
            else .waiting r t t.GetNvmeWrappers []))
  | submit {r t wr todo cs} (hp : y.phase i = .waiting r t (wr :: todo) cs) :
      Stepped E D q y i (y.to i (D y.dev y.world.mem (submissionOf wr)).1 ⟨(D y.dev y.world.mem (submissionOf wr)).2.1, y.world.trace⟩
        (.waiting r t todo (cs ++ [(D y.dev y.world.mem (submissionOf wr)).2.2])))
  | complete {r t cs c t2 w3} (hp : y.phase i = .waiting r t [] cs)
      (hc : t.Complete E cs ((q i).din r.alloc_len.toNat) ⟨(q i).sense, (q i).senseLen.toNat⟩ y.world = .ok ((c, t2), w3)) :
      Stepped E D q y i (y.to i y.dev w3 (.returned (answerOf r c)))
  | returned {r} (hp : y.phase i = .returned r) : Stepped E D q y i y

theorem stepped_of [DecidableEq ι] {E : Env} {D : Device σ} {q : ι → Request} {own} {y y' : Sys ι σ} {i : ι}
    (hI : Inv E q own y) (hs : (q i).cdb.length < 65536) (h : y.step E D q i = .ok y') : Stepped E D q y i y' := by
  cases hp : y.phase i with
  | called =>
    rw [step_called E D q y i hs hp] at h
    split at h
    · cases h
    · rename_i r t w1 hb
      have hB : Began E (Translation.init (q i).ws) y.world (q i).ptr (q i).cdb ⟨(q i).data, (q i).dataLen.toNat⟩ (q i).lun r t w1 :=
        ⟨IdleObject_init _, (hI.called i hp).1, hb⟩
      have hst := began_success hB
      cases h
      have : (r.status = .kFailure ∨ r.alloc_len.toNat > (q i).dataLen.toNat) ↔ r.alloc_len.toNat > (q i).dataLen.toNat := by
        rw [hst]; simp
      simp only [this]
      exact .begin hp hB
  | waiting r t todo cs =>
    cases todo with
    | cons wr todo =>
      rw [step_submit E D q y i hp] at h
      cases h
      exact .submit hp
    | nil =>
      rw [step_complete E D q y i hp] at h
      split at h
      · cases h
      · rename_i c t2 w3 hc
        cases h
        exact .complete hp hc
  | returned r =>
    rw [step_returned E D q y i hp] at h
    cases h
    exact .returned hp

theorem din_uses {q : Request} {n : Nat} (h : n ≤ q.dataLen.toNat) {a : Nat} (ha : inRange (q.din n).ptr (q.din n).len a) : q.uses a := by
  unfold Request.din at ha
  split at ha
  · exact .inr (.inr ⟨ha.1, by have := ha.2; simp only at this ha; omega⟩)
  · have h1 := ha.1
    have h2 := ha.2
    simp only [Span.null] at h1 h2
    omega

/-- How the pages of the calls change with a step of call `i`. -/
structure Passed (own own' : ι → Nat → Prop) (i : ι) (y y' : Sys ι σ) : Prop where
  others : ∀ j, j ≠ i → own' j = own j
  kept : ∀ r t todo cs r' t' todo' cs', y.phase i = .waiting r t todo cs → y'.phase i = .waiting r' t' todo' cs' → own' i = own i
  fresh : y.phase i = .called → ∀ r t todo cs, y'.phase i = .waiting r t todo cs →
    ∀ a, own' i a ↔ y.world.mem a = none ∧ (y'.world.mem a).isSome

/-- Every step keeps the invariant, and is confined. -/
theorem Inv.moves [DecidableEq ι] {D : Device σ} {E : Env} (hT : Tame E D) (hg : GoodAllocator E)
    {q : ι → Request} (hap : ∀ i j, i ≠ j → ∀ a, (q i).uses a → ¬ (q j).uses a) {own : ι → Nat → Prop} {y y' : Sys ι σ} {i : ι} (hf : (q i).Fair) (hI : Inv E q own y)
    (h : Stepped E D q y i y') :
    ∃ own', Inv E q own' y' ∧ Confined q own i y.world.mem y'.world.mem ∧ Passed own own' i y y' := by
  cases h with
  | @begin r t w1 hp hB =>
    have keeps : ∀ a, (y.world.mem a).isSome → w1.mem a = y.world.mem a := fun a ha => Begin_keeps hg hB.idle.idle hB.call a ha
    have hc : Confined q own i y.world.mem w1.mem := fun a ha _ _ => keeps a ha
    have hu : ∀ a, (q i).uses a → (w1.mem a).isSome := fun a ha => by
      rw [keeps a (hI.used i a ha)]; exact hI.used i a ha
    by_cases hl : r.alloc_len.toNat > (q i).dataLen.toNat
    · simp only [if_pos hl]
      exact ⟨_, hI.next hap hc hu (fun _ => False) (fun _ h => h.elim) (fun _ h => h.elim) (by intro h; cases h)
        (by intro r t todo cs h; cases h) (fun _ _ _ h => h), hc,
        fun j hj => if_neg hj, fun _ _ _ _ _ _ _ _ h => (by rw [hp] at h; cases h),
        fun _ _ _ _ _ h => (by simp only [Sys.to, if_true] at h; cases h)⟩
    · simp only [if_neg hl]
      refine ⟨_, hI.next hap hc hu (fun a => y.world.mem a = none ∧ (w1.mem a).isSome) (fun _ h => h.2) (fun _ h => .inr h.1)
        (by intro h; cases h) ?_ (by intro r h; cases h), hc, fun j hj => if_neg hj,
        fun _ _ _ _ _ _ _ _ h => (by rw [hp] at h; cases h), fun _ _ _ _ _ _ a => (by simp only [if_true]; exact Iff.rfl)⟩
      intro r' t' todo cs e
      cases e
      refine ⟨y.world, w1, hB, by omega, ⟨[], rfl, rfl⟩, fun _ => Iff.rfl, hI.used i, ?_⟩
      rw [← (hI.called i hp).1]
      exact read_congr fun k hk => keeps _ (hI.used i _ (uses_cdb hk))
  | @submit r t wr todo cs hp =>
    obtain ⟨w, w1, hb⟩ := hI.waiting i r t _ cs hp
    obtain ⟨done, hd1, hd2⟩ := hb.progress
    have hwr : wr ∈ t.GetNvmeWrappers := by rw [hd1]; simp
    obtain ⟨k1, k2⟩ := hT (q i) hf _ _ _ _ hb.began wr hwr y.dev y.world.mem
    have hc : Confined q own i y.world.mem (D y.dev y.world.mem (submissionOf wr)).2.1 := by
      intro a _ h1 h2
      exact k1 a (fun h => h1 (.inr (.inr h.2))) fun h => h2 ((hb.owned a).mpr h)
    refine ⟨_, hI.next (w' := ⟨(D y.dev y.world.mem (submissionOf wr)).2.1, y.world.trace⟩) hap hc
      (fun a ha => k2 a (hI.used i a ha)) (own i) (fun a ha => k2 a (hI.owned i a ha)) (fun a h => .inl h)
      (by intro h; cases h) ?_ (by intro r h; cases h), hc, fun j hj => if_neg hj,
      fun _ _ _ _ _ _ _ _ _ _ => if_pos rfl, fun h => (by rw [hp] at h; cases h)⟩
    intro r' t' todo' cs' e
    cases e
    refine ⟨w, w1, hb.began, hb.fits, ⟨done ++ [wr], by rw [hd1]; simp, by simp [hd2]⟩, hb.owned, hb.early, ?_⟩
    rw [← hb.stored]
    refine read_congr fun k hk => k1 _ ?_ ?_
    · rintro ⟨hr, ha⟩
      exact (hf.rw (.inl hr)).apart _ ⟨by omega, by omega⟩ ha
    · intro h
      have := hb.early _ (uses_cdb hk)
      rw [h.1] at this; cases this
  | @complete r t cs c t2 w3 hp hcall =>
    obtain ⟨w, w1, hb⟩ := hI.waiting i r t _ cs hp
    obtain ⟨k1, k2⟩ := complete_outside hg hb.began hcall
    have hc : Confined q own i y.world.mem w3.mem := by
      intro a _ h1 h2
      exact k1 a (fun h => h1 (din_uses hb.fits h)) (fun h => h1 (.inr (.inl h))) fun h => h2 ((hb.owned a).mpr h)
    refine ⟨_, hI.next hap hc (fun a ha => k2 a (fun h => ?_) (hI.used i a ha)) (fun _ => False) (fun _ h => h.elim)
      (fun _ h => h.elim) (by intro h; cases h) (by intro r t todo cs h; cases h) (fun _ _ _ h => h), hc,
      fun j hj => if_neg hj, fun _ _ _ _ _ _ _ _ _ h => (by simp only [Sys.to, if_true] at h; cases h),
      fun h => (by rw [hp] at h; cases h)⟩
    have := hb.early a ha
    rw [h.1] at this; cases this
  | returned hp => exact ⟨own, hI, fun _ _ _ _ => rfl, fun _ _ => rfl, fun _ _ _ _ _ _ _ _ _ _ => rfl, fun h => (by rw [hp] at h; cases h)⟩

theorem Inv.move [DecidableEq ι] {D : Device σ} {E : Env} (hT : Tame E D) (hg : GoodAllocator E)
    {q : ι → Request} {m0 : Mem} (hq : Separate q m0) {own : ι → Nat → Prop} {y y' : Sys ι σ} {i : ι} (hI : Inv E q own y)
    (h : Stepped E D q y i y') :
    ∃ own', Inv E q own' y' ∧ Confined q own i y.world.mem y'.world.mem ∧ Passed own own' i y y' :=
  hI.moves hT hg hq.apart (hq.fair i) h

theorem Inv.step [DecidableEq ι] {D cap ident feature} (hT : Target D cap ident feature) {E : Env} (hg : GoodAllocator E)
    {q : ι → Request} {m0 : Mem} (hq : Separate q m0) {own : ι → Nat → Prop} {y y' : Sys ι Disk} {i : ι} (hI : Inv E q own y)
    (h : Stepped E D q y i y') :
    ∃ own', Inv E q own' y' ∧ Confined q own i y.world.mem y'.world.mem ∧ Passed own own' i y y' :=
  hI.move (hT.tame hg) hg hq h

/-- Every step is defined, if no completion is faulty. -/
theorem Inv.defines [DecidableEq ι] {E : Env} (D : Device σ) (hg : GoodAllocator E)
    {q : ι → Request} {own : ι → Nat → Prop} {y : Sys ι σ} {i : ι} (hf : (q i).Fair) (hI : Inv E q own y)
    (hop : ∀ r t cs w w1, y.phase i = .waiting r t [] cs →
      Began E (Translation.init (q i).ws) w (q i).ptr (q i).cdb ⟨(q i).data, (q i).dataLen.toNat⟩ (q i).lun r t w1 → Accepted t →
      ¬ Faulty (q i).cdb t y.world ((q i).din r.alloc_len.toNat)) : ∃ y', y.step E D q i = .ok y' := by
  have acc : ∀ (sp : Span), (∀ a, inRange sp.ptr sp.len a → (q i).uses a) → ∀ (m : Mem), (∀ a, (q i).uses a → (m a).isSome) → accessible m sp :=
    fun sp h m hm k hk => hm _ (h _ ⟨by omega, by omega⟩)
  cases hp : y.phase i with
  | called =>
    rw [step_called E D q y i hf.short hp]
    obtain ⟨r, t, w1, hb⟩ := Begin_defined hg (Idle_init (q i).ws) y.world ⟨(q i).ptr, (q i).cdb.length⟩ ⟨(q i).data, (q i).dataLen.toNat⟩
      (q i).lun (acc _ (fun a h => .inl h) _ (hI.used i)) (acc _ (fun a h => .inr (.inr h)) _ (hI.used i))
    rw [hb]
    exact ⟨_, rfl⟩
  | returned r =>
    exact ⟨y, step_returned E D q y i hp⟩
  | waiting r t todo cs =>
    cases todo with
    | cons wr todo => exact ⟨_, step_submit E D q y i hp⟩
    | nil =>
      obtain ⟨w, w1, hb⟩ := hI.waiting i r t _ cs hp
      rw [step_complete E D q y i hp]
      have key : Scsi2Nvme.defined E t cs ((q i).din r.alloc_len.toNat) ⟨(q i).sense, (q i).senseLen.toNat⟩ y.world := by
        have hsense : accessible y.world.mem ⟨(q i).sense, (q i).senseLen.toNat⟩ := acc _ (fun a h => .inr (.inl h)) _ (hI.used i)
        by_cases h42 : byte (q i).cdb 0 = 0x42
        · have hrej := C28_conforming_rejected _ _ _ _ _ _ _ _ _ _ hb.began h42 (hf.unmap h42)
          obtain ⟨⟨⟨c, t2⟩, w3⟩, e⟩ := Complete_defined (E := E) (cpl := cs) (din := (q i).din r.alloc_len.toNat) (began_wf hb.began) (w := y.world)
            (sense := ⟨(q i).sense, (q i).senseLen.toNat⟩) hsense
            (fun hp' hl _ => by
              have ha : Accepted t := hp'
              obtain ⟨hne, hspan⟩ := began_span hb.began ha
              refine ⟨(q i).cdb, by rw [hspan]; exact hb.stored, .kSuccess, y.world, ?_⟩
              rw [opc_of_byte h42 (by decide)]
              rfl)
          exact ⟨c, t2, w3, e⟩
        · refine (C10_exact_partial _ _ _ _ _ _ _ _ _ _ _ _ _ cs hg
            ⟨hb.began, hb.stored, acc _ (fun a h => din_uses hb.fits h) _ hb.early, acc _ (fun a h => din_uses hb.fits h) _ (hI.used i), hsense, ?_⟩).mpr ?_
          · intro wr hwr h6 k hk
            refine hI.owned i _ ((hb.owned _).mpr ⟨?_, granted_pages hb.began hg h42 wr hwr h6 k hk⟩)
            exact (harmless_all hb.began hg h42 wr hwr).1 h6 _ ⟨Nat.le_add_right _ _, Nat.add_lt_add_left hk _⟩
          · rintro ⟨hacc, -, -, hfl⟩
            exact hop r t cs w w1 hp hb.began hacc hfl
      obtain ⟨c, t2, w3, e⟩ := key
      rw [e]
      exact ⟨_, rfl⟩

theorem Inv.defined [DecidableEq ι] {E : Env} (D : Device σ) (hg : GoodAllocator E)
    {q : ι → Request} {m0 : Mem} (hq : Separate q m0) {own : ι → Nat → Prop} {y : Sys ι σ} {i : ι} (hI : Inv E q own y)
    (hop : ∀ r t cs w w1, y.phase i = .waiting r t [] cs →
      Began E (Translation.init (q i).ws) w (q i).ptr (q i).cdb ⟨(q i).data, (q i).dataLen.toNat⟩ (q i).lun r t w1 → Accepted t →
      ¬ Faulty (q i).cdb t y.world ((q i).din r.alloc_len.toNat)) : ∃ y', y.step E D q i = .ok y' :=
  hI.defines D hg (hq.fair i) hop

/-- … for instance if the command is steady whatever the Identify data is. -/
theorem Inv.steadies [DecidableEq ι] {E : Env} (D : Device σ) (hg : GoodAllocator E)
    {q : ι → Request} {own : ι → Nat → Prop} {y : Sys ι σ} {i : ι} (hq : (q i).Fair) (hI : Inv E q own y)
    (hop : ∀ page, Spec.steady (q i).cdb page) : ∃ y', y.step E D q i = .ok y' := by
  refine hI.defines D hg hq fun r t cs w w1 _ hb ha hf => ?_
  have hl : ((q i).din r.alloc_len.toNat).len ≤ r.alloc_len.toNat := by
    unfold Spec.Request.din
    split
    · exact Nat.le_refl _
    · exact Nat.zero_le _
  cases hf with
  | shift6 page h1 h2 h3 h4 h5 =>
    refine steady_safe hb ha (hop page) (w2 := y.world) hl (fun _ _ pg hpg => ?_) (.shift6 page h1 h2 h3 h4 h5)
    obtain ⟨wr, k1, k2⟩ := h4
    obtain ⟨wr', k3, k4⟩ := hpg
    rw [k1] at k3
    cases k3
    rw [k2] at k4
    cases k4
    rfl
  | noCompletion h1 h2 => exact steady_safe hb ha (hop _) (w2 := y.world) hl (fun _ _ pg ⟨wr, h, _⟩ => by rw [h2] at h; cases h) (.noCompletion h1 h2) (page := [])
  | noReturn h1 h2 h3 => exact steady_safe hb ha (hop _) (w2 := y.world) hl (fun h => absurd (h1.symm.trans h) (by decide)) (.noReturn h1 h2 h3) (page := [])
  | shift10 page h1 h2 h3 h4 h5 =>
    exact steady_safe hb ha (hop _) (w2 := y.world) hl (fun h => absurd (h1.symm.trans h) (by decide)) (.shift10 page h1 h2 h3 h4 h5) (page := [])
  | noReturnDescriptor h1 h2 h3 =>
    exact steady_safe hb ha (hop _) (w2 := y.world) hl (fun h => absurd (h1.symm.trans h) (by decide)) (.noReturnDescriptor h1 h2 h3) (page := [])

theorem Inv.steady [DecidableEq ι] {E : Env} (D : Device σ) (hg : GoodAllocator E)
    {q : ι → Request} {m0 : Mem} (hq : Separate q m0) {own : ι → Nat → Prop} {y : Sys ι σ} {i : ι} (hI : Inv E q own y)
    (hop : ∀ page, Spec.steady (q i).cdb page) : ∃ y', y.step E D q i = .ok y' :=
  hI.steadies D hg (hq.fair i) hop

theorem Inv.start {E : Env} {q : ι → Request} {m0 : Mem} (hq : Separate q m0) (s : σ) (tr : List Event) :
    Inv E q (fun _ _ => False) (Sys.start s m0 tr : Sys ι σ) where
  used := by
    intro i a ha
    change (m0 a).isSome
    rw [← hq.mem i]
    rcases ha with h | h | h
    · have := read_isSome.mp (show ((q i).mem.read (q i).ptr (q i).cdb.length).isSome by rw [(hq.fair i).stored]; rfl) (a - (q i).ptr)
        (by unfold inRange at h; omega)
      rwa [show (q i).ptr + (a - (q i).ptr) = a by unfold inRange at h; omega] at this
    · have := (hq.sound i).sense (a - (q i).sense) (by unfold inRange at h; simp only; omega)
      simp only at this
      rwa [show (q i).sense + (a - (q i).sense) = a by unfold inRange at h; omega] at this
    · have := (hq.sound i).data (a - (q i).data) (by unfold inRange at h; simp only; omega)
      simp only at this
      rwa [show (q i).data + (a - (q i).data) = a by unfold inRange at h; omega] at this
  owned := fun _ _ h => h.elim
  disjoint := fun _ _ _ _ h => h.elim
  clear := fun _ _ _ h => h.elim
  called := by
    intro i _
    refine ⟨?_, fun _ h => h⟩
    change m0.read _ _ = _
    rw [← hq.mem i]
    exact (hq.fair i).stored
  waiting := by intro i r t todo cs h; cases h
  returned := fun _ _ _ _ h => h

end Scsi2Nvme
