import Verif.Proofs.Built
import Verif.Proofs.Twin
/-!
# C04, C29-C32, C52, C53, C64, C65: what `Begin` does, over all commands
-/

namespace Scsi2Nvme
open Spec

/-! ## Number of commands -/

/-- **C04.** Number of commands of an accepted command: two for INQUIRY; one for READ, WRITE, VERIFY(10),
SYNCHRONIZE CACHE(10), READ CAPACITY(10), REPORT LUNS; none for TEST UNIT READY and REQUEST SENSE; for
MODE SENSE(6) one if block descriptors are requested (DBD = 0) plus one if the caching page is. -/
theorem C04_command_count (E t w ptr cdb buf lun r t' w') (h : Began E t w ptr cdb buf lun r t' w')
    (hne : cdb ≠ []) (ha : Accepted t') :
    (byte cdb 0 = 0x12 → t'.GetNvmeWrappers.length = 2) ∧
    (isRead (byte cdb 0) ∨ isWrite (byte cdb 0) ∨ byte cdb 0 = 0x2f ∨ byte cdb 0 = 0x35 ∨ byte cdb 0 = 0x25 ∨
      byte cdb 0 = 0xa0 → t'.GetNvmeWrappers.length = 1) ∧
    (byte cdb 0 = 0x00 ∨ byte cdb 0 = 0x03 → t'.GetNvmeWrappers = []) ∧
    (byte cdb 0 = 0x1a → t'.GetNvmeWrappers.length =
      (if Spec.bit cdb 1 3 = false then 1 else 0) + (if asksCaching (byte cdb 2 % 64) then 1 else 0)) := by
  refine ⟨fun ho => ?_, fun ho => ?_, fun ho => ?_, fun ho => ?_⟩
  · obtain ⟨-, a0, a1, w0, w1, -, -, hc, -⟩ := C33_inquiry E t w ptr cdb buf lun r t' w' h ho ha
    rw [hc]; rfl
  · rcases ho with ho | ho | ho | ho | ho | ho
    · obtain ⟨rw_, pract, prchk, wr, -, -, hc, -⟩ := C18_read E t w ptr cdb buf lun r t' w' h ho ha
      rw [hc]; rfl
    · obtain ⟨rw_, pract, prchk, wr, -, -, -, hc, -⟩ := C21_write_all E t w ptr cdb buf lun r t' w' h ho ha
      rw [hc]; rfl
    · obtain ⟨-, -, wr, hc, -⟩ := (C25_verify E t w ptr cdb buf lun r t' w' h ho).2 ha
      rw [hc]; rfl
    · obtain ⟨-, -, -, wr, hc, -⟩ := C24_sync E t w ptr cdb buf lun r t' w' h ho
      rw [hc]; rfl
    · obtain ⟨-, a, wr, -, hc, -⟩ := (C44_read_capacity_commands E t w ptr cdb buf lun r t' w' h ho).2 ha
      rw [hc]; rfl
    · obtain ⟨-, a, wr, -, hc, -⟩ := (C46_report_luns_commands E t w ptr cdb buf lun r t' w' h ho).2 ha
      rw [hc]; rfl
  · rcases ho with ho | ho
    · have e := h.ends hne (by rw [switch_tur E cdb buf _ _ ho]; rfl)
      rw [e.cmds rfl]
      simp only [h.count0, List.take_zero]
    · have e := h.ends hne (by rw [switch_requestsense E cdb buf _ _ ho, rs_closed]; rfl)
      rw [e.cmds (e.acc.mp ha)]
      have : (if cdb.length < 6 ∨ Spec.bit cdb 5 2 = true then { startPipe t with status := .kInvalidInput }
          else { startPipe t with status := .kSuccess, alloc_len := BitVec.ofNat 32 (byte cdb 4) }).count = 0 := by
        split <;> exact h.count0
      rw [this, List.take_zero]
  · obtain ⟨-, a, -, hc⟩ := (C49_mode_sense6 E t w ptr cdb buf lun r t' w' h ho).2.1 ha
    have := congrArg List.length hc
    rw [List.length_map, List.length_append] at this
    rw [this]
    congr 1
    · split <;> rfl
    · by_cases hp : asksCaching (byte cdb 2 % 64)
      · rw [if_pos hp, if_pos hp]; rfl
      · rw [if_neg hp, if_neg hp]; rfl

/-- The hypotheses are met: MODE SENSE(6) of all pages yields two commands. -/
example : ∃ r t' w', Began Demo.env (Translation.init Demo.ws) ⟨Demo.mem modeSense6All, []⟩ 0x100 modeSense6All
    Demo.data 3 r t' w' ∧ Accepted t' ∧ t'.GetNvmeWrappers.length = 2 :=
  began_of _ _ _ _ _ _ _ (fun _ t' => Accepted t' ∧ t'.GetNvmeWrappers.length = 2)
    (by decide +kernel) (by decide +kernel)

/-- A rejected command has no commands. -/
theorem Spec.Began.rejected {E t w ptr cdb buf lun r t' w'} (h : Began E t w ptr cdb buf lun r t' w')
    (hn : ¬ Accepted t') : t'.GetNvmeWrappers = [] := by
  by_cases hne : cdb = []
  · subst hne
    rcases Begin_inv E t h.idle.idle w _ buf lun r t' w' h.call with ⟨-, -, rfl, -⟩ | ⟨h0, -⟩
    · exact h.idle.idle.cmds
    · exact absurd rfl h0
  · obtain ⟨p, w1, hs, -⟩ := h.inv hne
    have e := h.ends hne hs
    exact e.none fun hp => hn (e.acc.mpr hp)

theorem Spec.Began.nil {E t w ptr buf lun r t' w'} (h : Began E t w ptr [] buf lun r t' w') :
    ¬ Accepted t' ∧ r = ⟨.kSuccess, 0⟩ ∧ w' = w ∧ t'.GetNvmeWrappers = [] := by
  rcases Begin_inv E t h.idle.idle w _ buf lun r t' w' h.call with ⟨-, hr, rfl, rfl⟩ | ⟨h0, -⟩
  · exact ⟨by simp [Accepted], hr, rfl, h.idle.idle.cmds⟩
  · exact absurd rfl h0

theorem Spec.Began.accepted_of_mem {E t w ptr cdb buf lun r t' w'} (h : Began E t w ptr cdb buf lun r t' w')
    {x : NvmeCmdWrapper} (hx : x ∈ t'.GetNvmeWrappers) : Accepted t' ∧ cdb ≠ [] := by
  constructor
  · apply Decidable.byContradiction
    intro hn
    rw [h.rejected hn] at hx
    cases hx
  · rintro rfl
    rw [h.nil.2.2.2] at hx
    cases hx

/-! ## Routing, namespaces -/

theorem byte0_sqe (opcode nsid prp1 a b c : Nat) (h : opcode < 256) : byte (sqe opcode nsid prp1 a b c) 0 = opcode := by
  unfold sqe byte le
  simp [List.range, List.range.loop]
  omega

theorem byte40_sqe (opcode nsid prp1 a b c : Nat) : byte (sqe opcode nsid prp1 a b c) 40 = a % 256 := by
  unfold sqe byte le zeros
  simp [List.range, List.range.loop]

theorem nsid_sqe (opcode nsid prp1 a b c : Nat) (h : nsid < 2 ^ 32) : leAt (sqe opcode nsid prp1 a b c) 4 4 = nsid := by
  unfold sqe leAt be le zeros
  simp [List.range, List.range.loop]
  omega

theorem nsidOfLun_lt (lun : U64) : nsidOfLun lun < 2 ^ 32 := Nat.mod_lt _ (by decide)

theorem Built.routing {lun : U64} {buf : Span} {o : Nat} {bs : List Byte} {ad : Bool} (h : Built lun buf o bs ad) :
    ad = true ↔ isAdminOpcode (byte bs 0) := by
  unfold isAdminOpcode
  cases h <;>
    (try unfold readSqe) <;> (try unfold writeSqe) <;> (try unfold flushSqe) <;> (try unfold compareSqe) <;>
    (try unfold identifySqe) <;> (try unfold getFeaturesSqe) <;>
    rw [byte0_sqe _ _ _ _ _ _ (by decide)] <;> decide

theorem Built.namespace {lun : U64} {buf : Span} {o : Nat} {bs : List Byte} {ad : Bool} (h : Built lun buf o bs ad)
    (ho : o ≠ 0x2f) (ha : addressesNamespace bs) : leAt bs 4 4 = nsidOfLun lun := by
  cases h with
  | compare => exact absurd rfl ho
  | identifyCtrl a =>
    refine absurd ?_ ha
    unfold identifySqe
    rw [byte0_sqe _ _ _ _ _ _ (by decide), byte40_sqe]
    exact ⟨rfl, by decide⟩
  | identifyList opc a =>
    refine absurd ?_ ha
    unfold identifySqe
    rw [byte0_sqe _ _ _ _ _ _ (by decide), byte40_sqe]
    exact ⟨rfl, by decide⟩
  | read => exact nsid_sqe _ _ _ _ _ _ (nsidOfLun_lt lun)
  | write => exact nsid_sqe _ _ _ _ _ _ (nsidOfLun_lt lun)
  | writeHuge => exact nsid_sqe _ _ _ _ _ _ (nsidOfLun_lt lun)
  | flush => exact nsid_sqe _ _ _ _ _ _ (nsidOfLun_lt lun)
  | identifyNs => exact nsid_sqe _ _ _ _ _ _ (nsidOfLun_lt lun)
  | getFeatures => exact nsid_sqe _ _ _ _ _ _ (nsidOfLun_lt lun)

theorem Built.modifies {lun : U64} {buf : Span} {o : Nat} {bs : List Byte} {ad : Bool} (h : Built lun buf o bs ad)
    (hm : modifiesData bs) : isWrite o := by
  unfold modifiesData at hm
  cases h with
  | write _ _ _ _ _ _ h => exact h
  | writeHuge _ _ _ h => exact h
  | read => exfalso; unfold readSqe at hm; rw [byte0_sqe _ _ _ _ _ _ (by decide)] at hm; omega
  | flush => exfalso; unfold flushSqe at hm; rw [byte0_sqe _ _ _ _ _ _ (by decide)] at hm; omega
  | compare => exfalso; unfold compareSqe at hm; rw [byte0_sqe _ _ _ _ _ _ (by decide)] at hm; omega
  | identifyNs => exfalso; unfold identifySqe at hm; rw [byte0_sqe _ _ _ _ _ _ (by decide)] at hm; omega
  | identifyCtrl => exfalso; unfold identifySqe at hm; rw [byte0_sqe _ _ _ _ _ _ (by decide)] at hm; omega
  | identifyList => exfalso; unfold identifySqe at hm; rw [byte0_sqe _ _ _ _ _ _ (by decide)] at hm; omega
  | getFeatures => exfalso; unfold getFeaturesSqe at hm; rw [byte0_sqe _ _ _ _ _ _ (by decide)] at hm; omega

/-- **C29**, full statement (false, see `C29_refuted`): every command handed out is flagged for the admin queue
exactly if its opcode is an admin opcode. -/
def C29_statement : Prop := ∀ E t w ptr cdb buf lun r t' w', Began E t w ptr cdb buf lun r t' w' →
  ∀ x ∈ t'.GetNvmeWrappers, x.is_admin = true ↔ isAdminOpcode (byte x.cmd.toBytes 0)

/-- **C29**, proved for every command other than UNMAP. -/
theorem C29_routing_partial (E t w ptr cdb buf lun r t' w') (h : Began E t w ptr cdb buf lun r t' w')
    (hop : byte cdb 0 ≠ 0x42) (x : NvmeCmdWrapper) (hx : x ∈ t'.GetNvmeWrappers) :
    x.is_admin = true ↔ isAdminOpcode (byte x.cmd.toBytes 0) := by
  obtain ⟨ha, hne⟩ := h.accepted_of_mem hx
  exact (built h hne hop ha x hx).routing

/-- C29 does not hold: the Dataset Management command of an (odd) UNMAP is flagged for the admin queue. -/
theorem C29_refuted : ¬ C29_statement := by
  intro hall
  obtain ⟨r, t', w', hb, hf⟩ := began_of boundedEnv Demo.ws ⟨Demo.mem unmapOdd unmapData, []⟩ 0x100 unmapOdd
    ⟨0x8000, 40⟩ 3 (fun _ t' => t'.GetNvmeWrappers.map (fun wr => (byte wr.cmd.toBytes 0, wr.is_admin)) = [(9, true)])
    (by decide +kernel) (by decide +kernel)
  have h1 := hall _ _ _ _ _ _ _ _ _ _ hb
  cases hw : t'.GetNvmeWrappers with
  | nil => rw [hw] at hf; cases hf
  | cons x l =>
    rw [hw] at hf
    simp only [List.map_cons, List.cons.injEq, Prod.mk.injEq] at hf
    have := (h1 x (by rw [hw]; simp)).mp hf.1.2
    rw [hf.1.1] at this
    revert this
    unfold isAdminOpcode
    decide

/-- **C30**, full statement (false, see `C30_refuted`): for a LUN below 2^32-1 every command handed out that
addresses a namespace carries the namespace id LUN + 1. -/
def C30_statement : Prop := ∀ E t w ptr cdb buf lun r t' w', Began E t w ptr cdb buf lun r t' w' →
  lun.toNat < 2 ^ 32 - 1 → ∀ x ∈ t'.GetNvmeWrappers, addressesNamespace x.cmd.toBytes →
  leAt x.cmd.toBytes 4 4 = lun.toNat + 1

/-- **C30**, proved for every command other than VERIFY(10) and UNMAP. -/
theorem C30_namespace_partial (E t w ptr cdb buf lun r t' w') (h : Began E t w ptr cdb buf lun r t' w')
    (hop : byte cdb 0 ≠ 0x42) (hop' : byte cdb 0 ≠ 0x2f) (hlun : lun.toNat < 2 ^ 32 - 1)
    (x : NvmeCmdWrapper) (hx : x ∈ t'.GetNvmeWrappers) (hax : addressesNamespace x.cmd.toBytes) :
    leAt x.cmd.toBytes 4 4 = lun.toNat + 1 := by
  obtain ⟨ha, hne⟩ := h.accepted_of_mem hx
  rw [(built h hne hop ha x hx).namespace hop' hax]
  exact Nat.mod_eq_of_lt (by omega)

/-- **C30**, consequence: commands translated for different LUNs never address the same namespace. -/
theorem C30_distinct_partial (E t w ptr cdb buf lun r t' w') (h : Began E t w ptr cdb buf lun r t' w')
    (E2 t2 w2 ptr2 cdb2 buf2 lun2 r2 t2' w2') (h2 : Began E2 t2 w2 ptr2 cdb2 buf2 lun2 r2 t2' w2')
    (hop : byte cdb 0 ≠ 0x42) (hop' : byte cdb 0 ≠ 0x2f) (hop2 : byte cdb2 0 ≠ 0x42) (hop2' : byte cdb2 0 ≠ 0x2f)
    (hlun : lun.toNat < 2 ^ 32 - 1) (hlun2 : lun2.toNat < 2 ^ 32 - 1) (hd : lun ≠ lun2)
    (x y : NvmeCmdWrapper) (hx : x ∈ t'.GetNvmeWrappers) (hy : y ∈ t2'.GetNvmeWrappers)
    (hax : addressesNamespace x.cmd.toBytes) (hay : addressesNamespace y.cmd.toBytes) :
    leAt x.cmd.toBytes 4 4 ≠ leAt y.cmd.toBytes 4 4 := by
  rw [C30_namespace_partial _ _ _ _ _ _ _ _ _ _ h hop hop' hlun x hx hax,
    C30_namespace_partial _ _ _ _ _ _ _ _ _ _ h2 hop2 hop2' hlun2 y hy hay]
  intro hh
  exact hd (BitVec.eq_of_toNat_eq (by omega))

/-- C30 does not hold: VERIFY(10) on LUN 4 addresses namespace 0. -/
theorem C30_refuted : ¬ C30_statement := by
  intro hall
  obtain ⟨r, t', w', hb, hf⟩ := began_of Demo.env Demo.ws ⟨Demo.mem verify10, []⟩ 0x100 verify10
    Demo.data 4 (fun _ t' => t'.GetNvmeWrappers.map (fun wr => byte wr.cmd.toBytes 0) = [5])
    (by decide +kernel) (by decide +kernel)
  have h1 := hall _ _ _ _ _ _ _ _ _ _ hb (by decide)
  have h2 := C26_verify_namespace_partial _ _ _ _ _ _ _ _ _ _ hb (by decide)
  cases hw : t'.GetNvmeWrappers with
  | nil => rw [hw] at hf; cases hf
  | cons x l =>
    rw [hw] at hf
    simp only [List.map_cons, List.cons.injEq] at hf
    have hm : x ∈ t'.GetNvmeWrappers := by rw [hw]; simp
    have := h1 x hm (by unfold addressesNamespace; rw [hf.1]; exact fun h => absurd h.1 (by decide))
    rw [h2 x hm] at this
    revert this
    decide

/-- The hypotheses are met by the read of LUN 3, which addresses namespace 4. -/
example : ∃ r t' w', Began Demo.env (Translation.init Demo.ws) ⟨Demo.mem Demo.read10, []⟩ 0x100 Demo.read10
    Demo.data 3 r t' w' ∧ t'.GetNvmeWrappers.map (fun x => (leAt x.cmd.toBytes 4 4, byte x.cmd.toBytes 0, x.is_admin))
      = [(4, 2, false)] :=
  began_of _ _ _ _ _ _ _ (fun _ t' => t'.GetNvmeWrappers.map (fun x => (leAt x.cmd.toBytes 4 4, byte x.cmd.toBytes 0,
    x.is_admin)) = [(4, 2, false)]) (by decide +kernel) (by decide +kernel)

/-! ## Independence of the past -/

/-- What the user sees of a `Begin`: the response, whether the command is accepted, the commands (64 bytes and
queue flag), and the world (memory, allocator calls). -/
def seen (r : BeginResponse) (t' : Translation) (w' : World) :
    BeginResponse × Bool × List (List Byte × Bool) × World :=
  (r, decide (Accepted t'), t'.GetNvmeWrappers.map (fun x => (x.cmd.toBytes, x.is_admin)), w')

/-- **C31**, full statement (false, see `C31_refuted`): the result of `Begin` does not depend on the commands
the object processed before. -/
def C31_statement : Prop := ∀ E w ptr cdb buf lun t1 r1 t1' w1' t2 r2 t2' w2',
  Began E t1 w ptr cdb buf lun r1 t1' w1' → Began E t2 w ptr cdb buf lun r2 t2' w2' →
  seen r1 t1' w1' = seen r2 t2' w2'

/-- **C31**, proved for every command other than UNMAP. -/
theorem C31_history_independent_partial (E w ptr cdb buf lun t1 r1 t1' w1' t2 r2 t2' w2')
    (h1 : Began E t1 w ptr cdb buf lun r1 t1' w1') (h2 : Began E t2 w ptr cdb buf lun r2 t2' w2')
    (hop : byte cdb 0 ≠ 0x42) : seen r1 t1' w1' = seen r2 t2' w2' := by
  unfold seen
  by_cases hne : cdb = []
  · subst hne
    obtain ⟨a1, b1, c1, d1⟩ := h1.nil
    obtain ⟨a2, b2, c2, d2⟩ := h2.nil
    simp [a1, a2, b1, b2, c1, c2, d1, d2]
  obtain ⟨p, v1, s1, -⟩ := h1.inv hne
  obtain ⟨q, v2, s2, -⟩ := h2.inv hne
  have e1 := h1.ends hne s1
  have e2 := h2.ends hne s2
  obtain ⟨rfl, tw⟩ := switch_twin E cdb buf (nsidOf lun) (startPipe t1) (startPipe t2) w
    ⟨rfl, h1.count0, h2.count0, rfl, h1.clean, h2.clean⟩ hop p v1 q v2 s1 s2
  have hr : r1 = r2 := by rw [e1.resp, e2.resp, tw.al]
  have hacc : Accepted t1' ↔ Accepted t2' := by rw [e1.acc, e2.acc, tw.status]
  have hw : w1' = w2' := by
    rw [e1.worldE, e2.worldE]
    unfold finishW
    rw [tw.status, tw.pages]
  have hc : t1'.GetNvmeWrappers.map (fun x => (x.cmd.toBytes, x.is_admin))
      = t2'.GetNvmeWrappers.map (fun x => (x.cmd.toBytes, x.is_admin)) := by
    by_cases ha : Accepted t1'
    · rw [e1.cmds (e1.acc.mp ha), e2.cmds (e2.acc.mp (hacc.mp ha))]
      have := congrArg (List.map (fun (y : Nvme.GenericQueueEntryCmd × Bool) => (y.1.toBytes, y.2)))
        (tw.cmds (e1.acc.mp ha))
      rw [List.map_map, List.map_map] at this
      exact this
    · rw [h1.rejected ha, h2.rejected (fun h => ha (hacc.mpr h))]
  rw [hr, hw, hc, decide_eq_decide.mpr hacc]

/-- Concrete runs after a history on a fresh object. -/
theorem began_after (E : Env) (ws : Arr3 NvmeCmdWrapper) (steps : List Step) (w : World) (ptr : Nat)
    (cdb : List Byte) (buf : Span) (lun : U64) (P : BeginResponse → Translation → Prop)
    [∀ r t, Decidable (P r t)] (hc : w.mem.read ptr cdb.length = some cdb)
    (h : (match run E (Translation.init ws) [] steps with
      | .ok (_, t, _) => decide (t.pipeline_status = .kUninitialized) &&
        (match t.Begin E ⟨ptr, cdb.length⟩ buf lun w with
          | .ok ((r, t'), _) => decide (P r t')
          | .error _ => false)
      | .error _ => false) = true) :
    ∃ t r t' w', Began E t w ptr cdb buf lun r t' w' ∧ P r t' := by
  split at h
  · rename_i os t tr' hrun
    simp only [Bool.and_eq_true, decide_eq_true_eq] at h
    obtain ⟨hu, h⟩ := h
    obtain ⟨s, hs, hrel⟩ := run_rel E steps _ none (Idle_init ws) [] os t tr' hrun
    have hidle : IdleObject t := by
      cases s with
      | none => exact ⟨E, ws, [], tr', steps, os, hrun, hs⟩
      | some cs => exact absurd hu hrel.2.1
    split at h
    · rename_i r t' w' e
      exact ⟨t, r, t', w', ⟨hidle, hc, e⟩, of_decide_eq_true h⟩
    · cases h
  · cases h

/-- The history of the refutations: a WRITE(10) of two blocks at block 9, successfully completed. -/
def writeHistory : List Step :=
  [⟨Demo.mem write10, .begin (Demo.cdbSpan write10) Demo.data 0⟩,
   ⟨Demo.mem write10, .complete [Demo.cpl 0 0] ⟨0x8000, 0⟩ Demo.sense⟩]

/-- A malformed UNMAP (its parameter list length is 0) with reserved bits set. -/
def unmapReplay : List Byte := [0x42, 8, 0x0a, 0, 0, 0, 0, 0, 0, 0]

/-- After the WRITE, the malformed UNMAP is accepted and the very same NVMe Write is handed out again. -/
theorem write_replayed : ∃ t r t' w', Began Demo.env t ⟨Demo.mem unmapReplay, []⟩ 0x100 unmapReplay ⟨0x8000, 16⟩ 0 r t' w' ∧
    (Accepted t' ∧ t'.GetNvmeWrappers.map (fun x => (x.cmd.toBytes, x.is_admin))
      = [(writeSqe 1 9 2 0 true false 0x8000, false)]) :=
  began_after Demo.env Demo.ws writeHistory ⟨Demo.mem unmapReplay, []⟩ 0x100 unmapReplay ⟨0x8000, 16⟩ 0
    (fun _ t' => Accepted t' ∧ t'.GetNvmeWrappers.map (fun x => (x.cmd.toBytes, x.is_admin))
      = [(writeSqe 1 9 2 0 true false 0x8000, false)]) (by decide +kernel) (by decide +kernel)

/-- C31 does not hold: on a fresh object the malformed UNMAP hands out something else. -/
theorem C31_refuted : ¬ C31_statement := by
  intro hall
  obtain ⟨t1, r1, t1', w1', h1, -, c1⟩ := write_replayed
  obtain ⟨r2, t2', w2', h2, c2⟩ := began_of Demo.env Demo.ws ⟨Demo.mem unmapReplay, []⟩ 0x100 unmapReplay ⟨0x8000, 16⟩ 0
    (fun _ t' => t'.GetNvmeWrappers.map (fun x => (x.cmd.toBytes, x.is_admin))
      ≠ [(writeSqe 1 9 2 0 true false 0x8000, false)]) (by decide +kernel) (by decide +kernel)
  have := hall _ _ _ _ _ _ _ _ _ _ _ _ _ _ h1 h2
  simp only [seen, Prod.mk.injEq] at this
  exact c2 (this.2.2.1 ▸ c1)

/-- Two different objects meet the hypotheses of C31. -/
example : ∃ r1 t1' w1' r2 t2' w2', Translation.init Demo.ws ≠ Translation.init Demo.ws' ∧ Accepted t1' ∧
    Began Demo.env (Translation.init Demo.ws) ⟨Demo.mem Demo.inquiry, []⟩ 0x100 Demo.inquiry Demo.data 0 r1 t1' w1' ∧
    Began Demo.env (Translation.init Demo.ws') ⟨Demo.mem Demo.inquiry, []⟩ 0x100 Demo.inquiry Demo.data 0 r2 t2' w2' := by
  obtain ⟨r1, t1', w1', h1, ha⟩ := began_of Demo.env Demo.ws ⟨Demo.mem Demo.inquiry, []⟩ 0x100 Demo.inquiry Demo.data 0
    (fun _ t' => Accepted t') (by decide +kernel) (by decide +kernel)
  obtain ⟨r2, t2', w2', h2, -⟩ := began_of Demo.env Demo.ws' ⟨Demo.mem Demo.inquiry, []⟩ 0x100 Demo.inquiry Demo.data 0
    (fun _ _ => True) (by decide +kernel) (by decide +kernel)
  exact ⟨r1, t1', w1', r2, t2', w2', by decide +kernel, ha, h1, h2⟩

/-! ## Data is modified only on request -/

/-- **C65**, full statement (false, see `C65_refuted`): an NVMe command that modifies data (Write, Dataset
Management) is handed out only for a WRITE or for an UNMAP with a valid parameter list. -/
def C65_statement : Prop := ∀ E t w ptr cdb buf lun r t' w' data, Began E t w ptr cdb buf lun r t' w' →
  w.mem.read buf.ptr buf.len = some data →
  ∀ x ∈ t'.GetNvmeWrappers, modifiesData x.cmd.toBytes →
    isWrite (byte cdb 0) ∨ (byte cdb 0 = 0x42 ∧ (unmapRequest cdb data).isSome)

/-- **C65**, proved for every command other than UNMAP: an NVMe command that modifies data is handed out only
for a WRITE. -/
theorem C65_modifies_partial (E t w ptr cdb buf lun r t' w') (h : Began E t w ptr cdb buf lun r t' w')
    (hop : byte cdb 0 ≠ 0x42) (x : NvmeCmdWrapper) (hx : x ∈ t'.GetNvmeWrappers)
    (hm : modifiesData x.cmd.toBytes) : isWrite (byte cdb 0) := by
  obtain ⟨ha, hne⟩ := h.accepted_of_mem hx
  exact (built h hne hop ha x hx).modifies hm

/-- C65 does not hold: after a WRITE, a malformed UNMAP hands out that NVMe Write again. -/
theorem C65_refuted : ¬ C65_statement := by
  intro hall
  obtain ⟨t1, r1, t1', w1', h1, -, c1⟩ := write_replayed
  cases hw : t1'.GetNvmeWrappers with
  | nil => rw [hw] at c1; cases c1
  | cons x l =>
    rw [hw] at c1
    simp only [List.map_cons, List.cons.injEq, Prod.mk.injEq] at c1
    have := hall _ _ _ _ _ _ _ _ _ _ (List.replicate 16 0) h1 (by decide +kernel) x (by rw [hw]; simp)
      (by rw [c1.1.1]; unfold modifiesData; decide +kernel)
    revert this
    decide +kernel

/-- The hypotheses of C65 are met by a WRITE(10). -/
example : ∃ r t' w', Began Demo.env (Translation.init Demo.ws) ⟨Demo.mem write10, []⟩ 0x100 write10
    Demo.data 3 r t' w' ∧ t'.GetNvmeWrappers.map (fun x => byte x.cmd.toBytes 0) = [1] :=
  began_of _ _ _ _ _ _ _ (fun _ t' => t'.GetNvmeWrappers.map (fun x => byte x.cmd.toBytes 0) = [1])
    (by decide +kernel) (by decide +kernel)

/-! ## Announced lengths -/

/-- **C32**, full statement (false, see `C32_refuted`): the announced buffer lengths do not depend on the past. -/
def C32_statement : Prop := ∀ E w ptr cdb buf lun t1 r1 t1' w1' t2 r2 t2' w2',
  Began E t1 w ptr cdb buf lun r1 t1' w1' → Began E t2 w ptr cdb buf lun r2 t2' w2' →
  t1'.GetNvmeWrappers.map (fun x => x.buffer_len) = t2'.GetNvmeWrappers.map (fun x => x.buffer_len)

/-- The buffer lengths announced for the commands that move data or identify something. -/
theorem buffer_lens {E t w ptr cdb buf lun r t' w'} (h : Began E t w ptr cdb buf lun r t' w')
    (hop : isRead (byte cdb 0) ∨ isWrite (byte cdb 0) ∨ byte cdb 0 = 0x12 ∨ byte cdb 0 = 0x25 ∨ byte cdb 0 = 0xa0 ∨
      byte cdb 0 = 0xa3 ∨ byte cdb 0 = 0x5a) (ha : Accepted t') :
    t'.GetNvmeWrappers.map (fun x => x.buffer_len.toNat) =
      if isRead (byte cdb 0) then [((decodeRw cdb).map (fun rw => rw.blocks * 4096)).getD 0]
      else if isWrite (byte cdb 0) then [buf.len % 2 ^ 32]
      else if byte cdb 0 = 0x12 then [4096, 4096] else [4096] := by
  by_cases ho : isRead (byte cdb 0)
  · rw [if_pos ho]
    obtain ⟨rw_, pract, prchk, wr, hd, -, hc, -, -, hl, -⟩ := C18_read E t w ptr cdb buf lun r t' w' h ho ha
    rw [hc, hd]
    simp only [List.map_cons, List.map_nil, hl, Option.map_some, Option.getD_some]
  rw [if_neg ho]
  by_cases hw : isWrite (byte cdb 0)
  · rw [if_pos hw]
    obtain ⟨rw_, pract, prchk, wr, -, -, -, hc, -, -, hl, -⟩ := C21_write_all E t w ptr cdb buf lun r t' w' h hw ha
    rw [hc]
    simp only [List.map_cons, List.map_nil, hl]
  rw [if_neg hw]
  rcases hop with hop | hop | hop | hop | hop | hop | hop
  · exact absurd hop ho
  · exact absurd hop hw
  · rw [if_pos hop]
    obtain ⟨-, a0, a1, w0, w1, -, -, hc, -, -, -, -, l0, l1⟩ := C33_inquiry E t w ptr cdb buf lun r t' w' h hop ha
    rw [hc]
    simp only [List.map_cons, List.map_nil, l0, l1]
    rfl
  · rw [if_neg (by omega)]
    obtain ⟨-, a, wr, -, hc, -, -, hl⟩ := (C44_read_capacity_commands E t w ptr cdb buf lun r t' w' h hop).2 ha
    rw [hc]
    simp only [List.map_cons, List.map_nil, hl]
    rfl
  · rw [if_neg (by omega)]
    obtain ⟨-, a, wr, -, hc, -, -, hl⟩ := (C46_report_luns_commands E t w ptr cdb buf lun r t' w' h hop).2 ha
    rw [hc]
    simp only [List.map_cons, List.map_nil, hl]
    rfl
  · rw [if_neg (by omega)]
    obtain ⟨-, -, -, a, wr, hc, -, hwr, -⟩ := fallthrough_luns h (Or.inl hop) ha
    rw [hc, hwr]
    rfl
  · rw [if_neg (by omega)]
    obtain ⟨-, -, -, a, wr, hc, -, hwr, -⟩ := fallthrough_luns h (Or.inr hop) ha
    rw [hc, hwr]
    rfl

/-- **C32**, proved for READ, WRITE, INQUIRY, READ CAPACITY(10), REPORT LUNS, MAINTENANCE IN and MODE SENSE(10).
(Missing: SYNCHRONIZE CACHE(10), VERIFY(10), MODE SENSE(6), UNMAP, whose lengths are left over from earlier
commands.) -/
theorem C32_buffer_len_partial (E w ptr cdb buf lun t1 r1 t1' w1' t2 r2 t2' w2')
    (h1 : Began E t1 w ptr cdb buf lun r1 t1' w1') (h2 : Began E t2 w ptr cdb buf lun r2 t2' w2')
    (hop : isRead (byte cdb 0) ∨ isWrite (byte cdb 0) ∨ byte cdb 0 = 0x12 ∨ byte cdb 0 = 0x25 ∨ byte cdb 0 = 0xa0 ∨
      byte cdb 0 = 0xa3 ∨ byte cdb 0 = 0x5a) :
    t1'.GetNvmeWrappers.map (fun x => x.buffer_len) = t2'.GetNvmeWrappers.map (fun x => x.buffer_len) := by
  have hne42 : byte cdb 0 ≠ 0x42 := by
    unfold isRead isWrite at hop
    omega
  have hs := C31_history_independent_partial E w ptr cdb buf lun t1 r1 t1' w1' t2 r2 t2' w2' h1 h2 hne42
  simp only [seen, Prod.mk.injEq, decide_eq_decide] at hs
  by_cases ha : Accepted t1'
  · have e1 := buffer_lens h1 hop ha
    have e2 := buffer_lens h2 hop (hs.2.1.mp ha)
    have := e1.trans e2.symm
    have inj : Function.Injective (BitVec.toNat : U32 → Nat) := fun a b h => BitVec.eq_of_toNat_eq h
    have := congrArg (List.map (BitVec.ofNat 32)) this
    rw [List.map_map, List.map_map] at this
    simpa only [Function.comp_def, BitVec.ofNat_toNat, BitVec.setWidth_eq] using this
  · rw [h1.rejected ha, h2.rejected (fun h => ha (hs.2.1.mpr h))]

/-- SYNCHRONIZE CACHE(10) -/
def sync10 : List Byte := [0x35, 0, 0, 0, 0, 0, 0, 0, 0, 0]

/-- C32 does not hold: the buffer length of the Flush is whatever was in the object before. -/
theorem C32_refuted : ¬ C32_statement := by
  intro hall
  obtain ⟨r1, t1', w1', h1, c1⟩ := began_of Demo.env Demo.ws ⟨Demo.mem sync10, []⟩ 0x100 sync10 Demo.data 0
    (fun _ t' => t'.GetNvmeWrappers.map (fun x => x.buffer_len) = [0xdeadbeef]) (by decide +kernel) (by decide +kernel)
  obtain ⟨r2, t2', w2', h2, c2⟩ := began_of Demo.env Demo.ws' ⟨Demo.mem sync10, []⟩ 0x100 sync10 Demo.data 0
    (fun _ t' => t'.GetNvmeWrappers.map (fun x => x.buffer_len) = [0x1000]) (by decide +kernel) (by decide +kernel)
  have := hall _ _ _ _ _ _ _ _ _ _ _ _ _ _ h1 h2
  rw [c1, c2] at this
  revert this
  decide

/-- The hypotheses of C32 are met by the inquiry of two different objects. -/
example : ∃ r1 t1' w1' r2 t2' w2', Translation.init Demo.ws ≠ Translation.init Demo.ws' ∧
    Began Demo.env (Translation.init Demo.ws) ⟨Demo.mem Demo.inquiry, []⟩ 0x100 Demo.inquiry Demo.data 0 r1 t1' w1' ∧
    Began Demo.env (Translation.init Demo.ws') ⟨Demo.mem Demo.inquiry, []⟩ 0x100 Demo.inquiry Demo.data 0 r2 t2' w2' := by
  obtain ⟨r1, t1', w1', h1, -⟩ := began_of Demo.env Demo.ws ⟨Demo.mem Demo.inquiry, []⟩ 0x100 Demo.inquiry Demo.data 0
    (fun _ _ => True) (by decide +kernel) (by decide +kernel)
  obtain ⟨r2, t2', w2', h2, -⟩ := began_of Demo.env Demo.ws' ⟨Demo.mem Demo.inquiry, []⟩ 0x100 Demo.inquiry Demo.data 0
    (fun _ _ => True) (by decide +kernel) (by decide +kernel)
  exact ⟨r1, t1', w1', r2, t2', w2', by decide +kernel, h1, h2⟩

/-- **C64**, full statement (false, see `C64_refuted`): the allocation length in the response is the one of the
command block. -/
def C64_statement : Prop := ∀ E t w ptr cdb buf lun r t' w', Began E t w ptr cdb buf lun r t' w' →
  Accepted t' → r.alloc_len.toNat = allocLenOf cdb

/-- **C64**, proved for every accepted command other than UNMAP and MODE SENSE(10). -/
theorem C64_alloc_len_partial (E t w ptr cdb buf lun r t' w') (h : Began E t w ptr cdb buf lun r t' w')
    (ha : Accepted t') (h42 : byte cdb 0 ≠ 0x42) (h5a : byte cdb 0 ≠ 0x5a) : r.alloc_len.toNat = allocLenOf cdb := by
  have hne : cdb ≠ [] := by rintro rfl; exact h.nil.1 ha
  unfold allocLenOf
  rcases opcode_cases (byte cdb 0) with ho | ho | ho | ho | ho | ho | ho | ho | ho | ho | ho | ho | ho | ho
  · have e := h.ends hne (by rw [switch_unknown E cdb buf _ _ ho]; rfl)
    exact absurd (e.acc.mp ha) (by simp)
  · obtain ⟨rw_, pract, prchk, wr, hd, -, hc, -, -, -, -, hl, -⟩ := C18_read E t w ptr cdb buf lun r t' w' h ho ha
    have ho' := ho
    unfold isRead at ho'
    rw [if_neg (by omega), if_neg (by omega), if_neg (by omega), if_neg (by omega), if_neg (by omega), if_pos ho, hl, hd]
  · obtain ⟨rw_, pract, prchk, wr, -, -, -, hc, -, -, -, hr, -⟩ := C21_write_all E t w ptr cdb buf lun r t' w' h ho ha
    unfold isWrite at ho
    rw [if_neg (by omega), if_neg (by omega), if_neg (by omega), if_neg (by omega), if_neg (by omega),
      if_neg (by unfold isRead; omega), hr]
    rfl
  · have e := h.ends hne (by rw [switch_tur E cdb buf _ _ ho]; rfl)
    rw [e.resp, ho]
    rfl
  · have e := h.ends hne (by rw [switch_requestsense E cdb buf _ _ ho, rs_closed]; rfl)
    rw [e.resp]
    have hs := e.acc.mp ha
    split at hs
    · cases hs
    · rename_i hc
      rw [if_neg hc]
      rw [if_neg (by omega), if_neg (by omega), if_neg (by omega), if_pos (by omega)]
      simp only [BitVec.toNat_ofNat]
      have := byte_lt cdb 4
      omega
  · obtain ⟨hl, -⟩ := C33_inquiry E t w ptr cdb buf lun r t' w' h ho ha
    rw [if_pos ho, hl]
  · obtain ⟨hl, -⟩ := (C49_mode_sense6 E t w ptr cdb buf lun r t' w' h ho).2.1 ha
    rw [if_neg (by omega), if_neg (by omega), if_neg (by omega), if_pos (by omega), hl]
  · obtain ⟨hl, -⟩ := (C44_read_capacity_commands E t w ptr cdb buf lun r t' w' h ho).2 ha
    rw [if_neg (by omega), if_neg (by omega), if_neg (by omega), if_neg (by omega), if_pos (by omega), hl]
    rfl
  · obtain ⟨hr, -⟩ := (C25_verify E t w ptr cdb buf lun r t' w' h ho).2 ha
    rw [hr, ho]; rfl
  · obtain ⟨-, hr, -⟩ := C24_sync E t w ptr cdb buf lun r t' w' h ho
    rw [hr, ho]; rfl
  · exact absurd ho h42
  · exact absurd ho h5a
  · obtain ⟨hl, -⟩ := (C46_report_luns_commands E t w ptr cdb buf lun r t' w' h ho).2 ha
    rw [if_neg (by omega), if_neg (by omega), if_pos (by omega), hl]
  · obtain ⟨-, -, hl, -⟩ := fallthrough_luns h (Or.inl ho) ha
    rw [if_neg (by omega), if_neg (by omega), if_pos (by omega), hl]

/-- MODE SENSE(10) of 12 bytes, allocation length 0, with a nonzero byte after the control byte. -/
def modeSense10Odd : List Byte := [0x5a, 8, 0, 0, 0, 0, 0, 0, 0, 7, 0, 0]

/-- C64 does not hold: MODE SENSE(10), translated as REPORT LUNS, announces what REPORT LUNS would. -/
theorem C64_refuted : ¬ C64_statement := by
  intro hall
  obtain ⟨r, t', w', hb, hf, hr⟩ := began_of Demo.env Demo.ws ⟨Demo.mem modeSense10Odd, []⟩ 0x100 modeSense10Odd
    Demo.data 4 (fun r t' => Accepted t' ∧ r.alloc_len = 7) (by decide +kernel) (by decide +kernel)
  have := hall _ _ _ _ _ _ _ _ _ _ hb hf
  rw [hr] at this
  revert this
  decide +kernel

/-- The hypotheses of C64 are met. -/
example : ∃ r t' w', Began Demo.env (Translation.init Demo.ws) ⟨Demo.mem Demo.inquiry, []⟩ 0x100 Demo.inquiry
    Demo.data 3 r t' w' ∧ Accepted t' ∧ allocLenOf Demo.inquiry = 96 :=
  began_of _ _ _ _ _ _ _ (fun _ t' => Accepted t' ∧ allocLenOf Demo.inquiry = 96)
    (by decide +kernel) (by decide +kernel)

/-! ## MODE SENSE(10), MAINTENANCE IN -/

/-- **C52**, full statement (false, see `C52_refuted`): a conforming 10-byte MODE SENSE(10) command for a
supported page (page control "current") is accepted when pages are granted, and yields the commands MODE SENSE(6)
would yield. -/
def C52_statement : Prop := ∀ E t w ptr cdb buf lun r t' w' evs, Began E t w ptr cdb buf lun r t' w' →
  byte cdb 0 = 0x5a → cdb.length = 10 → byte cdb 2 ∈ modePages →
  w'.trace = evs ++ w.trace → pagesGranted E evs →
  Accepted t' ∧ t'.GetNvmeWrappers.length =
    (if Spec.bit cdb 1 3 = false then 1 else 0) + (if asksCaching (byte cdb 2 % 64) then 1 else 0)

/-- What happens instead: every MODE SENSE(10) command of the standard length (any shorter than 12 bytes) is
rejected. -/
theorem C52_mode_sense10_rejected (E t w ptr cdb buf lun r t' w') (h : Began E t w ptr cdb buf lun r t' w')
    (hop : byte cdb 0 = 0x5a) (hl : cdb.length < 12) : ¬ Accepted t' ∧ t'.GetNvmeWrappers = [] := by
  have hn : ¬ Accepted t' := fun ha => by
    have := (fallthrough_luns h (Or.inr hop) ha).1
    omega
  exact ⟨hn, h.rejected hn⟩

/-- MODE SENSE(10) of the caching page, no block descriptors. -/
def modeSense10 : List Byte := [0x5a, 8, 8, 0, 0, 0, 0, 0, 255, 0]

/-- C52 does not hold. -/
theorem C52_refuted : ¬ C52_statement := by
  intro hall
  cases hb : (Translation.init Demo.ws).Begin Demo.env ⟨0x100, modeSense10.length⟩ Demo.data 0 ⟨Demo.mem modeSense10, []⟩ with
  | error e =>
    have : (match (Translation.init Demo.ws).Begin Demo.env ⟨0x100, modeSense10.length⟩ Demo.data 0
      ⟨Demo.mem modeSense10, []⟩ with | .error _ => true | .ok _ => false) = false := by decide +kernel
    rw [hb] at this
    cases this
  | ok x =>
    obtain ⟨⟨r, t'⟩, w'⟩ := x
    have hB : Began Demo.env (Translation.init Demo.ws) ⟨Demo.mem modeSense10, []⟩ 0x100 modeSense10
        Demo.data 0 r t' w' := ⟨IdleObject_init _, by decide +kernel, hb⟩
    have htr : w'.trace = [] := by
      have : (match (Translation.init Demo.ws).Begin Demo.env ⟨0x100, modeSense10.length⟩ Demo.data 0
          ⟨Demo.mem modeSense10, []⟩ with | .error _ => false | .ok (_, w') => decide (w'.trace = [])) = true := by
        decide +kernel
      rw [hb] at this
      exact of_decide_eq_true this
    have := hall Demo.env _ _ _ _ _ _ _ _ _ [] hB (by decide) (by decide) (by decide) (by rw [htr]; rfl)
      ⟨by simp [Demo.env], refused_nil⟩
    exact (C52_mode_sense10_rejected _ _ _ _ _ _ _ _ _ _ hB (by decide) (by decide)).1 this.1

/-- **C53**, full statement of the acceptance part (false, see `C53_refuted`): MAINTENANCE IN is accepted exactly
for REPORT SUPPORTED OPERATION CODES (12 bytes) of WRITE SAME(16) with reporting option 1, and needs no NVMe
command. -/
def C53_statement : Prop := ∀ E t w ptr cdb buf lun r t' w', Began E t w ptr cdb buf lun r t' w' →
  byte cdb 0 = 0xa3 →
  (Accepted t' ↔ 12 ≤ cdb.length ∧ byte cdb 3 = 0x93 ∧ byte cdb 2 % 8 = 1) ∧ t'.GetNvmeWrappers = []

/-- What happens instead: MAINTENANCE IN is treated as REPORT LUNS: accepted exactly if the command block is
complete, byte 2 is 0, 1 or 2 and the page is granted; one Identify (active namespace list) is handed out. -/
theorem C53_maintenance_in_partial (E t w ptr cdb buf lun r t' w') (h : Began E t w ptr cdb buf lun r t' w')
    (hop : byte cdb 0 = 0xa3) :
    (∃ evs, w'.trace = evs ++ w.trace ∧
      (Accepted t' ↔ 12 ≤ cdb.length ∧ byte cdb 2 ≤ 2 ∧ pagesGranted E evs)) ∧
    (Accepted t' → r.alloc_len.toNat = beAt cdb 6 4 ∧ ∃ a wr, a ≠ 0 ∧ t'.GetNvmeWrappers = [wr] ∧
      wr.cmd.toBytes = identifySqe 0 2 a ∧ wr.is_admin = true) := by
  have hne := ne_nil_of_byte hop (by decide)
  refine ⟨?_, fun ha => ?_⟩
  · obtain ⟨st, al, em⟩ := maint_run E cdb (startPipe t)
    have hsw := switch_maintenance E cdb buf (nsidOf lun) (startPipe t) hop
    rw [em] at hsw
    generalize hq : ({ startPipe t with status := st, count := 0, alloc_len := al } : Pipe) = q at hsw
    have hqa : q.as.e0.data_addr = 0 := by rw [← hq]; exact clean_e0 h.clean
    rcases Nat.lt_or_ge cdb.length 12 with hl | hl
    · have e := h.ends hne (by rw [hsw, rl_short E cdb q w hl])
      rw [e.worldE]
      obtain ⟨evs, h1, -⟩ := events_none E { q with status := .kInvalidInput, count := 1 } w
      exact ⟨evs, h1, fun ha => absurd (e.acc.mp ha) (by simp), fun hh => by omega⟩
    rcases Nat.lt_or_ge 2 (byte cdb 2) with hb | hb
    · have e := h.ends hne (by rw [hsw, rl_bad E cdb q w hl hb])
      rw [e.worldE]
      obtain ⟨evs, h1, -⟩ := events_none E { q with status := .kInvalidInput, count := 1 } w
      exact ⟨evs, h1, fun ha => absurd (e.acc.mp ha) (by simp), fun hh => by omega⟩
    by_cases h0 : setA E w = 0
    · have e := h.ends hne (by rw [hsw, rl_fail E cdb q w hl hb hqa h0])
      rw [e.worldE]
      obtain ⟨evs, h1, h2⟩ := events_one E _ w
      exact ⟨evs, h1, fun ha => absurd (e.acc.mp ha) (by simp), fun hh => absurd h0 (h2.mp hh.2.2)⟩
    · have e := h.ends hne (by rw [hsw, rl_ok E cdb q w hl hb hqa h0])
      rw [e.worldE]
      obtain ⟨evs, h1, h2⟩ := events_one E _ w
      exact ⟨evs, h1, fun _ => ⟨hl, hb, h2.mpr h0⟩, fun _ => e.acc.mpr rfl⟩
  · obtain ⟨-, -, hal, a, wr, hc, ha0, hwr, -⟩ := fallthrough_luns h (Or.inl hop) ha
    refine ⟨hal, a.toNat, wr, fun hh => ha0 (BitVec.eq_of_toNat_eq hh), hc, ?_, by rw [hwr]; rfl⟩
    rw [hwr]; exact identifyCmd_toBytes 0 2 a

/-- MAINTENANCE IN / REPORT SUPPORTED OPERATION CODES of WRITE SAME(16), reporting option 1. -/
def maintenanceIn : List Byte := [0xa3, 0x0c, 1, 0x93, 0, 0, 0, 0, 0, 4, 0, 0]

/-- C53 does not hold: the conforming command hands out an Identify command. -/
theorem C53_refuted : ¬ C53_statement := by
  intro hall
  obtain ⟨r, t', w', hb, hf⟩ := began_of Demo.env Demo.ws ⟨Demo.mem maintenanceIn, []⟩ 0x100 maintenanceIn
    Demo.data 4 (fun _ t' => t'.GetNvmeWrappers ≠ []) (by decide +kernel) (by decide +kernel)
  exact hf (hall _ _ _ _ _ _ _ _ _ _ hb (by decide)).2

example : ∃ r t' w', Began Demo.env (Translation.init Demo.ws) ⟨Demo.mem maintenanceIn, []⟩ 0x100 maintenanceIn
    Demo.data 3 r t' w' ∧ Accepted t' ∧ r.alloc_len = 4 :=
  began_of _ _ _ _ _ _ _ (fun r t' => Accepted t' ∧ r.alloc_len = 4) (by decide +kernel) (by decide +kernel)

end Scsi2Nvme
