import Verif.Properties.ModuleDurable
import Verif.Properties.ConcurrentQuery
import Verif.Properties.ModuleQuery
/-!
# C103: information commands among concurrent commands through the kernel module
-/

namespace Scsi2Nvme
open Spec Engine

variable {ι : Type}

/-- The state of the call for an information command; `refused` says that there was no memory for its data buffer. -/
def haccount (D : Device Disk) (E : Env) (q : Command) (own : Nat → Prop) (tr0 : List Event) (Q : Query) (refused : Prop) (y : World) :
    Module.Phase → Prop
  | .queued => True
  | .engine b ph => ∃ m0 : Mem, (q.cmd.is_data_in = true → m0.read b (Module.dataLen q.cmd).toNat = some (List.replicate (Module.dataLen q.cmd).toNat 0)) ∧
      account D E (viewReq q b (Module.dataLen q.cmd)) m0 own tr0 Q y ph
  | .done o => refused ∨ ((∃ evs, y.trace = evs ++ tr0 ∧ pagesGranted E evs) → Replied q Q o)

/-- All calls for information commands are in order. -/
structure HTell (D : Device Disk) (E : Env) (c : ι → Command) (ident : Nat → Nat → List Byte) (feature : Nat → Nat → Nat → Nat)
    (own : ι → Nat → Prop) (tr0 : List Event) (refused : ι → Prop) (y : Host ι Disk) : Prop where
  grown : ∃ evs, y.world.trace = evs ++ tr0
  calls : ∀ i Q, query (c i).cdb (nsidOfLun (c i).cmd.lun) ident feature = some Q → Q.len ≤ (c i).cmd.sg.length % 65536 →
    haccount D E (c i) (own i) tr0 Q (refused i) y.world (y.phase i)

/-- The trace of a step. -/
theorem hstep_grows [DecidableEq ι] {D : Device Disk} {K : Module.Kernel} (hK : GoodKernel K) {junk : World → Nat → Byte} {c : ι → Command}
    {own : ι → Nat → Prop} {y y' : Host ι Disk} {i : ι} (hI : HInv K junk c own y) (h : HStepped K junk D c y i y') :
    ∃ evs, y'.world.trace = evs ++ y.world.trace := by
  cases h with
  | engine hp hr y1 hst => exact step_grows (C72_util K hK junk).1 hI.inv hst
  | empty => exact ⟨[], rfl⟩
  | refused => exact ⟨[], rfl⟩
  | granted => exact ⟨[], rfl⟩
  | finished => exact ⟨[], rfl⟩
  | copied => exact ⟨[], rfl⟩
  | freed => exact ⟨[], rfl⟩
  | done => exact ⟨[], rfl⟩

/-- A call is not disturbed by steps of other calls. -/
theorem haccount_other {D E q own own' tr0 Q refused} {y y' : World} {ph : Module.Phase} (h : haccount D E q own tr0 Q refused y ph)
    (hu : ∀ a, (viewOf q ph).uses a → y'.mem a = y.mem a) (ho : own' = own) (hown : ∀ a, own a → y'.mem a = y.mem a)
    (hy : ∃ evs, y.trace = evs ++ tr0) (ht : ∃ evs, y'.trace = evs ++ y.trace) : haccount D E q own' tr0 Q refused y' ph := by
  cases ph with
  | queued => trivial
  | engine b ph =>
    obtain ⟨m0, h1, h2⟩ := h
    exact ⟨m0, h1, account_other h2 hu ho hown hy ht⟩
  | done o =>
    refine h.imp id fun h => ?_
    rintro ⟨evs, hevs, hg1, hg2⟩
    obtain ⟨e0, he0⟩ := hy
    obtain ⟨e1, he1⟩ := ht
    have : evs = e1 ++ e0 := by
      rw [he1, he0, ← List.append_assoc] at hevs
      exact (List.append_cancel_right hevs).symm
    exact h ⟨e0, he0, hg1, fun hr => hg2 (by rw [this]; exact refused_right hr)⟩

/-- What a call for an information command which has been answered copies to the scatter-gather list. -/
theorem informed_of {q : Command} {E : Env} {b : Nat} {m0 : Mem} {tr0 : List Event} {Q : Query} {y : World} {r : ScsiToNvmeResponse}
    (hl : Q.len ≤ q.cmd.sg.length % 65536) (hi : q.cmd.is_data_in = true) (hz : q.cmd.sg.length % 65536 ≠ 0)
    (h0 : m0.read b (Module.dataLen q.cmd).toNat = some (List.replicate (Module.dataLen q.cmd).toNat 0))
    (ha : answered E (viewReq q b (Module.dataLen q.cmd)) m0 tr0 Q y r) (hG : ∃ evs, y.trace = evs ++ tr0 ∧ pagesGranted E evs)
    {bs : List Byte} (hb : y.mem.read b (min r.alloc_len q.cmd.sg.length) = some bs) :
    Replied q Q ⟨r.return_code, some (((Module.dataLen q.cmd).toNat : Int) - (min r.alloc_len q.cmd.sg.length : Nat)),
      bs ++ q.cmd.sg.drop (min r.alloc_len q.cmd.sg.length)⟩ := by
  obtain ⟨e1, stack, e3, e4⟩ := ha hG
  refine ⟨stack, e3, ?_⟩
  simp only []
  rw [if_pos ⟨hi, hz⟩]
  have hR := reply_length q.cdb (nsidOfLun q.cmd.lun) Q.len stack Q.page0 Q.page1 (Q.dw0 % 2 ^ 32)
  have e4 : ∀ a, (viewReq q b (Module.dataLen q.cmd)).uses a → y.mem a = m0.put b
      (reply q.cdb (nsidOfLun q.cmd.lun) Q.len stack Q.page0 Q.page1 (Q.dw0 % 2 ^ 32)) a := by
    intro a ha
    have := e4 a ha
    change y.mem a = m0.put (if q.cmd.is_data_in then b else 0)
      (reply q.cdb (nsidOfLun q.cmd.lun) (if q.cmd.is_data_in then Q.len else 0) stack Q.page0 Q.page1 (Q.dw0 % 2 ^ 32)) a at this
    rw [if_pos hi, if_pos hi] at this
    exact this
  have hd := dataLen_toNat q.cmd
  have hle : q.cmd.sg.length % 65536 ≤ q.cmd.sg.length := Nat.mod_le _ _
  have hmin : min r.alloc_len q.cmd.sg.length = Q.len := by rw [e1]; simp only; omega
  rw [hmin] at hb ⊢
  generalize reply q.cdb (nsidOfLun q.cmd.lun) Q.len stack Q.page0 Q.page1 (Q.dw0 % 2 ^ 32) = R at hR e4
  rw [hd] at h0
  rw [e1, hd]
  have hbs : bs = R ++ List.replicate (Q.len - R.length) 0 := by
    obtain ⟨l1, l2⟩ := read_eq_some.mp hb
    obtain ⟨l3, l4⟩ := read_eq_some.mp h0
    apply List.ext_getElem?
    intro i
    by_cases hil : i < Q.len
    · have := l4 i (by omega)
      rw [List.getElem?_replicate, if_pos (by omega)] at this
      rw [← l2 i hil, e4 _ (view_uses.mpr (.inr ⟨Nat.le_add_right _ _, by rw [hd]; omega⟩))]
      unfold Mem.put
      split
      · rename_i hc
        rw [List.getElem?_append_left (by omega), Nat.add_sub_cancel_left]
      · rename_i hc
        rw [List.getElem?_append_right (by omega), List.getElem?_replicate, if_pos (by omega), this]
    · rw [List.getElem?_eq_none (by omega), List.getElem?_eq_none (by rw [List.length_append, List.length_replicate]; omega)]
  rw [hbs]

theorem informed_plain {q : Command} {E : Env} {b : Nat} {m0 : Mem} {tr0 : List Event} {Q : Query} {y : World} {r : ScsiToNvmeResponse}
    (h : ¬ (q.cmd.is_data_in = true ∧ q.cmd.sg.length % 65536 ≠ 0))
    (ha : answered E (viewReq q b (Module.dataLen q.cmd)) m0 tr0 Q y r) (hG : ∃ evs, y.trace = evs ++ tr0 ∧ pagesGranted E evs) :
    Replied q Q ⟨r.return_code, none, q.cmd.sg⟩ := by
  obtain ⟨e1, stack, e3, -⟩ := ha hG
  refine ⟨stack, e3, ?_⟩
  simp only []
  rw [if_neg h, e1]

/-- Every step keeps the calls for information commands in order. -/
theorem HTell.step [DecidableEq ι] {D cap ident feature} (hT : Target D cap ident feature) {K : Module.Kernel} (hK : GoodKernel K)
    {junk : World → Nat → Byte} {refused : ι → Prop} {c : ι → Command} {own own' : ι → Nat → Prop} {tr0 : List Event} {y y' : Host ι Disk} {i : ι}
    (hq : (c i).Fair)
    (hrf : y.phase i = .queued → (K.kzalloc y.world ((c i).cmd.sg.length % 65536)).1 = 0 → refused i)
    (hI : HInv K junk c own y) (hL : HTell D (Module.env K junk) c ident feature own tr0 refused y) (h : HStepped K junk D c y i y')
    (hc : Confined (y.reqs c) own i y.world.mem y'.world.mem) (hP : Passed own own' i y.view y'.view) :
    HTell D (Module.env K junk) c ident feature own' tr0 refused y' := by
  have hg := (C72_util K hK junk).1
  have hgr := hstep_grows hK hI h
  have hy := hL.grown
  refine ⟨?_, fun j Q hQ hl => ?_⟩
  · obtain ⟨e1, he1⟩ := hgr
    obtain ⟨e2, he2⟩ := hy
    exact ⟨e1 ++ e2, by rw [he1, he2, List.append_assoc]⟩
  have hac := hL.calls j Q hQ hl
  by_cases hj : j = i
  · subst hj
    have hd := dataLen_toNat (c j).cmd
    cases h with
    | empty hp hz =>
      rw [Host.to_self]
      refine ⟨y.world.mem, fun _ => ?_, fun a _ => rfl⟩
      rw [hz]
      rfl
    | refused hp hz h0 =>
      rw [Host.to_self]
      rw [hd] at h0
      exact .inl (hrf hp h0)
    | granted hp hz h0 m hm =>
      rw [Host.to_self]
      refine ⟨m, fun hi => ?_, fun a _ => rfl⟩
      rw [hm, if_pos hi]
      rcases hK.alloc y.world (Module.dataLen (c j).cmd).toNat with ⟨h, -⟩ | ⟨-, -, -, hin, -⟩
      · exact absurd h h0
      · refine read_eq_some.mpr ⟨List.length_replicate, fun k hk => ?_⟩
        rw [(hin _ ⟨Nat.le_add_right _ _, Nat.add_lt_add_left hk _⟩).2, List.getElem?_replicate, if_pos hk]
    | @engine b ph hp hr y1 hst =>
      rw [hp] at hac
      obtain ⟨m0, h1, h2⟩ := hac
      rw [Host.to_self]
      have hv : y.reqs c j = viewReq (c j) b (Module.dataLen (c j).cmd) := by unfold Host.reqs; rw [hp]; rfl
      have hvp : y.view.phase j = ph := by change viewPh (y.phase j) = _; rw [hp]; rfl
      have hf : (y.reqs c j).Fair := by
        rw [hv]
        exact viewReq_fair hq (hI.buf j b ph hp).1 fun a ha => (hI.buf j b ph hp).2 a (.inl ha)
      have hview : (y.to j y1.dev y1.world (.engine b (y1.phase j))).view.phase j = y1.phase j := by
        change viewPh (Host.phase _ j) = _
        rw [Host.to_self]
        rfl
      have hP' : Passed own own' j y.view y1 := by
        refine ⟨hP.others, fun r t todo cs r' t' todo' cs' e1 e2 => hP.kept r t todo cs r' t' todo' cs' e1 (hview.trans e2), fun e r t todo cs e2 => ?_⟩
        exact hP.fresh e r t todo cs (hview.trans e2)
      refine ⟨m0, h1, ?_⟩
      rw [← hv, ← hvp] at h2
      rw [← hv]
      exact account_moves hT hg hI.apart (fun _ => hf) hI.inv hy hst hc hP' (by rw [hv]; exact hQ)
        (by rw [hv]; change Q.len ≤ (Module.dataLen (c j).cmd).toNat; rw [hd]; exact hl) h2
    | finished hp hz =>
      rw [hp] at hac
      obtain ⟨m0, -, h2⟩ := hac
      rw [Host.to_self]
      refine .inr fun hG => informed_plain (fun h => h.2 ?_) h2 hG
      rw [← hd]; exact hz
    | copied hp hz hi hb =>
      rw [hp] at hac
      obtain ⟨m0, h1, h2⟩ := hac
      rw [Host.to_self]
      exact .inr fun hG => informed_of hl hi (by rw [← hd]; exact hz) (h1 hi) h2 hG hb
    | freed hp hz hi =>
      rw [hp] at hac
      obtain ⟨m0, h1, h2⟩ := hac
      rw [Host.to_self]
      exact .inr fun hG => informed_plain (fun h => by rw [hi] at h; cases h.1) h2 hG
    | done hp =>
      rw [hp] at hac ⊢
      exact hac
  · obtain ⟨o1, o2, -⟩ := hI.inv.others hc hI.apart j hj
    have hph : y'.phase j = y.phase j := by
      cases h with
      | done => rfl
      | empty => exact Host.to_other y hj _ _ _
      | refused => exact Host.to_other y hj _ _ _
      | granted => exact Host.to_other y hj _ _ _
      | engine => exact Host.to_other y hj _ _ _
      | finished => exact Host.to_other y hj _ _ _
      | copied => exact Host.to_other y hj _ _ _
      | freed => exact Host.to_other y hj _ _ _
    rw [hph]
    exact haccount_other hac o1 (hP.others j hj) o2 hy hgr

theorem HTell.start (D : Device Disk) (E : Env) (c : ι → Command) (ident feature) (refused : ι → Prop) (d : Disk) (m : Mem) (tr : List Event) :
    HTell D E c ident feature (fun _ _ => False) tr refused (Host.start d m tr) :=
  ⟨⟨[], rfl⟩, fun _ _ _ _ => trivial⟩

/-- A whole schedule. -/
theorem HTell.run [DecidableEq ι] {D cap ident feature} (hT : Target D cap ident feature) {K : Module.Kernel} (hK : GoodKernel K)
    {junk : World → Nat → Byte} {refused : ι → Prop} {c : ι → Command} (hq : ∀ i, (c i).Fair) {tr0 : List Event} (sched : List ι)
    {own : ι → Nat → Prop} {y y' : Host ι Disk}
    (hrf : ∀ i, Refused K junk D c y sched i → refused i)
    (hI : HInv K junk c own y) (hL : HTell D (Module.env K junk) c ident feature own tr0 refused y) (h : y.run K junk D c sched = .ok y') :
    ∃ own', HInv K junk c own' y' ∧ HTell D (Module.env K junk) c ident feature own' tr0 refused y' := by
  induction sched generalizing own y with
  | nil =>
    cases h
    exact ⟨own, hI, hL⟩
  | cons i is ih =>
    unfold Host.run at h
    split at h
    · cases h
    · rename_i y1 e
      have hs := hstepped_of hI (hq i) e
      obtain ⟨own1, hI1, hc, -, hP⟩ := hI.steps hK (hT.tame (C72_util K hK junk).1) (hq i) hs
      have hL1 := hL.step hT hK (hq i) (fun h1 h2 => hrf i ⟨[], is, y, rfl, rfl, h1, h2⟩) hI hs hc hP
      exact ih (fun j hj => hrf j (by
        obtain ⟨b, a, y2, h1, h2, h3⟩ := hj
        exact ⟨i :: b, a, y2, by rw [h1]; rfl, by simp only [Host.run, e]; exact h2, h3⟩)) hI1 hL1 h

/-- **C103.** Information commands among any other commands handed to the kernel module concurrently, in any interleaving: over a
controller which executes Identify and Get Features, if there was memory for the data buffer of the command and no page was refused to
any call, every INQUIRY, READ CAPACITY(10), REPORT LUNS and MODE SENSE(6) which `query` covers and which fits in the (16-bit) buffer
length has, once it is done, the outcome it has when it is the only command (C94): `Replied`. -/
theorem C103_isolated [DecidableEq ι] (cap : Nat → Nat) (ident feature) (K : Module.Kernel) (hK : GoodKernel K)
    (junk : World → Nat → Byte) (D : Device Disk) (hS : Storage D cap) (hC : Controller D ident feature) (hT : tidy D)
    (c : ι → Command) (m : Mem) (hc : Disjoint c m) (d : Disk) (tr : List Event) (sched : List ι) (y : Host ι Disk)
    (h : (Host.start d m tr).run K junk D c sched = .ok y)
    (hG : ∃ evs, y.world.trace = evs ++ tr ∧ pagesGranted (Module.env K junk) evs)
    (i : ι) (o : Module.Outcome) (ho : y.phase i = .done o) (hr : ¬ Refused K junk D c (Host.start d m tr) sched i) (Q : Query)
    (hQ : query (c i).cdb (nsidOfLun (c i).cmd.lun) ident feature = some Q) (hl : Q.len ≤ (c i).cmd.sg.length % 65536) :
    Replied (c i) Q o := by
  obtain ⟨own, -, hL⟩ := HTell.run ⟨hS, hC, hT⟩ hK hc.fair sched (fun _ h => h) (HInv.start hc d tr)
    (HTell.start D _ c ident feature _ d m tr) h
  have := hL.calls i Q hQ hl
  rw [ho] at this
  exact this.resolve_left hr hG

/-- **C103 (safety).** No interleaving of commands which are `steady` for the Identify data of their namespaces (all but some MODE SENSE
commands, see C81) has undefined behaviour. -/
theorem C103_defined [DecidableEq ι] (cap : Nat → Nat) (ident feature) (K : Module.Kernel) (hK : GoodKernel K)
    (junk : World → Nat → Byte) (D : Device Disk) (hS : Storage D cap) (hC : Controller D ident feature) (hT : tidy D)
    (c : ι → Command) (m : Mem) (hc : Disjoint c m) (hop : ∀ i, steady (c i).cdb (ident (nsidOfLun (c i).cmd.lun) 0))
    (d : Disk) (tr : List Event) (sched : List ι) : ∃ y, (Host.start d m tr).run K junk D c sched = .ok y := by
  have hT' : Target D cap ident feature := ⟨hS, hC, hT⟩
  have key : ∀ (own : ι → Nat → Prop) (y : Host ι Disk), HInv K junk c own y → HTell D (Module.env K junk) c ident feature own tr (fun _ => True) y →
      ∃ y', y.run K junk D c sched = .ok y' := by
    induction sched with
    | nil => exact fun _ y _ _ => ⟨y, rfl⟩
    | cons i is ih =>
      intro own y hI hL
      obtain ⟨y1, h1⟩ := hI.defines hK D (hc.fair i) fun hf => by
        refine hI.inv.defines D (C72_util K hK junk).1 hf (account_safe (tr0 := tr) hT' (C72_util K hK junk).1 hI.inv ?_ fun ⟨r, t, cs, hw⟩ Q hQ hl => ?_)
        · unfold Host.reqs viewOf
          split <;> exact hop i
        · cases hp : y.phase i with
          | queued =>
            refine ⟨y.world.mem, ?_⟩
            rw [show y.view.phase i = .called by change viewPh (y.phase i) = _; rw [hp]; rfl]
            exact fun _ _ => rfl
          | done o =>
            rw [show y.view.phase i = .returned ⟨0, 0⟩ by change viewPh (y.phase i) = _; rw [hp]; rfl] at hw
            cases hw
          | engine b ph =>
            have hv : y.reqs c i = viewReq (c i) b (Module.dataLen (c i).cmd) := by unfold Host.reqs; rw [hp]; rfl
            have hac := hL.calls i Q (by rw [hv] at hQ; exact hQ) (by
              rw [hv] at hl
              rw [← dataLen_toNat]
              exact hl)
            rw [hp] at hac
            obtain ⟨m0, -, h2⟩ := hac
            rw [hv, show y.view.phase i = ph by change viewPh (y.phase i) = _; rw [hp]; rfl]
            exact ⟨m0, h2⟩
      have hs := hstepped_of hI (hc.fair i) h1
      obtain ⟨own1, hI1, hcf, -, hP⟩ := hI.steps hK (hT'.tame (C72_util K hK junk).1) (hc.fair i) hs
      obtain ⟨y2, h2⟩ := ih own1 y1 hI1 (hL.step hT' hK (hc.fair i) (fun _ _ => trivial) hI hs hcf hP)
      exact ⟨y2, by simp only [Host.run, h1, h2]⟩
  exact key _ _ (HInv.start hc d tr) (HTell.start D _ c ident feature _ d m tr)

/-! ## The INQUIRY of the three commands -/

/-- Only `Begin` asks for pages, and not for READ and WRITE. -/
theorem hrun_grants [DecidableEq ι] {D cap ident feature} (hT : Target D cap ident feature) {K : Module.Kernel} (hK : GoodKernel K)
    {junk : World → Nat → Byte} {c : ι → Command} (hq : ∀ i, (c i).Fair) (sched : List ι) {own : ι → Nat → Prop} {y y' : Host ι Disk}
    (hI : HInv K junk c own y) (hp : ∀ i, viewPh (y.phase i) ≠ .called ∨ isIo (c i)) (h : y.run K junk D c sched = .ok y') :
    ∃ evs, y'.world.trace = evs ++ y.world.trace ∧ ¬ pageRefused evs := by
  induction sched generalizing own y with
  | nil => cases h; exact ⟨[], rfl, fun ⟨_, _, _, h⟩ => by cases h⟩
  | cons j js ih =>
    unfold Host.run at h
    split at h
    · cases h
    · rename_i y1 e
      have hs := hstepped_of hI (hq j) e
      obtain ⟨own1, hI1, -⟩ := hI.step hK (hT.tame (C72_util K hK junk).1) (hq j) hs
      have nil : ∃ evs, y.world.trace = evs ++ y.world.trace ∧ ¬ pageRefused evs := ⟨[], rfl, fun ⟨_, _, _, h⟩ => by cases h⟩
      have h1 : (∃ evs, y1.world.trace = evs ++ y.world.trace ∧ ¬ pageRefused evs) ∧ ∀ i, viewPh (y1.phase i) ≠ .called ∨ isIo (c i) := by
        have same : ∀ i, i ≠ j → viewPh (y1.phase i) ≠ .called ∨ isIo (c i) := by
          intro i hi
          rw [host_unscheduled K junk D c i [j] y y1 (by unfold Host.run; rw [e]; rfl) (by simpa using hi)]
          exact hp i
        have mine : (viewPh (y.phase j) ≠ .called → viewPh (y1.phase j) ≠ .called) → ∀ i, viewPh (y1.phase i) ≠ .called ∨ isIo (c i) := by
          intro hm i
          by_cases hi : i = j
          · subst hi; exact (hp i).imp hm id
          · exact same i hi
        cases hs with
        | empty hq' => exact ⟨nil, mine fun h => absurd (by rw [hq']; rfl) h⟩
        | refused hq' => exact ⟨nil, mine fun h => absurd (by rw [hq']; rfl) h⟩
        | granted hq' => exact ⟨nil, mine fun h => absurd (by rw [hq']; rfl) h⟩
        | @engine b ph hq' hr z hst =>
          have hv : y.reqs c j = viewReq (c j) b (Module.dataLen (c j).cmd) := by unfold Host.reqs; rw [hq']; rfl
          have hvp : y.view.phase j = ph := by change viewPh (y.phase j) = _; rw [hq']; rfl
          refine ⟨step_grants hI.inv hst ?_, mine fun hh => ?_⟩
          · rw [hv, hvp]
            exact (hp j).imp (fun h => by rw [hq'] at h; exact h) id
          · rw [hq'] at hh
            rw [Host.to_self]
            change z.phase j ≠ .called
            cases hst with
            | begin hc => exact absurd (hvp.symm.trans hc) hh
            | submit hc => rw [to_self]; intro h; cases h
            | complete hc => rw [to_self]; intro h; cases h
            | returned hc => exact absurd (hvp.symm.trans hc) (hr _)
        | finished hq' => exact ⟨nil, mine fun _ => by rw [Host.to_self]; intro h; cases h⟩
        | copied hq' => exact ⟨nil, mine fun _ => by rw [Host.to_self]; intro h; cases h⟩
        | freed hq' => exact ⟨nil, mine fun _ => by rw [Host.to_self]; intro h; cases h⟩
        | done hq' => exact ⟨nil, hp⟩
      obtain ⟨⟨e1, he1, n1⟩, h2⟩ := h1
      obtain ⟨e2, he2, n2⟩ := ih hI1 h2 h
      exact ⟨e2 ++ e1, by rw [he2, he1, List.append_assoc], by rw [refused_append]; exact fun h => h.elim n2 n1⟩

theorem trio_inquiry_address : (demoKernel3.kzalloc ⟨demoShared, []⟩ 200).1 = 0x100000 := by decide +kernel

theorem trio_inquiry_began : ∃ r t1 w1, Began (Module.env demoKernel3 (fun _ _ => 0)) (Translation.init Demo.ws)
    ⟨(demoKernel3.kzalloc ⟨demoShared, []⟩ 200).2, []⟩ 0x30000 Demo.inquiry ⟨0x100000, 200⟩ 3 r t1 w1 ∧ Accepted t1 :=
  began_of _ _ _ _ _ _ _ (fun _ t' => Accepted t') (by decide +kernel) (by decide +kernel)

/-- The INQUIRY begins, the WRITE and the READ run, the INQUIRY ends: the hypotheses of C103 are met, and for any data of the controller
the list of the INQUIRY begins with the standard INQUIRY data. -/
example (cap : Nat → Nat) (ident : Nat → Nat → List Byte) (feature : Nat → Nat → Nat → Nat)
    (hs : ∀ n c, (ident n c).length = 4096) (d : Disk) (sg : Fin 3 → List Byte) (h0 : (sg 0).length = 8192) (h1 : (sg 1).length = 12288)
    (h2 : (sg 2).length = 200) :
    ∃ y o, (Host.start d demoShared []).run demoKernel3 (fun _ _ => 0) (demoTarget cap ident feature) (demoTrio sg)
        (2 :: 2 :: [0, 1, 0, 2, 0, 1, 2, 0, 0, 2, 0, 0, 1, 1, 1, 1, 2, 1, 2]) = .ok y ∧ y.phase 2 = .done o ∧
      o = ⟨0, some 104, standardInquiry (ident 4 0) (ident 0 1) ++ List.replicate 60 0 ++ (sg 2).drop 96⟩ ∧
      (standardInquiry (ident 4 0) (ident 0 1)).length = 36 := by
  have hS := demoTarget_storage cap ident feature
  have hC := demoTarget_controller cap ident feature hs
  have hT := demoTarget_tidy cap ident feature
  have hD : Disjoint (demoTrio sg) demoShared := demoTrio_disjoint sg (by
    intro i
    match i with
    | 0 => exact ⟨fun _ => by omega, by omega⟩
    | 1 => exact ⟨fun _ => by omega, by omega⟩
    | 2 => exact ⟨fun h => absurd rfl h, by omega⟩)
  have hop : ∀ i page, steady (demoTrio sg i).cdb page := fun i => steady_of (demoCalls_blocks i).2.1
  obtain ⟨y, r⟩ := C103_defined cap ident feature demoKernel3 demoKernel3_good (fun _ _ => 0) _ hS hC hT (demoTrio sg) demoShared hD
    (fun i => hop i _) d [] (2 :: 2 :: [0, 1, 0, 2, 0, 1, 2, 0, 0, 2, 0, 0, 1, 1, 1, 1, 2, 1, 2])
  obtain ⟨o, p⟩ := C101_wait_free _ _ _ _ _ _ _ _ _ r 2 (by decide)
  have l2 : (Module.dataLen (demoTrio sg 2).cmd).toNat = 200 := by
    rw [dataLen_toNat]
    change (sg 2).length % 65536 = _
    rw [h2]
  have m2 : (demoTrio sg 2).cmd.sg.length % 65536 = 200 := by rw [← dataLen_toNat]; exact l2
  have free : (demoKernel3.kzalloc ⟨demoShared, []⟩ 200).1 ≠ 0 := by rw [trio_inquiry_address]; decide
  have hN : ¬ Refused demoKernel3 (fun _ _ => 0) (demoTarget cap ident feature) (demoTrio sg) (Host.start d demoShared [])
      (2 :: 2 :: [0, 1, 0, 2, 0, 1, 2, 0, 0, 2, 0, 0, 1, 1, 1, 1, 2, 1, 2]) 2 :=
    not_refused (pre := []) (post := 2 :: [0, 1, 0, 2, 0, 1, 2, 0, 0, 2, 0, 0, 1, 1, 1, 1, 2, 1, 2]) rfl (by decide) (by
      rw [m2]; exact free)
  have hG : ∃ evs, y.world.trace = evs ++ [] ∧ pagesGranted (Module.env demoKernel3 fun _ _ => 0) evs := by
    have h' := r
    unfold Host.run at h'
    split at h'
    · cases h'
    · rename_i z e
      have hI := HInv.start (K := demoKernel3) (junk := fun _ _ => 0) hD d []
      have hst := hstepped_of hI (hD.fair 2) e
      obtain ⟨own1, hI1, -⟩ := hI.step demoKernel3_good (Target.tame ⟨hS, hC, hT⟩ (C72_util demoKernel3 demoKernel3_good _).1) (hD.fair 2) hst
      have hz : z.phase 2 = .engine 0x100000 .called ∧ z.world = ⟨(demoKernel3.kzalloc ⟨demoShared, []⟩ 200).2, []⟩ := by
        cases hst with
        | empty hp hz => rw [l2] at hz; cases hz
        | refused hp hz hk => rw [l2] at hk; exact absurd hk free
        | granted hp hz hk m hm =>
          rw [l2] at hm
          rw [Host.to_self, l2]
          refine ⟨?_, ?_⟩
          · change Module.Phase.engine (demoKernel3.kzalloc ⟨demoShared, []⟩ 200).1 .called = _
            rw [trio_inquiry_address]
          · rw [if_pos (show (demoTrio sg 2).cmd.is_data_in = true from rfl)] at hm
            rw [hm]
            rfl
        | engine hp => cases hp
        | finished hp => cases hp
        | copied hp => cases hp
        | freed hp => cases hp
        | done hp => cases hp
      obtain ⟨z1, z2⟩ := hz
      unfold Host.run at h'
      split at h'
      · cases h'
      · rename_i z' e'
        have hst' := hstepped_of hI1 (hD.fair 2) e'
        obtain ⟨own2, hI2, -⟩ := hI1.step demoKernel3_good (Target.tame ⟨hS, hC, hT⟩ (C72_util demoKernel3 demoKernel3_good _).1) (hD.fair 2) hst'
        have h1 : (viewPh (z'.phase 2) ≠ .called) ∧ ∃ evs, z'.world.trace = evs ∧ pagesGranted (Module.env demoKernel3 fun _ _ => 0) evs := by
          cases hst' with
          | @engine b ph hp hr y1 hq =>
            rw [z1] at hp
            cases hp
            have hv : z.reqs (demoTrio sg) 2 = viewReq (demoTrio sg 2) 0x100000 (Module.dataLen (demoTrio sg 2).cmd) := by
              unfold Host.reqs; rw [z1]; rfl
            rw [Host.to_self]
            cases hq with
            | @begin r' t w1 hc hB =>
              obtain ⟨r1, t1, w1', hB', hacc⟩ := trio_inquiry_began
              have hcall := hB.call
              rw [hv, show z.view.world = z.world from rfl, z2] at hcall
              change (Translation.init Demo.ws).Begin _ ⟨0x30000, Demo.inquiry.length⟩ ⟨0x100000, (Module.dataLen (demoTrio sg 2).cmd).toNat⟩ 3 _ = _ at hcall
              rw [l2] at hcall
              have hcall' := hB'.call.symm.trans hcall
              simp only [Except.ok.injEq, Prod.mk.injEq] at hcall'
              obtain ⟨⟨rfl, rfl⟩, rfl⟩ := hcall'
              obtain ⟨evs, e1, e2⟩ := C33_inquiry_accepted _ _ _ _ _ _ _ _ _ _ hB' (by decide)
              rw [List.append_nil] at e1
              refine ⟨?_, evs, e1, (e2.mp hacc).2⟩
              change Sys.phase _ 2 ≠ _
              rw [to_self]
              split <;> (intro h; cases h)
            | submit hc => rw [show z.view.phase 2 = .called by change viewPh (z.phase 2) = _; rw [z1]; rfl] at hc; cases hc
            | complete hc => rw [show z.view.phase 2 = .called by change viewPh (z.phase 2) = _; rw [z1]; rfl] at hc; cases hc
            | returned hc => rw [show z.view.phase 2 = .called by change viewPh (z.phase 2) = _; rw [z1]; rfl] at hc; cases hc
          | empty hp => rw [z1] at hp; cases hp
          | refused hp => rw [z1] at hp; cases hp
          | granted hp => rw [z1] at hp; cases hp
          | finished hp => rw [z1] at hp; cases hp
          | copied hp => rw [z1] at hp; cases hp
          | freed hp => rw [z1] at hp; cases hp
          | done hp => rw [z1] at hp; cases hp
        obtain ⟨h3, evs, e3, e4, e5⟩ := h1
        obtain ⟨evs', e6, e7⟩ := hrun_grants ⟨hS, hC, hT⟩ demoKernel3_good hD.fair _ hI2 (fun i => by
          match i with
          | 0 => exact .inr (.inr (by decide : isWrite (byte (demoBlocks 0) 0)))
          | 1 => exact .inr (.inl (by decide : isRead (byte (demoBlocks 1) 0)))
          | 2 => exact .inl h3) h'
        refine ⟨evs' ++ evs, by rw [List.append_nil, e6, e3], e4, ?_⟩
        rw [refused_append]
        exact fun h => h.elim e7 e5
  have hlen : (standardInquiry (ident 4 0) (ident 0 1)).length = 36 := C34_length _ _ (hs 0 1)
  obtain ⟨stack, -, g⟩ := C103_isolated cap ident feature demoKernel3 demoKernel3_good (fun _ _ => 0) _ hS hC hT (demoTrio sg) demoShared hD d [] _ y r
    hG 2 o p hN ⟨96, ident 4 0, ident 0 1, 0⟩ rfl (by rw [m2]; exact (by decide : 96 ≤ 200))
  refine ⟨y, o, r, p, ?_, hlen⟩
  have hr : reply Demo.inquiry 4 96 stack (ident 4 0) (ident 0 1) 0 = whole 96 (standardInquiry (ident 4 0) (ident 0 1)) := rfl
  have hw : whole 96 (standardInquiry (ident 4 0) (ident 0 1)) = standardInquiry (ident 4 0) (ident 0 1) := by
    unfold whole
    rw [if_pos (by omega)]
  change o = if (demoTrio sg 2).cmd.is_data_in = true ∧ (demoTrio sg 2).cmd.sg.length % 65536 ≠ 0 then
      ⟨0, some ((((demoTrio sg 2).cmd.sg.length % 65536 : Nat) : Int) - (96 : Nat)), reply Demo.inquiry 4 96 stack (ident 4 0) (ident 0 1) 0 ++
        List.replicate (96 - (reply Demo.inquiry 4 96 stack (ident 4 0) (ident 0 1) 0).length) 0 ++ (sg 2).drop 96⟩
    else _ at g
  rw [hr, hw, hlen, m2, if_pos ⟨rfl, by decide⟩] at g
  exact g

end Scsi2Nvme
