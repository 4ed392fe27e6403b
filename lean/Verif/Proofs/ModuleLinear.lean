import Verif.Proofs.ModuleConcurrent
/-!
# Calls of the kernel module made concurrently: the order in which they take effect
-/

namespace Scsi2Nvme
open Spec Engine

variable {ι : Type}

/-- READ or WRITE. -/
def isIo (q : Command) : Prop := isRead (byte q.cdb 0) ∨ isWrite (byte q.cdb 0)

/-- The command has taken effect: it is done, or has begun and, if it is a READ or WRITE, has no NVMe commands left to submit. -/
def settled (q : Command) : Module.Phase → Prop
  | .queued => False
  | .engine _ .called => False
  | .engine _ (.waiting _ _ todo _) => isIo q → todo = []
  | .engine _ (.returned _) => True
  | .done _ => True

/-- The data of the outcome of a READ or WRITE, if `n` bytes are to be returned from the data buffer. -/
def shaped (q : Command) (m : Mem) (b : Nat) (o : Module.Outcome) (n : Nat) : Prop :=
  (isWrite (byte q.cdb 0) → o.sg = q.cmd.sg) ∧
  (isRead (byte q.cdb 0) → o.result = 0 → ∃ bs, m.read b (min n (Module.dataLen q.cmd).toNat) = some bs ∧
    o.sg = bs ++ q.cmd.sg.drop (min n (Module.dataLen q.cmd).toNat) ∧
    ((Module.dataLen q.cmd).toNat ≠ 0 →
      o.resid = some (((Module.dataLen q.cmd).toNat : Int) - (min n (Module.dataLen q.cmd).toNat : Nat))))

/-- The outcome of any other command. -/
def plainly (q : Command) (o : Module.Outcome) : Prop := o.result ∈ [0x00, 0x02, 0x40] ∧ o.sg.length = q.cmd.sg.length

/-- What is known of the outcome of a command. -/
def foresees (q : Command) (m : Mem) (o : Module.Outcome) : Module.Phase → Prop
  | .queued => True
  | .engine _ .called => True
  | .engine b (.waiting r t todo cs) =>
    (isIo q → todo = [] → (o.result = 0 ↔ Accepted t ∧ ∀ c ∈ cs, cplOk c) ∧ shaped q m b o r.alloc_len.toNat) ∧ (¬ isIo q → plainly q o)
  | .engine b (.returned r) => o.result = r.return_code ∧ (isIo q → shaped q m b o r.alloc_len) ∧ (¬ isIo q → plainly q o)
  | .done o' => o = o'

theorem shaped_congr {q : Command} {m m' : Mem} {b : Nat} {o : Module.Outcome} {n : Nat}
    (h : isRead (byte q.cdb 0) → o.result = 0 → ∀ a, inRange b (Module.dataLen q.cmd).toNat a → m' a = m a)
    (hs : shaped q m' b o n) : shaped q m b o n := by
  refine ⟨hs.1, fun hr h0 => ?_⟩
  obtain ⟨bs, h1, h2⟩ := hs.2 hr h0
  refine ⟨bs, ?_, h2⟩
  rw [← h1]
  exact read_congr fun k hk => (h hr h0 _ ⟨by omega, by omega⟩).symm

theorem foresees_congr {q : Command} {m m' : Mem} {o : Module.Outcome} {ph : Module.Phase}
    (h : ∀ b ph', ph = .engine b ph' → ∀ a, inRange b (Module.dataLen q.cmd).toNat a → m' a = m a)
    (hs : foresees q m' o ph) : foresees q m o ph := by
  cases ph with
  | queued => trivial
  | done o' => exact hs
  | engine b ph =>
    have hh := h b ph rfl
    clear h
    cases ph with
    | called => trivial
    | waiting r t todo cs => exact ⟨fun h1 h2 => ⟨(hs.1 h1 h2).1, shaped_congr (fun _ _ => hh) (hs.1 h1 h2).2⟩, hs.2⟩
    | returned r => exact ⟨hs.1, fun h1 => shaped_congr (fun _ _ => hh) (hs.2.1 h1), hs.2.2⟩

theorem Spec.InTurn.snoc {cap : Nat → Nat} {refused : ι → Prop} {c : ι → Command} {out : ι → Module.Outcome} {d d1 d2 : Disk} {L : List ι} {i : ι}
    (h : InTurn cap refused c out d L d1) (h1 : Managed (refused i) cap d1 (c i) (out i) d2) : InTurn cap refused c out d (L ++ [i]) d2 := by
  induction h with
  | nil => exact .cons h1 .nil
  | cons h _ ih => exact .cons h (ih h1)

/-- `L` is an order in which the commands took effect. -/
structure HLin (cap : Nat → Nat) (refused : ι → Prop) (c : ι → Command) (d0 : Disk) (y : Host ι Disk) (L : List ι) : Prop where
  nodup : L.Nodup
  mem : ∀ i, i ∈ L ↔ settled (c i) (y.phase i)
  waits : ∀ i b ph, y.phase i = .engine b ph → i ∉ L → isWrite (byte (c i).cdb 0) →
    y.world.mem.read b (Module.dataLen (c i).cmd).toNat = some ((c i).cmd.sg.take (Module.dataLen (c i).cmd).toNat)
  seq : ∀ out : ι → Module.Outcome, (∀ i, foresees (c i) y.world.mem (out i) (y.phase i)) →
    InTurn (fun l => cap (l + 1)) refused c out (luns d0) L (luns y.dev)

theorem HLin.start (cap : Nat → Nat) (refused : ι → Prop) (c : ι → Command) (d : Disk) (m : Mem) (tr : List Event) :
    HLin cap refused c d (Host.start d m tr) [] where
  nodup := .nil
  mem := fun i => by simp [Host.start, settled]
  waits := by intro i b ph h; cases h
  seq := fun _ _ => .nil

/-- How a step changes the order. -/
inductive Ordered (cap : Nat → Nat) (refused : ι → Prop) (c : ι → Command) (y : Host ι Disk) (i : ι) (s : Disk) (w : World) (ph : Module.Phase) :
    List ι → Prop
  | keep (dev : luns s = luns y.dev) (same : settled (c i) ph ↔ settled (c i) (y.phase i)) : Ordered cap refused c y i s w ph []
  | add (old : ¬ settled (c i) (y.phase i)) (new : settled (c i) ph)
      (managed : ∀ o, foresees (c i) w.mem o ph → Managed (refused i) (fun l => cap (l + 1)) (luns y.dev) (c i) o (luns s)) :
      Ordered cap refused c y i s w ph [i]

theorem HLin.next [DecidableEq ι] {cap : Nat → Nat} {refused : ι → Prop} {c : ι → Command} {d0 : Disk} {y : Host ι Disk} {L : List ι}
    (h : HLin cap refused c d0 y L) {i : ι} {s : Disk} {w : World} {ph : Module.Phase} {M : List ι}
    (ho : ∀ j, j ≠ i → ∀ b ph', y.phase j = .engine b ph' → ∀ a, inRange b (Module.dataLen (c j).cmd).toNat a → w.mem a = y.world.mem a)
    (hb : ∀ o, foresees (c i) w.mem o ph → foresees (c i) y.world.mem o (y.phase i))
    (hw : ∀ b ph', ph = .engine b ph' → ¬ settled (c i) ph → isWrite (byte (c i).cdb 0) →
      w.mem.read b (Module.dataLen (c i).cmd).toNat = some ((c i).cmd.sg.take (Module.dataLen (c i).cmd).toNat))
    (hM : Ordered cap refused c y i s w ph M) :
    HLin cap refused c d0 (y.to i s w ph) (L ++ M) ∧ ∀ out : ι → Module.Outcome,
      (∀ j, foresees (c j) w.mem (out j) ((y.to i s w ph).phase j)) → ∀ j, foresees (c j) y.world.mem (out j) (y.phase j) := by
  have back : ∀ out : ι → Module.Outcome,
      (∀ j, foresees (c j) w.mem (out j) ((y.to i s w ph).phase j)) → ∀ j, foresees (c j) y.world.mem (out j) (y.phase j) := by
    intro out hr j
    have := hr j
    by_cases e : j = i
    · subst e
      rw [Host.to_self] at this
      exact hb _ this
    · rw [Host.to_other y e] at this
      exact foresees_congr (fun b ph' hp => ho j e b ph' hp) this
  have waits : ∀ j b ph', (y.to i s w ph).phase j = .engine b ph' → (j = i → ¬ settled (c i) ph) → (j ≠ i → j ∉ L) →
      isWrite (byte (c j).cdb 0) →
      w.mem.read b (Module.dataLen (c j).cmd).toNat = some ((c j).cmd.sg.take (Module.dataLen (c j).cmd).toNat) := by
    intro j b ph' hp h1 h2 hwr
    by_cases e : j = i
    · subst e
      rw [Host.to_self] at hp
      exact hw b ph' hp (h1 rfl) hwr
    · rw [Host.to_other y e] at hp
      rw [← h.waits j b ph' hp (h2 e) hwr]
      exact read_congr fun k hk => ho j e b ph' hp _ ⟨by omega, by omega⟩
  refine ⟨?_, back⟩
  cases hM with
  | keep dev same =>
    rw [List.append_nil]
    refine ⟨h.nodup, fun j => ?_, fun j b ph' hp hj hwr => ?_, fun out hr => ?_⟩
    · by_cases e : j = i
      · subst e
        rw [Host.to_self, same]; exact h.mem j
      · rw [Host.to_other y e]; exact h.mem j
    · refine waits j b ph' hp (fun e hs => hj ?_) (fun _ => hj) hwr
      subst e
      exact (h.mem j).mpr (same.mp hs)
    · have := h.seq out (back out hr)
      change InTurn _ _ _ _ _ _ (luns s)
      rw [dev]; exact this
  | add old new managed =>
    have hi : i ∉ L := fun hc => old ((h.mem i).mp hc)
    refine ⟨?_, fun j => ?_, fun j b ph' hp hj hwr => ?_, fun out hr => ?_⟩
    · rw [List.nodup_append]
      refine ⟨h.nodup, by simp, ?_⟩
      intro a ha b hb
      rw [List.mem_singleton.mp hb]
      exact fun e => hi (e ▸ ha)
    · by_cases e : j = i
      · subst e
        rw [Host.to_self]
        simp [new]
      · rw [Host.to_other y e, ← h.mem j]
        simp [e]
    · exact waits j b ph' hp (fun e => absurd (by simp [e]) hj) (fun _ hc => hj (by simp [hc])) hwr
    · refine (h.seq out (back out hr)).snoc (managed _ ?_)
      have := hr i
      rwa [Host.to_self] at this

theorem isIo_view {q : Command} {b : Nat} {n : U16} : isRw (viewReq q b n) ↔ isIo q := Iff.rfl

theorem view_asks {q : Command} (hl : q.cmd.sg.length < 65536) {b cap lba n : Nat} :
    (viewReq q b (Module.dataLen q.cmd)).asks cap lba n ↔ q.asks cap lba n := by
  unfold Spec.Request.asks Spec.Command.asks
  change (∃ rw, decodeRw q.cdb = some rw ∧ _ ∧ _ ∧ _ ∧ _ ∧ 4096 * n ≤ (Module.dataLen q.cmd).toNat ∧ _) ↔ _
  rw [dataLen_toNat, Nat.mod_eq_of_lt hl]

/-- Every step either leaves the order alone or adds one command to its end. -/
theorem HLin.step [DecidableEq ι] {D cap ident feature} (hT : Target D cap ident feature) {K : Module.Kernel} (hK : GoodKernel K)
    {junk : World → Nat → Byte} {refused : ι → Prop} {c : ι → Command} {d0 : Disk} {own : ι → Nat → Prop} {y y' : Host ι Disk} {i : ι} {L : List ι}
    (hq : (c i).Fair)
    (hrf : y.phase i = .queued → (K.kzalloc y.world ((c i).cmd.sg.length % 65536)).1 = 0 → refused i)
    (hI : HInv K junk c own y) (hL : HLin cap refused c d0 y L) (h : HStepped K junk D c y i y') :
    ∃ M, HLin cap refused c d0 y' (L ++ M) ∧ ∀ out : ι → Module.Outcome,
      (∀ j, foresees (c j) y'.world.mem (out j) (y'.phase j)) → ∀ j, foresees (c j) y.world.mem (out j) (y.phase j) := by
  have hg := (C72_util K hK junk).1
  obtain ⟨own1, -, hconf, -⟩ := hI.step hK (hT.tame hg) hq h
  have ho : ∀ j, j ≠ i → ∀ b ph', y.phase j = .engine b ph' → ∀ a, inRange b (Module.dataLen (c j).cmd).toNat a →
      y'.world.mem a = y.world.mem a := by
    intro j hj b ph' hp a ha
    refine (hI.inv.others hconf hI.apart j hj).1 a ?_
    unfold Host.reqs
    rw [hp]
    exact .inr (.inr ha)
  have hle : (Module.dataLen (c i).cmd).toNat ≤ (c i).cmd.sg.length := by rw [dataLen_toNat]; exact Nat.mod_le _ _
  have queued : y.phase i = .queued → ¬ settled (c i) (y.phase i) := fun e => by rw [e]; exact id
  have wdir : isWrite (byte (c i).cdb 0) → (c i).cmd.is_data_in = false := by
    intro hw
    rcases ((hq.rw (.inr hw)).1).op with ⟨h, -⟩ | ⟨-, h⟩
    · exact absurd hw fun hw => read_not_write h hw
    · exact h
  have rdir : isRead (byte (c i).cdb 0) → (c i).cmd.is_data_in = true := by
    intro hr
    rcases ((hq.rw (.inl hr)).1).op with ⟨-, h⟩ | ⟨h, -⟩
    · exact h
    · exact absurd h fun h => read_not_write hr h
  cases h with
  | empty hp hz =>
    refine ⟨[], hL.next ho (fun _ _ => by rw [hp]; trivial) (fun b ph' e _ _ => ?_) (.keep rfl (by rw [hp]; exact Iff.rfl))⟩
    rw [hz, List.take_zero]
    rfl
  | refused hp hz h0 =>
    have hr : refused i := hrf hp (by rw [← dataLen_toNat]; exact h0)
    refine ⟨[i], hL.next ho (fun _ _ => by rw [hp]; trivial) (fun _ _ e => by cases e) (.add (queued hp) trivial fun o hoo => ?_)⟩
    have e : o = ⟨23, none, (c i).cmd.sg⟩ := hoo
    by_cases hrw : isIo (c i)
    · exact .rw hrw (.noMemory hr (by rw [e]) (by rw [e]))
    · exact .other (not_or.mp hrw) (by rw [e]) (.inr ⟨hr, by rw [e]⟩)
  | granted hp hz h0 m hm =>
    refine ⟨[], hL.next ho (fun _ _ => by rw [hp]; trivial) (fun b ph' e _ hw => ?_) (.keep rfl (by rw [hp]; exact Iff.rfl))⟩
    cases e
    change m.read _ _ = _
    rw [hm, if_neg (by rw [wdir hw]; simp)]
    have := read_put_self (m := (K.kzalloc y.world (Module.dataLen (c i).cmd).toNat).2)
      (p := (K.kzalloc y.world (Module.dataLen (c i).cmd).toNat).1) (bs := (c i).cmd.sg.take (Module.dataLen (c i).cmd).toNat)
    rwa [List.length_take, Nat.min_eq_left hle] at this
  | finished hp hz =>
    rename_i b r
    have hal := (hI.ret i b r hp).2
    refine ⟨[], hL.next ho (fun o hoo => ?_) (fun _ _ e => by cases e) (.keep rfl (by rw [hp]; exact Iff.rfl))⟩
    have e : o = ⟨r.return_code, none, (c i).cmd.sg⟩ := hoo
    rw [hp, e]
    refine ⟨rfl, fun _ => ⟨fun _ => rfl, fun _ _ => ⟨[], ?_, ?_, fun h => absurd hz h⟩⟩, fun _ => ⟨(hI.ret i b r hp).1, rfl⟩⟩
    · rw [hz, Nat.min_zero]; rfl
    · rw [hz, Nat.min_zero]; rfl
  | @copied b r bs hp hz hi hb =>
    have hal := (hI.ret i b r hp).2
    refine ⟨[], hL.next ho (fun o hoo => ?_) (fun _ _ e => by cases e) (.keep rfl (by rw [hp]; exact Iff.rfl))⟩
    have hm1 : min r.alloc_len (c i).cmd.sg.length = r.alloc_len := Nat.min_eq_left (by omega)
    have hm2 : min r.alloc_len (Module.dataLen (c i).cmd).toNat = r.alloc_len := Nat.min_eq_left hal
    rw [hm1] at hb hoo
    have e : o = _ := hoo
    rw [hp, e]
    refine ⟨rfl, fun _ => ⟨fun hw => ?_, fun _ _ => ⟨bs, by rw [hm2]; exact hb, by rw [hm2], fun _ => by rw [hm2]⟩⟩, fun _ => ⟨(hI.ret i b r hp).1, ?_⟩⟩
    · rw [wdir hw] at hi; cases hi
    · have := read_length hb
      rw [List.length_append, List.length_drop, this]
      omega
  | @freed b r hp hz hi =>
    refine ⟨[], hL.next ho (fun o hoo => ?_) (fun _ _ e => by cases e) (.keep rfl (by rw [hp]; exact Iff.rfl))⟩
    have e : o = ⟨r.return_code, none, (c i).cmd.sg⟩ := hoo
    rw [hp, e]
    refine ⟨rfl, fun _ => ⟨fun _ => rfl, fun hr _ => ?_⟩, fun _ => ⟨(hI.ret i b r hp).1, rfl⟩⟩
    rw [rdir hr] at hi; cases hi
  | done hp => exact ⟨[], by rw [List.append_nil]; exact hL, fun _ h => h⟩
  | @engine b ph hp hr y1 hst =>
    have hv : y.reqs c i = viewReq (c i) b (Module.dataLen (c i).cmd) := by unfold Host.reqs; rw [hp]; rfl
    have hvp : y.view.phase i = ph := by change viewPh (y.phase i) = _; rw [hp]; rfl
    have hf : (y.reqs c i).Fair := by
      rw [hv]
      exact viewReq_fair hq (hI.buf i b ph hp).1 fun a ha => (hI.buf i b ph hp).2 a (.inl ha)
    have hacc : accessible y.world.mem ⟨(y.reqs c i).data, (y.reqs c i).dataLen.toNat⟩ := fun k hk =>
      hI.inv.used i _ (.inr (.inr ⟨Nat.le_add_right _ _, Nat.add_lt_add_left hk _⟩))
    have hinb : ∀ a, inRange b (Module.dataLen (c i).cmd).toNat a → (y.world.mem a).isSome := by
      intro a ha
      refine hI.inv.used i a ?_
      rw [hv]
      exact .inr (.inr ha)
    have plainManaged : ¬ isIo (c i) → ∀ o, plainly (c i) o → Managed (refused i) (fun l => cap (l + 1)) (luns y.dev) (c i) o (luns y.dev) :=
      fun h o ho => .other (not_or.mp h) ho.2 (.inl ho.1)
    cases hst with
    | @begin r t w1 hp1 hB =>
      have hph : ph = .called := hvp.symm.trans hp1
      subst hph
      rw [hv] at hB hf
      have hn : ¬ settled (c i) (y.phase i) := by rw [hp]; exact id
      have hb0 : ∀ (ph' : Module.Phase) (o : Module.Outcome), foresees (c i) w1.mem o ph' → foresees (c i) y.world.mem o (y.phase i) :=
        fun _ _ _ => by rw [hp]; trivial
      simp only [Sys.to, if_true] at ho ⊢
      change ∃ M, HLin cap refused c d0 (y.to i y.dev w1 _) (L ++ M) ∧ _
      by_cases hrw : isIo (c i)
      · have hvv := hf.rw hrw
        obtain ⟨hqv, hlen⟩ := hq.rw hrw
        by_cases ha : Accepted t
        · obtain ⟨hl, wr, hc, -⟩ := rw_verdict cap hvv hB ha
          have hnew : (if r.alloc_len.toNat > (y.reqs c i).dataLen.toNat then Phase.returned ⟨0x40, 0⟩ else .waiting r t t.GetNvmeWrappers [])
            = .waiting r t [wr] [] := by
            rw [hv, if_neg (by omega), hc]
          rw [hnew]
          have hnp : ¬ settled (c i) (.engine b (.waiting r t [wr] [])) := fun hc => by cases hc hrw
          refine ⟨[], hL.next ho (hb0 _) (fun b' ph' e _ hw => ?_) (.keep rfl ⟨fun hc => (hnp hc).elim, fun hc => (hn hc).elim⟩)⟩
          cases e
          rw [← hL.waits i b .called hp (fun hc => hn ((hL.mem i).mp hc)) hw]
          exact read_congr fun k hk => Begin_keeps hg hB.idle.idle hB.call _ (hinb _ ⟨by omega, by omega⟩)
        · have hno := rw_rejected hvv hB ha
          have hc := hB.rejected ha
          refine ⟨[i], hL.next ho (hb0 _) (fun b' ph' e hns _ => ?_) (.add hn ?_ fun o hoo => ?_)⟩
          · refine absurd ?_ hns
            split
            · trivial
            · exact fun _ => hc
          · split
            · trivial
            · exact fun _ => hc
          · refine .rw hrw (.failed (fun lba n hA => hno _ _ _ ((view_asks hlen).mpr hA)) ?_)
            split at hoo
            · rw [hoo.1]; decide
            · exact fun h0 => ha ((hoo.1 hrw hc).1.mp h0).1
      · refine ⟨[i], hL.next ho (hb0 _) (fun b' ph' e hns hw => absurd (.inr hw) hrw) (.add hn ?_ fun o hoo => plainManaged hrw o ?_)⟩
        · split
          · trivial
          · exact fun h => absurd h hrw
        · split at hoo
          · exact hoo.2.2 hrw
          · exact hoo.2 hrw
    | @submit r t wr todo cs hp1 =>
      have hph : ph = .waiting r t (wr :: todo) cs := hvp.symm.trans hp1
      subst hph
      obtain ⟨w, w1, hb⟩ := hI.inv.waiting i r t _ cs hp1
      obtain ⟨done, hd1, hd2⟩ := hb.progress
      have hwr : wr ∈ t.GetNvmeWrappers := by rw [hd1]; simp
      rw [hv] at hb hf hacc
      simp only [Sys.to, if_true] at ho ⊢
      change ∀ j, j ≠ i → ∀ b ph', y.phase j = .engine b ph' → ∀ a, inRange b (Module.dataLen (c j).cmd).toNat a →
        (D y.dev y.world.mem (submissionOf wr)).2.1 a = y.world.mem a at ho
      change ∃ M, HLin cap refused c d0 (y.to i (D y.dev y.world.mem (submissionOf wr)).1
        ⟨(D y.dev y.world.mem (submissionOf wr)).2.1, y.world.trace⟩
        (.engine b (.waiting r t todo (cs ++ [(D y.dev y.world.mem (submissionOf wr)).2.2])))) (L ++ M) ∧ _
      by_cases hrw : isIo (c i)
      · have hvv := hf.rw hrw
        obtain ⟨hqv, hlen⟩ := hq.rw hrw
        have hdl : (Module.dataLen (c i).cmd).toNat = (c i).cmd.sg.length := by rw [dataLen_toNat, Nat.mod_eq_of_lt hlen]
        have ha := (hb.began.accepted_of_mem hwr).1
        obtain ⟨-, wr', hc, hver⟩ := rw_verdict cap hvv hb.began ha
        rw [hc] at hd1
        have hd0 : done = [] := by
          cases done with
          | nil => rfl
          | cons a l => have := congrArg List.length hd1; simp at this
        subst hd0
        simp only [List.nil_append, List.cons.injEq] at hd1
        obtain ⟨rfl, rfl⟩ := hd1
        have hcs : cs = [] := List.length_eq_zero_iff.mp hd2
        subst hcs
        have hn : ¬ settled (c i) (y.phase i) := by
          rw [hp]; exact fun hc => by cases hc hrw
        obtain ⟨s1, s2, s3⟩ := rw_commands hb.began hrw (viewReq (c i) b (Module.dataLen (c i).cmd)).dataLen.isLt hvv.matching wr' hwr
        have hio := hT.storage.io y.dev y.world.mem (submissionOf wr') s1 s2 s3
        have hi : i ∉ L := fun hc => hn ((hL.mem i).mp hc)
        refine ⟨[i], hL.next ho (fun o _ => ?_) (fun b' ph' e hns _ => absurd (show settled (c i) (.engine b (.waiting r t [] _)) from fun _ => rfl) hns)
          (.add hn (show settled (c i) (.engine b (.waiting r t [] _)) from fun _ => rfl) fun o hoo => ?_)⟩
        · rw [hp]
          exact ⟨fun _ hc => (by cases hc), fun h => absurd hrw h⟩
        · obtain ⟨hr1, hr2⟩ := hoo.1 hrw rfl
          refine .rw hrw ?_
          cases hver with
          | outside no dev =>
            obtain ⟨sc, hsc, e⟩ := dev y.dev y.world.mem hacc
            have e := hio.trans e
            rw [e] at hr1 ⊢
            refine .failed (fun lba n hA => no lba n ((view_asks hlen).mpr hA)) fun h0 => ?_
            exact hsc ((generic_ok sc).mp ((hr1.mp h0).2 _ (by simp)))
          | read lba n op asks len dev =>
            have e := hio.trans (dev y.dev y.world.mem hacc)
            rw [e] at hr1 hr2 ⊢
            have asks' := (view_asks hlen).mp asks
            have h4 : 4096 * n ≤ (c i).cmd.sg.length := by obtain ⟨_, _, _, _, _, _, h4, _⟩ := asks'; exact h4
            have hn1 : 1 ≤ n := by obtain ⟨_, _, _, _, _, h4, _, _⟩ := asks'; exact h4
            have h0 : o.result = 0 := hr1.mpr ⟨ha, by
              intro c hc
              simp only [List.nil_append, List.mem_singleton] at hc
              rw [hc]; exact (generic_ok 0).mpr rfl⟩
            obtain ⟨bs, e1, e2, e3⟩ := hr2.2 op h0
            rw [len, hdl, Nat.min_eq_left h4] at e1 e2 e3
            have := read_put_self (m := y.world.mem) (p := b)
              (bs := Disk.read y.dev ((c i).cmd.lun.toNat + 1) (4096 * lba) (4096 * n))
            rw [Disk.read_length] at this
            change Mem.read (y.world.mem.put b _) b _ = _ at e1
            have e4 := e1.symm.trans this
            cases e4
            exact .read op asks' h0 e2 (by rw [e3 (by omega)]; simp)
          | write lba n op asks dev =>
            obtain ⟨bs, hbs, e⟩ := dev y.dev y.world.mem hacc
            have e := hio.trans e
            rw [e] at hr1 hr2 ⊢
            have asks' := (view_asks hlen).mp asks
            have h4 : 4096 * n ≤ (c i).cmd.sg.length := by obtain ⟨_, _, _, _, _, _, h4, _⟩ := asks'; exact h4
            simp only
            rw [luns_write]
            have hwt := hL.waits i b _ hp hi op
            have hbs' : bs = (c i).cmd.sg.take (4096 * n) := by
              have e5 := read_sub hwt 0 (4096 * n) (by omega)
              rw [Nat.add_zero, List.drop_zero] at e5
              have hbs2 : y.world.mem.read b (4096 * n) = some bs := hbs
              rw [e5, List.take_take, Nat.min_eq_left (by omega)] at hbs2
              cases hbs2; rfl
            rw [hbs']
            refine .write op asks' (hr1.mpr ⟨ha, ?_⟩) (hr2.1 op)
            intro c hc
            simp only [List.nil_append, List.mem_singleton] at hc
            rw [hc]; exact (generic_ok 0).mpr rfl
      · obtain ⟨-, -, hs⟩ := submit_effect hT hg hf hb.began wr hwr y.dev y.world.mem
        refine ⟨[], hL.next ho (fun o hoo => ?_) (fun _ _ _ _ hw => absurd (.inr hw) hrw)
          (.keep (by rw [hs fun h => hrw (.inr h)]) ?_)⟩
        · rw [hp]
          exact ⟨fun h => absurd h hrw, hoo.2⟩
        · rw [hp]
          exact ⟨fun _ h => absurd h hrw, fun _ h => absurd h hrw⟩
    | @complete r t cs cc t2 w3 hp1 hcall =>
      have hph : ph = .waiting r t [] cs := hvp.symm.trans hp1
      subst hph
      obtain ⟨w, w1, hb⟩ := hI.inv.waiting i r t _ cs hp1
      obtain ⟨done, hd1, hd2⟩ := hb.progress
      rw [List.append_nil] at hd1
      have hst' := complete_status (began_wf hb.began) r hcall
      have hfits := hb.fits
      rw [hv] at hb hf hacc hfits
      simp only [Sys.to, if_true] at ho ⊢
      change ∃ M, HLin cap refused c d0 (y.to i y.dev w3 _) (L ++ M) ∧ _
      by_cases hrw : isIo (c i)
      · obtain ⟨c', t2', w3', e, e1, e2, e3⟩ := rw_complete hb.began (rw_clean hb.began hrw) hrw cs (by rw [hd1]; exact hd2)
          ((y.reqs c i).din r.alloc_len.toNat) ⟨(y.reqs c i).sense, (y.reqs c i).senseLen.toNat⟩ y.world hb.stored
          (fun k hk => hI.inv.used i _ (.inr (.inl ⟨Nat.le_add_right _ _, Nat.add_lt_add_left hk _⟩)))
        change t.Complete _ _ _ _ y.world = _ at hcall
        rw [hcall] at e
        cases e
        have hans : answerOf r cc = ⟨cc.scsi_status.toNat, r.alloc_len.toNat⟩ := by
          unfold answerOf; rw [if_neg (by rw [e1]; simp)]
        rw [hans]
        refine ⟨[], hL.next ho (fun o hoo => ?_) (fun _ _ _ h => absurd trivial h) (.keep rfl ?_)⟩
        · rw [hp]
          refine ⟨fun _ _ => ⟨?_, ?_⟩, fun h => absurd hrw h⟩
          · rw [hoo.1]; exact (code_zero _).trans e2
          · refine shaped_congr (fun _ h0 a _ => ?_) (hoo.2.1 hrw)
            rw [hoo.1] at h0
            rw [e3 ((code_zero _).mp h0)]
        · rw [hp]; exact ⟨fun _ _ => rfl, fun _ => trivial⟩
      · refine ⟨[], hL.next ho (fun o hoo => ?_) (fun _ _ _ h => absurd trivial h) (.keep rfl ?_)⟩
        · rw [hp]
          exact ⟨fun h => absurd h hrw, hoo.2.2⟩
        · rw [hp]; exact ⟨fun _ h => absurd h hrw, fun _ => trivial⟩
    | returned hp1 => exact absurd (hvp.symm.trans hp1) (hr _)

end Scsi2Nvme
