import Verif.Properties.Lossy
import Verif.Properties.ModuleBalance
/-!
# C106: the kernel module over a device which fails
-/

namespace Scsi2Nvme
open Spec Engine Driver

variable {ι σ β : Type}

/-- What holds at every moment, whatever the device does. -/
structure HCalm (c : ι → Command) (own : ι → Nat → Prop) (m0 : Mem) (d0 : Disk) (disks : σ → Disk) (y : Host ι σ) : Prop where
  waits : ∀ i b ph, y.phase i = .engine b ph → (ph = .called ∨ ∃ r t wr todo cs, ph = .waiting r t (wr :: todo) cs) → isWrite (byte (c i).cdb 0) →
    y.world.mem.read b (Module.dataLen (c i).cmd).toNat = some ((c i).cmd.sg.take (Module.dataLen (c i).cmd).toNat)
  outside : ∀ a, (m0 a).isSome → (∀ i, ¬ own i a) ∧ (∀ i, (y.reqs c i).uses a → (c i).uses a) ∧
    ((∀ i, ¬ (c i).uses a) → y.world.mem a = m0 a) ∧ (y.world.mem a).isSome
  fresh : ∀ i, (y.phase i = .queued ∨ ∃ b, y.phase i = .engine b .called) → ∀ a, (c i).uses a → y.world.mem a = m0 a
  disk : ∀ k a, disks y.dev k a = d0 k a ∨
    ∃ i l, (y.phase i ≠ .queued ∧ ∀ b, y.phase i ≠ .engine b .called) ∧ k = l + 1 ∧ (c i).carries l a (disks y.dev k a)
  done : ∀ i o, y.phase i = .done o → o.result ∈ [0x00, 0x02, 0x40, 23] ∧ o.sg.length = (c i).cmd.sg.length ∧
    ((c i).cmd.is_data_in = false → o.sg = (c i).cmd.sg)

theorem HCalm.step [DecidableEq ι] {D : Device σ} {disks : σ → Disk} (hL : Lossy D disks) {K : Module.Kernel} (hK : GoodKernel K)
    {junk : World → Nat → Byte} {c : ι → Command} {m0 : Mem} {d0 : Disk} {own : ι → Nat → Prop} {y y' : Host ι σ} {i : ι} (hq : (c i).Fair)
    (hI : HInv K junk c own y) (hC : HCalm c own m0 d0 disks y) (h : HStepped K junk D c y i y') :
    ∃ own', HInv K junk c own' y' ∧ HCalm c own' m0 d0 disks y' := by
  have hg := (C72_util K hK junk).1
  obtain ⟨own', hI', hcf, hgr, hP⟩ := hI.steps hK (hL.tame hg) hq h
  refine ⟨own', hI', ?_⟩
  have oth : ∀ j, j ≠ i → ∀ a, (y.reqs c j).uses a → y'.world.mem a = y.world.mem a := fun j hj => (hI.inv.others hcf hI.apart j hj).1
  have cuses : ∀ j a, (c j).uses a → (y.reqs c j).uses a := by
    intro j a ha
    unfold Host.reqs viewOf
    split <;> exact view_uses.mpr (.inl ha)
  have houtside : ∀ a, (m0 a).isSome → (∀ i, ¬ own' i a) ∧ (∀ i, (y'.reqs c i).uses a → (c i).uses a) ∧
      ((∀ i, ¬ (c i).uses a) → y'.world.mem a = m0 a) ∧ (y'.world.mem a).isSome := by
    intro a ha
    obtain ⟨k1, k2, k3, k4⟩ := hC.outside a ha
    have hne : y.world.mem a ≠ none := fun e => by rw [e] at k4; cases k4
    refine ⟨fun j hj => (hgr.own j a hj).elim (k1 j) hne, fun j hj => k2 j ((hgr.uses j a hj).resolve_right hne), fun hu => ?_, ?_⟩
    · rw [hcf a k4 (fun h => hu i (k2 i h)) (k1 i), k3 hu]
    · by_cases hua : (y.reqs c i).uses a
      · refine hI'.inv.used i a ?_
        unfold Host.reqs viewOf
        split <;> exact view_uses.mpr (.inl (k2 i hua))
      · rw [hcf a k4 hua (k1 i)]; exact k4
  have hle : (Module.dataLen (c i).cmd).toNat ≤ (c i).cmd.sg.length := by rw [dataLen_toNat]; exact Nat.mod_le _ _
  have hphase : ∀ j, j ≠ i → y'.phase j = y.phase j := by
    intro j hj
    cases h with
    | done => rfl
    | _ => exact Host.to_other y hj _ _ _
  -- the facts about other calls carry over
  have main : (∀ b ph, y'.phase i = .engine b ph → (ph = .called ∨ ∃ r t wr todo cs, ph = .waiting r t (wr :: todo) cs) → isWrite (byte (c i).cdb 0) →
        y'.world.mem.read b (Module.dataLen (c i).cmd).toNat = some ((c i).cmd.sg.take (Module.dataLen (c i).cmd).toNat)) →
      ((y'.phase i = .queued ∨ ∃ b, y'.phase i = .engine b .called) → y.phase i = .queued ∧ ∀ a, (c i).uses a → y'.world.mem a = y.world.mem a) →
      (∀ k a, disks y'.dev k a = disks y.dev k a ∨
        ∃ l, (y'.phase i ≠ .queued ∧ ∀ b, y'.phase i ≠ .engine b .called) ∧ k = l + 1 ∧ (c i).carries l a (disks y'.dev k a)) →
      (∀ o, y'.phase i = .done o → o.result ∈ [0x00, 0x02, 0x40, 23] ∧ o.sg.length = (c i).cmd.sg.length ∧
        ((c i).cmd.is_data_in = false → o.sg = (c i).cmd.sg)) →
      HCalm c own' m0 d0 disks y' := by
    intro h1 h2 h3 h4
    refine ⟨fun j b ph hp hx hw => ?_, houtside, fun j hj a ha => ?_, fun k a => ?_, fun j o hp => ?_⟩
    · by_cases e : j = i
      · subst e; exact h1 b ph hp hx hw
      · rw [hphase j e] at hp
        rw [← hC.waits j b ph hp hx hw]
        refine read_congr fun k hk => oth j e _ ?_
        unfold Host.reqs
        rw [hp]
        exact .inr (.inr ⟨Nat.le_add_right _ _, Nat.add_lt_add_left hk _⟩)
    · by_cases e : j = i
      · subst e
        obtain ⟨e1, e2⟩ := h2 hj
        rw [e2 a ha]
        exact hC.fresh j (.inl e1) a ha
      · rw [hphase j e] at hj
        rw [oth j e a (cuses j a ha)]
        exact hC.fresh j hj a ha
    · rcases h3 k a with h3 | ⟨l, h3⟩
      · rw [h3]
        refine (hC.disk k a).imp_right ?_
        rintro ⟨j, l, k1, k2⟩
        refine ⟨j, l, ?_, k2⟩
        by_cases e : j = i
        · subst e
          constructor
          · exact fun hx => k1.1 (h2 (.inl hx)).1
          · exact fun b hx => k1.1 (h2 (.inr ⟨b, hx⟩)).1
        · rw [hphase j e]; exact k1
      · exact .inr ⟨i, l, h3⟩
    · by_cases e : j = i
      · subst e; exact h4 o hp
      · rw [hphase j e] at hp
        exact hC.done j o hp
  have wdir : isWrite (byte (c i).cdb 0) → (c i).cmd.is_data_in = false := by
    intro hw
    rcases ((hq.rw (.inr hw)).1).op with ⟨h, -⟩ | ⟨-, h⟩
    · exact absurd hw fun hw => read_not_write h hw
    · exact h
  cases h with
  | empty hp hz =>
    refine main (fun b ph e _ _ => ?_) (fun _ => ⟨hp, fun _ _ => rfl⟩) (fun _ _ => .inl rfl) (fun o e => by rw [Host.to_self] at e; cases e)
    rw [hz, List.take_zero]; rfl
  | refused hp hz h0 =>
    refine main (fun b ph e => by rw [Host.to_self] at e; cases e) (fun e => ?_) (fun _ _ => .inl rfl) (fun o e => ?_)
    · rw [Host.to_self] at e
      rcases e with e | ⟨b, e⟩ <;> cases e
    · rw [Host.to_self] at e
      cases e
      exact ⟨by simp, rfl, fun _ => rfl⟩
  | granted hp hz h0 m hm =>
    refine main (fun b ph e _ hw => ?_) (fun _ => ⟨hp, fun a ha => ?_⟩) (fun _ _ => .inl rfl) (fun o e => by rw [Host.to_self] at e; cases e)
    · rw [Host.to_self] at e
      cases e
      change m.read _ _ = _
      rw [hm, if_neg (by rw [wdir hw]; simp)]
      have := read_put_self (m := (K.kzalloc y.world (Module.dataLen (c i).cmd).toNat).2)
        (p := (K.kzalloc y.world (Module.dataLen (c i).cmd).toNat).1) (bs := (c i).cmd.sg.take (Module.dataLen (c i).cmd).toNat)
      rwa [List.length_take, Nat.min_eq_left hle] at this
    · change m a = _
      rcases hK.alloc y.world (Module.dataLen (c i).cmd).toNat with ⟨h, -⟩ | ⟨-, -, hsp, hin, hout⟩
      · exact absurd h h0
      · have hn : ¬ inRange (K.kzalloc y.world (Module.dataLen (c i).cmd).toNat).1 (Module.dataLen (c i).cmd).toNat a := by
          intro hr
          have := hI.inv.used i a (cuses i a ha)
          have h1 := (hin a hr).1
          rw [show y.view.world = y.world from rfl, h1] at this
          cases this
        rw [← hout a hn, hm]
        split
        · rfl
        · refine put_outside ?_
          rw [List.length_take]
          unfold inRange at hn
          omega
  | finished hp hz =>
    rename_i b r
    refine main (fun b ph e => by rw [Host.to_self] at e; cases e) (fun e => ?_) (fun _ _ => .inl rfl) (fun o e => ?_)
    · rw [Host.to_self] at e
      rcases e with e | ⟨b, e⟩ <;> cases e
    · rw [Host.to_self] at e
      cases e
      have := (hI.ret i b r hp).1
      exact ⟨by simp only [List.mem_cons, List.not_mem_nil, or_false] at this ⊢; omega, rfl, fun _ => rfl⟩
  | @copied b r bs hp hz hi hb =>
    refine main (fun b ph e => by rw [Host.to_self] at e; cases e) (fun e => ?_) (fun _ _ => .inl rfl) (fun o e => ?_)
    · rw [Host.to_self] at e
      rcases e with e | ⟨b, e⟩ <;> cases e
    · rw [Host.to_self] at e
      cases e
      have := (hI.ret i b r hp).1
      refine ⟨by simp only [List.mem_cons, List.not_mem_nil, or_false] at this ⊢; omega, ?_, fun h => by rw [hi] at h; cases h⟩
      have := read_length hb
      simp only [List.length_append, List.length_drop, this]
      omega
  | @freed b r hp hz hi =>
    refine main (fun b ph e => by rw [Host.to_self] at e; cases e) (fun e => ?_) (fun _ _ => .inl rfl) (fun o e => ?_)
    · rw [Host.to_self] at e
      rcases e with e | ⟨b, e⟩ <;> cases e
    · rw [Host.to_self] at e
      cases e
      have := (hI.ret i b r hp).1
      exact ⟨by simp only [List.mem_cons, List.not_mem_nil, or_false] at this ⊢; omega, rfl, fun _ => rfl⟩
  | done hp => exact ⟨hC.waits, houtside, hC.fresh, hC.disk, hC.done⟩
  | @engine b ph hp hr y1 hst =>
    have hv : y.reqs c i = viewReq (c i) b (Module.dataLen (c i).cmd) := by unfold Host.reqs; rw [hp]; rfl
    have hvp : y.view.phase i = ph := by change viewPh (y.phase i) = _; rw [hp]; rfl
    have hf : (y.reqs c i).Fair := by
      rw [hv]
      exact viewReq_fair hq (hI.buf i b ph hp).1 fun a ha => (hI.buf i b ph hp).2 a (.inl ha)
    have hinb : ∀ a, inRange b (Module.dataLen (c i).cmd).toNat a → (y.world.mem a).isSome := by
      intro a ha
      refine hI.inv.used i a ?_
      rw [hv]
      exact .inr (.inr ha)
    cases hst with
    | @begin r t w1 hp1 hB =>
      have hph : ph = .called := hvp.symm.trans hp1
      subst hph
      rw [hv] at hB
      refine main (fun b' ph' e _ hw => ?_) (fun e => ?_) (fun _ _ => .inl rfl) (fun o e => ?_)
      · rw [Host.to_self] at e
        cases e
        rw [← hC.waits i b .called hp (.inl rfl) hw]
        exact read_congr fun k hk => Begin_keeps hg hB.idle.idle hB.call _ (hinb _ ⟨by omega, by omega⟩)
      · exfalso
        rw [Host.to_self] at e
        simp only [Sys.to, if_true] at e
        split at e <;> rcases e with e | ⟨b, e⟩ <;> cases e
      · rw [Host.to_self] at e
        cases e
    | @submit r t wr todo cs hp1 =>
      have hph : ph = .waiting r t (wr :: todo) cs := hvp.symm.trans hp1
      subst hph
      obtain ⟨w, w1, hb⟩ := hI.inv.waiting i r t _ cs hp1
      obtain ⟨done, hd1, hd2⟩ := hb.progress
      have hwr : wr ∈ t.GetNvmeWrappers := by rw [hd1]; simp
      obtain ⟨-, hn9, hn1⟩ := dataset_never hf hb.began wr hwr
      rw [hv] at hb hf hn1
      refine main (fun b' ph' e hx hw => ?_) (fun e => ?_) (fun k a => ?_) (fun o e => ?_)
      · rw [Host.to_self] at e
        simp only [Sys.to, if_true] at e
        cases e
        rcases hx with hx | ⟨r', t', wr', todo', cs', hx⟩
        · cases hx
        · cases hx
          obtain ⟨h1, -⟩ := write_fields (hf.rw (.inr hw)) hw hb.began wr hwr
          rw [hd1] at h1
          have := congrArg List.length h1
          simp at this
          omega
      · exfalso
        rw [Host.to_self] at e
        simp only [Sys.to, if_true] at e
        rcases e with e | ⟨b, e⟩ <;> cases e
      · change disks (D y.dev y.world.mem (submissionOf wr)).1 k a = _ ∨ ∃ l, _ ∧ _ ∧ (c i).carries l a (disks (D y.dev y.world.mem (submissionOf wr)).1 k a)
        rcases hL.disk y.dev y.world.mem _ (submitted_coherent wr) hn9 k a with h1 | ⟨h1, h2, h3, h4, h5⟩
        · exact .inl h1
        · have hw := hn1 h2
          have hv := hf.rw (.inr hw)
          obtain ⟨-, lba, n, ha, f1, f2, f3, f4⟩ := write_fields hv hw hb.began wr hwr
          change k = leAt wr.cmd.toBytes 4 4 at h3
          change inRange (4096 * leAt wr.cmd.toBytes 40 8) (4096 * (leAt wr.cmd.toBytes 48 2 + 1)) a at h4
          change y.world.mem (leAt wr.cmd.toBytes 24 8 + (a - 4096 * leAt wr.cmd.toBytes 40 8)) = some _ at h5
          rw [f3, f4] at h4
          rw [f2, f3] at h5
          have hlen := (hq.rw (.inr hw)).2
          have hac : (c i).asks (lba + n) lba n := (view_asks hlen).mp ha
          refine .inr ⟨(c i).cmd.lun.toNat, ?_, by rw [h3, f1]; rfl, lba, n, hw, hac, rfl, h4, ?_⟩
          · rw [Host.to_self]
            simp only [Sys.to, if_true]
            exact ⟨fun e => (by cases e), fun b e => (by cases e)⟩
          · have hk : a - 4096 * lba < (Module.dataLen (c i).cmd).toNat := by
              obtain ⟨rw', e, -, rfl, rfl, -, e2, -⟩ := hac
              rw [dataLen_toNat, Nat.mod_eq_of_lt hlen]
              have := h4.1
              have := h4.2
              omega
            obtain ⟨g1, g2⟩ := read_eq_some.mp (hC.waits i b _ hp (.inr ⟨r, t, wr, todo, cs, rfl⟩) hw)
            have g3 := g2 _ hk
            change y.world.mem (b + (a - 4096 * lba)) = _ at h5
            rw [h5] at g3
            have g4 : a - 4096 * lba < (c i).cmd.sg.length := by omega
            rw [List.getElem?_eq_getElem g4]
            have g5 : (List.take (Module.dataLen (c i).cmd).toNat (c i).cmd.sg)[a - 4096 * lba]? = some ((c i).cmd.sg[a - 4096 * lba]) := by
              rw [List.getElem?_take_of_lt hk, List.getElem?_eq_getElem g4]
            rw [g5] at g3
            exact g3.symm
      · rw [Host.to_self] at e
        cases e
    | @complete r t cs cc t2 w3 hp1 hcall =>
      refine main (fun b' ph' e hx _ => ?_) (fun e => ?_) (fun _ _ => .inl rfl) (fun o e => ?_)
      · exfalso
        rw [Host.to_self] at e
        simp only [Sys.to, if_true] at e
        cases e
        rcases hx with hx | ⟨r', t', wr', todo', cs', hx⟩ <;> cases hx
      · exfalso
        rw [Host.to_self] at e
        simp only [Sys.to, if_true] at e
        rcases e with e | ⟨b, e⟩ <;> cases e
      · rw [Host.to_self] at e
        cases e
    | returned hp1 => exact absurd (hvp.symm.trans hp1) (hr _)

theorem HCalm.run [DecidableEq ι] {D : Device σ} {disks : σ → Disk} (hL : Lossy D disks) {K : Module.Kernel} (hK : GoodKernel K)
    {junk : World → Nat → Byte} {c : ι → Command} {m0 : Mem} (hc : Disjoint c m0) {d0 : Disk} (sched : List ι) {own : ι → Nat → Prop} {x y : Host ι σ}
    (hI : HInv K junk c own x) (hC : HCalm c own m0 d0 disks x) (h : x.run K junk D c sched = .ok y) :
    ∃ own', HInv K junk c own' y ∧ HCalm c own' m0 d0 disks y := by
  induction sched generalizing own x with
  | nil => cases h; exact ⟨own, hI, hC⟩
  | cons i is ih =>
    unfold Host.run at h
    split at h
    · cases h
    · rename_i x1 e
      obtain ⟨own1, hI1, hC1⟩ := hC.step hL hK (hc.fair i) hI (hstepped_of hI (hc.fair i) e)
      exact ih hI1 hC1 h

theorem HCalm.start {c : ι → Command} {m0 : Mem} (disks : σ → Disk) (s : σ) (tr : List Event) :
    HCalm c (fun _ _ => False) m0 (disks s) disks (Host.start s m0 tr : Host ι σ) where
  waits := by intro i b ph h; cases h
  outside := fun a ha => ⟨fun _ h => h, fun i h => view_uses_empty.mp h, fun _ => rfl, ha⟩
  fresh := fun _ _ _ _ => rfl
  disk := fun _ _ => .inl rfl
  done := by intro i o h; cases h

/-- **C106 (disks).** Commands are handed to the kernel module in any interleaving, and the device may fail in any way at any time: at
every moment every byte of every disk is the one it held at first, or the one which a complete and correct WRITE, with whose execution
the engine has begun, puts there. -/
theorem C106_disks [DecidableEq ι] (K : Module.Kernel) (hK : GoodKernel K) (junk : World → Nat → Byte) (D : Device σ) (disks : σ → Disk)
    (hL : Lossy D disks) (c : ι → Command) (m : Mem) (hc : Disjoint c m) (s : σ) (tr : List Event) (sched : List ι) (y : Host ι σ)
    (h : (Host.start s m tr).run K junk D c sched = .ok y) (k a : Nat) :
    disks y.dev k a = disks s k a ∨
      ∃ i l, (y.phase i ≠ .queued ∧ ∀ b, y.phase i ≠ .engine b .called) ∧ k = l + 1 ∧ (c i).carries l a (disks y.dev k a) := by
  obtain ⟨own, -, hC⟩ := (HCalm.start disks s tr).run hL hK hc sched (HInv.start (junk := junk) hc s tr) h
  exact hC.disk k a

/-- **C106 (memory).** … memory which was accessible stays accessible; what belongs to no command is not touched, nor is that of a command
with which the engine has not begun. -/
theorem C106_memory [DecidableEq ι] (K : Module.Kernel) (hK : GoodKernel K) (junk : World → Nat → Byte) (D : Device σ) (disks : σ → Disk)
    (hL : Lossy D disks) (c : ι → Command) (m : Mem) (hc : Disjoint c m) (s : σ) (tr : List Event) (sched : List ι) (y : Host ι σ)
    (h : (Host.start s m tr).run K junk D c sched = .ok y) (a : Nat) :
    ((m a).isSome → (y.world.mem a).isSome) ∧
    ((m a).isSome → (∀ i, ¬ (c i).uses a) → y.world.mem a = m a) ∧
    ∀ i, (y.phase i = .queued ∨ ∃ b, y.phase i = .engine b .called) → (c i).uses a → y.world.mem a = m a := by
  obtain ⟨own, -, hC⟩ := (HCalm.start disks s tr).run hL hK hc sched (HInv.start (junk := junk) hc s tr) h
  exact ⟨fun h => (hC.outside a h).2.2.2, fun h1 h2 => (hC.outside a h1).2.2.1 h2, fun i h1 h2 => hC.fresh i h1 a h2⟩

/-- **C106 (answers).** … every command which is done has result GOOD, CHECK CONDITION, TASK ABORTED or 23; the length of its
scatter-gather list is unchanged, and the whole list if the direction is not data-in. -/
theorem C106_outcome [DecidableEq ι] (K : Module.Kernel) (hK : GoodKernel K) (junk : World → Nat → Byte) (D : Device σ) (disks : σ → Disk)
    (hL : Lossy D disks) (c : ι → Command) (m : Mem) (hc : Disjoint c m) (s : σ) (tr : List Event) (sched : List ι) (y : Host ι σ)
    (h : (Host.start s m tr).run K junk D c sched = .ok y) (i : ι) (o : Module.Outcome) (ho : y.phase i = .done o) :
    o.result ∈ [0x00, 0x02, 0x40, 23] ∧ o.sg.length = (c i).cmd.sg.length ∧ ((c i).cmd.is_data_in = false → o.sg = (c i).cmd.sg) := by
  obtain ⟨own, -, hC⟩ := (HCalm.start disks s tr).run hL hK hc sched (HInv.start (junk := junk) hc s tr) h
  exact hC.done i o ho

/-- **C106 (no leak).** … and if no command asks for more data than its buffer holds then, once no command is being executed, exactly the
memory accessible at the beginning is accessible. -/
theorem C106_no_leak [DecidableEq ι] (K : Module.Kernel) (hK : GoodKernel K) (junk : World → Nat → Byte) (D : Device σ) (disks : σ → Disk)
    (hL : Lossy D disks) (c : ι → Command) (m : Mem) (hc : Disjoint c m) (hl : ∀ i, allocationLength (c i).cdb ≤ (c i).cmd.sg.length % 65536)
    (s : σ) (tr : List Event) (sched : List ι) (y : Host ι σ) (h : (Host.start s m tr).run K junk D c sched = .ok y)
    (hd : ∀ i, ¬ y.busy i) (a : Nat) : (y.world.mem a).isSome = (m a).isSome := by
  obtain ⟨h1, h2⟩ := in_use_tame hK (hL.tame (C72_util K hK junk).1) hc hl h a
  rw [Bool.eq_iff_iff]
  exact ⟨fun h => (h2 h).resolve_right fun ⟨i, hi⟩ => hd i hi, h1⟩

/-- **C106 (defined).** … and no interleaving has undefined behaviour (some MODE SENSE commands aside, see C81). -/
theorem C106_defined [DecidableEq ι] (K : Module.Kernel) (hK : GoodKernel K) (junk : World → Nat → Byte) (D : Device σ) (disks : σ → Disk)
    (hL : Lossy D disks) (c : ι → Command) (m : Mem) (hc : Disjoint c m) (hop : ∀ i page, steady (c i).cdb page)
    (s : σ) (tr : List Event) (sched : List ι) : ∃ y, (Host.start s m tr).run K junk D c sched = .ok y := by
  have key : ∀ (own : ι → Nat → Prop) (y : Host ι σ), HInv K junk c own y → ∃ y', y.run K junk D c sched = .ok y' := by
    induction sched with
    | nil => exact fun _ y _ => ⟨y, rfl⟩
    | cons i is ih =>
      intro own y hI
      obtain ⟨y1, h1⟩ := hI.steady hK D (hc.fair i) (hop i)
      obtain ⟨own1, hI1, -⟩ := hI.step hK (hL.tame (C72_util K hK junk).1) (hc.fair i) (hstepped_of hI (hc.fair i) h1)
      obtain ⟨y2, h2⟩ := ih own1 y1 hI1
      refine ⟨y2, ?_⟩
      unfold Host.run
      rw [h1]
      exact h2
  exact key _ _ (HInv.start hc s tr)

/-- **C106 (driver).** The same through the driver of the kernel, over any block layer - which may refuse requests, fail to map buffers, and
fail in any way when it executes a command. -/
theorem C106_stack [DecidableEq ι] (K : Module.Kernel) (hK : GoodKernel K) (junk : World → Nat → Byte) (B : BlockLayer β) (disks : β → Disk)
    (hB : Lossy B.execute disks)
    (hr : ∀ b sub b', B.allocRequest b sub = .ok b' → disks b' = disks b) (hm : ∀ b a n, disks (B.mapKern b a n).2 = disks b)
    (hf : ∀ b, disks (B.freeRequest b) = disks b)
    (c : ι → Command) (m : Mem) (hc : Disjoint c m) (hop : ∀ i page, steady (c i).cdb page) (s : State β) (tr : List Event) (sched : List ι) :
    ∃ y, (Host.start s m tr).run K junk (device B) c sched = .ok y ∧
      (∀ k a, disks y.dev.blk k a = disks s.blk k a ∨ ∃ i l, (y.phase i ≠ .queued ∧ ∀ b, y.phase i ≠ .engine b .called) ∧ k = l + 1 ∧
        (c i).carries l a (disks y.dev.blk k a)) ∧
      (∀ a, (m a).isSome → (y.world.mem a).isSome ∧ ((∀ i, ¬ (c i).uses a) → y.world.mem a = m a)) ∧
      ((∀ i, allocationLength (c i).cdb ≤ (c i).cmd.sg.length % 65536) → (∀ i, ¬ y.busy i) → ∀ a, (y.world.mem a).isSome = (m a).isSome) := by
  have hL := C99_driver B disks hB hr hm hf
  obtain ⟨y, h⟩ := C106_defined K hK junk _ _ hL c m hc hop s tr sched
  refine ⟨y, h, C106_disks K hK junk _ _ hL c m hc s tr sched y h, fun a ha => ?_,
    fun hl hd => C106_no_leak K hK junk _ _ hL c m hc hl s tr sched y h hd⟩
  obtain ⟨h1, h2, -⟩ := C106_memory K hK junk _ _ hL c m hc s tr sched y h a
  exact ⟨h1 ha, h2 ha⟩

/-- The hypotheses are met: WRITE, READ and INQUIRY through the kernel module, in any interleaving, over a device which executes the
commands chosen by `works` only, and reports success for all: no undefined behaviour, no byte of a disk other than those of blocks 9 and 10 of the
namespace of LUN 3 changes, and those are the old or the written ones; when all commands have ended no memory is missing, and
none is left over. -/
example (cap : Nat → Nat) (works : Nat → Bool) (d : Disk) (sg : Fin 3 → List Byte) (h0 : (sg 0).length = 8192) (h1 : (sg 1).length = 12288)
    (h2 : (sg 2).length = 200) (sched : List (Fin 3)) (hn : ∀ i, 7 ≤ sched.count i) :
    ∃ y, (Host.start (0, d) demoShared []).run demoKernel3 (fun _ _ => 0) (flakyDevice cap works) (demoTrio sg) sched = .ok y ∧
      (∀ k a, y.dev.2 k a = d k a ∨ (k = 4 ∧ inRange 36864 8192 a ∧ (sg 0)[a - 36864]? = some (y.dev.2 k a))) ∧
      ∀ a, (y.world.mem a).isSome = (demoShared a).isSome := by
  have hD : Disjoint (demoTrio sg) demoShared := demoTrio_disjoint sg (by
    intro i
    match i with
    | 0 => exact ⟨fun _ => by omega, by omega⟩
    | 1 => exact ⟨fun _ => by omega, by omega⟩
    | 2 => exact ⟨fun h => absurd rfl h, by omega⟩)
  have hL := flaky_lossy cap works
  have hop : ∀ i page, steady (demoTrio sg i).cdb page := fun i => steady_of (demoCalls_blocks i).2.1
  obtain ⟨y, r⟩ := C106_defined demoKernel3 demoKernel3_good (fun _ _ => 0) _ _ hL (demoTrio sg) demoShared hD hop (0, d) [] sched
  refine ⟨y, r, fun k a => ?_, ?_⟩
  · rcases C106_disks demoKernel3 demoKernel3_good (fun _ _ => 0) _ _ hL (demoTrio sg) demoShared hD (0, d) [] sched y r k a
      with e | ⟨i, l, -, e1, lba, n, hw, ⟨rw_, hd, -, e2, e3, -⟩, e4, e5, e6⟩
    · exact .inl e
    · right
      have key : ∀ o : Option Rw, o = some ⟨9, 2, some 0, false⟩ → o = some rw_ → rw_.blocks = 2 ∧ rw_.lba = 9 := by
        rintro o rfl h
        cases h; exact ⟨rfl, rfl⟩
      match i, hw, hd, e2, e3, e4, e5, e6 with
      | 0, hw, hd, e2, e3, e4, e5, e6 =>
        obtain ⟨k1, k2⟩ := key _ (by decide +kernel : decodeRw (demoCalls 0).cdb = _) hd
        have hl : l = 3 := e4
        have hb : lba = 9 := by omega
        have hc : n = 2 := by omega
        clear e2 e3 e4
        subst hb hc hl
        exact ⟨e1, e5, e6⟩
      | 1, hw, _, _, _, _, _, _ => exact absurd hw (by decide : ¬ isWrite (byte (demoCalls 1).cdb 0))
      | 2, hw, _, _, _, _, _, _ => exact absurd hw (by decide : ¬ isWrite (byte (demoCalls 2).cdb 0))
  · refine C106_no_leak demoKernel3 demoKernel3_good (fun _ _ => 0) _ _ hL (demoTrio sg) demoShared hD (fun i => ?_) (0, d) [] sched y r
      fun i hi => ?_
    · match i with
      | 0 => exact Nat.zero_le _
      | 1 => exact Nat.zero_le _
      | 2 =>
        change 96 ≤ (sg 2).length % 65536
        rw [h2]
        decide
    · obtain ⟨o, p⟩ := C101_wait_free _ _ _ _ _ _ _ _ _ r i (hn i)
      exact hi.2 o p

end Scsi2Nvme
