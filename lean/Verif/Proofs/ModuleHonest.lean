import Verif.Spec.ModuleHonest
import Verif.Proofs.Honest
import Verif.Properties.ModuleDurable
/-!
# Calls of the kernel module made concurrently over a device which may fail but does not lie
-/

namespace Scsi2Nvme
open Spec Engine

variable {ι σ : Type}

theorem Spec.ReliedAll.snoc {c : ι → Command} {out : ι → Module.Outcome} {d d1 d2 : Disk} {L : List ι} {i : ι}
    (h : ReliedAll c out d L d1) (h1 : Relied d1 (c i) (out i) d2) : ReliedAll c out d (L ++ [i]) d2 := by
  induction h with
  | nil => exact .cons h1 .nil
  | cons h _ ih => exact .cons h (ih h1)

theorem Spec.ReliedAll.split {c : ι → Command} {out : ι → Module.Outcome} {L M : List ι} {d d2 : Disk}
    (h : ReliedAll c out d (L ++ M) d2) : ∃ d1, ReliedAll c out d L d1 ∧ ReliedAll c out d1 M d2 := by
  induction L generalizing d with
  | nil => exact ⟨d, .nil, h⟩
  | cons i L ih =>
    cases h with
    | cons h1 h2 =>
      obtain ⟨d1, k1, k2⟩ := ih h2
      exact ⟨d1, .cons h1 k1, k2⟩

/-- `L` is an order in which the commands took effect. -/
structure HFaith (disks : σ → Disk) (c : ι → Command) (d0 : Disk) (y : Host ι σ) (L : List ι) : Prop where
  nodup : L.Nodup
  mem : ∀ i, i ∈ L ↔ settled (c i) (y.phase i)
  waits : ∀ i b ph, y.phase i = .engine b ph → i ∉ L → isWrite (byte (c i).cdb 0) →
    y.world.mem.read b (Module.dataLen (c i).cmd).toNat = some ((c i).cmd.sg.take (Module.dataLen (c i).cmd).toNat)
  seq : ∀ out : ι → Module.Outcome, (∀ i, foresees (c i) y.world.mem (out i) (y.phase i)) →
    ReliedAll c out (luns d0) L (luns (disks y.dev))

theorem HFaith.start (disks : σ → Disk) (c : ι → Command) (s : σ) (m : Mem) (tr : List Event) :
    HFaith disks c (disks s) (Host.start s m tr) [] where
  nodup := .nil
  mem := fun i => by simp [Host.start, settled]
  waits := by intro i b ph h; cases h
  seq := fun _ _ => .nil

/-- How a step changes the order. -/
inductive Advanced (disks : σ → Disk) (c : ι → Command) (y : Host ι σ) (i : ι) (s : σ) (w : World) (ph : Module.Phase) :
    List ι → Prop
  | keep (dev : disks s = disks y.dev) (same : settled (c i) ph ↔ settled (c i) (y.phase i)) : Advanced disks c y i s w ph []
  | add (old : ¬ settled (c i) (y.phase i)) (new : settled (c i) ph)
      (managed : ∀ o, foresees (c i) w.mem o ph → Relied (luns (disks y.dev)) (c i) o (luns (disks s))) :
      Advanced disks c y i s w ph [i]

theorem HFaith.next [DecidableEq ι] {disks : σ → Disk} {c : ι → Command} {d0 : Disk} {y : Host ι σ} {L : List ι}
    (h : HFaith disks c d0 y L) {i : ι} {s : σ} {w : World} {ph : Module.Phase} {M : List ι}
    (ho : ∀ j, j ≠ i → ∀ b ph', y.phase j = .engine b ph' → ∀ a, inRange b (Module.dataLen (c j).cmd).toNat a → w.mem a = y.world.mem a)
    (hb : ∀ o, foresees (c i) w.mem o ph → foresees (c i) y.world.mem o (y.phase i))
    (hw : ∀ b ph', ph = .engine b ph' → ¬ settled (c i) ph → isWrite (byte (c i).cdb 0) →
      w.mem.read b (Module.dataLen (c i).cmd).toNat = some ((c i).cmd.sg.take (Module.dataLen (c i).cmd).toNat))
    (hM : Advanced disks c y i s w ph M) :
    HFaith disks c d0 (y.to i s w ph) (L ++ M) ∧ ∀ out : ι → Module.Outcome,
      (∀ j, foresees (c j) w.mem (out j) ((y.to i s w ph).phase j)) → ∀ j, foresees (c j) y.world.mem (out j) (y.phase j) := by
  have back : ∀ out : ι → Module.Outcome,
      (∀ j, foresees (c j) w.mem (out j) ((y.to i s w ph).phase j)) → ∀ j, foresees (c j) y.world.mem (out j) (y.phase j) := by
    intro out hr j
    have := hr j
    by_cases e : j = i
    · subst e
      rw [Host.to_self] at this
      exact hb _ this
    · rw [Host.to_other y e] at this
      exact foresees_congr (fun b ph' hp => ho j e b ph' hp) this
  have waits : ∀ j b ph', (y.to i s w ph).phase j = .engine b ph' → (j = i → ¬ settled (c i) ph) → (j ≠ i → j ∉ L) →
      isWrite (byte (c j).cdb 0) →
      w.mem.read b (Module.dataLen (c j).cmd).toNat = some ((c j).cmd.sg.take (Module.dataLen (c j).cmd).toNat) := by
    intro j b ph' hp h1 h2 hwr
    by_cases e : j = i
    · subst e
      rw [Host.to_self] at hp
      exact hw b ph' hp (h1 rfl) hwr
    · rw [Host.to_other y e] at hp
      rw [← h.waits j b ph' hp (h2 e) hwr]
      exact read_congr fun k hk => ho j e b ph' hp _ ⟨by omega, by omega⟩
  refine ⟨?_, back⟩
  cases hM with
  | keep dev same =>
    rw [List.append_nil]
    refine ⟨h.nodup, fun j => ?_, fun j b ph' hp hj hwr => ?_, fun out hr => ?_⟩
    · by_cases e : j = i
      · subst e
        rw [Host.to_self, same]; exact h.mem j
      · rw [Host.to_other y e]; exact h.mem j
    · refine waits j b ph' hp (fun e hs => hj ?_) (fun _ => hj) hwr
      subst e
      exact (h.mem j).mpr (same.mp hs)
    · have := h.seq out (back out hr)
      change ReliedAll _ _ _ _ (luns (disks s))
      rw [dev]; exact this
  | add old new managed =>
    have hi : i ∉ L := fun hc => old ((h.mem i).mp hc)
    refine ⟨?_, fun j => ?_, fun j b ph' hp hj hwr => ?_, fun out hr => ?_⟩
    · rw [List.nodup_append]
      refine ⟨h.nodup, by simp, ?_⟩
      intro a ha b hb
      rw [List.mem_singleton.mp hb]
      exact fun e => hi (e ▸ ha)
    · by_cases e : j = i
      · subst e
        rw [Host.to_self]
        simp [new]
      · rw [Host.to_other y e, ← h.mem j]
        simp [e]
    · exact waits j b ph' hp (fun e => absurd (by simp [e]) hj) (fun _ hc => hj (by simp [hc])) hwr
    · refine (h.seq out (back out hr)).snoc (managed _ ?_)
      have := hr i
      rwa [Host.to_self] at this

/-- Every step either leaves the order alone or adds one command to its end. -/
theorem HFaith.step [DecidableEq ι] {D : Device σ} {disks : σ → Disk} (hD : Honest D disks) {K : Module.Kernel} (hK : GoodKernel K)
    {junk : World → Nat → Byte} {c : ι → Command} {d0 : Disk} {own : ι → Nat → Prop} {y y' : Host ι σ} {i : ι} {L : List ι}
    (hq : (c i).Fair)
    (hI : HInv K junk c own y) (hL : HFaith disks c d0 y L) (h : HStepped K junk D c y i y') :
    ∃ M, HFaith disks c d0 y' (L ++ M) ∧ ∀ out : ι → Module.Outcome,
      (∀ j, foresees (c j) y'.world.mem (out j) (y'.phase j)) → ∀ j, foresees (c j) y.world.mem (out j) (y.phase j) := by
  have hg := (C72_util K hK junk).1
  obtain ⟨own1, -, hconf, -⟩ := hI.step hK (hD.toLossy.tame hg) hq h
  have ho : ∀ j, j ≠ i → ∀ b ph', y.phase j = .engine b ph' → ∀ a, inRange b (Module.dataLen (c j).cmd).toNat a →
      y'.world.mem a = y.world.mem a := by
    intro j hj b ph' hp a ha
    refine (hI.inv.others hconf hI.apart j hj).1 a ?_
    unfold Host.reqs
    rw [hp]
    exact .inr (.inr ha)
  have hle : (Module.dataLen (c i).cmd).toNat ≤ (c i).cmd.sg.length := by rw [dataLen_toNat]; exact Nat.mod_le _ _
  have queued : y.phase i = .queued → ¬ settled (c i) (y.phase i) := fun e => by rw [e]; exact id
  have wdir : isWrite (byte (c i).cdb 0) → (c i).cmd.is_data_in = false := by
    intro hw
    rcases ((hq.rw (.inr hw)).1).op with ⟨h, -⟩ | ⟨-, h⟩
    · exact absurd hw fun hw => read_not_write h hw
    · exact h
  have rdir : isRead (byte (c i).cdb 0) → (c i).cmd.is_data_in = true := by
    intro hr
    rcases ((hq.rw (.inl hr)).1).op with ⟨-, h⟩ | ⟨h, -⟩
    · exact h
    · exact absurd h fun h => read_not_write hr h
  cases h with
  | empty hp hz =>
    refine ⟨[], hL.next ho (fun _ _ => by rw [hp]; trivial) (fun b ph' e _ _ => ?_) (.keep rfl (by rw [hp]; exact Iff.rfl))⟩
    rw [hz, List.take_zero]
    rfl
  | refused hp hz h0 =>
    refine ⟨[i], hL.next ho (fun _ _ => by rw [hp]; trivial) (fun _ _ e => by cases e) (.add (queued hp) trivial fun o hoo => ?_)⟩
    have e : o = ⟨23, none, (c i).cmd.sg⟩ := hoo
    have hbad : o.result ≠ 0 := by rw [e]; exact (by decide : ¬ (23 : Nat) = 0)
    by_cases hrw : isIo (c i)
    · rcases hrw with h | h
      · exact .unread h hbad
      · exact .torn h hbad fun _ _ => .inl rfl
    · exact .other (not_or.mp hrw)
  | granted hp hz h0 m hm =>
    refine ⟨[], hL.next ho (fun _ _ => by rw [hp]; trivial) (fun b ph' e _ hw => ?_) (.keep rfl (by rw [hp]; exact Iff.rfl))⟩
    cases e
    change m.read _ _ = _
    rw [hm, if_neg (by rw [wdir hw]; simp)]
    have := read_put_self (m := (K.kzalloc y.world (Module.dataLen (c i).cmd).toNat).2)
      (p := (K.kzalloc y.world (Module.dataLen (c i).cmd).toNat).1) (bs := (c i).cmd.sg.take (Module.dataLen (c i).cmd).toNat)
    rwa [List.length_take, Nat.min_eq_left hle] at this
  | finished hp hz =>
    rename_i b r
    have hal := (hI.ret i b r hp).2
    refine ⟨[], hL.next ho (fun o hoo => ?_) (fun _ _ e => by cases e) (.keep rfl (by rw [hp]; exact Iff.rfl))⟩
    have e : o = ⟨r.return_code, none, (c i).cmd.sg⟩ := hoo
    rw [hp, e]
    refine ⟨rfl, fun _ => ⟨fun _ => rfl, fun _ _ => ⟨[], ?_, ?_, fun h => absurd hz h⟩⟩, fun _ => ⟨(hI.ret i b r hp).1, rfl⟩⟩
    · rw [hz, Nat.min_zero]; rfl
    · rw [hz, Nat.min_zero]; rfl
  | @copied b r bs hp hz hi hb =>
    have hal := (hI.ret i b r hp).2
    refine ⟨[], hL.next ho (fun o hoo => ?_) (fun _ _ e => by cases e) (.keep rfl (by rw [hp]; exact Iff.rfl))⟩
    have hm1 : min r.alloc_len (c i).cmd.sg.length = r.alloc_len := Nat.min_eq_left (by omega)
    have hm2 : min r.alloc_len (Module.dataLen (c i).cmd).toNat = r.alloc_len := Nat.min_eq_left hal
    rw [hm1] at hb hoo
    have e : o = _ := hoo
    rw [hp, e]
    refine ⟨rfl, fun _ => ⟨fun hw => ?_, fun _ _ => ⟨bs, by rw [hm2]; exact hb, by rw [hm2], fun _ => by rw [hm2]⟩⟩, fun _ => ⟨(hI.ret i b r hp).1, ?_⟩⟩
    · rw [wdir hw] at hi; cases hi
    · have := read_length hb
      rw [List.length_append, List.length_drop, this]
      omega
  | @freed b r hp hz hi =>
    refine ⟨[], hL.next ho (fun o hoo => ?_) (fun _ _ e => by cases e) (.keep rfl (by rw [hp]; exact Iff.rfl))⟩
    have e : o = ⟨r.return_code, none, (c i).cmd.sg⟩ := hoo
    rw [hp, e]
    refine ⟨rfl, fun _ => ⟨fun _ => rfl, fun hr _ => ?_⟩, fun _ => ⟨(hI.ret i b r hp).1, rfl⟩⟩
    rw [rdir hr] at hi; cases hi
  | done hp => exact ⟨[], by rw [List.append_nil]; exact hL, fun _ h => h⟩
  | @engine b ph hp hr y1 hst =>
    have hv : y.reqs c i = viewReq (c i) b (Module.dataLen (c i).cmd) := by unfold Host.reqs; rw [hp]; rfl
    have hvp : y.view.phase i = ph := by change viewPh (y.phase i) = _; rw [hp]; rfl
    have hf : (y.reqs c i).Fair := by
      rw [hv]
      exact viewReq_fair hq (hI.buf i b ph hp).1 fun a ha => (hI.buf i b ph hp).2 a (.inl ha)
    have hacc : accessible y.world.mem ⟨(y.reqs c i).data, (y.reqs c i).dataLen.toNat⟩ := fun k hk =>
      hI.inv.used i _ (.inr (.inr ⟨Nat.le_add_right _ _, Nat.add_lt_add_left hk _⟩))
    have hinb : ∀ a, inRange b (Module.dataLen (c i).cmd).toNat a → (y.world.mem a).isSome := by
      intro a ha
      refine hI.inv.used i a ?_
      rw [hv]
      exact .inr (.inr ha)
    cases hst with
    | @begin r t w1 hp1 hB =>
      have hph : ph = .called := hvp.symm.trans hp1
      subst hph
      rw [hv] at hB hf
      have hn : ¬ settled (c i) (y.phase i) := by rw [hp]; exact id
      have hb0 : ∀ (ph' : Module.Phase) (o : Module.Outcome), foresees (c i) w1.mem o ph' → foresees (c i) y.world.mem o (y.phase i) :=
        fun _ _ _ => by rw [hp]; trivial
      simp only [Sys.to, if_true] at ho ⊢
      change ∃ M, HFaith disks c d0 (y.to i y.dev w1 _) (L ++ M) ∧ _
      by_cases hrw : isIo (c i)
      · have hvv := hf.rw hrw
        obtain ⟨hqv, hlen⟩ := hq.rw hrw
        by_cases ha : Accepted t
        · obtain ⟨hl, wr, hc, -⟩ := rw_verdict (fun _ => 0) hvv hB ha
          have hnew : (if r.alloc_len.toNat > (y.reqs c i).dataLen.toNat then Phase.returned ⟨0x40, 0⟩ else .waiting r t t.GetNvmeWrappers [])
            = .waiting r t [wr] [] := by
            rw [hv, if_neg (by omega), hc]
          rw [hnew]
          have hnp : ¬ settled (c i) (.engine b (.waiting r t [wr] [])) := fun hc => by cases hc hrw
          refine ⟨[], hL.next ho (hb0 _) (fun b' ph' e _ hw => ?_) (.keep rfl ⟨fun hc => (hnp hc).elim, fun hc => (hn hc).elim⟩)⟩
          cases e
          rw [← hL.waits i b .called hp (fun hc => hn ((hL.mem i).mp hc)) hw]
          exact read_congr fun k hk => Begin_keeps hg hB.idle.idle hB.call _ (hinb _ ⟨by omega, by omega⟩)
        · have hc := hB.rejected ha
          refine ⟨[i], hL.next ho (hb0 _) (fun b' ph' e hns _ => ?_) (.add hn ?_ fun o hoo => ?_)⟩
          · refine absurd ?_ hns
            split
            · trivial
            · exact fun _ => hc
          · split
            · trivial
            · exact fun _ => hc
          · have hbad : o.result ≠ 0 := by
              split at hoo
              · rw [hoo.1]; decide
              · exact fun h0 => ha ((hoo.1 hrw hc).1.mp h0).1
            rcases hrw with h | h
            · exact .unread h hbad
            · exact .torn h hbad fun _ _ => .inl rfl
      · refine ⟨[i], hL.next ho (hb0 _) (fun b' ph' e hns hw => absurd (.inr hw) hrw) (.add hn ?_ fun o hoo => .other (not_or.mp hrw))⟩
        split
        · trivial
        · exact fun h => absurd h hrw
    | @submit r t wr todo cs hp1 =>
      have hph : ph = .waiting r t (wr :: todo) cs := hvp.symm.trans hp1
      subst hph
      obtain ⟨w, w1, hb⟩ := hI.inv.waiting i r t _ cs hp1
      obtain ⟨done, hd1, hd2⟩ := hb.progress
      have hwr : wr ∈ t.GetNvmeWrappers := by rw [hd1]; simp
      rw [hv] at hb hf hacc
      simp only [Sys.to, if_true] at ho ⊢
      change ∀ j, j ≠ i → ∀ b ph', y.phase j = .engine b ph' → ∀ a, inRange b (Module.dataLen (c j).cmd).toNat a →
        (D y.dev y.world.mem (submissionOf wr)).2.1 a = y.world.mem a at ho
      change ∃ M, HFaith disks c d0 (y.to i (D y.dev y.world.mem (submissionOf wr)).1
        ⟨(D y.dev y.world.mem (submissionOf wr)).2.1, y.world.trace⟩
        (.engine b (.waiting r t todo (cs ++ [(D y.dev y.world.mem (submissionOf wr)).2.2])))) (L ++ M) ∧ _
      by_cases hrw : isIo (c i)
      · have hvv := hf.rw hrw
        obtain ⟨hqv, hlen⟩ := hq.rw hrw
        have hdl : (Module.dataLen (c i).cmd).toNat = (c i).cmd.sg.length := by rw [dataLen_toNat, Nat.mod_eq_of_lt hlen]
        have ha := (hb.began.accepted_of_mem hwr).1
        obtain ⟨-, wr', hc, -⟩ := rw_verdict (fun _ => 0) hvv hb.began ha
        rw [hc] at hd1
        have hd0 : done = [] := by
          cases done with
          | nil => rfl
          | cons a l => have := congrArg List.length hd1; simp at this
        subst hd0
        simp only [List.nil_append, List.cons.injEq] at hd1
        obtain ⟨rfl, rfl⟩ := hd1
        have hcs : cs = [] := List.length_eq_zero_iff.mp hd2
        subst hcs
        have hn : ¬ settled (c i) (y.phase i) := by
          rw [hp]; exact fun hc => by cases hc hrw
        have hi : i ∉ L := fun hc => hn ((hL.mem i).mp hc)
        refine ⟨[i], hL.next ho (fun o _ => ?_) (fun b' ph' e hns _ => absurd (show settled (c i) (.engine b (.waiting r t [] _)) from fun _ => rfl) hns)
          (.add hn (show settled (c i) (.engine b (.waiting r t [] _)) from fun _ => rfl) fun o hoo => ?_)⟩
        · rw [hp]
          exact ⟨fun _ hc => (by cases hc), fun h => absurd hrw h⟩
        · obtain ⟨hr1, hr2⟩ := hoo.1 hrw rfl
          have hco := submitted_coherent wr'
          have h4' : ∀ lba n, (viewReq (c i) b (Module.dataLen (c i).cmd)).asks (lba + n) lba n →
              (c i).asks (lba + n) lba n ∧ 4096 * n ≤ (c i).cmd.sg.length ∧ 1 ≤ n := by
            intro lba n asks
            have asks' := (view_asks hlen).mp asks
            exact ⟨asks', by obtain ⟨_, _, _, _, _, _, h4, _⟩ := asks'; exact h4, by obtain ⟨_, _, _, _, _, h4, _, _⟩ := asks'; exact h4⟩
          rcases hrw with op | op
          · obtain ⟨-, had, f0, lba, n, hasks, hal, f1, f2, f3, f4⟩ := read_fields hvv op hb.began wr' hwr
            obtain ⟨asks', h4, hn1⟩ := h4' _ _ hasks
            have hq' := hD.toLossy.quiet hf hb.began wr' hwr (fun h => read_not_write op h) y.dev y.world.mem
            rw [hq']
            by_cases h0 : o.result = 0
            · have hok := (hr1.mp h0).2 _ (by rw [List.nil_append]; exact List.mem_singleton.mpr rfl)
              have hread := hD.read y.dev y.world.mem _ hco had f0 hok
              change Mem.read _ (leAt wr'.cmd.toBytes 24 8) (4096 * (leAt wr'.cmd.toBytes 48 2 + 1)) =
                some (Disk.read _ (leAt wr'.cmd.toBytes 4 4) (4096 * leAt wr'.cmd.toBytes 40 8) (4096 * (leAt wr'.cmd.toBytes 48 2 + 1))) at hread
              rw [f1, f2, f3, f4] at hread
              obtain ⟨bs, e1, e2, e3⟩ := hr2.2 op h0
              rw [hal, hdl, Nat.min_eq_left h4] at e1 e2 e3
              have e4 := e1.symm.trans hread
              cases e4
              exact .read op asks' h0 e2 (by rw [e3 (by omega)]; simp)
            · exact .unread op h0
          · obtain ⟨-, lba, n, hasks, f1, f2, f3, f4⟩ := write_fields hvv op hb.began wr' hwr
            obtain ⟨asks', h4, hn1⟩ := h4' _ _ hasks
            have f0 := write_opcode hb.began op wr' hwr
            have had := write_io op hb.began wr' hwr
            obtain ⟨-, hn9, -⟩ := dataset_never hf hb.began wr' hwr
            have hwt := hL.waits i b _ hp hi op
            by_cases h0 : o.result = 0
            · have hok := (hr1.mp h0).2 _ (by rw [List.nil_append]; exact List.mem_singleton.mpr rfl)
              obtain ⟨bs, h1, h2⟩ := hD.write y.dev y.world.mem _ hco had f0 hok
              change y.world.mem.read (leAt wr'.cmd.toBytes 24 8) (4096 * (leAt wr'.cmd.toBytes 48 2 + 1)) = some bs at h1
              change _ = Disk.write _ (leAt wr'.cmd.toBytes 4 4) (4096 * leAt wr'.cmd.toBytes 40 8) bs at h2
              rw [f2, f4] at h1
              rw [f1, f3] at h2
              rw [h2, luns_write]
              have hbs' : bs = (c i).cmd.sg.take (4096 * n) := by
                have e5 := read_sub hwt 0 (4096 * n) (by omega)
                rw [Nat.add_zero, List.drop_zero] at e5
                have hbs2 : y.world.mem.read b (4096 * n) = some bs := h1
                rw [e5, List.take_take, Nat.min_eq_left (by omega)] at hbs2
                cases hbs2; rfl
              rw [hbs']
              exact .write op asks' h0 (hr2.1 op)
            · refine .torn op h0 fun l a => ?_
              change disks _ (l + 1) a = disks y.dev (l + 1) a ∨ _
              refine (hD.disk y.dev y.world.mem _ hco hn9 (l + 1) a).imp_right ?_
              rintro ⟨-, -, h3, h5, h6⟩
              change l + 1 = leAt wr'.cmd.toBytes 4 4 at h3
              change inRange (4096 * leAt wr'.cmd.toBytes 40 8) (4096 * (leAt wr'.cmd.toBytes 48 2 + 1)) a at h5
              change y.world.mem (leAt wr'.cmd.toBytes 24 8 + (a - 4096 * leAt wr'.cmd.toBytes 40 8)) = some _ at h6
              rw [f3, f4] at h5
              rw [f2, f3] at h6
              have hl : l = (c i).cmd.lun.toNat := by
                have : l + 1 = (c i).cmd.lun.toNat + 1 := h3.trans f1
                omega
              refine ⟨lba, n, op, asks', hl, h5, ?_⟩
              have := h5.1
              have := h5.2
              have hk : a - 4096 * lba < (Module.dataLen (c i).cmd).toNat := by omega
              obtain ⟨g1, g2⟩ := read_eq_some.mp hwt
              have g3 := g2 _ hk
              change y.world.mem (b + (a - 4096 * lba)) = _ at h6
              rw [h6, List.getElem?_take_of_lt hk] at g3
              exact g3.symm
      · have hs := hD.toLossy.quiet hf hb.began wr hwr (fun h => hrw (.inr h)) y.dev y.world.mem
        refine ⟨[], hL.next ho (fun o hoo => ?_) (fun _ _ _ _ hw => absurd (.inr hw) hrw) (.keep hs ?_)⟩
        · rw [hp]
          exact ⟨fun h => absurd h hrw, hoo.2⟩
        · rw [hp]
          exact ⟨fun _ h => absurd h hrw, fun _ h => absurd h hrw⟩
    | @complete r t cs cc t2 w3 hp1 hcall =>
      have hph : ph = .waiting r t [] cs := hvp.symm.trans hp1
      subst hph
      obtain ⟨w, w1, hb⟩ := hI.inv.waiting i r t _ cs hp1
      obtain ⟨done, hd1, hd2⟩ := hb.progress
      rw [List.append_nil] at hd1
      have hst' := complete_status (began_wf hb.began) r hcall
      have hfits := hb.fits
      rw [hv] at hb hf hacc hfits
      simp only [Sys.to, if_true] at ho ⊢
      change ∃ M, HFaith disks c d0 (y.to i y.dev w3 _) (L ++ M) ∧ _
      by_cases hrw : isIo (c i)
      · obtain ⟨c', t2', w3', e, e1, e2, e3⟩ := rw_complete hb.began (rw_clean hb.began hrw) hrw cs (by rw [hd1]; exact hd2)
          ((y.reqs c i).din r.alloc_len.toNat) ⟨(y.reqs c i).sense, (y.reqs c i).senseLen.toNat⟩ y.world hb.stored
          (fun k hk => hI.inv.used i _ (.inr (.inl ⟨Nat.le_add_right _ _, Nat.add_lt_add_left hk _⟩)))
        change t.Complete _ _ _ _ y.world = _ at hcall
        rw [hcall] at e
        cases e
        have hans : answerOf r cc = ⟨cc.scsi_status.toNat, r.alloc_len.toNat⟩ := by
          unfold answerOf; rw [if_neg (by rw [e1]; simp)]
        rw [hans]
        refine ⟨[], hL.next ho (fun o hoo => ?_) (fun _ _ _ h => absurd trivial h) (.keep rfl ?_)⟩
        · rw [hp]
          refine ⟨fun _ _ => ⟨?_, ?_⟩, fun h => absurd hrw h⟩
          · rw [hoo.1]; exact (code_zero _).trans e2
          · refine shaped_congr (fun _ h0 a _ => ?_) (hoo.2.1 hrw)
            rw [hoo.1] at h0
            rw [e3 ((code_zero _).mp h0)]
        · rw [hp]; exact ⟨fun _ _ => rfl, fun _ => trivial⟩
      · refine ⟨[], hL.next ho (fun o hoo => ?_) (fun _ _ _ h => absurd trivial h) (.keep rfl ?_)⟩
        · rw [hp]
          exact ⟨fun h => absurd h hrw, hoo.2.2⟩
        · rw [hp]; exact ⟨fun _ h => absurd h hrw, fun _ => trivial⟩
    | returned hp1 => exact absurd (hvp.symm.trans hp1) (hr _)

/-- A whole schedule. -/
theorem HFaith.run [DecidableEq ι] {D : Device σ} {disks : σ → Disk} (hD : Honest D disks) {K : Module.Kernel} (hK : GoodKernel K)
    {junk : World → Nat → Byte} {c : ι → Command} (hc : ∀ i, (c i).Fair) {d0 : Disk} (sched : List ι) {own : ι → Nat → Prop}
    {y y' : Host ι σ} {L : List ι} (hI : HInv K junk c own y) (hL : HFaith disks c d0 y L) (h : y.run K junk D c sched = .ok y') :
    ∃ M own', HInv K junk c own' y' ∧ HFaith disks c d0 y' (L ++ M) ∧ ∀ out : ι → Module.Outcome,
      (∀ j, foresees (c j) y'.world.mem (out j) (y'.phase j)) → ∀ j, foresees (c j) y.world.mem (out j) (y.phase j) := by
  induction sched generalizing own y L with
  | nil =>
    cases h
    exact ⟨[], own, hI, by rw [List.append_nil]; exact hL, fun _ h => h⟩
  | cons i is ih =>
    unfold Host.run at h
    split at h
    · cases h
    · rename_i y1 e
      have hs := hstepped_of hI (hc i) e
      obtain ⟨own1, hI1, -⟩ := hI.step hK (hD.toLossy.tame (C72_util K hK junk).1) (hc i) hs
      obtain ⟨M1, hL1, b1⟩ := hL.step hD hK (hc i) hI hs
      obtain ⟨M2, own2, hI2, hL2, b2⟩ := ih hI1 hL1 h
      exact ⟨M1 ++ M2, own2, hI2, by rw [← List.append_assoc]; exact hL2, fun r hr => b1 r (b2 r hr)⟩

end Scsi2Nvme
