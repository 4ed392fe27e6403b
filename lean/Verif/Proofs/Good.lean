import Verif.Properties.Protocol
import Verif.Spec.Objects
/-!
# Well-behaved allocators; `Begin` is defined
-/

namespace Scsi2Nvme
open Spec

theorem Spec.IdleObject.idle {t : Translation} (h : IdleObject t) : Idle t := by
  obtain ⟨E, ws, tr, tr', steps, os, hr, hc⟩ := h
  obtain ⟨s, hs, hrel⟩ := run_rel E steps _ none (Idle_init ws) tr os t tr' hr
  cases Conforms_unique hs hc
  exact hrel

theorem Spec.Reached.rel {t : Translation} {s : Proto} (h : Reached t s) : Rel t s := by
  obtain ⟨E, ws, tr, tr', steps, os, hr, hc⟩ := h
  obtain ⟨s, hs, hrel⟩ := run_rel E steps _ none (Idle_init ws) tr os t tr' hr
  cases Conforms_unique hs hc
  exact hrel

theorem IdleObject_init (ws : Arr3 NvmeCmdWrapper) : IdleObject (Translation.init ws) :=
  ⟨Demo.env, ws, [], [], [], [], rfl, .nil⟩

/-- Effect of one `AllocPages` of a good allocator. -/
theorem alloc_good {E : Env} (hg : GoodAllocator E) (n : U16) (w : World) :
    (allocRes E 4096 n w = 0 ∧ (allocW E 4096 n w).mem = w.mem) ∨
    (allocRes E 4096 n w ≠ 0 ∧ (allocRes E 4096 n w).toNat + 4096 * n.toNat ≤ 2 ^ 64 ∧
      (∀ x, inRange (allocRes E 4096 n w).toNat (4096 * n.toNat) x →
        w.mem x = none ∧ ((allocW E 4096 n w).mem x).isSome) ∧
      ∀ x, ¬ inRange (allocRes E 4096 n w).toNat (4096 * n.toNat) x → (allocW E 4096 n w).mem x = w.mem x) := by
  unfold allocRes allocW
  cases h : E.allocCb with
  | none => exact Or.inl ⟨rfl, rfl⟩
  | some f => exact hg.alloc f h w n

theorem alloc0_good {E : Env} (hg : GoodAllocator E) (w : World) :
    (allocW E 4096 0 w).mem = w.mem := by
  rcases alloc_good hg 0 w with ⟨-, h⟩ | ⟨-, -, -, h⟩
  · exact h
  · funext x
    exact h x (by unfold inRange; simp)

/-- Effect of `SetPages(…, 1, 0)` of a good allocator. -/
theorem set_good {E : Env} (hg : GoodAllocator E) (w : World) :
    (setA E w = 0 ∧ (setW E w).mem = w.mem) ∨
    (setA E w ≠ 0 ∧ (setA E w).toNat + 4096 ≤ 2 ^ 64 ∧
      (∀ x, inRange (setA E w).toNat 4096 x → w.mem x = none ∧ ((setW E w).mem x).isSome) ∧
      ∀ x, ¬ inRange (setA E w).toNat 4096 x → (setW E w).mem x = w.mem x) := by
  unfold setW
  rw [alloc0_good hg]
  have := alloc_good hg 1 w
  simpa [setA] using this

/-- Bytes accessible before keep their value. -/
def Keeps (m m' : Mem) : Prop := ∀ x, (m x).isSome → m' x = m x

theorem Keeps.refl (m : Mem) : Keeps m m := fun _ _ => rfl

theorem Keeps.trans {a b c : Mem} (h1 : Keeps a b) (h2 : Keeps b c) : Keeps a c := fun x hx => by
  rw [h2 x (by rw [h1 x hx]; exact hx), h1 x hx]

theorem set_keeps {E : Env} (hg : GoodAllocator E) (w : World) : Keeps w.mem (setW E w).mem := by
  intro x hx
  rcases set_good hg w with ⟨-, h⟩ | ⟨-, -, h1, h2⟩
  · rw [h]
  · by_cases hr : inRange (setA E w).toNat 4096 x
    · rw [(h1 x hr).1] at hx; cases hx
    · exact h2 x hr

theorem set_mapped {E : Env} (hg : GoodAllocator E) (w : World) (h0 : setA E w ≠ 0) (n : Nat) (hn : n ≤ 4096) :
    (setW E w).mem.mapped (setA E w).toNat n := by
  rcases set_good hg w with ⟨h, -⟩ | ⟨-, -, h1, -⟩
  · exact absurd h h0
  · exact mapped_iff.mpr fun i hi => (h1 _ ⟨by omega, by omega⟩).2

/-- The pages of a list of ranges avoid an address. -/
def avoids (ps : List (U64 × U16)) (x : Nat) : Prop := ∀ p ∈ ps, ¬ inRange p.1.toNat (4096 * p.2.toNat) x

theorem dealloc_keeps {E : Env} (hg : GoodAllocator E) (ps : List (U64 × U16)) (w : World) (x : Nat)
    (h : avoids ps x) : (deallocAll E ps w).mem x = w.mem x := by
  induction ps generalizing w with
  | nil => rfl
  | cons p ps ih =>
    change (deallocAll E ps (deallocW E p.1 p.2 w)).mem x = _
    rw [ih _ fun q hq => h q (by simp [hq])]
    unfold deallocW
    cases hd : E.deallocCb with
    | none => rfl
    | some f => exact hg.dealloc f hd w p.1 p.2 x (h p (by simp))

/-- The pages `SetPages` records avoid everything that was accessible. -/
theorem setAl_avoids {E : Env} (hg : GoodAllocator E) (w : World) (x : Nat) (hx : (w.mem x).isSome) :
    avoids (pagesOf (setAl E w)) x := by
  intro p hp
  unfold pagesOf setAl at hp
  simp only [List.mem_append] at hp
  rcases hp with hp | hp
  · split at hp
    · simp only [List.mem_cons, List.not_mem_nil, or_false] at hp
      subst hp
      intro hr
      rcases set_good hg w with ⟨h, -⟩ | ⟨-, -, h1, -⟩
      · contradiction
      · rw [(h1 x (by simpa using hr)).1] at hx; cases hx
    · cases hp
  · split at hp
    · simp only [List.mem_cons, List.not_mem_nil, or_false] at hp
      subst hp
      simp [inRange]
    · cases hp

theorem AllocEffect.keeps {E : Env} (hg : GoodAllocator E) {as as' : Arr3 Allocation} {w w' : World} {n : Nat}
    (h : AllocEffect E as w n as' w') : Keeps w.mem w'.mem := by
  cases h with
  | none => exact .refl _
  | one _ hn _ ht hs ho hz =>
    intro x hx
    rcases set_good hg w with ⟨h0, h⟩ | ⟨-, -, h1, h2⟩
    · rw [hz h0, h]
    · have hr : ¬ inRange (setA E w).toNat 4096 x := by
        intro hr; rw [(h1 x hr).1] at hx; cases hx
      rw [ho x (by unfold inRange at hr; omega)]
      exact set_keeps hg w x hx
  | two => exact (set_keeps hg w).trans (set_keeps hg _)
  | again => exact (set_keeps hg w).trans (set_keeps hg _)

theorem AllocEffect.avoids {E : Env} (hg : GoodAllocator E) {as as' : Arr3 Allocation} {w w' : World} {n : Nat}
    (hc : Clean as) (h : AllocEffect E as w n as' w') (x : Nat) (hx : (w.mem x).isSome) :
    avoids (livePages n as') x := by
  rw [← h.pages hc]
  obtain ⟨c0, c1, c2⟩ := (Clean_iff as).mp hc
  have hx' : ((setW E w).mem x).isSome := by rw [set_keeps hg w x hx]; exact hx
  intro p hp
  cases h with
  | none => rw [hc] at hp; cases hp
  | one => exact setAl_avoids hg w x hx p (by simpa [livePages, Arr3.toList, c1, c2] using hp)
  | two =>
    simp only [livePages, Arr3.toList, List.take, List.flatMap_cons, c2, List.flatMap_nil, List.append_nil,
      List.mem_append] at hp
    rcases hp with hp | hp
    · exact setAl_avoids hg w x hx p hp
    · exact setAl_avoids hg (setW E w) x hx' p hp
  | again => exact setAl_avoids hg (setW E w) x hx' p (by simpa [livePages, Arr3.toList, c1, c2] using hp)

/-- `Begin` changes no byte that was accessible. -/
theorem Begin_keeps {E : Env} (hg : GoodAllocator E) {t : Translation} (ht : Idle t) {w : World}
    {cdb buf : Span} {lun : U64} {r : BeginResponse} {t' : Translation} {w' : World}
    (h : t.Begin E cdb buf lun w = .ok ((r, t'), w')) : Keeps w.mem w'.mem := by
  rcases Begin_inv E t ht w cdb buf lun r t' w' h with ⟨-, -, -, rfl⟩ | ⟨-, bs, p, w1, -, -, -, hc, he, -, -, rfl⟩
  · exact .refl _
  · unfold finishW
    split
    · exact he.keeps hg
    · intro x hx
      rw [dealloc_keeps hg _ _ _ (he.avoids hg ht.clean x hx), he.keeps hg x hx]

/-- The `switch` is defined if the data buffer is accessible. -/
theorem switch_defined {E : Env} (hg : GoodAllocator E) (cdb : List Byte) (buf : Span) (nsid : U32) (p : Pipe)
    (w : World) (hc : Clean p.as) (hn : p.count = 0) (hb : accessible w.mem buf) :
    ∃ p' w', beginSwitch E (cdb.headD 0) cdb.tail buf nsid p w = .ok (p', w') := by
  rcases opcode_cases (byte cdb 0) with ho | ho | ho | ho | ho | ho | ho | ho | ho | ho | ho | ho | ho | ho
  · exact ⟨_, _, by rw [switch_unknown E cdb buf nsid p ho]; rfl⟩
  · obtain ⟨r, -, e⟩ := switch_read E cdb buf nsid p ho
    exact ⟨_, _, by rw [e]; rfl⟩
  · obtain ⟨r, -, e⟩ := switch_write E cdb buf nsid p ho
    exact ⟨_, _, by rw [e]; rfl⟩
  · exact ⟨_, _, by rw [switch_tur E cdb buf nsid p ho]; rfl⟩
  · exact ⟨_, _, by rw [switch_requestsense E cdb buf nsid p ho]; rfl⟩
  · rw [switch_inquiry E cdb buf nsid p ho]
    rcases Nat.lt_or_ge cdb.length 6 with hl | hl
    · exact ⟨_, _, inquiry_short E cdb nsid p w hl⟩
    by_cases h0 : setA E w = 0
    · exact ⟨_, _, inquiry_fail0 E cdb nsid p w hl hc h0⟩
    by_cases h1 : setA E (setW E w) = 0
    · exact ⟨_, _, inquiry_fail1 E cdb nsid p w hl hc h0 h1⟩
    · exact ⟨_, _, inquiry_ok E cdb nsid p w hl hc h0 h1⟩
  · rw [switch_modesense6 E cdb buf nsid p ho]
    obtain ⟨p1, w2, e, -⟩ := ms6_cases E cdb nsid p w (by omega)
    exact ⟨_, _, e⟩
  · rw [switch_readcapacity E cdb buf nsid p ho]
    rcases Nat.lt_or_ge cdb.length 10 with hl | hl
    · exact ⟨_, _, rc_short E cdb nsid p w hl⟩
    by_cases hd : Spec.bit cdb 9 2 = true
    · exact ⟨_, _, rc_bad E cdb nsid p w hl hd⟩
    have hd' : Spec.bit cdb 9 2 = false := by simpa using hd
    by_cases h0 : setA E w = 0
    · exact ⟨_, _, rc_fail E cdb nsid p w hl hd' (clean_e0 hc) h0⟩
    · exact ⟨_, _, rc_ok E cdb nsid p w hl hd' (clean_e0 hc) h0⟩
  · exact ⟨_, _, by rw [switch_verify E cdb buf nsid p ho]; rfl⟩
  · exact ⟨_, _, by rw [switch_sync E cdb buf nsid p ho]; rfl⟩
  · rw [switch_unmap E cdb buf nsid p ho]
    obtain ⟨data, hd⟩ := Option.isSome_iff_exists.mp (read_isSome.mpr hb)
    have fin : ∀ r w1, Unmap.UnmapToNvme E cdb.tail buf p.ws.e0 4096 nsid p.as.e0 w = .ok (r, w1) →
        ∃ p' w', beginUnmap E cdb.tail buf nsid p w = .ok (p', w') := by
      intro r w1 hr
      unfold beginUnmap
      simp only [M.bind_run, kPageSize, hr]
      obtain ⟨st, wr, a⟩ := r
      obtain ⟨p1, w2, e, -⟩ := ms6_cases E cdb nsid
        { p with status := st, count := 1, ws := { p.ws with e0 := wr }, as := { p.as with e0 := a } } w1 (by simp)
      exact ⟨_, _, e⟩
    rcases Unmap_run E cdb data buf p.ws.e0 nsid p.as.e0 (clean_e0 hc) w hd with
      ⟨-, st, -, h⟩ | ⟨rs, -, -, h⟩ | ⟨rs, -, h1, h2, h0, ds, -, -, h⟩
    · exact fin _ _ h
    · exact fin _ _ h
    · exact fin _ _ (h (set_mapped hg w h0 _ (by omega)))
  · rw [switch_modesense10 E cdb buf nsid p ho]
    obtain ⟨p1, hp1, e1⟩ := ms10_run E cdb nsid p w hn (clean_e0 hc)
    rw [e1]
    obtain ⟨p2, w2, e2, -⟩ := rl_cases E cdb p1 (if ms10Alloc cdb then setW E w else w)
    exact ⟨_, _, e2⟩
  · rw [switch_reportluns E cdb buf nsid p ho]
    obtain ⟨p2, w2, e2, -⟩ := rl_cases E cdb p w
    exact ⟨_, _, e2⟩
  · rw [switch_maintenance E cdb buf nsid p ho]
    obtain ⟨st, al, e1⟩ := maint_run E cdb p
    rw [e1]
    obtain ⟨p2, w2, e2, -⟩ := rl_cases E cdb { p with status := st, count := 0, alloc_len := al } w
    exact ⟨_, _, e2⟩

/-- `Begin` on an idle object is defined if CDB and data buffer are accessible. -/
theorem Begin_defined {E : Env} (hg : GoodAllocator E) {t : Translation} (ht : Idle t) (w : World)
    (cdb buf : Span) (lun : U64) (hc : accessible w.mem cdb) (hb : accessible w.mem buf) :
    ∃ r t' w', t.Begin E cdb buf lun w = .ok ((r, t'), w') := by
  by_cases hl : cdb.len = 0
  · refine ⟨⟨.kSuccess, 0⟩, { t with pipeline_status := .kFailure }, w, ?_⟩
    unfold Translation.Begin
    rw [if_neg (by simp [ht.status]), if_pos hl]
    rfl
  · obtain ⟨bs, hd⟩ := Option.isSome_iff_exists.mp (read_isSome.mpr hc)
    have hbl := read_length hd
    obtain ⟨p, w1, hs⟩ := switch_defined hg bs buf (nsidOf lun) (startPipe t) w ht.clean ht.count hb
    obtain ⟨hcn, -⟩ := switch_effect E bs buf (nsidOf lun) (startPipe t) w ht.clean ht.count p w1 hs
    have := Begin_run E t ht w cdb.ptr bs (by rw [hbl]; exact hd)
      (by intro hn; rw [hn] at hbl; exact hl hbl.symm) buf lun p w1 hs hcn
    rw [hbl] at this
    exact ⟨_, _, _, this⟩

end Scsi2Nvme
