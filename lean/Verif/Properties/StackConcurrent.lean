import Verif.Properties.Stack
import Verif.Properties.ModuleBalance
/-!
# C105: the whole stack, used concurrently
-/

namespace Scsi2Nvme
open Spec Engine Module Driver

variable {ι σ τ β : Type}

/-! ## Simulation -/

theorem advance_simulates {f : σ → τ} {D : Device σ} {D' : Device τ} (h : Simulates f D D') (E : Env) (g : Args) (s : σ) (ph : Engine.Phase)
    (w : World) : Engine.advance E D' g (f s) ph w = mapState f (Engine.advance E D g s ph w) := by
  cases ph with
  | called =>
    simp only [Engine.advance, M.bind_run]
    cases (Translation.init g.ws).Begin E ⟨g.cmd_buf, g.cmd_len.toNat⟩ ⟨g.data_buf, g.data_len.toNat⟩ g.lun w with
    | error e => rfl
    | ok y =>
      obtain ⟨⟨r, t1⟩, w1⟩ := y
      simp only
      split
      · rfl
      · split <;> rfl
  | returned r => rfl
  | waiting r t todo cs =>
    cases todo with
    | cons wr todo =>
      simp only [Engine.advance, M.bind_run, M.get_run, M.pure_run, mapState]
      obtain ⟨h1, h2⟩ := h s w.mem (submissionOf wr)
      rw [h1, h2]
    | nil =>
      simp only [Engine.advance, M.bind_run]
      cases t.Complete E cs (if g.is_data_in = true then ⟨g.data_buf, r.alloc_len.toNat⟩ else Span.null) ⟨g.sense_buf, g.sense_len.toNat⟩ w with
      | error e => rfl
      | ok y =>
        obtain ⟨⟨c, t2⟩, w3⟩ := y
        simp only
        split <;> rfl

theorem madvance_simulates {f : σ → τ} {D : Device σ} {D' : Device τ} (h : Simulates f D D') (K : Kernel) (junk : World → Nat → Byte)
    (ws : Arr3 NvmeCmdWrapper) (uninit : U64) (c : ScsiCmnd) (s : σ) (ph : Module.Phase) (w : World) :
    Module.advance K junk D' ws uninit c (f s) ph w = mapState f (Module.advance K junk D ws uninit c s ph w) := by
  cases ph with
  | queued =>
    simp only [Module.advance]
    split
    · rfl
    · simp only [M.bind_run, Module.kzalloc]
      split
      · rfl
      · split
        · rfl
        · simp only [M.bind_run]
          cases store (K.kzalloc w (dataLen c).toNat).1 (c.sg.take (dataLen c).toNat) { w with mem := (K.kzalloc w (dataLen c).toNat).2 } with
          | error e => rfl
          | ok y => rfl
  | done o => rfl
  | engine b ph =>
    cases ph with
    | returned r =>
      simp only [Module.advance]
      split
      · rfl
      · split
        · simp only [M.bind_run, load]
          cases w.mem.read b (min r.alloc_len c.sg.length) with
          | none => rfl
          | some bs => rfl
        · rfl
    | called =>
      simp only [Module.advance, M.bind_run, advance_simulates h]
      cases Engine.advance (Module.env K junk) D (engineArgs ws c b) s .called w with
      | error e => rfl
      | ok y => rfl
    | waiting r t todo cs =>
      simp only [Module.advance, M.bind_run, advance_simulates h]
      cases Engine.advance (Module.env K junk) D (engineArgs ws c b) s (.waiting r t todo cs) w with
      | error e => rfl
      | ok y => rfl

/-- The host with the state of the device seen through `f`. -/
def Spec.Host.through (f : σ → τ) (y : Host ι σ) : Host ι τ := ⟨f y.dev, y.world, y.phase⟩

theorem hrun_simulates [DecidableEq ι] {f : σ → τ} {D : Device σ} {D' : Device τ} (h : Simulates f D D') (K : Kernel) (junk : World → Nat → Byte)
    (c : ι → Command) (y : Host ι σ) (sched : List ι) :
    (y.through f).run K junk D' c sched = match y.run K junk D c sched with
      | .error e => .error e
      | .ok y' => .ok (y'.through f) := by
  induction sched generalizing y with
  | nil => rfl
  | cons i is ih =>
    unfold Host.run Host.step
    simp only [Host.through]
    rw [madvance_simulates h]
    cases Module.advance K junk D (c i).ws (c i).uninit (c i).cmd y.dev (y.phase i) y.world with
    | error e => rfl
    | ok z =>
      obtain ⟨⟨ph, s⟩, w⟩ := z
      simp only [mapState]
      exact ih ⟨s, w, fun j => if j = i then ph else y.phase j⟩

theorem hrun_through [DecidableEq ι] {f : σ → τ} {D : Device σ} {D' : Device τ} (h : Simulates f D D') {K : Kernel} {junk : World → Nat → Byte}
    {c : ι → Command} {s : σ} {m : Mem} {tr : List Event} {sched : List ι} {y : Host ι σ} (hr : (Host.start s m tr).run K junk D c sched = .ok y) :
    (Host.start (f s) m tr).run K junk D' c sched = .ok (y.through f) := by
  have := hrun_simulates h K junk c (Host.start s m tr) sched
  rw [hr] at this
  exact this

theorem refused_through [DecidableEq ι] {f : σ → τ} {D : Device σ} {D' : Device τ} (h : Simulates f D D') {K : Kernel} {junk : World → Nat → Byte}
    {c : ι → Command} {s : σ} {m : Mem} {tr : List Event} {sched : List ι} {i : ι} :
    Refused K junk D' c (Host.start (f s) m tr) sched i ↔ Refused K junk D c (Host.start s m tr) sched i := by
  constructor
  · rintro ⟨b, a, y', h1, h2, h3, h4⟩
    have := hrun_simulates h K junk c (Host.start s m tr) b
    change (Host.start (f s) m tr).run K junk D' c b = _ at this
    rw [h2] at this
    split at this
    · cases this
    · rename_i y e
      cases this
      exact ⟨b, a, y, h1, e, h3, h4⟩
  · rintro ⟨b, a, y', h1, h2, h3, h4⟩
    exact ⟨b, a, y'.through f, h1, hrun_through h h2, h3, h4⟩

/-! ## The requests -/

theorem device_requests (B : BlockLayer β) (st : State β) (m : Mem) (sub : Submission) (n : Nat) (hn : requestsOut st.reqs = some n) :
    requestsOut (device B st m sub).1.reqs = some n := by
  obtain ⟨h1, h2⟩ := C70_submission B st m sub
  by_cases hr : reaches B st.blk sub
  · rw [(h1 hr).2]
    simp [requestsOut, hn]
  · rcases (h2 hr).2.2 with e | e
    · rw [e]; exact hn
    · rw [e]
      simp [requestsOut, hn]

/-- A property of the state of the device which every submission keeps holds through a run. -/
theorem hrun_dev [DecidableEq ι] {D : Device σ} (P : σ → Prop) (hP : ∀ s m sub, P s → P (D s m sub).1) (K : Kernel) (junk : World → Nat → Byte)
    (c : ι → Command) (sched : List ι) (y y' : Host ι σ) (h : y.run K junk D c sched = .ok y') (h0 : P y.dev) : P y'.dev := by
  have eng : ∀ (E : Env) (g : Args) (s : σ) (ph : Engine.Phase) (w : World) ph' s' w',
      Engine.advance E D g s ph w = .ok ((ph', s'), w') → P s → P s' := by
    intro E g s ph w ph' s' w' h hs
    cases ph with
    | called =>
      simp only [Engine.advance, M.bind_run] at h
      split at h
      · cases h
      · split at h
        · cases h; exact hs
        · split at h <;> (cases h; exact hs)
    | returned r => cases h; exact hs
    | waiting r t todo cs =>
      cases todo with
      | cons wr todo =>
        cases h
        exact hP _ _ _ hs
      | nil =>
        simp only [Engine.advance, M.bind_run] at h
        split at h
        · cases h
        · split at h <;> (cases h; exact hs)
  have mod : ∀ (ws : Arr3 NvmeCmdWrapper) (u : U64) (cmd : ScsiCmnd) (s : σ) (ph : Module.Phase) (w : World) ph' s' w',
      Module.advance K junk D ws u cmd s ph w = .ok ((ph', s'), w') → P s → P s' := by
    intro ws u cmd s ph w ph' s' w' h hs
    cases ph with
    | queued =>
      simp only [Module.advance] at h
      split at h
      · cases h; exact hs
      · simp only [M.bind_run, Module.kzalloc] at h
        split at h
        · cases h; exact hs
        · split at h
          · cases h; exact hs
          · simp only [M.bind_run] at h
            split at h
            · cases h
            · cases h; exact hs
    | done o => cases h; exact hs
    | engine b ph =>
      cases ph with
      | returned r =>
        simp only [Module.advance] at h
        split at h
        · cases h; exact hs
        · split at h
          · simp only [M.bind_run] at h
            split at h
            · cases h
            · cases h; exact hs
          · cases h; exact hs
      | called =>
        simp only [Module.advance, M.bind_run] at h
        split at h
        · cases h
        · rename_i e
          cases h
          exact eng _ _ _ _ _ _ _ _ e hs
      | waiting r t todo cs =>
        simp only [Module.advance, M.bind_run] at h
        split at h
        · cases h
        · rename_i e
          cases h
          exact eng _ _ _ _ _ _ _ _ e hs
  induction sched generalizing y with
  | nil => cases h; exact h0
  | cons i is ih =>
    unfold Host.run Host.step at h
    split at h
    · cases h
    · rename_i e
      split at e
      · cases e
      · rename_i e'
        cases e
        exact ih _ h (mod _ _ _ _ _ _ _ _ _ e' h0)

/-- **C105 (requests).** Commands handed to the kernel module in any interleaving, over any block layer whatever fails in it: at any
moment, every request the driver obtained from the block layer has been given back. -/
theorem C105_requests [DecidableEq ι] (K : Kernel) (junk : World → Nat → Byte) (B : BlockLayer β) (c : ι → Command) (st : State β) (m : Mem)
    (tr : List Event) (sched : List ι) (y : Host ι (State β)) (h : (Host.start st m tr).run K junk (device B) c sched = .ok y) (n : Nat)
    (hn : requestsOut st.reqs = some n) : requestsOut y.dev.reqs = some n :=
  hrun_dev (fun s => requestsOut s.reqs = some n) (fun s m sub hs => device_requests B s m sub n hs) K junk c sched _ y h hn

/-! ## The disks -/

/-- **C105.** The whole stack - kernel module, engine, library and driver - used concurrently, over a block layer in which nothing fails
and which keeps the data of the disks: in any interleaving the commands have the outcomes and the effect on the disks which they have when
executed one after the other in some order (C101), in which a command that is done comes before one that has not begun. -/
theorem C105_linearizable [DecidableEq ι] (cap : Nat → Nat) (ident feature) (K : Kernel) (hK : GoodKernel K) (junk : World → Nat → Byte)
    (B : BlockLayer β) (hR : Reliable B) (disks : β → Disk) (D : Device Disk) (hB : Backed B disks D)
    (hS : Storage D cap) (hC : Controller D ident feature) (hT : tidy D)
    (c : ι → Command) (m : Mem) (hc : Disjoint c m) (st : State β) (tr : List Event) (sched₁ sched₂ : List ι) (y₁ y₂ : Host ι (State β))
    (h₁ : (Host.start st m tr).run K junk (device B) c sched₁ = .ok y₁)
    (h₂ : (Host.start st m tr).run K junk (device B) c (sched₁ ++ sched₂) = .ok y₂) :
    ∃ order₁ order₂ out, Accounts y₁ order₁ out ∧ Accounts y₂ (order₁ ++ order₂) out ∧
      InTurn (fun l => cap (l + 1)) (Refused K junk (device B) c (Host.start st m tr) sched₁) c out
        (fun l a => disks st.blk (l + 1) a) order₁ (fun l a => disks y₁.dev.blk (l + 1) a) ∧
      InTurn (fun l => cap (l + 1)) (Refused K junk (device B) c (Host.start st m tr) (sched₁ ++ sched₂)) c out
        (fun l a => disks st.blk (l + 1) a) (order₁ ++ order₂) (fun l a => disks y₂.dev.blk (l + 1) a) := by
  have hs := backed_simulates hB hR
  obtain ⟨o1, o2, out, a1, a2, t1, t2⟩ := C101_linearizable cap ident feature K hK junk D hS hC hT c m hc _ tr sched₁ sched₂ _ _
    (hrun_through hs h₁) (hrun_through hs h₂)
  exact ⟨o1, o2, out, ⟨a1.once, a1.begun, a1.done⟩, ⟨a2.once, a2.begun, a2.done⟩, t1.mono fun i h => (refused_through hs).mp h,
    t2.mono fun i h => (refused_through hs).mp h⟩

/-- **C105 (the last write is read)**, through the whole stack: as C102. -/
theorem C105_read_after_write [DecidableEq ι] (cap : Nat → Nat) (ident feature) (K : Kernel) (hK : GoodKernel K) (junk : World → Nat → Byte)
    (B : BlockLayer β) (hRe : Reliable B) (disks : β → Disk) (D : Device Disk) (hB : Backed B disks D)
    (hS : Storage D cap) (hC : Controller D ident feature) (hT : tidy D)
    (c : ι → Command) (m : Mem) (hc : Disjoint c m) (st : State β) (tr : List Event) (sched₁ sched₂ : List ι) (y₁ y₂ : Host ι (State β))
    (h₁ : (Host.start st m tr).run K junk (device B) c sched₁ = .ok y₁)
    (h₂ : (Host.start st m tr).run K junk (device B) c (sched₁ ++ sched₂) = .ok y₂)
    (W R : ι) (oW oR : Module.Outcome) (hWd : y₁.phase W = .done oW) (hRn : y₁.phase R = .queued ∨ ∃ b, y₁.phase R = .engine b .called)
    (hRd : y₂.phase R = .done oR) (lba n : Nat)
    (hW : isWrite (byte (c W).cdb 0)) (hWa : (c W).asks (cap ((c W).cmd.lun.toNat + 1)) lba n)
    (hR : isRead (byte (c R).cdb 0)) (hRa : (c R).asks (cap ((c W).cmd.lun.toNat + 1)) lba n) (hlun : (c R).cmd.lun = (c W).cmd.lun)
    (ho : ∀ j, j ≠ W → Command.sparing (c j) (fun l => cap (l + 1)) (c W).cmd.lun.toNat lba n)
    (hWm : ¬ Refused K junk (device B) c (Host.start st m tr) (sched₁ ++ sched₂) W)
    (hRm : ¬ Refused K junk (device B) c (Host.start st m tr) (sched₁ ++ sched₂) R) :
    oW.result = 0 ∧ oR.result = 0 ∧ oR.sg = (c W).cmd.sg.take (4096 * n) ++ (c R).cmd.sg.drop (4096 * n) ∧
      oR.resid = some (((c R).cmd.sg.length : Int) - 4096 * n) := by
  have hs := backed_simulates hB hRe
  exact C102_read_after_write cap ident feature K hK junk D hS hC hT c m hc _ tr sched₁ sched₂ _ _ (hrun_through hs h₁) (hrun_through hs h₂)
    W R oW oR hWd hRn hRd lba n hW hWa hR hRa hlun ho (fun h => hWm ((refused_through hs).mp h)) (fun h => hRm ((refused_through hs).mp h))

/-- **C105 (durability and atomicity)**, through the whole stack, at any moment, in particular if the machine stops there: the blocks of
a correct WRITE which no other command writes hold its data or what they held before - its data, if it is done with result 0. -/
theorem C105_atomic [DecidableEq ι] (cap : Nat → Nat) (ident feature) (K : Kernel) (hK : GoodKernel K) (junk : World → Nat → Byte)
    (B : BlockLayer β) (hRe : Reliable B) (disks : β → Disk) (D : Device Disk) (hB : Backed B disks D)
    (hS : Storage D cap) (hC : Controller D ident feature) (hT : tidy D)
    (c : ι → Command) (m : Mem) (hc : Disjoint c m) (st : State β) (tr : List Event) (sched : List ι) (y : Host ι (State β))
    (h : (Host.start st m tr).run K junk (device B) c sched = .ok y) (W : ι) (lba n : Nat)
    (op : isWrite (byte (c W).cdb 0)) (hWa : (c W).asks (cap ((c W).cmd.lun.toNat + 1)) lba n)
    (ho : ∀ j, j ≠ W → Command.sparing (c j) (fun l => cap (l + 1)) (c W).cmd.lun.toNat lba n) :
    let before := Disk.read (disks st.blk) ((c W).cmd.lun.toNat + 1) (4096 * lba) (4096 * n)
    let now := Disk.read (disks y.dev.blk) ((c W).cmd.lun.toNat + 1) (4096 * lba) (4096 * n)
    (now = before ∨ now = (c W).cmd.sg.take (4096 * n)) ∧
      ∀ o, y.phase W = .done o → o.result = 0 → now = (c W).cmd.sg.take (4096 * n) := by
  have hs := backed_simulates hB hRe
  refine ⟨C102_atomic cap ident feature K hK junk D hS hC hT c m hc _ tr sched _ (hrun_through hs h) W lba n op hWa ho, fun o hp h0 => ?_⟩
  rcases (C102_durable cap ident feature K hK junk D hS hC hT c m hc _ tr sched _ (hrun_through hs h) W o hp lba n op hWa ho).2 with ⟨-, e, -⟩ | ⟨-, e⟩
  · rw [h0] at e; cases e
  · exact e

/-- **C105 (information commands)**, through the whole stack: as C103. -/
theorem C105_queries [DecidableEq ι] (cap : Nat → Nat) (ident feature) (K : Kernel) (hK : GoodKernel K) (junk : World → Nat → Byte)
    (B : BlockLayer β) (hRe : Reliable B) (disks : β → Disk) (D : Device Disk) (hB : Backed B disks D)
    (hS : Storage D cap) (hC : Controller D ident feature) (hT : tidy D)
    (c : ι → Command) (m : Mem) (hc : Disjoint c m) (st : State β) (tr : List Event) (sched : List ι) (y : Host ι (State β))
    (h : (Host.start st m tr).run K junk (device B) c sched = .ok y)
    (hG : ∃ evs, y.world.trace = evs ++ tr ∧ pagesGranted (Module.env K junk) evs)
    (i : ι) (o : Module.Outcome) (hp : y.phase i = .done o) (hr : ¬ Refused K junk (device B) c (Host.start st m tr) sched i) (Q : Query)
    (hQ : query (c i).cdb (nsidOfLun (c i).cmd.lun) ident feature = some Q) (hl : Q.len ≤ (c i).cmd.sg.length % 65536) :
    Replied (c i) Q o := by
  have hs := backed_simulates hB hRe
  exact C103_isolated cap ident feature K hK junk D hS hC hT c m hc _ tr sched _ (hrun_through hs h) hG i o hp
    (fun h => hr ((refused_through hs).mp h)) Q hQ hl

/-- **C105 (no leak)**, through the whole stack: as C104. -/
theorem C105_no_leak [DecidableEq ι] (cap : Nat → Nat) (ident feature) (K : Kernel) (hK : GoodKernel K) (junk : World → Nat → Byte)
    (B : BlockLayer β) (hRe : Reliable B) (disks : β → Disk) (D : Device Disk) (hB : Backed B disks D)
    (hS : Storage D cap) (hC : Controller D ident feature) (hT : tidy D)
    (c : ι → Command) (m : Mem) (hc : Disjoint c m) (hl : ∀ i, allocationLength (c i).cdb ≤ (c i).cmd.sg.length % 65536)
    (st : State β) (tr : List Event) (sched : List ι) (y : Host ι (State β))
    (h : (Host.start st m tr).run K junk (device B) c sched = .ok y) (hd : ∀ i, ¬ y.busy i) (a : Nat) :
    (y.world.mem a).isSome = (m a).isSome :=
  C104_no_leak cap ident feature K hK junk D hS hC hT c m hc hl _ tr sched _ (hrun_through (backed_simulates hB hRe) h) hd a

/-- **C105 (safety).** No interleaving of `steady` commands has undefined behaviour, and a command is done after at most seven turns. -/
theorem C105_defined [DecidableEq ι] (cap : Nat → Nat) (ident feature) (K : Kernel) (hK : GoodKernel K) (junk : World → Nat → Byte)
    (B : BlockLayer β) (hRe : Reliable B) (disks : β → Disk) (D : Device Disk) (hB : Backed B disks D)
    (hS : Storage D cap) (hC : Controller D ident feature) (hT : tidy D)
    (c : ι → Command) (m : Mem) (hc : Disjoint c m) (hop : ∀ i, steady (c i).cdb (ident (nsidOfLun (c i).cmd.lun) 0))
    (st : State β) (tr : List Event) (sched : List ι) : ∃ y, (Host.start st m tr).run K junk (device B) c sched = .ok y ∧
      ∀ i, 7 ≤ sched.count i → ∃ o, y.phase i = .done o := by
  obtain ⟨y, h⟩ := C103_defined cap ident feature K hK junk D hS hC hT c m hc hop (disks st.blk) tr sched
  have := hrun_simulates (backed_simulates hB hRe) K junk c (Host.start st m tr) sched
  change (Host.start (disks st.blk) m tr).run K junk D c sched = _ at this
  rw [h] at this
  split at this
  · cases this
  · rename_i y' e
    exact ⟨y', e, fun i hi => C101_wait_free _ _ _ _ _ _ _ _ _ e i hi⟩

/-- The hypotheses are met: WRITE, READ and INQUIRY through the whole stack, in any interleaving in which each gets seven turns. -/
example (cap : Nat → Nat) (hcap : 100 ≤ cap 4) (ident : Nat → Nat → List Byte) (feature : Nat → Nat → Nat → Nat)
    (hs : ∀ n c, (ident n c).length = 4096) (d : Disk) (sg : Fin 3 → List Byte) (h0 : (sg 0).length = 8192) (h1 : (sg 1).length = 12288)
    (h2 : (sg 2).length = 200) (sched : List (Fin 3)) (hn : ∀ i, 7 ≤ sched.count i) :
    ∃ y oW oR oI, (Host.start ⟨d, []⟩ demoShared []).run demoKernel3 (fun _ _ => 0) (device (diskLayer (demoTarget cap ident feature)))
        (demoTrio sg) sched = .ok y ∧ y.phase 0 = .done oW ∧ y.phase 1 = .done oR ∧ y.phase 2 = .done oI ∧
      (∀ a, (y.world.mem a).isSome = (demoShared a).isSome) ∧ requestsOut y.dev.reqs = some 0 ∧
      (Disk.read y.dev.blk 4 (4096 * 9) (4096 * 2) = Disk.read d 4 (4096 * 9) (4096 * 2) ∨
        Disk.read y.dev.blk 4 (4096 * 9) (4096 * 2) = (sg 0).take (4096 * 2)) ∧
      (oW.result = 0 → Disk.read y.dev.blk 4 (4096 * 9) (4096 * 2) = (sg 0).take (4096 * 2)) := by
  have hS := demoTarget_storage cap ident feature
  have hC := demoTarget_controller cap ident feature hs
  have hT := demoTarget_tidy cap ident feature
  have hR := diskLayer_reliable (demoTarget cap ident feature)
  have hB := diskLayer_backed (demoTarget cap ident feature)
  have hD : Disjoint (demoTrio sg) demoShared := demoTrio_disjoint sg (by
    intro i
    match i with
    | 0 => exact ⟨fun _ => by omega, by omega⟩
    | 1 => exact ⟨fun _ => by omega, by omega⟩
    | 2 => exact ⟨fun h => absurd rfl h, by omega⟩)
  have hop : ∀ i page, steady (demoTrio sg i).cdb page := fun i => steady_of (demoCalls_blocks i).2.1
  obtain ⟨y, r, hd⟩ := C105_defined cap ident feature demoKernel3 demoKernel3_good (fun _ _ => 0) _ hR id _ hB hS hC hT (demoTrio sg) demoShared hD
    (fun i => hop i _) ⟨d, []⟩ [] sched
  obtain ⟨oW, p0⟩ := hd 0 (hn 0)
  obtain ⟨oR, p1⟩ := hd 1 (hn 1)
  obtain ⟨oI, p2⟩ := hd 2 (hn 2)
  have aW : (demoTrio sg 0).asks (cap 4) 9 2 :=
    ⟨⟨9, 2, some 0, false⟩, (by decide +kernel : decodeRw (demoBlocks 0) = _), by intro c h; cases h; decide, rfl, rfl, by decide,
      (by change 4096 * 2 ≤ (sg 0).length; omega), by omega⟩
  have ho : ∀ j : Fin 3, j ≠ 0 → Command.sparing (demoTrio sg j) (fun l => cap (l + 1)) (demoTrio sg 0).cmd.lun.toNat 9 2 := by
    intro j hj hw
    match j with
    | 0 => exact absurd rfl hj
    | 1 => exact absurd (show isWrite (byte (demoBlocks 1) 0) from hw) (by decide)
    | 2 => exact absurd (show isWrite (byte (demoBlocks 2) 0) from hw) (by decide)
  obtain ⟨g1, g2⟩ := C105_atomic cap ident feature demoKernel3 demoKernel3_good (fun _ _ => 0) _ hR id _ hB hS hC hT (demoTrio sg) demoShared hD
    ⟨d, []⟩ [] sched y r 0 9 2 (by decide : isWrite (byte (demoBlocks 0) 0)) aW ho
  refine ⟨y, oW, oR, oI, r, p0, p1, p2, ?_, ?_, g1, g2 oW p0⟩
  · refine C105_no_leak cap ident feature demoKernel3 demoKernel3_good (fun _ _ => 0) _ hR id _ hB hS hC hT (demoTrio sg) demoShared hD (fun i => ?_)
      ⟨d, []⟩ [] sched y r fun i hi => ?_
    · match i with
      | 0 => exact Nat.zero_le _
      | 1 => exact Nat.zero_le _
      | 2 =>
        change 96 ≤ (sg 2).length % 65536
        rw [h2]
        decide
    · obtain ⟨o, p⟩ := hd i (hn i)
      exact hi.2 o p
  · exact C105_requests _ _ _ _ ⟨d, []⟩ _ _ _ _ r 0 rfl

end Scsi2Nvme
