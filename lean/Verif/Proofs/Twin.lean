import Verif.Properties.Commands
/-!
# Two runs of the `switch` from objects with different pasts
-/

namespace Scsi2Nvme
open Spec

/-- Two idle starting points. -/
structure Pre (p q : Pipe) : Prop where
  status : p.status = q.status
  cp : p.count = 0
  cq : q.count = 0
  al : p.alloc_len = q.alloc_len
  ap : Clean p.as
  aq : Clean q.as

/-- Two results which cannot be told apart through the interface. -/
structure Twin (p q : Pipe) : Prop where
  status : p.status = q.status
  count : p.count = q.count
  al : p.alloc_len = q.alloc_len
  pages : livePages p.count p.as = livePages q.count q.as
  cmds : p.status = .kSuccess →
    (p.ws.toList.take p.count).map (fun x => (x.cmd, x.is_admin))
      = (q.ws.toList.take q.count).map (fun x => (x.cmd, x.is_admin))

theorem live_e0 {as : Arr3 Allocation} (h : Clean as) (x : Allocation) (n : Nat) (hn : 1 ≤ n) :
    livePages n { as with e0 := x } = pagesOf x := by
  obtain ⟨h0, h1, h2⟩ := (Clean_iff as).mp h
  have : n = 1 ∨ n = 2 ∨ n ≥ 3 := by omega
  rcases this with rfl | rfl | hn
  · simp [livePages, Arr3.toList]
  · simp [livePages, Arr3.toList, h1]
  · simp [livePages, Arr3.toList, List.take_of_length_le, hn, h1, h2]

theorem live_e01 {as : Arr3 Allocation} (x y : Allocation) :
    livePages 2 { as with e0 := x, e1 := y } = pagesOf x ++ pagesOf y := by
  simp [livePages, Arr3.toList]

theorem live_clean2 {as bs : Arr3 Allocation} (h : Clean as) (h' : Clean bs) (n m : Nat) :
    livePages n as = livePages m bs := by
  rw [livePages_mono_nil h, livePages_mono_nil h']

/-- One step of both runs. -/
def TwinRun (x y : M Pipe) (w : World) : Prop :=
  ∀ p w1 q w2, x w = .ok (p, w1) → y w = .ok (q, w2) → w1 = w2 ∧ Twin p q

theorem TwinRun.intro {x y : M Pipe} {w : World} {p q : Pipe} {w1 : World} (hx : x w = .ok (p, w1))
    (hy : y w = .ok (q, w1)) (h : Twin p q) : TwinRun x y w := by
  intro p' w1' q' w2' h1 h2
  rw [hx] at h1
  rw [hy] at h2
  cases h1
  cases h2
  exact ⟨rfl, h⟩

/-! ## READ and WRITE -/

theorem LegacyRead_twin (a b : NvmeCmdWrapper) (nsid : U32) (tl : U16) (sz : U32) (buf : Span) :
    (Read.LegacyRead a nsid tl sz buf).1 = (Read.LegacyRead b nsid tl sz buf).1 ∧
    (Read.LegacyRead a nsid tl sz buf).2.2 = (Read.LegacyRead b nsid tl sz buf).2.2 ∧
    ((Read.LegacyRead a nsid tl sz buf).1 = .kSuccess →
      (Read.LegacyRead a nsid tl sz buf).2.1 = (Read.LegacyRead b nsid tl sz buf).2.1) := by
  unfold Read.LegacyRead
  simp only
  split <;> simp

theorem Read_twin (rp : Byte) (fua : Bool) (tl : U32) (a b : NvmeCmdWrapper) (nsid sz : U32) (buf : Span)
    (al : U32) :
    (Read.Read rp fua tl a nsid sz buf al).1 = (Read.Read rp fua tl b nsid sz buf al).1 ∧
    (Read.Read rp fua tl a nsid sz buf al).2.2 = (Read.Read rp fua tl b nsid sz buf al).2.2 ∧
    ((Read.Read rp fua tl a nsid sz buf al).1 = .kSuccess →
      (Read.Read rp fua tl a nsid sz buf al).2.1 = (Read.Read rp fua tl b nsid sz buf al).2.1) := by
  unfold Read.Read
  split
  · simp
  split
  · simp
  have h := LegacyRead_twin a b nsid ((tl &&& 0xffff#32).setWidth 16) sz buf
  simp only
  generalize Read.LegacyRead a nsid ((tl &&& 0xffff#32).setWidth 16) sz buf = x at h ⊢
  generalize Read.LegacyRead b nsid ((tl &&& 0xffff#32).setWidth 16) sz buf = y at h ⊢
  obtain ⟨s1, w1, l1⟩ := x
  obtain ⟨s2, w2, l2⟩ := y
  simp only at h
  obtain ⟨rfl, rfl, h3⟩ := h
  cases s1 <;> simp
  have := h3 rfl
  subst this
  simp

/-- The results of a READ translator for two wrappers. -/
def RTwin (x y : StatusCode × NvmeCmdWrapper × U32) : Prop :=
  x.1 = y.1 ∧ x.2.2 = y.2.2 ∧ (x.1 = .kSuccess → x.2.1 = y.2.1)

theorem RTwin.run (E : Env) {x y : StatusCode × NvmeCmdWrapper × U32} (h : RTwin x y) {p q : Pipe} (hp : Pre p q)
    (w : World) : TwinRun (pure (beginRead x p)) (pure (beginRead y q)) w := by
  refine TwinRun.intro rfl rfl ⟨h.1, rfl, h.2.1, live_clean2 hp.ap hp.aq _ _, fun hs => ?_⟩
  have := h.2.2 hs
  simp only [beginRead, take_one, this]

theorem Read6_twin (cmd : List Byte) (a b : NvmeCmdWrapper) (nsid sz : U32) (buf : Span) (al : U32) :
    RTwin (Read.Read6ToNvme cmd a nsid sz buf al) (Read.Read6ToNvme cmd b nsid sz buf al) := by
  unfold Read.Read6ToNvme
  cases readValue Scsi.Read6Command.size Scsi.Read6Command.ofBytes cmd with
  | none => simp [RTwin]
  | some c =>
    simp only
    generalize (if c.transfer_length = 0 then 256#16 else c.transfer_length.setWidth 16) = tl
    have h := LegacyRead_twin a b nsid tl sz buf
    generalize Read.LegacyRead a nsid tl sz buf = x at h ⊢
    generalize Read.LegacyRead b nsid tl sz buf = y at h ⊢
    obtain ⟨s1, w1, l1⟩ := x
    obtain ⟨s2, w2, l2⟩ := y
    simp only at h
    obtain ⟨rfl, rfl, h3⟩ := h
    cases s1 <;> simp [RTwin]
    have := h3 rfl
    subst this
    simp

theorem Read10_twin (cmd : List Byte) (a b : NvmeCmdWrapper) (nsid sz : U32) (buf : Span) (al : U32) :
    RTwin (Read.Read10ToNvme cmd a nsid sz buf al) (Read.Read10ToNvme cmd b nsid sz buf al) := by
  unfold Read.Read10ToNvme
  cases readValue Scsi.Read10Command.size Scsi.Read10Command.ofBytes cmd with
  | none => simp [RTwin]
  | some c =>
    simp only
    have h := Read_twin (c.rd_protect.setWidth 8) (c.fua == 1) ((ntohs c.transfer_length).setWidth 32) a b nsid sz buf al
    generalize Read.Read _ _ _ a nsid sz buf al = x at h ⊢
    generalize Read.Read _ _ _ b nsid sz buf al = y at h ⊢
    obtain ⟨s1, w1, l1⟩ := x
    obtain ⟨s2, w2, l2⟩ := y
    simp only at h
    obtain ⟨rfl, rfl, h3⟩ := h
    cases s1 <;> simp [RTwin]
    have := h3 rfl
    subst this
    simp

theorem Read12_twin (cmd : List Byte) (a b : NvmeCmdWrapper) (nsid sz : U32) (buf : Span) (al : U32) :
    RTwin (Read.Read12ToNvme cmd a nsid sz buf al) (Read.Read12ToNvme cmd b nsid sz buf al) := by
  unfold Read.Read12ToNvme
  cases readValue Scsi.Read12Command.size Scsi.Read12Command.ofBytes cmd with
  | none => simp [RTwin]
  | some c =>
    simp only
    have h := Read_twin (c.rd_protect.setWidth 8) (c.fua == 1) (ntohl c.transfer_length) a b nsid sz buf al
    generalize Read.Read _ _ _ a nsid sz buf al = x at h ⊢
    generalize Read.Read _ _ _ b nsid sz buf al = y at h ⊢
    obtain ⟨s1, w1, l1⟩ := x
    obtain ⟨s2, w2, l2⟩ := y
    simp only at h
    obtain ⟨rfl, rfl, h3⟩ := h
    cases s1 <;> simp [RTwin]
    have := h3 rfl
    subst this
    simp

theorem Read16_twin (cmd : List Byte) (a b : NvmeCmdWrapper) (nsid sz : U32) (buf : Span) (al : U32) :
    RTwin (Read.Read16ToNvme cmd a nsid sz buf al) (Read.Read16ToNvme cmd b nsid sz buf al) := by
  unfold Read.Read16ToNvme
  cases readValue Scsi.Read16Command.size Scsi.Read16Command.ofBytes cmd with
  | none => simp [RTwin]
  | some c =>
    simp only
    have h := Read_twin (c.rd_protect.setWidth 8) (c.fua == 1) (ntohl c.transfer_length) a b nsid sz buf al
    generalize Read.Read _ _ _ a nsid sz buf al = x at h ⊢
    generalize Read.Read _ _ _ b nsid sz buf al = y at h ⊢
    obtain ⟨s1, w1, l1⟩ := x
    obtain ⟨s2, w2, l2⟩ := y
    simp only at h
    obtain ⟨rfl, rfl, h3⟩ := h
    cases s1 <;> simp [RTwin]
    have := h3 rfl
    subst this
    simp

/-- The results of a WRITE translator for two wrappers. -/
def WTwin (x y : StatusCode × NvmeCmdWrapper) : Prop :=
  x.1 = y.1 ∧ (x.1 = .kSuccess → (x.2.cmd, x.2.is_admin) = (y.2.cmd, y.2.is_admin))

theorem WTwin.run (E : Env) {x y : StatusCode × NvmeCmdWrapper} (h : WTwin x y) {p q : Pipe} (hp : Pre p q)
    (w : World) : TwinRun (pure (beginWrite x p)) (pure (beginWrite y q)) w := by
  refine TwinRun.intro rfl rfl ⟨h.1, rfl, hp.al, live_clean2 hp.ap hp.aq _ _, fun hs => ?_⟩
  have := h.2 hs
  simp only [beginWrite, take_one, List.map_cons, List.map_nil, this]

theorem Write_twin (fua : Bool) (wp : Byte) (tl : U32) (a b : NvmeCmdWrapper) (nsid : U32) (buf : Span) :
    WTwin (Write.Write fua wp tl a nsid buf) (Write.Write fua wp tl b nsid buf) := by
  unfold Write.Write Write.LegacyWrite
  split
  · simp [WTwin]
  · simp only
    exact ⟨rfl, fun _ => rfl⟩

theorem Write6_twin (cmd : List Byte) (a b : NvmeCmdWrapper) (nsid : U32) (buf : Span) :
    WTwin (Write.Write6ToNvme cmd a nsid buf) (Write.Write6ToNvme cmd b nsid buf) := by
  unfold Write.Write6ToNvme Write.LegacyWrite
  cases readValue Scsi.Write6Command.size Scsi.Write6Command.ofBytes cmd with
  | none => simp [WTwin]
  | some c => exact ⟨rfl, fun _ => rfl⟩

theorem Write10_twin (cmd : List Byte) (a b : NvmeCmdWrapper) (nsid : U32) (buf : Span) :
    WTwin (Write.Write10ToNvme cmd a nsid buf) (Write.Write10ToNvme cmd b nsid buf) := by
  unfold Write.Write10ToNvme
  cases readValue Scsi.Write10Command.size Scsi.Write10Command.ofBytes cmd with
  | none => simp [WTwin]
  | some c =>
    simp only
    have h := Write_twin (c.fua == 1) (c.wr_protect.setWidth 8) ((ntohs c.transfer_length).setWidth 32) a b nsid buf
    generalize Write.Write _ _ _ a nsid buf = x at h ⊢
    generalize Write.Write _ _ _ b nsid buf = y at h ⊢
    obtain ⟨s1, w1⟩ := x
    obtain ⟨s2, w2⟩ := y
    obtain ⟨rfl, h3⟩ := h
    cases s1 <;> simp [WTwin]
    have := h3 rfl
    simp only [Prod.mk.injEq] at this
    simp [this]

theorem Write12_twin (cmd : List Byte) (a b : NvmeCmdWrapper) (nsid : U32) (buf : Span) :
    WTwin (Write.Write12ToNvme cmd a nsid buf) (Write.Write12ToNvme cmd b nsid buf) := by
  unfold Write.Write12ToNvme
  cases readValue Scsi.Write12Command.size Scsi.Write12Command.ofBytes cmd with
  | none => simp [WTwin]
  | some c =>
    simp only
    have h := Write_twin (c.fua == 1) (c.wr_protect.setWidth 8) (ntohl c.transfer_length) a b nsid buf
    generalize Write.Write _ _ _ a nsid buf = x at h ⊢
    generalize Write.Write _ _ _ b nsid buf = y at h ⊢
    obtain ⟨s1, w1⟩ := x
    obtain ⟨s2, w2⟩ := y
    obtain ⟨rfl, h3⟩ := h
    cases s1 <;> simp [WTwin]
    have := h3 rfl
    simp only [Prod.mk.injEq] at this
    simp [this]

theorem Write16_twin (cmd : List Byte) (a b : NvmeCmdWrapper) (nsid : U32) (buf : Span) :
    WTwin (Write.Write16ToNvme cmd a nsid buf) (Write.Write16ToNvme cmd b nsid buf) := by
  unfold Write.Write16ToNvme
  cases readValue Scsi.Write16Command.size Scsi.Write16Command.ofBytes cmd with
  | none => simp [WTwin]
  | some c =>
    simp only
    have h := Write_twin (c.fua == 1) (c.wr_protect.setWidth 8) (ntohl c.transfer_length) a b nsid buf
    generalize Write.Write _ _ _ a nsid buf = x at h ⊢
    generalize Write.Write _ _ _ b nsid buf = y at h ⊢
    obtain ⟨s1, w1⟩ := x
    obtain ⟨s2, w2⟩ := y
    obtain ⟨rfl, h3⟩ := h
    cases s1 <;> simp [WTwin]
    have := h3 rfl
    simp only [Prod.mk.injEq] at this
    simp [this]

theorem Verify_twin (cmd : List Byte) (a b : NvmeCmdWrapper) :
    WTwin (Verify.VerifyToNvme cmd a) (Verify.VerifyToNvme cmd b) := by
  unfold Verify.VerifyToNvme
  cases readValue Scsi.Verify10Command.size Scsi.Verify10Command.ofBytes cmd with
  | none => simp [WTwin]
  | some c =>
    simp only
    split
    · simp [WTwin]
    split
    · simp [WTwin]
    exact ⟨rfl, fun _ => rfl⟩

/-! ## The commands that ask for pages -/

/-- The slots of both runs before REPORT LUNS: either both empty, or both hold the same first page. -/
def SameSlots (as bs : Arr3 Allocation) : Prop :=
  (Clean as ∧ Clean bs) ∨ ∃ as' bs' x, Clean as' ∧ Clean bs' ∧ as = { as' with e0 := x } ∧ bs = { bs' with e0 := x }

theorem SameSlots.live {as bs : Arr3 Allocation} (h : SameSlots as bs) (n : Nat) (hn : 1 ≤ n) :
    livePages n as = livePages n bs := by
  rcases h with ⟨h1, h2⟩ | ⟨as', bs', x, h1, h2, rfl, rfl⟩
  · exact live_clean2 h1 h2 _ _
  · rw [live_e0 h1 x n hn, live_e0 h2 x n hn]

theorem SameSlots.set {as bs : Arr3 Allocation} (h : SameSlots as bs) (y : Allocation) (n : Nat) (hn : 1 ≤ n) :
    livePages n { as with e0 := y } = livePages n { bs with e0 := y } := by
  rcases h with ⟨h1, h2⟩ | ⟨as', bs', x, h1, h2, rfl, rfl⟩
  · rw [live_e0 h1 y n hn, live_e0 h2 y n hn]
  · change livePages n { as' with e0 := y } = livePages n { bs' with e0 := y }
    rw [live_e0 h1 y n hn, live_e0 h2 y n hn]

theorem SameSlots.addr {as bs : Arr3 Allocation} (h : SameSlots as bs) :
    as.e0.data_addr = 0 ↔ bs.e0.data_addr = 0 := by
  rcases h with ⟨h1, h2⟩ | ⟨as', bs', x, h1, h2, rfl, rfl⟩
  · simp [clean_e0 h1, clean_e0 h2]
  · exact Iff.rfl

theorem rl_twin (E : Env) (cdb : List Byte) (p q : Pipe) (w : World) (hal : p.alloc_len = q.alloc_len)
    (has : SameSlots p.as q.as) : TwinRun (beginReportLuns E cdb.tail p) (beginReportLuns E cdb.tail q) w := by
  rcases Nat.lt_or_ge cdb.length 12 with hl | hl
  · exact .intro (rl_short E cdb p w hl) (rl_short E cdb q w hl) ⟨rfl, rfl, hal, has.live 1 (by omega), by simp⟩
  rcases Nat.lt_or_ge 2 (byte cdb 2) with hs | hs
  · exact .intro (rl_bad E cdb p w hl hs) (rl_bad E cdb q w hl hs) ⟨rfl, rfl, hal, has.live 1 (by omega), by simp⟩
  by_cases ha : p.as.e0.data_addr = 0
  · have hb := has.addr.mp ha
    by_cases h0 : setA E w = 0
    · exact .intro (rl_fail E cdb p w hl hs ha h0) (rl_fail E cdb q w hl hs hb h0)
        ⟨rfl, rfl, rfl, has.set _ 1 (by omega), by simp⟩
    · exact .intro (rl_ok E cdb p w hl hs ha h0) (rl_ok E cdb q w hl hs hb h0)
        ⟨rfl, rfl, rfl, has.set _ 1 (by omega), fun _ => rfl⟩
  · have hb := fun h => ha (has.addr.mpr h)
    exact .intro (rl_used E cdb p w hl hs ha) (rl_used E cdb q w hl hs hb)
      ⟨rfl, rfl, rfl, has.live 1 (by omega), by simp⟩

theorem maint_twin (E : Env) (cdb : List Byte) (p q : Pipe) (w : World) (hal : p.alloc_len = q.alloc_len)
    (has : SameSlots p.as q.as) :
    TwinRun (beginMaintenanceIn E cdb.tail p) (beginMaintenanceIn E cdb.tail q) w := by
  unfold beginMaintenanceIn
  exact rl_twin E cdb _ _ w (by simp only [hal]) has

theorem bind_twin {α : Type} {x y : M α} {f g : α → M Pipe} {w w1 : World} {a b : α}
    (hx : x w = .ok (a, w1)) (hy : y w = .ok (b, w1)) (h : TwinRun (f a) (g b) w1) :
    TwinRun (x >>= f) (y >>= g) w := by
  intro p v q v' h1 h2
  rw [M.bind_run, hx] at h1
  rw [M.bind_run, hy] at h2
  exact h p v q v' h1 h2

theorem ms10_twin (E : Env) (cdb : List Byte) (nsid : U32) (p q : Pipe) (w : World) (hp : Pre p q) :
    TwinRun (beginModeSense10 E cdb.tail nsid p) (beginModeSense10 E cdb.tail nsid q) w := by
  unfold beginModeSense10 ModeSense.ModeSense10ToNvme
  rcases Nat.lt_or_ge cdb.length 10 with hl | hl
  · rw [readValue_none (by simp [Scsi.ModeSense10Command.size]; omega)]
    exact bind_twin rfl rfl (maint_twin E cdb _ _ _ hp.al (Or.inl ⟨hp.ap, hp.aq⟩))
  rw [readValue_some (by simp [Scsi.ModeSense10Command.size]; omega)]
  simp only [kPageSize]
  have run : ∀ (r : Pipe), r.count = 0 → r.as.e0.data_addr = 0 →
      (Spec.bit cdb 1 3 = true → ∃ st ws n, ModeSense.ModeSenseToNvme E (attrsOf10 cdb) r.ws r.as.e0 4096 nsid r.count w
        = .ok ((st, ws, r.as.e0, n), w)) ∧
      (Spec.bit cdb 1 3 = false → ∃ st ws n, ModeSense.ModeSenseToNvme E (attrsOf10 cdb) r.ws r.as.e0 4096 nsid r.count w
        = .ok ((st, ws, setAl E w, n), setW E w)) := by
    intro r hc ha
    refine ⟨fun hd => ⟨_, _, _, ModeSense_dbd E (attrsOf10 cdb) r.ws r.as.e0 nsid r.count (by omega) w
      (by rw [attrsOf10_dbd]; exact hd)⟩, fun hd => ?_⟩
    by_cases h0 : setA E w = 0
    · exact ⟨_, _, _, ModeSense_fail E (attrsOf10 cdb) r.ws r.as.e0 nsid r.count (by omega) w
        (by rw [attrsOf10_dbd]; exact hd) ha h0⟩
    · exact ⟨_, _, _, ModeSense_ok E (attrsOf10 cdb) r.ws r.as.e0 nsid r.count (by omega) w
        (by rw [attrsOf10_dbd]; exact hd) ha h0⟩
  unfold attrsOf10 at run
  obtain ⟨p1, p2⟩ := run p hp.cp (clean_e0 hp.ap)
  obtain ⟨q1, q2⟩ := run q hp.cq (clean_e0 hp.aq)
  cases hd : Spec.bit cdb 1 3
  · obtain ⟨s1, x1, n1, e1⟩ := p2 hd
    obtain ⟨s2, x2, n2, e2⟩ := q2 hd
    refine bind_twin (by rw [M.bind_run, e1]; rfl) (by rw [M.bind_run, e2]; rfl) ?_
    exact maint_twin E cdb _ _ _ rfl (Or.inr ⟨p.as, q.as, _, hp.ap, hp.aq, rfl, rfl⟩)
  · obtain ⟨s1, x1, n1, e1⟩ := p1 hd
    obtain ⟨s2, x2, n2, e2⟩ := q1 hd
    refine bind_twin (by rw [M.bind_run, e1]; rfl) (by rw [M.bind_run, e2]; rfl) ?_
    exact maint_twin E cdb _ _ _ rfl (Or.inl ⟨hp.ap, hp.aq⟩)

theorem msPage_twin (a : ModeSense.CommonCmdAttributes) (nsid : U32) (ws vs : Arr3 NvmeCmdWrapper) (n : Nat)
    (hn : n < 3) (h : (ws.toList.take n).map (fun x => (x.cmd, x.is_admin))
      = (vs.toList.take n).map (fun x => (x.cmd, x.is_admin))) :
    (msPage a nsid ws n).1 = (msPage a nsid vs n).1 ∧ (msPage a nsid ws n).2.2 = (msPage a nsid vs n).2.2 ∧
    ((msPage a nsid ws n).1 = .kSuccess →
      ((msPage a nsid ws n).2.1.toList.take (msPage a nsid ws n).2.2).map (fun x => (x.cmd, x.is_admin))
      = ((msPage a nsid vs n).2.1.toList.take (msPage a nsid vs n).2.2).map (fun x => (x.cmd, x.is_admin))) := by
  unfold msPage
  split
  · split
    · simp
    · refine ⟨rfl, rfl, fun _ => ?_⟩
      have : n = 0 ∨ n = 1 ∨ n = 2 := by omega
      rcases this with rfl | rfl | rfl <;>
        simp_all [Arr3.put, Arr3.set?, Arr3.toList, Arr3.get?]
  · split
    · exact ⟨rfl, rfl, fun _ => h⟩
    · simp

theorem ms6_twin (E : Env) (cdb : List Byte) (nsid : U32) (p q : Pipe) (w : World) (hp : Pre p q) :
    TwinRun (beginModeSense6 E cdb.tail nsid p) (beginModeSense6 E cdb.tail nsid q) w := by
  have hcp := hp.cp
  have hcq := hp.cq
  rcases Nat.lt_or_ge cdb.length 6 with hl | hl
  · exact .intro (ms6_short E cdb nsid p w hl) (ms6_short E cdb nsid q w hl)
      ⟨rfl, hcp.trans hcq.symm, hp.al, live_clean2 hp.ap hp.aq _ _, by simp⟩
  cases hd : Spec.bit cdb 1 3
  · have ha := clean_e0 hp.ap
    have hb := clean_e0 hp.aq
    by_cases h0 : setA E w = 0
    · refine .intro (ms6_fail E cdb nsid p w hl (by omega) hd ha h0) (ms6_fail E cdb nsid q w hl (by omega) hd hb h0)
        ⟨rfl, by simp only [hcp, hcq], rfl, ?_, by simp⟩
      simp only [hcp, hcq]
      rw [live_e0 hp.ap _ _ (by omega), live_e0 hp.aq _ _ (by omega)]
    · have h := msPage_twin (attrsOf6 cdb) nsid (p.ws.put 0 (identifyWr nsid 0 (setA E w)))
        (q.ws.put 0 (identifyWr nsid 0 (setA E w))) 1 (by omega) rfl
      have hc := msPage_count (attrsOf6 cdb) nsid (q.ws.put 0 (identifyWr nsid 0 (setA E w))) 1
      refine .intro (ms6_ok E cdb nsid p w hl (by omega) hd ha h0) (ms6_ok E cdb nsid q w hl (by omega) hd hb h0) ?_
      simp only [hcp, hcq, Nat.zero_add]
      refine ⟨h.1, h.2.1, rfl, ?_, h.2.2⟩
      simp only [h.2.1]
      rw [live_e0 hp.ap _ _ hc.1, live_e0 hp.aq _ _ hc.1]
  · have h := msPage_twin (attrsOf6 cdb) nsid p.ws q.ws 0 (by omega) rfl
    refine .intro (ms6_dbd E cdb nsid p w hl (by omega) hd) (ms6_dbd E cdb nsid q w hl (by omega) hd) ?_
    simp only [hcp, hcq]
    exact ⟨h.1, h.2.1, rfl, live_clean2 hp.ap hp.aq _ _, h.2.2⟩

theorem switch_twin (E : Env) (cdb : List Byte) (buf : Span) (nsid : U32) (p q : Pipe) (w : World) (hp : Pre p q)
    (hop : byte cdb 0 ≠ 0x42) :
    TwinRun (beginSwitch E (cdb.headD 0) cdb.tail buf nsid p) (beginSwitch E (cdb.headD 0) cdb.tail buf nsid q) w := by
  have hcp := hp.cp
  have hcq := hp.cq
  have hcc : p.count = q.count := hcp.trans hcq.symm
  have hlive := fun n m => live_clean2 hp.ap hp.aq n m
  rcases opcode_cases (byte cdb 0) with ho | ho | ho | ho | ho | ho | ho | ho | ho | ho | ho | ho | ho | ho
  · rw [switch_unknown E cdb buf _ _ ho, switch_unknown E cdb buf _ _ ho]
    exact .intro rfl rfl ⟨rfl, hcc, hp.al, hlive _ _, by simp⟩
  · rcases ho with h | h | h | h <;> rw [opc_of_byte h (by decide)]
    · change TwinRun (pure (beginRead (Read.Read6ToNvme cdb.tail p.ws.e0 nsid kLbaSize buf p.alloc_len) p)) _ w
      rw [hp.al]
      exact (Read6_twin cdb.tail p.ws.e0 q.ws.e0 nsid kLbaSize buf q.alloc_len).run E hp w
    · change TwinRun (pure (beginRead (Read.Read10ToNvme cdb.tail p.ws.e0 nsid kLbaSize buf p.alloc_len) p)) _ w
      rw [hp.al]
      exact (Read10_twin cdb.tail p.ws.e0 q.ws.e0 nsid kLbaSize buf q.alloc_len).run E hp w
    · change TwinRun (pure (beginRead (Read.Read12ToNvme cdb.tail p.ws.e0 nsid kLbaSize buf p.alloc_len) p)) _ w
      rw [hp.al]
      exact (Read12_twin cdb.tail p.ws.e0 q.ws.e0 nsid kLbaSize buf q.alloc_len).run E hp w
    · change TwinRun (pure (beginRead (Read.Read16ToNvme cdb.tail p.ws.e0 nsid kLbaSize buf p.alloc_len) p)) _ w
      rw [hp.al]
      exact (Read16_twin cdb.tail p.ws.e0 q.ws.e0 nsid kLbaSize buf q.alloc_len).run E hp w
  · rcases ho with h | h | h | h <;> rw [opc_of_byte h (by decide)]
    · exact (Write6_twin cdb.tail p.ws.e0 q.ws.e0 nsid buf).run E hp w
    · exact (Write10_twin cdb.tail p.ws.e0 q.ws.e0 nsid buf).run E hp w
    · exact (Write12_twin cdb.tail p.ws.e0 q.ws.e0 nsid buf).run E hp w
    · exact (Write16_twin cdb.tail p.ws.e0 q.ws.e0 nsid buf).run E hp w
  · rw [switch_tur E cdb buf _ _ ho, switch_tur E cdb buf _ _ ho]
    exact .intro rfl rfl ⟨rfl, hcc, hp.al, hlive _ _, fun _ => by simp only [hcp, hcq, List.take_zero, List.map_nil]⟩
  · rw [switch_requestsense E cdb buf _ _ ho, switch_requestsense E cdb buf _ _ ho, rs_closed, rs_closed]
    split
    · exact .intro rfl rfl ⟨rfl, hcc, hp.al, hlive _ _, by simp⟩
    · exact .intro rfl rfl ⟨rfl, hcc, rfl, hlive _ _, fun _ => by simp only [hcp, hcq, List.take_zero, List.map_nil]⟩
  · rw [switch_inquiry E cdb buf _ _ ho, switch_inquiry E cdb buf _ _ ho]
    rcases Nat.lt_or_ge cdb.length 6 with hl | hl
    · exact .intro (inquiry_short E cdb nsid p w hl) (inquiry_short E cdb nsid q w hl)
        ⟨rfl, rfl, hp.al, hlive _ _, by simp⟩
    by_cases h0 : setA E w = 0
    · refine .intro (inquiry_fail0 E cdb nsid p w hl hp.ap h0) (inquiry_fail0 E cdb nsid q w hl hp.aq h0)
        ⟨rfl, rfl, rfl, ?_, by simp⟩
      simp only
      rw [live_e0 hp.ap _ _ (by omega), live_e0 hp.aq _ _ (by omega)]
    by_cases h1 : setA E (setW E w) = 0
    · exact .intro (inquiry_fail1 E cdb nsid p w hl hp.ap h0 h1) (inquiry_fail1 E cdb nsid q w hl hp.aq h0 h1)
        ⟨rfl, rfl, rfl, rfl, by simp⟩
    · exact .intro (inquiry_ok E cdb nsid p w hl hp.ap h0 h1) (inquiry_ok E cdb nsid q w hl hp.aq h0 h1)
        ⟨rfl, rfl, rfl, rfl, fun _ => rfl⟩
  · rw [switch_modesense6 E cdb buf _ _ ho, switch_modesense6 E cdb buf _ _ ho]
    exact ms6_twin E cdb nsid p q w hp
  · rw [switch_readcapacity E cdb buf _ _ ho, switch_readcapacity E cdb buf _ _ ho]
    rcases Nat.lt_or_ge cdb.length 10 with hl | hl
    · exact .intro (rc_short E cdb nsid p w hl) (rc_short E cdb nsid q w hl) ⟨rfl, rfl, hp.al, hlive _ _, by simp⟩
    cases hb : Spec.bit cdb 9 2
    · by_cases h0 : setA E w = 0
      · refine .intro (rc_fail E cdb nsid p w hl hb (clean_e0 hp.ap) h0) (rc_fail E cdb nsid q w hl hb (clean_e0 hp.aq) h0)
          ⟨rfl, rfl, rfl, ?_, by simp⟩
        simp only
        rw [live_e0 hp.ap _ _ (by omega), live_e0 hp.aq _ _ (by omega)]
      · refine .intro (rc_ok E cdb nsid p w hl hb (clean_e0 hp.ap) h0) (rc_ok E cdb nsid q w hl hb (clean_e0 hp.aq) h0)
          ⟨rfl, rfl, rfl, ?_, fun _ => rfl⟩
        simp only
        rw [live_e0 hp.ap _ _ (by omega), live_e0 hp.aq _ _ (by omega)]
    · exact .intro (rc_bad E cdb nsid p w hl hb) (rc_bad E cdb nsid q w hl hb) ⟨rfl, rfl, hp.al, hlive _ _, by simp⟩
  · rw [switch_verify E cdb buf _ _ ho, switch_verify E cdb buf _ _ ho]
    exact (Verify_twin cdb.tail p.ws.e0 q.ws.e0).run E hp w
  · rw [switch_sync E cdb buf _ _ ho, switch_sync E cdb buf _ _ ho]
    exact .intro rfl rfl ⟨rfl, rfl, hp.al, hlive _ _, fun _ => rfl⟩
  · exact absurd ho hop
  · rw [switch_modesense10 E cdb buf _ _ ho, switch_modesense10 E cdb buf _ _ ho]
    exact ms10_twin E cdb nsid p q w hp
  · rw [switch_reportluns E cdb buf _ _ ho, switch_reportluns E cdb buf _ _ ho]
    exact rl_twin E cdb p q w hp.al (Or.inl ⟨hp.ap, hp.aq⟩)
  · rw [switch_maintenance E cdb buf _ _ ho, switch_maintenance E cdb buf _ _ ho]
    exact maint_twin E cdb p q w hp.al (Or.inl ⟨hp.ap, hp.aq⟩)

end Scsi2Nvme
