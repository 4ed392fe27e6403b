import Verif.Spec.ReadThrough
import Verif.Properties.Restart
/-!
# C125: data read with FUA are durable
-/

namespace Scsi2Nvme
open Spec Engine Driver

variable {ι σ β : Type}

/-- The NVMe Read of a READ has the FUA bit of the command block. -/
theorem read_fua {E w r t1 w1} {q : Request} (hop : isRead (byte q.cdb 0))
    (hB : Began E (Translation.init q.ws) w q.ptr q.cdb ⟨q.data, q.dataLen.toNat⟩ q.lun r t1 w1)
    (wr : NvmeCmdWrapper) (hwr : wr ∈ t1.GetNvmeWrappers) {rw_} (hd : decodeRw q.cdb = some rw_) : bit wr.cmd.toBytes 51 6 = rw_.fua := by
  have hlt : q.dataLen.toNat < 65536 := q.dataLen.isLt
  have ha : Accepted t1 := (hB.accepted_of_mem hwr).1
  obtain ⟨rw', pract, prchk, wr', hd', hp, hcmds, hb, -⟩ := C18_read _ _ _ _ _ _ _ _ _ _ hB hop ha
  obtain ⟨rw2, hd2, -, hb1, -, hb3⟩ := (C19_read_accepted _ _ _ _ _ _ _ _ _ _ hB hop).mp ha
  rw [hd] at hd' hd2
  cases hd'
  cases hd2
  rw [hcmds] at hwr
  simp only [List.mem_cons, List.not_mem_nil, or_false] at hwr
  subst hwr
  have hb3 : rw_.blocks * 4096 ≤ q.dataLen.toNat := hb3
  rw [hb]
  exact sqe_fua _ _ _ _ _ _ _ _ (by omega) (rdProtect_lt hp)

/-- A READ with FUA stores the blocks. -/
theorem read_stores {E : Env} {D : Device σ} {disks stable : σ → Disk} (hD : Committing D disks stable) {q : Request} {lba n : Nat}
    (hq : q.Fair) (hR : isRead (byte q.cdb 0)) (hRa : q.asks (lba + n) lba n) (hf : asksFua q.cdb) :
    Stores E D disks stable q q.lun.toNat lba n := by
  intro w r t1 w1 hB ha
  obtain ⟨rw_, hd, hfua⟩ := hf
  obtain ⟨_, _, _, wr, _, _, hc, -⟩ := C18_read _ _ _ _ _ _ _ _ _ _ hB hR ha
  have hwr : wr ∈ t1.GetNvmeWrappers := by rw [hc]; simp
  obtain ⟨-, had, h0, lba', n', hasks', -, f1, -, f3, f4⟩ := read_fields (hq.rw (.inl hR)) hR hB wr hwr
  obtain ⟨rfl, rfl⟩ := asks_same hRa hasks'
  refine ⟨wr, hc, fun s m hok a ha => ?_⟩
  have := hD.fuaRead s m (submissionOf wr) (submitted_coherent wr) had h0 ((read_fua hR hB wr hwr hd).trans hfua) hok a
    (by change inRange (4096 * leAt wr.cmd.toBytes 40 8) (4096 * (leAt wr.cmd.toBytes 48 2 + 1)) a; rw [f3, f4]; exact ha)
  change stable _ (leAt wr.cmd.toBytes 4 4) a = disks _ (leAt wr.cmd.toBytes 4 4) a at this
  rw [f1] at this
  exact this

/-- What a READ which returned GOOD found is what commands see, if no call wrote the blocks since it began. -/
theorem read_seen [DecidableEq ι] (E : Env) (D : Device σ) (disks : σ → Disk) (hg : GoodAllocator E)
    (hD : Honest D disks) (q : ι → Request) (m : Mem) (hq : Separate q m) (s : σ) (tr : List Event)
    (sched₀ sched₁ : List ι) (y₀ y₁ : Sys ι σ) (h₀ : (Sys.start s m tr).run E D q sched₀ = .ok y₀) (h₁ : y₀.run E D q sched₁ = .ok y₁)
    (R : ι) (r : ScsiToNvmeResponse) (hRc : y₀.phase R = .called) (hRr : y₁.phase R = .returned r) (good : r.return_code = 0)
    (lba n : Nat) (hR : isRead (byte (q R).cdb 0)) (hRa : (q R).asks (lba + n) lba n)
    (ho : ∀ j, j ≠ R → (∃ rj, y₀.phase j = .returned rj) ∨ (q j).leaves (q R).lun.toNat lba n) :
    r.alloc_len = 4096 * n ∧
      y₁.world.mem.read (q R).data (4096 * n) = some (Disk.read (disks y₁.dev) ((q R).lun.toNat + 1) (4096 * lba) (4096 * n)) := by
  obtain ⟨L0, L1, -, resp, c0, c1, -, -, t1, -⟩ := trusted_moments E D disks hg hD q m hq s tr sched₀ sched₁ [] y₀ y₁ y₁ h₀ h₁ rfl
  obtain ⟨hin, hresp⟩ := c1.returned R r hRr
  have hin1 : R ∈ L1 := by
    rcases List.mem_append.mp hin with h | h
    · exact absurd hRc (c0.begun R h)
    · exact h
  obtain ⟨A, B, rfl⟩ := List.append_of_mem hin1
  have hnd := c1.once
  rw [show L0 ++ (A ++ R :: B) = (L0 ++ A) ++ R :: B by simp] at t1 hnd
  rw [List.nodup_append] at hnd
  obtain ⟨d1, -, t3⟩ := t1.split
  cases t3 with
  | cons hr hz =>
    have hB := hz.keeps (q R).lun.toNat lba n fun j hj => by
      have hjR : j ≠ R := fun e => by
        subst e
        exact (List.nodup_cons.mp hnd.2.1).1 hj
      refine (ho j hjR).resolve_left ?_
      rintro ⟨rj, hj0⟩
      exact hnd.2.2 j (List.mem_append_left _ (c0.returned j rj hj0).1) j (List.mem_cons_of_mem _ hj) rfl
    cases hr with
    | other op => exact absurd hR op.1
    | write op => exact absurd op fun h => read_not_write hR h
    | torn op => exact absurd op fun h => read_not_write hR h
    | unread op bad => rw [hresp] at bad; exact absurd good bad
    | read opR hra good len data =>
      obtain ⟨rfl, rfl⟩ := asks_same hRa hra
      rw [hresp] at len
      rw [← hB] at data
      exact ⟨len, data⟩

/-- **C125.** A device with a volatile write cache which commits what it reads with FUA, and which may fail any command.  Let a READ with the
FUA bit begin after the moment `y₀` and have returned GOOD at the moment `y₁`.  Whatever calls there are besides and however they are
interleaved, if those which write any of the blocks had returned at `y₀` already: what is left on the disk if the power fails (at `y₁`, which
is any moment from then on) is what the READ delivered. -/
theorem C125_read [DecidableEq ι] (E : Env) (D : Device σ) (disks stable : σ → Disk) (hg : GoodAllocator E)
    (hD : Committing D disks stable) (q : ι → Request) (m : Mem) (hq : Separate q m) (s : σ) (tr : List Event)
    (sched₀ sched₁ : List ι) (y₀ y₁ : Sys ι σ) (h₀ : (Sys.start s m tr).run E D q sched₀ = .ok y₀) (h₁ : y₀.run E D q sched₁ = .ok y₁)
    (R : ι) (r : ScsiToNvmeResponse) (hRc : y₀.phase R = .called) (hRr : y₁.phase R = .returned r) (good : r.return_code = 0)
    (lba n : Nat) (hR : isRead (byte (q R).cdb 0)) (hRa : (q R).asks (lba + n) lba n) (hfua : asksFua (q R).cdb)
    (ho : ∀ j, j ≠ R → (∃ rj, y₀.phase j = .returned rj) ∨ (q j).leaves (q R).lun.toNat lba n) :
    r.alloc_len = 4096 * n ∧
      y₁.world.mem.read (q R).data (4096 * n) = some (Disk.read (stable y₁.dev) ((q R).lun.toNat + 1) (4096 * lba) (4096 * n)) := by
  obtain ⟨e1, e2⟩ := read_seen E D disks hg hD.toHonest q m hq s tr sched₀ sched₁ y₀ y₁ h₀ h₁ R r hRc hRr good lba n hR hRa ho
  refine ⟨e1, ?_⟩
  obtain ⟨L, own, hI, -⟩ := Faith.run hD.toHonest hg hq sched₀ (Inv.start hq s tr) (Faith.start disks hq s tr) h₀
  have hP := Progress.run hD.toCached hg hq (read_stores hD (hq.fair R) hR hRa hfua) sched₁ hI ho (by rw [hRc]; trivial) h₁
  rw [hRr] at hP
  rw [e2]
  congr 1
  exact Disk.read_same fun a ha => (hP good a ha).symm

/-- **C125 (power failures).** … and a READ of the blocks which is answered with GOOD after any number of power failures delivers the same
data again, if no call since the first failure writes any of them. -/
theorem C125_restart [DecidableEq ι] (E : Env) (D : Device σ) (disks stable : σ → Disk) (hg : GoodAllocator E)
    (hD : Committing D disks stable) (q : ι → Request) (m : Mem) (hq : Separate q m) (s : σ) (tr : List Event)
    (sched₀ sched₁ : List ι) (y₀ y₁ : Sys ι σ) (h₀ : (Sys.start s m tr).run E D q sched₀ = .ok y₀) (h₁ : y₀.run E D q sched₁ = .ok y₁)
    (R : ι) (r : ScsiToNvmeResponse) (hRc : y₀.phase R = .called) (hRr : y₁.phase R = .returned r) (good : r.return_code = 0)
    (lba n : Nat) (hR : isRead (byte (q R).cdb 0)) (hRa : (q R).asks (lba + n) lba n) (hfua : asksFua (q R).cdb)
    (ho : ∀ j, j ≠ R → (∃ rj, y₀.phase j = .returned rj) ∨ (q j).leaves (q R).lun.toNat lba n)
    (s' : σ) (hf : Outages ι E D disks stable (q R).lun.toNat lba n y₁.dev s')
    (q' : ι → Request) (m' : Mem) (hq' : Separate q' m') (hl' : ∀ i, (q' i).leaves (q R).lun.toNat lba n) (tr' : List Event)
    (sched : List ι) (y : Sys ι σ) (h : (Sys.start s' m' tr').run E D q' sched = .ok y)
    (R' : ι) (r' : ScsiToNvmeResponse) (hRr' : y.phase R' = .returned r') (good' : r'.return_code = 0)
    (hR' : isRead (byte (q' R').cdb 0)) (hRa' : (q' R').asks (lba + n) lba n) (hRl' : (q' R').lun = (q R).lun) :
    r'.alloc_len = r.alloc_len ∧
      ∃ bs, y₁.world.mem.read (q R).data (4096 * n) = some bs ∧ y.world.mem.read (q' R').data (4096 * n) = some bs := by
  obtain ⟨e1, e2⟩ := read_seen E D disks hg hD.toHonest q m hq s tr sched₀ sched₁ y₀ y₁ h₀ h₁ R r hRc hRr good lba n hR hRa ho
  obtain ⟨-, e3⟩ := C125_read E D disks stable hg hD q m hq s tr sched₀ sched₁ y₀ y₁ h₀ h₁ R r hRc hRr good lba n hR hRa hfua ho
  have e4 := e3
  rw [e2] at e4
  have hs : Holds disks stable (q R).lun.toNat lba n _ y₁.dev := ⟨rfl, (Option.some.inj e4).symm⟩
  obtain ⟨e5, e6⟩ := Holds.read hD.toCached hg hq' hl' tr' sched (hs.outages hD.toCached hg hf) h hRr' good' hR' hRa' (by rw [hRl'])
  exact ⟨by rw [e5, e1], _, e2, e6⟩

/-! ## The kernel module -/

/-- A READ with FUA stores the blocks. -/
theorem hread_stores {K : Module.Kernel} {junk : World → Nat → Byte} {D : Device σ} {disks stable : σ → Disk}
    (hD : Committing D disks stable) {q : Command} {lba n : Nat}
    (hq : q.Fair) (hR : isRead (byte q.cdb 0)) (hRa : q.asks (lba + n) lba n) (hf : asksFua q.cdb) :
    HStores K junk D disks stable q q.cmd.lun.toNat lba n := fun b hb =>
  read_stores (q := viewReq q b (Module.dataLen q.cmd)) hD hb hR ((view_asks (hq.rw (.inl hR)).2).mpr hRa) hf

/-- **C125 (module).** The same for commands handed to the kernel module. -/
theorem C125_module_read [DecidableEq ι] (K : Module.Kernel) (hK : GoodKernel K) (junk : World → Nat → Byte) (D : Device σ)
    (disks stable : σ → Disk) (hD : Committing D disks stable) (c : ι → Command) (m : Mem) (hc : Disjoint c m) (s : σ) (tr : List Event)
    (sched₀ sched₁ : List ι) (y₀ y₁ : Host ι σ)
    (h₀ : (Host.start s m tr).run K junk D c sched₀ = .ok y₀) (h₁ : y₀.run K junk D c sched₁ = .ok y₁)
    (R : ι) (o : Module.Outcome)
    (hRn : y₀.phase R = .queued ∨ ∃ b, y₀.phase R = .engine b .called) (hRd : y₁.phase R = .done o) (good : o.result = 0)
    (lba n : Nat) (hR : isRead (byte (c R).cdb 0)) (hRa : (c R).asks (lba + n) lba n) (hfua : asksFua (c R).cdb)
    (ho : ∀ j, j ≠ R → (∃ oj, y₀.phase j = .done oj) ∨ (c j).leaves (c R).cmd.lun.toNat lba n) :
    o.sg = Disk.read (stable y₁.dev) ((c R).cmd.lun.toNat + 1) (4096 * lba) (4096 * n) ++ (c R).cmd.sg.drop (4096 * n) ∧
      o.resid = some (((c R).cmd.sg.length : Int) - 4096 * n) := by
  obtain ⟨L, own, hI, -⟩ := HFaith.run hD.toHonest hK hc.fair sched₀ (HInv.start (junk := junk) hc s tr) (HFaith.start disks c s m tr) h₀
  have hP := HProgress.run hK hD.toCached hc.fair (hread_stores hD (hc.fair R) hR hRa hfua) sched₁ hI ho
    (by rcases hRn with h | ⟨b, h⟩ <;> rw [h] <;> trivial) h₁
  rw [hRd] at hP
  rw [show Disk.read (stable y₁.dev) ((c R).cmd.lun.toNat + 1) (4096 * lba) (4096 * n) =
    Disk.read (disks y₁.dev) ((c R).cmd.lun.toNat + 1) (4096 * lba) (4096 * n) from Disk.read_same fun a ha => hP good a ha]
  obtain ⟨L0, L1, -, out, c0, c1, -, -, t1, -⟩ := relied_moments K hK junk D disks hD.toHonest c m hc s tr sched₀ sched₁ [] y₀ y₁ y₁ h₀ h₁ rfl
  obtain ⟨hin, hout⟩ := c1.done R o hRd
  have hin1 : R ∈ L1 := by
    rcases List.mem_append.mp hin with h | h
    · rcases hRn with hq | ⟨b, hb⟩
      · exact absurd hq (c0.begun R h).1
      · exact absurd hb ((c0.begun R h).2 b)
    · exact h
  obtain ⟨A, B, rfl⟩ := List.append_of_mem hin1
  have hnd := c1.once
  rw [show L0 ++ (A ++ R :: B) = (L0 ++ A) ++ R :: B by simp] at t1 hnd
  rw [List.nodup_append] at hnd
  obtain ⟨d1, -, t3⟩ := t1.split
  cases t3 with
  | cons hr hz =>
    have hB := hz.keeps (c R).cmd.lun.toNat lba n fun j hj => by
      have hjR : j ≠ R := fun e => by
        subst e
        exact (List.nodup_cons.mp hnd.2.1).1 hj
      refine (ho j hjR).resolve_left ?_
      rintro ⟨oj, hj0⟩
      exact hnd.2.2 j (List.mem_append_left _ (c0.done j oj hj0).1) j (List.mem_cons_of_mem _ hj) rfl
    cases hr with
    | other op => exact absurd hR op.1
    | write op => exact absurd op fun h => read_not_write hR h
    | torn op => exact absurd op fun h => read_not_write hR h
    | unread op bad => rw [hout] at bad; exact absurd good bad
    | read opR hra good data resid =>
      obtain ⟨rfl, rfl⟩ := Spec.Command.asks_same hRa hra
      rw [hout] at data resid
      rw [← hB] at data
      exact ⟨data, resid⟩

/-- **C125 (driver).** The driver of the kernel, over a block layer which can always give the command to the hardware, is such a device
if the hardware is one. -/
theorem C125_driver (B : BlockLayer β) (disks stable : β → Disk) (hB : Committing B.execute disks stable) (hR : Reliable B)
    (hr : ∀ b sub b', B.allocRequest b sub = .ok b' → disks b' = disks b ∧ stable b' = stable b)
    (hm : ∀ b a n, disks (B.mapKern b a n).2 = disks b ∧ stable (B.mapKern b a n).2 = stable b)
    (hf : ∀ b, disks (B.freeRequest b) = disks b ∧ stable (B.freeRequest b) = stable b) :
    Committing (device B) (fun st : State β => disks st.blk) (fun st : State β => stable st.blk) where
  toCached := C121_driver B disks stable hB.toCached hR hr hm hf
  fuaRead := fun st m sub hc had h0 hfua hok a ha => by
    obtain ⟨b, -, -, h3, h4, h5⟩ := driver_execute B disks stable hR hr hm hf st m sub
    rw [h3] at hok
    simp only [h4, h5]
    exact hB.fuaRead b m sub hc had h0 hfua hok a ha

/-! ## A device and calls -/

instance (pos n a : Nat) : Decidable (inRange pos n a) := by unfold inRange; infer_instance

/-- The device of C121, which also stores what it reads with FUA. -/
def committingDevice (cap : Nat → Nat) (works : Nat → Bool) (part : Nat) : Device ((Nat × Disk) × Disk) := fun s m sub =>
  let r := cachedDevice cap works part s m sub
  ((r.1.1, fun k a => if sub.is_admin = false ∧ byte sub.cmd 0 = 0x02 ∧ bit sub.cmd 51 6 = true ∧ k = leAt sub.cmd 4 4 ∧
      inRange (4096 * leAt sub.cmd 40 8) (4096 * (leAt sub.cmd 48 2 + 1)) a then r.1.1.2 k a else r.1.2 k a), r.2)

theorem committing_device (cap : Nat → Nat) (works : Nat → Bool) (part : Nat) :
    Committing (committingDevice cap works part) (fun s => s.1.2) (fun s => s.2) := by
  have h := cached_device cap works part
  refine ⟨⟨⟨⟨h.memory, h.maps, h.disk⟩, h.read, h.write⟩, fun s m sub hc h9 k a hcov hst => ?_, fun s m sub had h0 hok a => ?_,
    fun s m sub hc had hfua hok k a hcov => ?_⟩, fun s m sub hc had h0 hfua hok a ha => ?_⟩
  · change (if _ then (cachedDevice cap works part s m sub).1.1.2 k a else (cachedDevice cap works part s m sub).1.2 k a) =
      (cachedDevice cap works part s m sub).1.1.2 k a
    split
    · rfl
    · exact h.kept s m sub hc h9 k a hcov hst
  · change (if _ then (cachedDevice cap works part s m sub).1.1.2 _ a else (cachedDevice cap works part s m sub).1.2 _ a) =
      (cachedDevice cap works part s m sub).1.1.2 _ a
    split
    · rfl
    · exact h.flush s m sub had h0 hok a
  · change (if _ then (cachedDevice cap works part s m sub).1.1.2 k a else (cachedDevice cap works part s m sub).1.2 k a) =
      (cachedDevice cap works part s m sub).1.1.2 k a
    split
    · rfl
    · exact h.fua s m sub hc had hfua hok k a hcov
  · exact if_pos ⟨had, h0, hfua, rfl, ha⟩

/-- READ(10) of blocks 9 and 10 with FUA, READ(16) of blocks 20 and 21, WRITE(10) of blocks 30 and 31. -/
def fuaLoadBlocks : Fin 3 → List Byte
  | 0 => [0x28, 8, 0, 0, 0, 9, 0, 0, 2, 0]
  | 1 => [0x88, 0, 0, 0, 0, 0, 0, 0, 0, 20, 0, 0, 0, 2, 0, 0]
  | 2 => [0x2a, 0, 0, 0, 0, 30, 0, 0, 2, 0]

/-- 64 KiB for each call, beginning with the command block. -/
def fuaLoadShared : Mem := fun a =>
  if a < 0x10000 then none
  else if h : a / 0x10000 - 1 < 3 then some ((fuaLoadBlocks ⟨a / 0x10000 - 1, h⟩).getD (a % 0x10000) (BitVec.ofNat 8 (a / 7)))
  else none

/-- The three calls, for LUN 3. -/
def fuaLoadCalls (i : Fin 3) : Request :=
  { mem := fuaLoadShared, ws := Demo.ws, ptr := 0x10000 * (i.val + 1), cdb := fuaLoadBlocks i, lun := 3, sense := 0x10000 * (i.val + 1) + 0x400,
    senseLen := 32, data := 0x10000 * (i.val + 1) + 0x8000, dataLen := 8192, isIn := decide (i.val ≠ 2) }

theorem fuaLoadBlocks_length (i : Fin 3) : (fuaLoadBlocks i).length ≤ 16 := by revert i; decide

theorem fuaLoadShared_slot (i : Fin 3) (k : Nat) (hk : k < 0x10000) :
    fuaLoadShared (0x10000 * (i.val + 1) + k) = some ((fuaLoadBlocks i).getD k (BitVec.ofNat 8 ((0x10000 * (i.val + 1) + k) / 7))) := by
  have hi := i.isLt
  have e1 : (0x10000 * (i.val + 1) + k) / 0x10000 - 1 = i.val := by omega
  have e2 : (0x10000 * (i.val + 1) + k) % 0x10000 = k := by omega
  unfold fuaLoadShared
  rw [if_neg (by omega), dif_pos (by omega), e2]
  simp only [e1]

theorem fuaLoadCalls_stored (i : Fin 3) : fuaLoadShared.read (fuaLoadCalls i).ptr (fuaLoadCalls i).cdb.length = some (fuaLoadCalls i).cdb := by
  refine read_eq_some.mpr ⟨rfl, fun k hk => ?_⟩
  have hl := fuaLoadBlocks_length i
  have hk : k < (fuaLoadBlocks i).length := hk
  refine (fuaLoadShared_slot i k (by omega)).trans ?_
  change _ = (fuaLoadBlocks i)[k]?
  rw [List.getD_eq_getElem?_getD, List.getElem?_eq_getElem hk]
  rfl

theorem fuaLoadCalls_acc (i : Fin 3) (off len : Nat) (h : off + len < 0x10000) : accessible fuaLoadShared ⟨0x10000 * (i.val + 1) + off, len⟩ := by
  intro k hk
  have hk : k < len := hk
  change (fuaLoadShared (0x10000 * (i.val + 1) + off + k)).isSome
  rw [Nat.add_assoc, fuaLoadShared_slot i (off + k) (by omega)]
  rfl

theorem fuaLoadCalls_uses {i : Fin 3} {a : Nat} (h : (fuaLoadCalls i).uses a) : 0x10000 * (i.val + 1) ≤ a ∧ a < 0x10000 * (i.val + 2) := by
  have hl := fuaLoadBlocks_length i
  rcases h with h | h | h
  · change inRange (0x10000 * (i.val + 1)) (fuaLoadBlocks i).length a at h
    unfold inRange at h; omega
  · change inRange (0x10000 * (i.val + 1) + 0x400) 32 a at h
    unfold inRange at h; omega
  · change inRange (0x10000 * (i.val + 1) + 0x8000) 8192 a at h
    unfold inRange at h; omega

theorem fuaLoadBlocks_rw (i : Fin 3) : ∃ rw, decodeRw (fuaLoadBlocks i) = some rw ∧ rw.blocks = 2 ∧ (∀ c, rw.protect = some c → c ≤ 5) ∧
    rw.lba = match i with | 0 => 9 | 1 => 20 | 2 => 30 := by
  match i with
  | 0 => exact ⟨⟨9, 2, some 0, true⟩, by decide +kernel, rfl, by intro c h; cases h; decide, rfl⟩
  | 1 => exact ⟨⟨20, 2, some 0, false⟩, by decide +kernel, rfl, by intro c h; cases h; decide, rfl⟩
  | 2 => exact ⟨⟨30, 2, some 0, false⟩, by decide +kernel, rfl, by intro c h; cases h; decide, rfl⟩

theorem fuaLoadCalls_separate : Separate fuaLoadCalls fuaLoadShared where
  mem := fun _ => rfl
  sound := fun i => ⟨fuaLoadCalls_acc i 0x400 32 (by decide), fuaLoadCalls_acc i 0x8000 8192 (by decide)⟩
  apart := by
    intro i j hij a h1 h2
    have h1 := fuaLoadCalls_uses h1
    have h2 := fuaLoadCalls_uses h2
    exact hij (Fin.ext (by omega))
  fair := by
    intro i
    have hi := i.isLt
    have hl := fuaLoadBlocks_length i
    refine ⟨fuaLoadCalls_stored i, by change (fuaLoadBlocks i).length < _; omega, fun h => absurd h (by revert i; decide), fun hop => ?_⟩
    refine ⟨fuaLoadCalls_stored i, by change (fuaLoadBlocks i).length < _; omega, hop, fuaLoadCalls_acc i 0x400 32 (by decide),
      fuaLoadCalls_acc i 0x8000 8192 (by decide), ?_, ?_, by change 3 + 1 < 2 ^ 32; decide, ?_⟩
    · change 0x10000 * (i.val + 1) + 0x8000 + 8192 ≤ 2 ^ 64
      omega
    · intro a h1 h2
      change inRange (0x10000 * (i.val + 1)) (fuaLoadBlocks i).length a at h1
      change inRange (0x10000 * (i.val + 1) + 0x8000) 8192 a at h2
      unfold inRange at h1 h2
      omega
    · intro hw rw_ h
      change 4096 * rw_.blocks ≤ 8192
      obtain ⟨rw', e, e2, -⟩ := fuaLoadBlocks_rw i
      change decodeRw (fuaLoadBlocks i) = some rw_ at h
      rw [e] at h
      cases h
      omega

theorem fuaLoadCalls_asks : (fuaLoadCalls 0).asks (9 + 2) 9 2 ∧ (fuaLoadCalls 1).asks (20 + 2) 20 2 ∧ (fuaLoadCalls 2).asks (30 + 2) 30 2 := by
  have h : 4096 * 2 ≤ (8192 : U16).toNat := by decide
  exact ⟨⟨⟨9, 2, some 0, true⟩, by decide +kernel, by intro c h; cases h; decide, rfl, rfl, by decide, h, by omega⟩,
    ⟨⟨20, 2, some 0, false⟩, by decide +kernel, by intro c h; cases h; decide, rfl, rfl, by decide, h, by omega⟩,
    ⟨⟨30, 2, some 0, false⟩, by decide +kernel, by intro c h; cases h; decide, rfl, rfl, by decide, h, by omega⟩⟩

/-- No call writes any of the blocks 9, 10, 20 and 21. -/
theorem fuaLoadCalls_leave (i : Fin 3) : (fuaLoadCalls i).leaves 3 9 2 ∧ (fuaLoadCalls i).leaves 3 20 2 := by
  have key : ∀ lba, lba = 9 ∨ lba = 20 → (fuaLoadCalls i).leaves 3 lba 2 := by
    intro lba hl hw _ l k ha
    match i with
    | 0 => exact absurd hw (by decide)
    | 1 => exact absurd hw (by decide)
    | 2 =>
      obtain ⟨rfl, rfl⟩ := asks_same fuaLoadCalls_asks.2.2 ha
      omega
  exact ⟨key 9 (.inl rfl), key 20 (.inr rfl)⟩
/-- The hypotheses are met: the three calls in any schedule in which the READ takes its five steps, a power failure at any time from then on, and
the calls once more.  The device fails commands in any pattern and stores at a power failure any of the bytes in its cache. -/
example (cap : Nat → Nat) (works : Nat → Bool) (part : Nat) (d d' : Disk) (sched₁ sched₂ : List (Fin 3))
    (h1 : 5 ≤ sched₁.count 0) (h2 : 5 ≤ sched₂.count 0) (lost : Nat → Nat → Bool) :
    ∃ y₁ y₂ r₁ r₂,
      let off := fun (s : (Nat × Disk) × Disk) => let d : Disk := fun k a => if lost k a then s.2 k a else s.1.2 k a; (((0, d), d) : (Nat × Disk) × Disk)
      (Sys.start ((0, d), d') fuaLoadShared []).run boundedEnv (committingDevice cap works part) fuaLoadCalls sched₁ = .ok y₁ ∧
      (Sys.start (off y₁.dev) fuaLoadShared []).run boundedEnv (committingDevice cap works part) fuaLoadCalls sched₂ = .ok y₂ ∧
      y₁.phase 0 = .returned r₁ ∧ y₂.phase 0 = .returned r₂ ∧
      (r₁.return_code = 0 → y₁.world.mem.read 0x18000 8192 = some (Disk.read y₁.dev.2 4 (4096 * 9) 8192)) ∧
      (r₁.return_code = 0 → r₂.return_code = 0 → r₂.alloc_len = r₁.alloc_len ∧
        ∃ bs, y₁.world.mem.read 0x18000 8192 = some bs ∧ y₂.world.mem.read 0x18000 8192 = some bs) := by
  have hH := committing_device cap works part
  have hop : ∀ i page, steady (fuaLoadCalls i).cdb page := fun i => steady_of (by revert i; decide)
  have run := fun s sched => C108_defined boundedEnv _ _ boundedEnv_good hH.toHonest fuaLoadCalls fuaLoadShared fuaLoadCalls_separate hop s [] sched
  let off := fun (s : (Nat × Disk) × Disk) => let d : Disk := fun k a => if lost k a then s.2 k a else s.1.2 k a; (((0, d), d) : (Nat × Disk) × Disk)
  have hoff : ∀ s, Outage (fun s : (Nat × Disk) × Disk => s.1.2) (fun s => s.2) s (off s) := by
    intro s
    refine ⟨fun k a => ?_, rfl⟩
    change (if lost k a then s.2 k a else s.1.2 k a) = _ ∨ (if lost k a then s.2 k a else s.1.2 k a) = _
    split
    · exact .inl rfl
    · exact .inr rfl
  obtain ⟨y1, e1⟩ := run ((0, d), d') sched₁
  obtain ⟨y2, e2⟩ := run (off y1.dev) sched₂
  obtain ⟨r1, p1⟩ := C96_wait_free _ _ _ _ _ _ _ _ e1 0 h1
  obtain ⟨r2, p2⟩ := C96_wait_free _ _ _ _ _ _ _ _ e2 0 h2
  refine ⟨y1, y2, r1, r2, e1, e2, p1, p2, fun g1 => ?_, fun g1 g2 => ?_⟩
  · exact (C125_read boundedEnv _ _ _ boundedEnv_good hH fuaLoadCalls fuaLoadShared fuaLoadCalls_separate ((0, d), d') [] [] sched₁ _ y1 rfl e1
      0 r1 rfl p1 g1 9 2 (by decide) fuaLoadCalls_asks.1 ⟨_, (by decide +kernel : decodeRw (fuaLoadBlocks 0) = some ⟨9, 2, some 0, true⟩), rfl⟩
      (fun j _ => .inr (fuaLoadCalls_leave j).1)).2
  · exact C125_restart boundedEnv _ _ _ boundedEnv_good hH fuaLoadCalls fuaLoadShared fuaLoadCalls_separate ((0, d), d') [] [] sched₁ _ y1 rfl e1
      0 r1 rfl p1 g1 9 2 (by decide) fuaLoadCalls_asks.1 ⟨_, (by decide +kernel : decodeRw (fuaLoadBlocks 0) = some ⟨9, 2, some 0, true⟩), rfl⟩
      (fun j _ => .inr (fuaLoadCalls_leave j).1) (off y1.dev) (.one (hoff y1.dev))
      fuaLoadCalls fuaLoadShared fuaLoadCalls_separate (fun i => (fuaLoadCalls_leave i).1) [] sched₂ y2 e2 0 r2 p2 g2 (by decide)
      fuaLoadCalls_asks.1 rfl

/-! ## The same commands through the kernel module -/

/-- READ(10) of blocks 9 and 10 with FUA, READ(16) of blocks 20 and 21, WRITE(10) of blocks 30 and 31, with the scatter-gather lists `sg`. -/
def fuaLoadTrio (sg : Fin 3 → List Byte) (i : Fin 3) : Command :=
  { mem := fuaLoadShared, ws := Demo.ws, uninit := 0xdead, cdb := fuaLoadBlocks i
    cmd := ⟨3, 0x10000 * (i.val + 1), BitVec.ofNat 16 (fuaLoadBlocks i).length, 0x10000 * (i.val + 1) + 0x400, decide (i.val ≠ 2), sg i⟩ }

theorem fuaLoadTrio_uses {sg : Fin 3 → List Byte} {i : Fin 3} {a : Nat} (h : (fuaLoadTrio sg i).uses a) :
    0x10000 * (i.val + 1) ≤ a ∧ a < 0x10000 * (i.val + 2) := by
  have hl := fuaLoadBlocks_length i
  rcases h with h | h
  · change inRange (0x10000 * (i.val + 1)) (fuaLoadBlocks i).length a at h
    unfold inRange at h; omega
  · change inRange (0x10000 * (i.val + 1) + 0x400) 96 a at h
    unfold inRange at h; omega

theorem fuaLoadBlocks_plain (i : Fin 3) : byte (fuaLoadBlocks i) 0 ≠ 0x42 ∧ ¬ byte (fuaLoadBlocks i) 0 = 0x1a ∧ ¬ byte (fuaLoadBlocks i) 0 = 0x5a := by
  revert i; decide

theorem fuaLoadTrio_disjoint (sg : Fin 3 → List Byte) (hsg : ∀ i, (sg i).length = 8192) : Disjoint (fuaLoadTrio sg) fuaLoadShared where
  mem := fun _ => rfl
  sense := fun i => fuaLoadCalls_acc i 0x400 96 (by decide)
  apart := by
    intro i j hij a h1 h2
    have h1 := fuaLoadTrio_uses h1
    have h2 := fuaLoadTrio_uses h2
    exact hij (Fin.ext (by omega))
  fair := by
    intro i
    have hl := fuaLoadBlocks_length i
    have hs := hsg i
    refine ⟨fuaLoadCalls_stored i, by change (fuaLoadBlocks i).length < _; omega, rfl,
      fun h => absurd (show byte (fuaLoadBlocks i) 0 = 0x42 from h) (fuaLoadBlocks_plain i).1, fun hop =>
      ⟨⟨fuaLoadCalls_stored i, by change (fuaLoadBlocks i).length < _; omega, rfl, ?_, fuaLoadCalls_acc i 0x400 96 (by decide),
        by change 3 + 1 < 2 ^ 32; decide, ?_⟩, by change (sg i).length < _; omega⟩⟩
    · match i with
      | 0 => exact .inl ⟨(by decide : isRead (byte (fuaLoadBlocks 0) 0)), rfl⟩
      | 1 => exact .inl ⟨(by decide : isRead (byte (fuaLoadBlocks 1) 0)), rfl⟩
      | 2 => exact .inr ⟨(by decide : isWrite (byte (fuaLoadBlocks 2) 0)), rfl⟩
    · intro hw rw_ h
      change decodeRw (fuaLoadBlocks i) = some rw_ at h
      obtain ⟨rw', e, e2, -⟩ := fuaLoadBlocks_rw i
      rw [e] at h
      cases h
      change _ ≤ (sg i).length
      omega

theorem fuaLoadTrio_asks (sg : Fin 3 → List Byte) (hsg : ∀ i, (sg i).length = 8192) :
    (fuaLoadTrio sg 0).asks (9 + 2) 9 2 ∧ (fuaLoadTrio sg 1).asks (20 + 2) 20 2 ∧ (fuaLoadTrio sg 2).asks (30 + 2) 30 2 := by
  have h : ∀ i, 4096 * 2 ≤ (sg i).length := fun i => by rw [hsg i]; decide
  exact ⟨⟨⟨9, 2, some 0, true⟩, (by decide +kernel : decodeRw (fuaLoadBlocks 0) = _), by intro c h; cases h; decide, rfl, rfl, by decide, h 0, by omega⟩,
    ⟨⟨20, 2, some 0, false⟩, (by decide +kernel : decodeRw (fuaLoadBlocks 1) = _), by intro c h; cases h; decide, rfl, rfl, by decide, h 1, by omega⟩,
    ⟨⟨30, 2, some 0, false⟩, (by decide +kernel : decodeRw (fuaLoadBlocks 2) = _), by intro c h; cases h; decide, rfl, rfl, by decide, h 2, by omega⟩⟩

theorem fuaLoadTrio_leave (sg : Fin 3 → List Byte) (hsg : ∀ i, (sg i).length = 8192) (i : Fin 3) :
    (fuaLoadTrio sg i).leaves 3 9 2 ∧ (fuaLoadTrio sg i).leaves 3 20 2 := by
  have key : ∀ lba, lba = 9 ∨ lba = 20 → (fuaLoadTrio sg i).leaves 3 lba 2 := by
    intro lba hl hw _ l k ha
    match i with
    | 0 => exact absurd (show isWrite (byte (fuaLoadBlocks 0) 0) from hw) (by decide)
    | 1 => exact absurd (show isWrite (byte (fuaLoadBlocks 1) 0) from hw) (by decide)
    | 2 =>
      obtain ⟨rfl, rfl⟩ := Spec.Command.asks_same (fuaLoadTrio_asks sg hsg).2.2 ha
      omega
  exact ⟨key 9 (.inl rfl), key 20 (.inr rfl)⟩
/-- The hypotheses are met: the three commands in any schedule in which the READ takes its seven steps. -/
example (cap : Nat → Nat) (works : Nat → Bool) (part : Nat) (d d' : Disk) (sg : Fin 3 → List Byte) (l : ∀ i, (sg i).length = 8192)
    (sched : List (Fin 3)) (k0 : 7 ≤ sched.count 0) :
    ∃ y o, (Host.start ((0, d), d') fuaLoadShared []).run demoKernel3 (fun _ _ => 0) (committingDevice cap works part) (fuaLoadTrio sg) sched = .ok y ∧
      y.phase 0 = .done o ∧ (o.result = 0 → o.sg = Disk.read y.dev.2 4 (4096 * 9) 8192) := by
  have hD := fuaLoadTrio_disjoint sg l
  have hH := committing_device cap works part
  have hop : ∀ i page, steady (fuaLoadTrio sg i).cdb page := fun i => steady_of (fuaLoadBlocks_plain i).2
  obtain ⟨y, e⟩ := C106_defined demoKernel3 demoKernel3_good (fun _ _ => 0) _ _ hH.toLossy (fuaLoadTrio sg) fuaLoadShared hD hop ((0, d), d') [] sched
  obtain ⟨o, p⟩ := C101_wait_free _ _ _ _ _ _ _ _ _ e 0 k0
  refine ⟨y, o, e, p, fun g => ?_⟩
  have := (C125_module_read demoKernel3 demoKernel3_good (fun _ _ => 0) _ _ _ hH (fuaLoadTrio sg) fuaLoadShared hD ((0, d), d') [] [] sched _ y rfl e
    0 o (.inl rfl) p g 9 2 (by decide : isRead (byte (fuaLoadBlocks 0) 0)) (fuaLoadTrio_asks sg l).1
    ⟨_, (by decide +kernel : decodeRw (fuaLoadBlocks 0) = some ⟨9, 2, some 0, true⟩), rfl⟩ (fun j _ => .inr (fuaLoadTrio_leave sg l j).1)).1
  rw [show (fuaLoadTrio sg 0).cmd.sg.drop (4096 * 2) = [] from List.drop_of_length_le (by change (sg 0).length ≤ _; rw [l]; decide),
    List.append_nil] at this
  exact this

end Scsi2Nvme
