import Verif.Proofs.Vpd
/-!
# `Complete` is defined
-/

namespace Scsi2Nvme
open Spec

/-- `m` is defined and keeps `I`. -/
def Tot (I : World → Prop) (m : M α) : Prop := ∀ w, I w → ∃ a w', m w = .ok (a, w') ∧ I w'

/-- Writes into the span are defined and keep `I`. -/
structure Stable (I : World → Prop) (s : Span) : Prop where
  acc : ∀ w, I w → accessible w.mem s
  put : ∀ w p bs, I w → s.ptr ≤ p → p + bs.length ≤ s.ptr + s.len → I { w with mem := w.mem.put p bs }

theorem Stable.sub {I : World → Prop} {s : Span} (h : Stable I s) (k : Nat) : Stable I (s.subspan k) := by
  rcases Nat.lt_or_ge k s.len with hk | hk
  · rw [subspan_lt hk]
    refine ⟨fun w hw i hi => ?_, fun w p bs hw h1 h2 => h.put w p bs hw ?_ ?_⟩
    · simp only at hi ⊢
      rw [Nat.add_assoc]
      exact h.acc w hw (k + i) (by omega)
    · simp only at h1; omega
    · simp only at h2; omega
  · rw [subspan_ge hk]
    refine ⟨fun w hw i hi => absurd hi (Nat.not_lt_zero _), fun w p bs hw h1 h2 => ?_⟩
    have : bs = [] := List.length_eq_zero_iff.mp (by simp only at h1 h2; omega)
    rw [this, put_nil]
    exact hw

namespace Tot

theorem pure (I : World → Prop) (a : α) : Tot I (Pure.pure a : M α) := fun w h => ⟨a, w, rfl, h⟩

theorem get (I : World → Prop) : Tot I M.get := fun w h => ⟨w, w, rfl, h⟩

theorem bind {I : World → Prop} {m : M α} {f : α → M β} (h1 : Tot I m) (h2 : ∀ a, Tot I (f a)) : Tot I (m >>= f) := by
  intro w hw
  obtain ⟨a, w1, e, h⟩ := h1 w hw
  obtain ⟨b, w2, e', h'⟩ := h2 a w1 h
  exact ⟨b, w2, by rw [M.bind_eq m f w w1 a e]; exact e', h'⟩

theorem ite {I : World → Prop} {c : Prop} [Decidable c] {a b : M α} (h1 : Tot I a) (h2 : Tot I b) :
    Tot I (if c then a else b) := by
  split
  · exact h1
  · exact h2

theorem write {I : World → Prop} {s : Span} (h : Stable I s) (bytes : List Byte) (n : Nat) :
    Tot I (WriteValue bytes s n) := by
  intro w hw
  by_cases hc : n > s.len ∨ n > bytes.length
  · exact ⟨false, w, WriteValue_false hc, hw⟩
  · simp only [not_or, Nat.not_lt] at hc
    have hl : (bytes.take n).length = n := by rw [List.length_take]; omega
    have hm : w.mem.mapped s.ptr n := mapped_iff.mpr fun i hi => h.acc w hw i (by omega)
    exact ⟨true, _, WriteValue_true hc.1 hc.2 hm, h.put w _ _ hw (Nat.le_refl _) (by omega)⟩

theorem write' {I : World → Prop} {s : Span} (h : Stable I s) (bytes : List Byte) : Tot I (WriteValue' bytes s) :=
  write h bytes _

theorem load_bind {I : World → Prop} {p n : Nat} {f : List Byte → M β}
    (h1 : ∀ w, I w → ∃ bs, w.mem.read p n = some bs ∧ Tot I (f bs)) : Tot I (load p n >>= f) := by
  intro w hw
  obtain ⟨bs, e, h⟩ := h1 w hw
  obtain ⟨b, w2, e', h'⟩ := h w hw
  exact ⟨b, w2, by rw [M.bind_eq (load p n) f w w bs (load_ok e)]; exact e', h'⟩

end Tot

theorem read_of_accessible {m : Mem} {p n : Nat} (h : accessible m ⟨p, n⟩) : ∃ bs, m.read p n = some bs := by
  have : (m.read p n).isSome := read_isSome.mpr fun i hi => h i hi
  exact Option.isSome_iff_exists.mp this

section switch
variable {I : World → Prop} {s : Span} (hs : Stable I s)
include hs
open Inquiry ModeSense

theorem writeStatus_tot (a : List Byte) : Tot I (do
      let ok ← WriteValue' a s
      pure (if ok then StatusCode.kSuccess else StatusCode.kFailure)) := .bind (.write' hs _) fun _ => .pure _ _

theorem writeHeaderAndBody_tot (a b : List Byte) : Tot I (writeHeaderAndBody a b s) :=
  .bind (.write' hs _) fun _ => .ite (.bind (.write' (hs.sub _) _) fun _ => .pure _ _) (.pure _ _)

theorem BuildIdentificationDescriptor_tot (ns : List Byte) : Tot I (BuildIdentificationDescriptor ns s) := by
  have hw : ∀ n, Tot I (writeDescriptor n s) := fun n => .bind (.write' hs _) fun _ => .pure _ _
  refine .ite ?_ (.ite ?_ (.pure _ _))
  · exact .bind (.write' (hs.sub _) _) fun _ => .ite (hw _) (.pure _ _)
  · exact .bind (.write' (hs.sub _) _) fun _ => .ite (hw _) (.pure _ _)

theorem inquiryPage_tot (E : Env) (c : Scsi.InquiryCommand) (nsid : U32) (ns ctrl : List Byte) :
    Tot I (inquiryPage E c nsid ns ctrl s) := by
  unfold inquiryPage
  refine .ite (.ite ?_ (.ite ?_ (.ite ?_ (.ite ?_ (.ite ?_ (.ite ?_ (.ite ?_ (.pure _ _)))))))) ?_
  · exact writeHeaderAndBody_tot hs _ _
  · exact .bind (.get _) fun _ => writeHeaderAndBody_tot hs _ _
  · exact .bind (BuildIdentificationDescriptor_tot (hs.sub _) ns) fun r => .ite (.pure _ _) (writeStatus_tot hs _)
  · unfold TranslateExtendedInquiryDataVpd
    split
    · exact .pure _ _
    · exact writeStatus_tot hs _
  · exact writeStatus_tot hs _
  · exact writeStatus_tot hs _
  · exact writeStatus_tot hs _
  · exact .bind (.write hs _ _) fun _ => .pure _ _

theorem InquiryToScsi_tot (E : Env) (cmd : List Byte) (a b : Nvme.GenericQueueEntryCmd)
    (ha : ∀ w, I w → accessible w.mem ⟨a.prp1.toNat, 4096⟩) (hb : ∀ w, I w → accessible w.mem ⟨b.prp1.toNat, 4096⟩) :
    Tot I (InquiryToScsi E cmd s a b) := by
  unfold InquiryToScsi
  split
  · exact .pure _ _
  · simp only [SafePointerCast_4096]
    refine .ite (.pure _ _) (.ite (.pure _ _) (.load_bind fun w hw => ?_))
    obtain ⟨bs, e⟩ := read_of_accessible (ha w hw)
    refine ⟨bs, e, .load_bind fun w hw => ?_⟩
    obtain ⟨bs, e⟩ := read_of_accessible (hb w hw)
    exact ⟨bs, e, inquiryPage_tot hs _ _ _ _ _⟩

theorem WritePageData_tot (pg : BitVec 6) (g : U32) (hp : pg.toNat ∈ [0x08, 0x0a, 0x1a, 0x3f]) :
    Tot I (WritePageData pg g s) := by
  unfold WritePageData
  have hk : ∀ k : BitVec 6, pg.toNat = k.toNat → pg = k := fun k h => BitVec.eq_of_toNat_eq h
  by_cases h1 : pg = Scsi.ModePageCode.kCacheMode
  · simp only [if_pos h1]; exact .write' hs _
  by_cases h2 : pg = Scsi.ModePageCode.kControlMode
  · simp only [if_neg h1, if_pos h2]; exact .write' hs _
  by_cases h3 : pg = Scsi.ModePageCode.kPowerConditionMode
  · simp only [if_neg h1, if_neg h2, if_pos h3]; exact .write' hs _
  by_cases h4 : pg = Scsi.ModePageCode.kAllSupportedModes
  · simp only [if_neg h1, if_neg h2, if_neg h3, if_pos h4]
    refine .bind (.write' hs _) fun _ => .ite ?_ (.pure _ _)
    refine .bind (.write' (hs.sub _) _) fun _ => .ite ?_ (.pure _ _)
    exact .write' ((hs.sub _).sub _) _
  · exfalso
    simp only [List.mem_cons, List.not_mem_nil, or_false] at hp
    rcases hp with h | h | h | h
    · exact h1 (hk _ h)
    · exact h2 (hk _ h)
    · exact h3 (hk _ h)
    · exact h4 (hk _ h)

theorem WriteBlockDescriptor_tot (i : Nvme.GenericQueueEntryCmd) (l : Bool)
    (hi : ∀ w, I w → ∃ page, w.mem.read i.prp1.toNat 4096 = some page ∧ lbads page < 32) :
    Tot I (WriteBlockDescriptor i s l) := by
  unfold WriteBlockDescriptor
  refine .load_bind fun w hw => ?_
  obtain ⟨page, h1, h2⟩ := hi w hw
  refine ⟨page, h1, ?_⟩
  have hl := lbads_eq page
  have hsh : ∀ f : U32 → M (Bool × Nat), (∀ v, Tot I (f v)) →
      Tot I (shiftLbads (getF page (Nvme.IdentifyNamespace.lbads
        (getF page Nvme.IdentifyNamespace.flbas_format).toNat)) >>= f) := by
    intro f hf
    unfold shiftLbads
    rw [if_neg (by rw [hl]; omega)]
    exact .bind (.pure _ _) hf
  exact .ite (hsh _ fun v => .bind (.write' hs _) fun _ => .pure _ _)
    (hsh _ fun v => .bind (.write' hs _) fun _ => .pure _ _)

theorem modeSenseBody_tot (a : CommonCmdAttributes) (g : U32) (i : Nvme.GenericQueueEntryCmd)
    (hp : a.page_code.toNat ∈ [0x08, 0x0a, 0x1a, 0x3f])
    (hi : a.dbd = false → ∀ w, I w → ∃ page, w.mem.read i.prp1.toNat 4096 = some page ∧ lbads page < 32) :
    Tot I (modeSenseBody a g i s) := by
  unfold modeSenseBody
  cases hd : a.dbd with
  | true =>
    rw [if_pos rfl]
    exact .bind (WritePageData_tot hs _ _ hp) fun _ => .pure _ _
  | false =>
    rw [if_neg (by decide)]
    refine .bind (WriteBlockDescriptor_tot hs i _ (hi hd)) fun _ => .ite ?_ (.pure _ _)
    exact .bind (WritePageData_tot (hs.sub _) _ _ hp) fun _ => .pure _ _

theorem ModeSense6ToScsi_tot (cmd : List Byte) (g : U32) (i : Nvme.GenericQueueEntryCmd)
    (h : ∀ c, readValue Scsi.ModeSense6Command.size Scsi.ModeSense6Command.ofBytes cmd = some c →
      (attrs6 c).page_code.toNat ∈ [0x08, 0x0a, 0x1a, 0x3f] ∧
      ((attrs6 c).dbd = false → ∀ w, I w → ∃ page, w.mem.read i.prp1.toNat 4096 = some page ∧ lbads page < 32)) :
    Tot I (ModeSense6ToScsi cmd i g s) := by
  unfold ModeSense6ToScsi
  split
  · exact .pure _ _
  · rename_i c hc
    obtain ⟨h1, h2⟩ := h c hc
    unfold ModeSenseToScsi
    rw [if_neg (by decide)]
    exact .bind (.write' hs _) fun _ => .ite (modeSenseBody_tot (hs.sub _) _ _ _ h1 h2) (.pure _ _)

theorem writeLuns_tot (l k i : Nat) (hl : ∀ w, I w → accessible w.mem ⟨l, 4096⟩) (hk : i + k ≤ 1024) :
    Tot I (ReportLuns.writeLuns l s i k) := by
  induction k generalizing i with
  | zero => exact .pure _ _
  | succ k ih =>
    unfold ReportLuns.writeLuns
    refine .load_bind fun w hw => ?_
    obtain ⟨bs, e⟩ := read_of_accessible (m := w.mem) (p := l + 4 * i) (n := 4) (by
      intro j hj
      simp only at hj ⊢
      rw [Nat.add_assoc]
      exact hl w hw (4 * i + j) (by simp only; omega))
    refine ⟨bs, e, .bind (.write' (hs.sub _) _) fun _ => .ite (ih (i + 1) (by omega)) (.pure _ _)⟩

end switch

theorem GetNsListLength_le (n : Nat) (page : List Byte) : ReportLuns.GetNsListLength n page ≤ n := by
  induction n generalizing page with
  | zero => exact Nat.le_refl _
  | succ n ih =>
    unfold ReportLuns.GetNsListLength
    split
    · omega
    · have := ih (page.drop 4); omega

theorem ReportLunsToScsi_tot {I : World → Prop} {s : Span} (hs : Stable I s) (i : Nvme.GenericQueueEntryCmd)
    (hi : ∀ w, I w → accessible w.mem ⟨i.prp1.toNat, 4096⟩) : Tot I (ReportLuns.ReportLunsToScsi i s) := by
  unfold ReportLuns.ReportLunsToScsi
  simp only [SafePointerCast_4096]
  refine .ite (.pure _ _) (.ite (.pure _ _) (.load_bind fun w hw => ?_))
  obtain ⟨page, e⟩ := read_of_accessible (hi w hw)
  refine ⟨page, e, .bind (.write' hs _) fun _ => .ite ?_ (.pure _ _)⟩
  refine .bind (writeLuns_tot hs _ _ _ hi ?_) fun _ => .pure _ _
  have hle := GetNsListLength_le Nvme.kIdentifyNsListMaxLength page
  have h1024 : Nvme.kIdentifyNsListMaxLength = 1024 := rfl
  rw [h1024] at hle ⊢
  generalize ReportLuns.GetNsListLength 1024 page = n at hle
  generalize BitVec.ofNat 32 (sizeSub s.len Scsi.ReportLunsParamData.size) = al
  rw [Nat.zero_add]
  have hn : (ntohl (htonl (BitVec.ofNat 32 (n * 8)))).toNat = n * 8 := by
    have : ∀ v : U32, ntohl (htonl v) = v := fun v => bswap_bswap 4 v
    rw [this, BitVec.toNat_ofNat]
    omega
  rw [hn]
  by_cases hc : n * 8 > al.toNat
  · rw [if_pos (by simpa using hc)]
    have : (al - BitVec.ofNat 32 (al.toNat % 8)).toNat ≤ al.toNat := by
      have h1 : (BitVec.ofNat 32 (al.toNat % 8)).toNat = al.toNat % 8 := by
        rw [BitVec.toNat_ofNat]; omega
      have := al.isLt
      rw [BitVec.toNat_sub, h1]
      omega
    omega
  · rw [if_neg (by simpa using hc)]
    exact hle

theorem ReadCapacity_tot {I : World → Prop} {s : Span} (hs : Stable I s) (i : Nvme.GenericQueueEntryCmd)
    (hi : ∀ w, I w → accessible w.mem ⟨i.prp1.toNat, 4096⟩) : Tot I (ReadCapacity.ReadCapacity10ToScsi s i) := by
  unfold ReadCapacity.ReadCapacity10ToScsi
  simp only [SafePointerCast_4096]
  refine .ite (.pure _ _) (.load_bind fun w hw => ?_)
  obtain ⟨page, e⟩ := read_of_accessible (hi w hw)
  exact ⟨page, e, .ite (.pure _ _) (.ite (.pure _ _) (writeStatus_tot hs _))⟩

theorem RequestSense_tot {I : World → Prop} {s : Span} (hs : Stable I s) (cmd : List Byte) :
    Tot I (RequestSense.RequestSenseToScsi cmd s) := by
  unfold RequestSense.RequestSenseToScsi
  split
  · exact .pure _ _
  · exact .ite (writeStatus_tot hs _) (writeStatus_tot hs _)

theorem MaintenanceIn_tot {I : World → Prop} {s : Span} (hs : Stable I s) :
    Tot I (MaintenanceIn.WriteReportSupportedOpCodesResult s) := .bind (.write' hs _) fun _ => .pure _ _

end Scsi2Nvme
