import Verif.Proofs.Cases
import Verif.Proofs.Structs
/-!
# Closed forms of the cases of the `switch` in `Begin`, continued
-/

namespace Scsi2Nvme
open Spec

/-! ## Get Features and Dataset Management commands -/

/-- Get Features for the volatile write cache. -/
def getFeaturesCmd (nsid : U32) (sel : BitVec 2) : Nvme.GenericQueueEntryCmd :=
  { opc := Nvme.AdminOpcode.kGetFeatures, nsid := nsid, cdw_0 := BitVec.ofNat 32 (6 + 256 * sel.toNat) }

theorem getFeatures_ofBytes (nsid : U32) (sel : BitVec 2) :
    Nvme.GenericQueueEntryCmd.ofBytes (Nvme.GetFeaturesCmd.toBytes
      { opc := Nvme.AdminOpcode.kGetFeatures, nsid := nsid, sel := sel,
        fid := Nvme.FeatureType.kVolatileWriteCache }) = getFeaturesCmd nsid sel := by
  refine Eq.trans (congrArg _ ?_) (Nvme.GenericQueueEntryCmd.ofBytes_toBytes (getFeaturesCmd nsid sel))
  unfold Nvme.GetFeaturesCmd.toBytes Nvme.GenericQueueEntryCmd.toBytes getFeaturesCmd
  rw [packBits_zero, packBits_zero]
  refine congr (congrArg leBytes (by simp only [packWidth])) ?_
  have := sel.isLt
  simp only [packVal, BitVec.toNat_ofNat, Nvme.FeatureType.kVolatileWriteCache, BitVec.ofNat_eq_ofNat]
  rw [Nat.mod_eq_of_lt (show 6 + 256 * sel.toNat < 2 ^ 32 by omega)]
  simp

theorem getFeaturesCmd_toBytes (nsid : U32) (sel : BitVec 2) :
    (getFeaturesCmd nsid sel).toBytes = getFeaturesSqe nsid.toNat 6 sel.toNat := by
  unfold getFeaturesCmd getFeaturesSqe
  rw [toBytes_sqe]
  have := sel.isLt
  rw [BitVec.toNat_ofNat, Nat.mod_eq_of_lt (by omega)]
  rfl

/-- Dataset Management / Deallocate. -/
def dsmCmd (nsid : U32) (n : Nat) (prp1 : U64) : Nvme.GenericQueueEntryCmd :=
  { opc := Nvme.NvmOpcode.kDatasetManagement, nsid := nsid, prp1 := prp1,
    cdw_0 := BitVec.ofNat 32 (n - 1), cdw_1 := 4 }

theorem datasetCmd_eq (nsid : U32) (n : Nat) (h0 : 1 ≤ n) (hn : n ≤ 256) (prp1 : U64) :
    Unmap.datasetCmd nsid n prp1 = dsmCmd nsid n prp1 := by
  show Nvme.GenericQueueEntryCmd.ofBytes (Nvme.DatasetManagementCmd.toBytes
    { opc := Nvme.NvmOpcode.kDatasetManagement, nsid := nsid,
      nr := (BitVec.ofNat 32 n - 1).setWidth 8, ad := 1, prp1 := prp1 }) = _
  have hr : (BitVec.ofNat 32 n - 1).setWidth 8 = BitVec.ofNat 8 (n - 1) := by
    apply BitVec.eq_of_toNat_eq
    have h1 : (1 : BitVec 32).toNat = 1 := rfl
    simp only [BitVec.toNat_setWidth, BitVec.toNat_sub, BitVec.toNat_ofNat, h1]
    omega
  rw [hr]
  refine Eq.trans (congrArg _ ?_) (Nvme.GenericQueueEntryCmd.ofBytes_toBytes (dsmCmd nsid n prp1))
  unfold Nvme.DatasetManagementCmd.toBytes Nvme.GenericQueueEntryCmd.toBytes dsmCmd
  rw [packBits_zero, packBits_zero]
  refine congr (congrArg leBytes (by simp only [packWidth])) ?_
  simp only [packVal, BitVec.toNat_ofNat, BitVec.ofNat_eq_ofNat]
  rw [Nat.mod_eq_of_lt (show n - 1 < 2 ^ 32 by omega), Nat.mod_eq_of_lt (show n - 1 < 2 ^ 8 by omega)]

theorem dsmCmd_toBytes (nsid : U32) (n : Nat) (hn : n ≤ 256) (prp1 : U64) :
    (dsmCmd nsid n prp1).toBytes = deallocateSqe nsid.toNat n prp1.toNat := by
  unfold dsmCmd deallocateSqe
  rw [toBytes_sqe]
  rw [BitVec.toNat_ofNat, Nat.mod_eq_of_lt (by omega)]
  rfl

/-! ## MODE SENSE -/

/-- Array assignment inside the bounds. -/
def Arr3.put (a : Arr3 α) (i : Nat) (x : α) : Arr3 α := (a.set? i x).getD a

/-- NVMe select value for a page control. -/
def selOf (pc : BitVec 2) : BitVec 2 := if pc = 1 then 2 else if pc = 2 then 1 else 0

/-- Result of `modeSensePage`. -/
def msPage (a : ModeSense.CommonCmdAttributes) (nsid : U32) (ws : Arr3 NvmeCmdWrapper) (n : Nat) :
    StatusCode × Arr3 NvmeCmdWrapper × Nat :=
  if a.page_code.toNat = 0x08 ∨ a.page_code.toNat = 0x3f then
    if a.pc.toNat = 3 then (.kFailure, ws, n + 1)
    else (.kSuccess, ws.put n { (ws.get? n).getD ws.e0 with
      cmd := getFeaturesCmd nsid (selOf a.pc), is_admin := true }, n + 1)
  else if a.page_code.toNat = 0x0a ∨ a.page_code.toNat = 0x1a then (.kSuccess, ws, n)
  else (.kFailure, ws, n)

theorem bv_eq_iff {w : Nat} (a : BitVec w) (k : Nat) (hk : k < 2 ^ w) :
    a = BitVec.ofNat w k ↔ a.toNat = k := by
  constructor
  · intro h; rw [h, BitVec.toNat_ofNat, Nat.mod_eq_of_lt hk]
  · intro h; apply BitVec.eq_of_toNat_eq; rw [h, BitVec.toNat_ofNat, Nat.mod_eq_of_lt hk]

theorem Arr3.set_self (ws : Arr3 α) (n : Nat) (x : α) (h : ws.get? n = some x) : ws.set? n x = some ws := by
  obtain ⟨a, b, c⟩ := ws
  match n with
  | 0 => simp [Arr3.get?] at h; simp [Arr3.set?, h]
  | 1 => simp [Arr3.get?] at h; simp [Arr3.set?, h]
  | 2 => simp [Arr3.get?] at h; simp [Arr3.set?, h]
  | n + 3 => simp [Arr3.get?] at h

theorem Arr3.get_lt (ws : Arr3 α) (n : Nat) (h : n < 3) : ∃ x, ws.get? n = some x := by
  match n with
  | 0 | 1 | 2 => exact ⟨_, rfl⟩
  | n + 3 => omega

theorem Arr3.set_lt (ws : Arr3 α) (n : Nat) (x : α) (h : n < 3) : ws.set? n x = some (ws.put n x) := by
  match n with
  | 0 | 1 | 2 => rfl
  | n + 3 => omega

theorem modeSensePage_run (a : ModeSense.CommonCmdAttributes) (ws : Arr3 NvmeCmdWrapper) (al : Allocation)
    (nsid : U32) (n : Nat) (hn : n < 3) (w : World) :
    ModeSense.modeSensePage a ws al nsid n w
      = .ok (((msPage a nsid ws n).1, (msPage a nsid ws n).2.1, al, (msPage a nsid ws n).2.2), w) := by
  unfold ModeSense.modeSensePage msPage
  have e8 : a.page_code = Scsi.ModePageCode.kCacheMode ↔ a.page_code.toNat = 0x08 :=
    bv_eq_iff _ 8 (by decide)
  have ea : a.page_code = Scsi.ModePageCode.kControlMode ↔ a.page_code.toNat = 0x0a :=
    bv_eq_iff _ 0xa (by decide)
  have e1 : a.page_code = Scsi.ModePageCode.kPowerConditionMode ↔ a.page_code.toNat = 0x1a :=
    bv_eq_iff _ 0x1a (by decide)
  have e3 : a.page_code = Scsi.ModePageCode.kAllSupportedModes ↔ a.page_code.toNat = 0x3f :=
    bv_eq_iff _ 0x3f (by decide)
  simp only [ne_eq, e8, ea, e1, e3]
  by_cases h : a.page_code.toNat = 0x08 ∨ a.page_code.toNat = 0x3f
  · rw [if_pos h, if_neg (by omega)]
    obtain ⟨x, hx⟩ := ws.get_lt n hn
    simp only [ModeSense.wrapperAt, hx, ModeSense.setWrapper, M.bind_run, M.pure_run, Option.getD_some]
    by_cases h3 : a.pc.toNat = 3
    · rw [if_pos h3]
      have : a.pc = 3 := BitVec.eq_of_toNat_eq h3
      simp only [ModeSense.GenerateCacheGetFeaturesCmd, this]
      rw [if_neg (by decide), if_neg (by decide), if_neg (by decide)]
      simp only [ws.set_self n x hx, M.pure_run]
    · rw [if_neg h3]
      have h4 : ∀ (b : BitVec 2), b.toNat ≠ 3 → b = 0 ∨ b = 1 ∨ b = 2 := by decide
      unfold ModeSense.GenerateCacheGetFeaturesCmd
      rcases h4 a.pc h3 with h5 | h5 | h5
      · rw [h5, if_pos (by decide)]
        simp only [getFeatures_ofBytes, ws.set_lt n _ hn, M.pure_run]; rfl
      · rw [h5, if_neg (by decide), if_pos (by decide)]
        simp only [getFeatures_ofBytes, ws.set_lt n _ hn, M.pure_run]; rfl
      · rw [h5, if_neg (by decide), if_neg (by decide), if_pos (by decide)]
        simp only [getFeatures_ofBytes, ws.set_lt n _ hn, M.pure_run]; rfl
  · rw [if_neg h, if_pos (by omega)]
    split <;> rfl

/-- The half-built wrapper left behind when the page allocation fails. -/
def halfIdentify (wr : NvmeCmdWrapper) (nsid : U32) : NvmeCmdWrapper :=
  { wr with cmd := { opc := Nvme.AdminOpcode.kIdentify, nsid := nsid } }

theorem ModeSense_dbd (E : Env) (a : ModeSense.CommonCmdAttributes) (ws : Arr3 NvmeCmdWrapper)
    (al : Allocation) (nsid : U32) (n : Nat) (hn : n < 3) (w : World) (hd : a.dbd = true) :
    ModeSense.ModeSenseToNvme E a ws al 4096 nsid n w
      = .ok (((msPage a nsid ws n).1, (msPage a nsid ws n).2.1, al, (msPage a nsid ws n).2.2), w) := by
  unfold ModeSense.ModeSenseToNvme
  rw [if_pos hd, modeSensePage_run _ _ _ _ _ hn]

theorem ModeSense_used (E : Env) (a : ModeSense.CommonCmdAttributes) (ws : Arr3 NvmeCmdWrapper)
    (al : Allocation) (nsid : U32) (n : Nat) (hn : n < 3) (w : World) (hd : a.dbd = false)
    (ha : al.data_addr ≠ 0) :
    ModeSense.ModeSenseToNvme E a ws al 4096 nsid n w
      = .ok ((.kFailure, ws.put n (halfIdentify ((ws.get? n).getD ws.e0) nsid), al, n + 1), w) := by
  unfold ModeSense.ModeSenseToNvme ModeSense.GenerateBlockDescriptorIdentifyCmd
  obtain ⟨x, hx⟩ := ws.get_lt n hn
  rw [if_neg (by simp [hd])]
  simp only [ModeSense.wrapperAt, hx, ModeSense.setWrapper, M.bind_run, M.pure_run, Option.getD_some,
    SetPages_used E _ _ ha, if_true, ws.set_lt n _ hn]
  rfl

theorem ModeSense_fail (E : Env) (a : ModeSense.CommonCmdAttributes) (ws : Arr3 NvmeCmdWrapper)
    (al : Allocation) (nsid : U32) (n : Nat) (hn : n < 3) (w : World) (hd : a.dbd = false)
    (ha : al.data_addr = 0) (h0 : setA E w = 0) :
    ModeSense.ModeSenseToNvme E a ws al 4096 nsid n w
      = .ok ((.kFailure, ws.put n (halfIdentify ((ws.get? n).getD ws.e0) nsid), setAl E w, n + 1),
          setW E w) := by
  unfold ModeSense.ModeSenseToNvme ModeSense.GenerateBlockDescriptorIdentifyCmd
  obtain ⟨x, hx⟩ := ws.get_lt n hn
  rw [if_neg (by simp [hd])]
  simp only [ModeSense.wrapperAt, hx, ModeSense.setWrapper, M.bind_run, M.pure_run, Option.getD_some,
    SetPages_free E _ _ ha, h0, if_true, ws.set_lt n _ hn]
  rfl

theorem ModeSense_ok (E : Env) (a : ModeSense.CommonCmdAttributes) (ws : Arr3 NvmeCmdWrapper)
    (al : Allocation) (nsid : U32) (n : Nat) (hn : n < 2) (w : World) (hd : a.dbd = false)
    (ha : al.data_addr = 0) (h0 : setA E w ≠ 0) :
    ModeSense.ModeSenseToNvme E a ws al 4096 nsid n w
      = let r := msPage a nsid (ws.put n (identifyWr nsid 0 (setA E w))) (n + 1)
        .ok ((r.1, r.2.1, setAl E w, r.2.2), setW E w) := by
  unfold ModeSense.ModeSenseToNvme ModeSense.GenerateBlockDescriptorIdentifyCmd
  have hn' : n < 3 := by omega
  obtain ⟨x, hx⟩ := ws.get_lt n hn'
  rw [if_neg (by simp [hd])]
  simp only [ModeSense.wrapperAt, hx, ModeSense.setWrapper, M.bind_run, M.pure_run,
    SetPages_free E _ _ ha, h0, if_false, ws.set_lt n _ hn', reduceCtorEq, ne_eq, not_true_eq_false]
  rw [modeSensePage_run _ _ _ _ _ (by omega)]
  rfl

end Scsi2Nvme
