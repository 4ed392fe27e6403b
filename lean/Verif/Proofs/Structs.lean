import Verif.Proofs.Wire
/-!
# Encoding and decoding of packed structures are inverse
-/

namespace Scsi2Nvme

theorem splitBits_packVal_aux (fs : List (Nat × Nat)) (h : ∀ p ∈ fs, p.2 < 2 ^ p.1) (off n : Nat)
    (hn : n / 2 ^ off = packVal fs) : splitBits off n (fs.map (·.1)) = fs := by
  induction fs generalizing off with
  | nil => rfl
  | cons f fs ih =>
    obtain ⟨w, v⟩ := f
    have hv := h (w, v) (by simp)
    simp only [packVal] at hv hn
    simp only [List.map_cons, splitBits, hn, Nat.add_mul_mod_self_left, Nat.mod_eq_of_lt hv]
    rw [ih (fun p hp => h p (by simp [hp])) (off + w)]
    rw [Nat.pow_add, ← Nat.div_div_eq_div_mul, hn, Nat.add_mul_div_left _ _ (Nat.pow_pos (by omega)),
      Nat.div_eq_of_lt hv, Nat.zero_add]

/-- Reading back all fields of a packed structure. -/
theorem splitBits_packBits (fs : List (Nat × Nat)) (h : ∀ p ∈ fs, p.2 < 2 ^ p.1)
    (h8 : packWidth fs = 8 * (packWidth fs / 8)) :
    splitBits 0 (leNat (packBits 0 0 fs)) (fs.map (·.1)) = fs := by
  apply splitBits_packVal_aux fs h
  rw [leNat_packBits, Nat.mod_eq_of_lt, Nat.pow_zero, Nat.div_one]
  have := packVal_lt fs h
  rw [← two_pow_eight_mul, ← h8]; exact this

theorem ofNat_of_mod {w n : Nat} {v : BitVec w} (h : n % 2 ^ w = v.toNat) : BitVec.ofNat w n = v :=
  BitVec.eq_of_toNat_eq (by rw [BitVec.toNat_ofNat, h])

open Lean Elab Command in
/-- `packed_inverse Name` proves, for a `packed_struct`, `Name.ofBytes_toBytes : Name.ofBytes x.toBytes =
x`, `Name.toBytes_length : x.toBytes.length = Name.size` and `Name.toBytes_ofBytes : bs.length =
Name.size → (Name.ofBytes bs).toBytes = bs`. -/
elab "packed_inverse " n:ident : command => do
  let name ← liftCoreM <| realizeGlobalConstNoOverload n
  let env ← getEnv
  let mut fs : List (String × Nat) := []
  for f in getStructureFields env name do
    let some c := env.find? (name ++ f) | throwError "no field {f}"
    let .forallE _ _ (.app _ w) _ := c.type | throwError "field type {f}"
    let some w := (match w with | .lit (.natVal w) => some w | e => e.nat?) | throwError "width {f}"
    fs := fs ++ [(toString f, w)]
  let list := ", ".intercalate (fs.map fun (f, w) => s!"({w}, x.{f}.toNat)")
  let lts := ", ".intercalate (fs.map fun (f, _) => s!"x.{f}.isLt")
  let ws := ", ".intercalate (fs.map fun (_, w) => s!"{w}")
  let k := fs.length
  let pr (i : Nat) : String := "key" ++ String.join (List.replicate i ".2") ++ (if i + 1 = k then "" else ".1")
  let prs := ", ".intercalate ((List.range k).map fun i => s!"ofNat_of_mod ({pr i})")
  elabSrc s!"theorem _root_.{name}.ofBytes_toBytes (x : {name}) : {name}.ofBytes x.toBytes = x := by
  have key := splitBits_packBits [{list}]
    (by
      simp only [List.forall_mem_cons, BitVec.isLt, List.not_mem_nil, true_and, false_implies,
        implies_true]) (by simp only [packWidth, Nat.reduceAdd, Nat.reduceDiv, Nat.reduceMul])
  unfold {name}.ofBytes {name}.toBytes
  generalize packBits 0 0 [{list}] = bs at key ⊢
  simp only [List.map_cons, List.map_nil, splitBits, List.cons.injEq, Prod.mk.injEq, true_and, and_true,
    Nat.reduceAdd, Nat.zero_add] at key
  unfold getF
  cases x
  simp only [{name}.mk.injEq]
  exact ⟨{prs}⟩"
  elabSrc s!"theorem _root_.{name}.toBytes_length (x : {name}) : x.toBytes.length = {name}.size := by
  unfold {name}.toBytes
  rw [packBits_length]
  simp only [packWidth, Nat.reduceAdd, Nat.reduceDiv, {name}.size]"
  elabSrc s!"theorem _root_.{name}.toBytes_ofBytes (bs : List Byte) (h : bs.length = {name}.size) :
    ({name}.ofBytes bs).toBytes = bs := by
  have key := packBits_splitBits bs [{ws}] (by rw [h]; simp only [List.sum_cons, List.sum_nil, Nat.reduceAdd, Nat.reduceMul, {name}.size])
  unfold {name}.ofBytes {name}.toBytes getF
  simp only [BitVec.toNat_ofNat]
  simpa only [splitBits, Nat.reduceAdd, Nat.zero_add] using key"

packed_inverse Nvme.GenericQueueEntryCpl
packed_inverse Nvme.GenericQueueEntryCmd
packed_inverse Nvme.GetFeaturesCmd
packed_inverse Nvme.DatasetManagementCmd
packed_inverse Nvme.DatasetManagmentRange
packed_inverse Scsi.ReadCapacity10Command
packed_inverse Scsi.InquiryCommand
packed_inverse Scsi.Read6Command
packed_inverse Scsi.Read10Command
packed_inverse Scsi.Read12Command
packed_inverse Scsi.Read16Command
packed_inverse Scsi.Write6Command
packed_inverse Scsi.Write10Command
packed_inverse Scsi.Write12Command
packed_inverse Scsi.Write16Command
packed_inverse Scsi.Verify10Command
packed_inverse Scsi.ModeSense6Command
packed_inverse Scsi.ModeSense10Command
packed_inverse Scsi.ReportLunsCommand
packed_inverse Scsi.ReportOpCodesCommand
packed_inverse Scsi.UnmapCommand
packed_inverse Scsi.RequestSenseCommand
packed_inverse Scsi.ReadCapacity10Data
packed_inverse Scsi.InquiryData
packed_inverse Scsi.ReportLunsParamData
packed_inverse Scsi.OneCommandParamData
packed_inverse Scsi.UnmapParamList
packed_inverse Scsi.UnmapBlockDescriptor
packed_inverse Scsi.CachingModePage
packed_inverse Scsi.ControlModePage
packed_inverse Scsi.PowerConditionModePage
packed_inverse Scsi.ModeParameter6Header
packed_inverse Scsi.ModeParameter10Header
packed_inverse Scsi.ShortLbaBlockDescriptor
packed_inverse Scsi.LongLbaBlockDescriptor
packed_inverse Scsi.FixedFormatSenseData
packed_inverse Scsi.DescriptorFormatSenseData
packed_inverse Scsi.SupportedVitalProductData
packed_inverse Scsi.UnitSerialNumber
packed_inverse Scsi.IdentificationDescriptor
packed_inverse Scsi.DeviceIdentificationVpd
packed_inverse Scsi.ExtendedInquiryDataVpd
packed_inverse Scsi.BlockDeviceCharacteristicsVpd
packed_inverse Scsi.LogicalBlockProvisioningVpd
packed_inverse Scsi.BlockLimitsVpd

end Scsi2Nvme
