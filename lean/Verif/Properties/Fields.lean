import Verif.Properties.Layouts
import Verif.Spec.Complete
import Verif.Proofs.Wire
/-!
# C63: the position of every field

Where each field of the packed structures is, as the headers say: bit `k` of a field at bit offset `off` is bit
`(off + k) % 8` of byte `(off + k) / 8`.  The offsets below were computed from the declarations in lib/scsi.h and
third_party/spdk/nvme.h by a script, not from the model.
-/

namespace Scsi2Nvme
open Spec

/-- The field `f` of the structure decoded by `dec` occupies `w` bits from bit `off`, least significant first. -/
def Located {α : Type} (dec : List Byte → α) {w : Nat} (off : Nat) (f : α → BitVec w) : Prop :=
  ∀ bs k, k < w → (f (dec bs)).getLsbD k = Spec.bit bs ((off + k) / 8) ((off + k) % 8)

theorem leNat_testBit (bs : List Byte) (n : Nat) : (leNat bs).testBit n = Spec.bit bs (n / 8) (n % 8) := by
  induction bs generalizing n with
  | nil =>
    unfold Spec.bit byte
    simp [leNat]
  | cons b bs ih =>
    have hb : b.toNat < 2 ^ 8 := b.isLt
    have e : leNat (b :: bs) = 2 ^ 8 * leNat bs + b.toNat := by
      change b.toNat + 256 * leNat bs = _
      omega
    rw [e, Nat.testBit_two_pow_mul_add _ hb]
    split
    · rename_i h
      have h1 : n / 8 = 0 := by omega
      have h2 : n % 8 = n := by omega
      unfold Spec.bit byte
      rw [h1, h2]
      simp only [List.getD_cons_zero]
      rw [Nat.testBit_eq_decide_div_mod_eq]
    · rename_i h
      rw [ih]
      have h1 : n / 8 = (n - 8) / 8 + 1 := by omega
      have h2 : (n - 8) % 8 = n % 8 := by omega
      unfold Spec.bit byte
      rw [h1, h2, List.getD_cons_succ]

theorem located_getF {α : Type} (dec : List Byte → α) {w : Nat} (off : Nat) (f : α → BitVec w)
    (h : ∀ bs, f (dec bs) = getF bs ⟨off⟩) : Located dec off f := by
  intro bs k hk
  rw [h]
  unfold getF
  rw [BitVec.getLsbD_ofNat, Nat.testBit_div_two_pow, leNat_testBit, Nat.add_comm k off]
  simp [hk]

/-- **C63.** third_party/spdk/nvme.h:218 -/
theorem C63_fields_GenericQueueEntryCpl :
    Located Nvme.GenericQueueEntryCpl.ofBytes 0 Nvme.GenericQueueEntryCpl.cdw0 ∧
    Located Nvme.GenericQueueEntryCpl.ofBytes 32 Nvme.GenericQueueEntryCpl.rsvd1 ∧
    Located Nvme.GenericQueueEntryCpl.ofBytes 64 Nvme.GenericQueueEntryCpl.sqhd ∧
    Located Nvme.GenericQueueEntryCpl.ofBytes 80 Nvme.GenericQueueEntryCpl.sqid ∧
    Located Nvme.GenericQueueEntryCpl.ofBytes 96 Nvme.GenericQueueEntryCpl.cid ∧
    Located Nvme.GenericQueueEntryCpl.ofBytes 112 Nvme.GenericQueueEntryCpl.p ∧
    Located Nvme.GenericQueueEntryCpl.ofBytes 113 Nvme.GenericQueueEntryCpl.sc ∧
    Located Nvme.GenericQueueEntryCpl.ofBytes 121 Nvme.GenericQueueEntryCpl.sct ∧
    Located Nvme.GenericQueueEntryCpl.ofBytes 124 Nvme.GenericQueueEntryCpl.rsvd2 ∧
    Located Nvme.GenericQueueEntryCpl.ofBytes 126 Nvme.GenericQueueEntryCpl.m ∧
    Located Nvme.GenericQueueEntryCpl.ofBytes 127 Nvme.GenericQueueEntryCpl.dnr :=
  ⟨located_getF _ _ _ fun _ => rfl, located_getF _ _ _ fun _ => rfl, located_getF _ _ _ fun _ => rfl, located_getF _ _ _ fun _ => rfl, located_getF _ _ _ fun _ => rfl, located_getF _ _ _ fun _ => rfl, located_getF _ _ _ fun _ => rfl, located_getF _ _ _ fun _ => rfl, located_getF _ _ _ fun _ => rfl, located_getF _ _ _ fun _ => rfl, located_getF _ _ _ fun _ => rfl⟩

/-- **C63.** third_party/spdk/nvme.h:314 -/
theorem C63_fields_GenericQueueEntryCmd :
    Located Nvme.GenericQueueEntryCmd.ofBytes 0 Nvme.GenericQueueEntryCmd.opc ∧
    Located Nvme.GenericQueueEntryCmd.ofBytes 8 Nvme.GenericQueueEntryCmd.fuse ∧
    Located Nvme.GenericQueueEntryCmd.ofBytes 10 Nvme.GenericQueueEntryCmd.rsvd1 ∧
    Located Nvme.GenericQueueEntryCmd.ofBytes 14 Nvme.GenericQueueEntryCmd.psdt ∧
    Located Nvme.GenericQueueEntryCmd.ofBytes 16 Nvme.GenericQueueEntryCmd.cid ∧
    Located Nvme.GenericQueueEntryCmd.ofBytes 32 Nvme.GenericQueueEntryCmd.nsid ∧
    Located Nvme.GenericQueueEntryCmd.ofBytes 64 Nvme.GenericQueueEntryCmd.rsvd2 ∧
    Located Nvme.GenericQueueEntryCmd.ofBytes 96 Nvme.GenericQueueEntryCmd.rsvd3 ∧
    Located Nvme.GenericQueueEntryCmd.ofBytes 128 Nvme.GenericQueueEntryCmd.mptr ∧
    Located Nvme.GenericQueueEntryCmd.ofBytes 192 Nvme.GenericQueueEntryCmd.prp1 ∧
    Located Nvme.GenericQueueEntryCmd.ofBytes 256 Nvme.GenericQueueEntryCmd.prp2 ∧
    Located Nvme.GenericQueueEntryCmd.ofBytes 320 Nvme.GenericQueueEntryCmd.cdw_0 ∧
    Located Nvme.GenericQueueEntryCmd.ofBytes 352 Nvme.GenericQueueEntryCmd.cdw_1 ∧
    Located Nvme.GenericQueueEntryCmd.ofBytes 384 Nvme.GenericQueueEntryCmd.cdw_2 ∧
    Located Nvme.GenericQueueEntryCmd.ofBytes 416 Nvme.GenericQueueEntryCmd.cdw_3 ∧
    Located Nvme.GenericQueueEntryCmd.ofBytes 448 Nvme.GenericQueueEntryCmd.cdw_4 ∧
    Located Nvme.GenericQueueEntryCmd.ofBytes 480 Nvme.GenericQueueEntryCmd.cdw_5 :=
  ⟨located_getF _ _ _ fun _ => rfl, located_getF _ _ _ fun _ => rfl, located_getF _ _ _ fun _ => rfl, located_getF _ _ _ fun _ => rfl, located_getF _ _ _ fun _ => rfl, located_getF _ _ _ fun _ => rfl, located_getF _ _ _ fun _ => rfl, located_getF _ _ _ fun _ => rfl, located_getF _ _ _ fun _ => rfl, located_getF _ _ _ fun _ => rfl, located_getF _ _ _ fun _ => rfl, located_getF _ _ _ fun _ => rfl, located_getF _ _ _ fun _ => rfl, located_getF _ _ _ fun _ => rfl, located_getF _ _ _ fun _ => rfl, located_getF _ _ _ fun _ => rfl, located_getF _ _ _ fun _ => rfl⟩

/-- **C63.** third_party/spdk/nvme.h:343 -/
theorem C63_fields_GetFeaturesCmd :
    Located Nvme.GetFeaturesCmd.ofBytes 0 Nvme.GetFeaturesCmd.opc ∧
    Located Nvme.GetFeaturesCmd.ofBytes 8 Nvme.GetFeaturesCmd.fuse ∧
    Located Nvme.GetFeaturesCmd.ofBytes 10 Nvme.GetFeaturesCmd.rsvd1 ∧
    Located Nvme.GetFeaturesCmd.ofBytes 14 Nvme.GetFeaturesCmd.psdt ∧
    Located Nvme.GetFeaturesCmd.ofBytes 16 Nvme.GetFeaturesCmd.cid ∧
    Located Nvme.GetFeaturesCmd.ofBytes 32 Nvme.GetFeaturesCmd.nsid ∧
    Located Nvme.GetFeaturesCmd.ofBytes 64 Nvme.GetFeaturesCmd.rsvd2 ∧
    Located Nvme.GetFeaturesCmd.ofBytes 96 Nvme.GetFeaturesCmd.rsvd3 ∧
    Located Nvme.GetFeaturesCmd.ofBytes 128 Nvme.GetFeaturesCmd.mptr ∧
    Located Nvme.GetFeaturesCmd.ofBytes 192 Nvme.GetFeaturesCmd.prp1 ∧
    Located Nvme.GetFeaturesCmd.ofBytes 256 Nvme.GetFeaturesCmd.prp2 ∧
    Located Nvme.GetFeaturesCmd.ofBytes 320 Nvme.GetFeaturesCmd.fid ∧
    Located Nvme.GetFeaturesCmd.ofBytes 328 Nvme.GetFeaturesCmd.sel ∧
    Located Nvme.GetFeaturesCmd.ofBytes 330 Nvme.GetFeaturesCmd.rsvd4 ∧
    Located Nvme.GetFeaturesCmd.ofBytes 352 Nvme.GetFeaturesCmd.cdw_0 ∧
    Located Nvme.GetFeaturesCmd.ofBytes 384 Nvme.GetFeaturesCmd.cdw_1 ∧
    Located Nvme.GetFeaturesCmd.ofBytes 416 Nvme.GetFeaturesCmd.cdw_2 ∧
    Located Nvme.GetFeaturesCmd.ofBytes 448 Nvme.GetFeaturesCmd.cdw_3 ∧
    Located Nvme.GetFeaturesCmd.ofBytes 480 Nvme.GetFeaturesCmd.cdw_4 :=
  ⟨located_getF _ _ _ fun _ => rfl, located_getF _ _ _ fun _ => rfl, located_getF _ _ _ fun _ => rfl, located_getF _ _ _ fun _ => rfl, located_getF _ _ _ fun _ => rfl, located_getF _ _ _ fun _ => rfl, located_getF _ _ _ fun _ => rfl, located_getF _ _ _ fun _ => rfl, located_getF _ _ _ fun _ => rfl, located_getF _ _ _ fun _ => rfl, located_getF _ _ _ fun _ => rfl, located_getF _ _ _ fun _ => rfl, located_getF _ _ _ fun _ => rfl, located_getF _ _ _ fun _ => rfl, located_getF _ _ _ fun _ => rfl, located_getF _ _ _ fun _ => rfl, located_getF _ _ _ fun _ => rfl, located_getF _ _ _ fun _ => rfl, located_getF _ _ _ fun _ => rfl⟩

/-- **C63.** third_party/spdk/nvme.h:375 -/
theorem C63_fields_DatasetManagementCmd :
    Located Nvme.DatasetManagementCmd.ofBytes 0 Nvme.DatasetManagementCmd.opc ∧
    Located Nvme.DatasetManagementCmd.ofBytes 8 Nvme.DatasetManagementCmd.fuse ∧
    Located Nvme.DatasetManagementCmd.ofBytes 10 Nvme.DatasetManagementCmd.rsvd1 ∧
    Located Nvme.DatasetManagementCmd.ofBytes 14 Nvme.DatasetManagementCmd.psdt ∧
    Located Nvme.DatasetManagementCmd.ofBytes 16 Nvme.DatasetManagementCmd.cid ∧
    Located Nvme.DatasetManagementCmd.ofBytes 32 Nvme.DatasetManagementCmd.nsid ∧
    Located Nvme.DatasetManagementCmd.ofBytes 64 Nvme.DatasetManagementCmd.rsvd2 ∧
    Located Nvme.DatasetManagementCmd.ofBytes 96 Nvme.DatasetManagementCmd.rsvd3 ∧
    Located Nvme.DatasetManagementCmd.ofBytes 128 Nvme.DatasetManagementCmd.mptr ∧
    Located Nvme.DatasetManagementCmd.ofBytes 192 Nvme.DatasetManagementCmd.prp1 ∧
    Located Nvme.DatasetManagementCmd.ofBytes 256 Nvme.DatasetManagementCmd.prp2 ∧
    Located Nvme.DatasetManagementCmd.ofBytes 320 Nvme.DatasetManagementCmd.nr ∧
    Located Nvme.DatasetManagementCmd.ofBytes 328 Nvme.DatasetManagementCmd.rsvd4 ∧
    Located Nvme.DatasetManagementCmd.ofBytes 352 Nvme.DatasetManagementCmd.idr ∧
    Located Nvme.DatasetManagementCmd.ofBytes 353 Nvme.DatasetManagementCmd.idw ∧
    Located Nvme.DatasetManagementCmd.ofBytes 354 Nvme.DatasetManagementCmd.ad ∧
    Located Nvme.DatasetManagementCmd.ofBytes 355 Nvme.DatasetManagementCmd.rsvd5 ∧
    Located Nvme.DatasetManagementCmd.ofBytes 384 Nvme.DatasetManagementCmd.cdw_0 ∧
    Located Nvme.DatasetManagementCmd.ofBytes 416 Nvme.DatasetManagementCmd.cdw_1 ∧
    Located Nvme.DatasetManagementCmd.ofBytes 448 Nvme.DatasetManagementCmd.cdw_2 ∧
    Located Nvme.DatasetManagementCmd.ofBytes 480 Nvme.DatasetManagementCmd.cdw_3 :=
  ⟨located_getF _ _ _ fun _ => rfl, located_getF _ _ _ fun _ => rfl, located_getF _ _ _ fun _ => rfl, located_getF _ _ _ fun _ => rfl, located_getF _ _ _ fun _ => rfl, located_getF _ _ _ fun _ => rfl, located_getF _ _ _ fun _ => rfl, located_getF _ _ _ fun _ => rfl, located_getF _ _ _ fun _ => rfl, located_getF _ _ _ fun _ => rfl, located_getF _ _ _ fun _ => rfl, located_getF _ _ _ fun _ => rfl, located_getF _ _ _ fun _ => rfl, located_getF _ _ _ fun _ => rfl, located_getF _ _ _ fun _ => rfl, located_getF _ _ _ fun _ => rfl, located_getF _ _ _ fun _ => rfl, located_getF _ _ _ fun _ => rfl, located_getF _ _ _ fun _ => rfl, located_getF _ _ _ fun _ => rfl, located_getF _ _ _ fun _ => rfl⟩

/-- **C63.** third_party/spdk/nvme.h:410 -/
theorem C63_fields_DatasetManagmentRange :
    Located Nvme.DatasetManagmentRange.ofBytes 0 Nvme.DatasetManagmentRange.context_attributes ∧
    Located Nvme.DatasetManagmentRange.ofBytes 32 Nvme.DatasetManagmentRange.lb_count ∧
    Located Nvme.DatasetManagmentRange.ofBytes 64 Nvme.DatasetManagmentRange.lba :=
  ⟨located_getF _ _ _ fun _ => rfl, located_getF _ _ _ fun _ => rfl, located_getF _ _ _ fun _ => rfl⟩

/-- **C63.** lib/scsi.h:444 -/
theorem C63_fields_ReadCapacity10Command :
    Located Scsi.ReadCapacity10Command.ofBytes 0 Scsi.ReadCapacity10Command.reserved_1 ∧
    Located Scsi.ReadCapacity10Command.ofBytes 8 Scsi.ReadCapacity10Command.logical_block_address ∧
    Located Scsi.ReadCapacity10Command.ofBytes 40 Scsi.ReadCapacity10Command.reserved_2 ∧
    Located Scsi.ReadCapacity10Command.ofBytes 56 Scsi.ReadCapacity10Command.reserved_3 ∧
    Located Scsi.ReadCapacity10Command.ofBytes 64 Scsi.ReadCapacity10Command.cb_obsolete ∧
    Located Scsi.ReadCapacity10Command.ofBytes 66 Scsi.ReadCapacity10Command.naca ∧
    Located Scsi.ReadCapacity10Command.ofBytes 67 Scsi.ReadCapacity10Command.cb_reserved ∧
    Located Scsi.ReadCapacity10Command.ofBytes 70 Scsi.ReadCapacity10Command.cb_vendor :=
  ⟨located_getF _ _ _ fun _ => rfl, located_getF _ _ _ fun _ => rfl, located_getF _ _ _ fun _ => rfl, located_getF _ _ _ fun _ => rfl, located_getF _ _ _ fun _ => rfl, located_getF _ _ _ fun _ => rfl, located_getF _ _ _ fun _ => rfl, located_getF _ _ _ fun _ => rfl⟩

/-- **C63.** lib/scsi.h:464 -/
theorem C63_fields_InquiryCommand :
    Located Scsi.InquiryCommand.ofBytes 0 Scsi.InquiryCommand.evpd ∧
    Located Scsi.InquiryCommand.ofBytes 1 Scsi.InquiryCommand.obsolete ∧
    Located Scsi.InquiryCommand.ofBytes 2 Scsi.InquiryCommand.reserved ∧
    Located Scsi.InquiryCommand.ofBytes 8 Scsi.InquiryCommand.page_code ∧
    Located Scsi.InquiryCommand.ofBytes 16 Scsi.InquiryCommand.allocation_length ∧
    Located Scsi.InquiryCommand.ofBytes 32 Scsi.InquiryCommand.cb_obsolete ∧
    Located Scsi.InquiryCommand.ofBytes 34 Scsi.InquiryCommand.naca ∧
    Located Scsi.InquiryCommand.ofBytes 35 Scsi.InquiryCommand.cb_reserved ∧
    Located Scsi.InquiryCommand.ofBytes 38 Scsi.InquiryCommand.cb_vendor :=
  ⟨located_getF _ _ _ fun _ => rfl, located_getF _ _ _ fun _ => rfl, located_getF _ _ _ fun _ => rfl, located_getF _ _ _ fun _ => rfl, located_getF _ _ _ fun _ => rfl, located_getF _ _ _ fun _ => rfl, located_getF _ _ _ fun _ => rfl, located_getF _ _ _ fun _ => rfl, located_getF _ _ _ fun _ => rfl⟩

/-- **C63.** lib/scsi.h:628 -/
theorem C63_fields_Read6Command :
    Located Scsi.Read6Command.ofBytes 0 Scsi.Read6Command.logical_block_address_1 ∧
    Located Scsi.Read6Command.ofBytes 5 Scsi.Read6Command.reserved ∧
    Located Scsi.Read6Command.ofBytes 8 Scsi.Read6Command.logical_block_address_2 ∧
    Located Scsi.Read6Command.ofBytes 24 Scsi.Read6Command.transfer_length ∧
    Located Scsi.Read6Command.ofBytes 32 Scsi.Read6Command.cb_obsolete ∧
    Located Scsi.Read6Command.ofBytes 34 Scsi.Read6Command.naca ∧
    Located Scsi.Read6Command.ofBytes 35 Scsi.Read6Command.cb_reserved ∧
    Located Scsi.Read6Command.ofBytes 38 Scsi.Read6Command.cb_vendor :=
  ⟨located_getF _ _ _ fun _ => rfl, located_getF _ _ _ fun _ => rfl, located_getF _ _ _ fun _ => rfl, located_getF _ _ _ fun _ => rfl, located_getF _ _ _ fun _ => rfl, located_getF _ _ _ fun _ => rfl, located_getF _ _ _ fun _ => rfl, located_getF _ _ _ fun _ => rfl⟩

/-- **C63.** lib/scsi.h:639 -/
theorem C63_fields_Read10Command :
    Located Scsi.Read10Command.ofBytes 0 Scsi.Read10Command.obsolete ∧
    Located Scsi.Read10Command.ofBytes 2 Scsi.Read10Command.rarc ∧
    Located Scsi.Read10Command.ofBytes 3 Scsi.Read10Command.fua ∧
    Located Scsi.Read10Command.ofBytes 4 Scsi.Read10Command.dpo ∧
    Located Scsi.Read10Command.ofBytes 5 Scsi.Read10Command.rd_protect ∧
    Located Scsi.Read10Command.ofBytes 8 Scsi.Read10Command.logical_block_address ∧
    Located Scsi.Read10Command.ofBytes 40 Scsi.Read10Command.group_number ∧
    Located Scsi.Read10Command.ofBytes 45 Scsi.Read10Command.reserved ∧
    Located Scsi.Read10Command.ofBytes 48 Scsi.Read10Command.transfer_length ∧
    Located Scsi.Read10Command.ofBytes 64 Scsi.Read10Command.cb_obsolete ∧
    Located Scsi.Read10Command.ofBytes 66 Scsi.Read10Command.naca ∧
    Located Scsi.Read10Command.ofBytes 67 Scsi.Read10Command.cb_reserved ∧
    Located Scsi.Read10Command.ofBytes 70 Scsi.Read10Command.cb_vendor :=
  ⟨located_getF _ _ _ fun _ => rfl, located_getF _ _ _ fun _ => rfl, located_getF _ _ _ fun _ => rfl, located_getF _ _ _ fun _ => rfl, located_getF _ _ _ fun _ => rfl, located_getF _ _ _ fun _ => rfl, located_getF _ _ _ fun _ => rfl, located_getF _ _ _ fun _ => rfl, located_getF _ _ _ fun _ => rfl, located_getF _ _ _ fun _ => rfl, located_getF _ _ _ fun _ => rfl, located_getF _ _ _ fun _ => rfl, located_getF _ _ _ fun _ => rfl⟩

/-- **C63.** lib/scsi.h:655 -/
theorem C63_fields_Read12Command :
    Located Scsi.Read12Command.ofBytes 0 Scsi.Read12Command.obsolete ∧
    Located Scsi.Read12Command.ofBytes 2 Scsi.Read12Command.rarc ∧
    Located Scsi.Read12Command.ofBytes 3 Scsi.Read12Command.fua ∧
    Located Scsi.Read12Command.ofBytes 4 Scsi.Read12Command.dpo ∧
    Located Scsi.Read12Command.ofBytes 5 Scsi.Read12Command.rd_protect ∧
    Located Scsi.Read12Command.ofBytes 8 Scsi.Read12Command.logical_block_address ∧
    Located Scsi.Read12Command.ofBytes 40 Scsi.Read12Command.transfer_length ∧
    Located Scsi.Read12Command.ofBytes 72 Scsi.Read12Command.group_number ∧
    Located Scsi.Read12Command.ofBytes 77 Scsi.Read12Command.reserved ∧
    Located Scsi.Read12Command.ofBytes 79 Scsi.Read12Command.restricted_mmc_6 ∧
    Located Scsi.Read12Command.ofBytes 80 Scsi.Read12Command.cb_obsolete ∧
    Located Scsi.Read12Command.ofBytes 82 Scsi.Read12Command.naca ∧
    Located Scsi.Read12Command.ofBytes 83 Scsi.Read12Command.cb_reserved ∧
    Located Scsi.Read12Command.ofBytes 86 Scsi.Read12Command.cb_vendor :=
  ⟨located_getF _ _ _ fun _ => rfl, located_getF _ _ _ fun _ => rfl, located_getF _ _ _ fun _ => rfl, located_getF _ _ _ fun _ => rfl, located_getF _ _ _ fun _ => rfl, located_getF _ _ _ fun _ => rfl, located_getF _ _ _ fun _ => rfl, located_getF _ _ _ fun _ => rfl, located_getF _ _ _ fun _ => rfl, located_getF _ _ _ fun _ => rfl, located_getF _ _ _ fun _ => rfl, located_getF _ _ _ fun _ => rfl, located_getF _ _ _ fun _ => rfl, located_getF _ _ _ fun _ => rfl⟩

/-- **C63.** lib/scsi.h:672 -/
theorem C63_fields_Read16Command :
    Located Scsi.Read16Command.ofBytes 0 Scsi.Read16Command.dld_2 ∧
    Located Scsi.Read16Command.ofBytes 1 Scsi.Read16Command.obsolete ∧
    Located Scsi.Read16Command.ofBytes 2 Scsi.Read16Command.rarc ∧
    Located Scsi.Read16Command.ofBytes 3 Scsi.Read16Command.fua ∧
    Located Scsi.Read16Command.ofBytes 4 Scsi.Read16Command.dpo ∧
    Located Scsi.Read16Command.ofBytes 5 Scsi.Read16Command.rd_protect ∧
    Located Scsi.Read16Command.ofBytes 8 Scsi.Read16Command.logical_block_address ∧
    Located Scsi.Read16Command.ofBytes 72 Scsi.Read16Command.transfer_length ∧
    Located Scsi.Read16Command.ofBytes 104 Scsi.Read16Command.group_number ∧
    Located Scsi.Read16Command.ofBytes 110 Scsi.Read16Command.dld_0 ∧
    Located Scsi.Read16Command.ofBytes 111 Scsi.Read16Command.dld_1 ∧
    Located Scsi.Read16Command.ofBytes 112 Scsi.Read16Command.cb_obsolete ∧
    Located Scsi.Read16Command.ofBytes 114 Scsi.Read16Command.naca ∧
    Located Scsi.Read16Command.ofBytes 115 Scsi.Read16Command.cb_reserved ∧
    Located Scsi.Read16Command.ofBytes 118 Scsi.Read16Command.cb_vendor :=
  ⟨located_getF _ _ _ fun _ => rfl, located_getF _ _ _ fun _ => rfl, located_getF _ _ _ fun _ => rfl, located_getF _ _ _ fun _ => rfl, located_getF _ _ _ fun _ => rfl, located_getF _ _ _ fun _ => rfl, located_getF _ _ _ fun _ => rfl, located_getF _ _ _ fun _ => rfl, located_getF _ _ _ fun _ => rfl, located_getF _ _ _ fun _ => rfl, located_getF _ _ _ fun _ => rfl, located_getF _ _ _ fun _ => rfl, located_getF _ _ _ fun _ => rfl, located_getF _ _ _ fun _ => rfl, located_getF _ _ _ fun _ => rfl⟩

/-- **C63.** lib/scsi.h:690 -/
theorem C63_fields_Write6Command :
    Located Scsi.Write6Command.ofBytes 0 Scsi.Write6Command.logical_block_address_1 ∧
    Located Scsi.Write6Command.ofBytes 5 Scsi.Write6Command.reserved ∧
    Located Scsi.Write6Command.ofBytes 8 Scsi.Write6Command.logical_block_address_2 ∧
    Located Scsi.Write6Command.ofBytes 24 Scsi.Write6Command.transfer_length ∧
    Located Scsi.Write6Command.ofBytes 32 Scsi.Write6Command.cb_obsolete ∧
    Located Scsi.Write6Command.ofBytes 34 Scsi.Write6Command.naca ∧
    Located Scsi.Write6Command.ofBytes 35 Scsi.Write6Command.cb_reserved ∧
    Located Scsi.Write6Command.ofBytes 38 Scsi.Write6Command.cb_vendor :=
  ⟨located_getF _ _ _ fun _ => rfl, located_getF _ _ _ fun _ => rfl, located_getF _ _ _ fun _ => rfl, located_getF _ _ _ fun _ => rfl, located_getF _ _ _ fun _ => rfl, located_getF _ _ _ fun _ => rfl, located_getF _ _ _ fun _ => rfl, located_getF _ _ _ fun _ => rfl⟩

/-- **C63.** lib/scsi.h:701 -/
theorem C63_fields_Write10Command :
    Located Scsi.Write10Command.ofBytes 0 Scsi.Write10Command.obsolete ∧
    Located Scsi.Write10Command.ofBytes 2 Scsi.Write10Command.reserved_1 ∧
    Located Scsi.Write10Command.ofBytes 3 Scsi.Write10Command.fua ∧
    Located Scsi.Write10Command.ofBytes 4 Scsi.Write10Command.dpo ∧
    Located Scsi.Write10Command.ofBytes 5 Scsi.Write10Command.wr_protect ∧
    Located Scsi.Write10Command.ofBytes 8 Scsi.Write10Command.logical_block_address ∧
    Located Scsi.Write10Command.ofBytes 40 Scsi.Write10Command.group_number ∧
    Located Scsi.Write10Command.ofBytes 45 Scsi.Write10Command.reserved_2 ∧
    Located Scsi.Write10Command.ofBytes 48 Scsi.Write10Command.transfer_length ∧
    Located Scsi.Write10Command.ofBytes 64 Scsi.Write10Command.cb_obsolete ∧
    Located Scsi.Write10Command.ofBytes 66 Scsi.Write10Command.naca ∧
    Located Scsi.Write10Command.ofBytes 67 Scsi.Write10Command.cb_reserved ∧
    Located Scsi.Write10Command.ofBytes 70 Scsi.Write10Command.cb_vendor :=
  ⟨located_getF _ _ _ fun _ => rfl, located_getF _ _ _ fun _ => rfl, located_getF _ _ _ fun _ => rfl, located_getF _ _ _ fun _ => rfl, located_getF _ _ _ fun _ => rfl, located_getF _ _ _ fun _ => rfl, located_getF _ _ _ fun _ => rfl, located_getF _ _ _ fun _ => rfl, located_getF _ _ _ fun _ => rfl, located_getF _ _ _ fun _ => rfl, located_getF _ _ _ fun _ => rfl, located_getF _ _ _ fun _ => rfl, located_getF _ _ _ fun _ => rfl⟩

/-- **C63.** lib/scsi.h:717 -/
theorem C63_fields_Write12Command :
    Located Scsi.Write12Command.ofBytes 0 Scsi.Write12Command.obsolete ∧
    Located Scsi.Write12Command.ofBytes 2 Scsi.Write12Command.reserved_1 ∧
    Located Scsi.Write12Command.ofBytes 3 Scsi.Write12Command.fua ∧
    Located Scsi.Write12Command.ofBytes 4 Scsi.Write12Command.dpo ∧
    Located Scsi.Write12Command.ofBytes 5 Scsi.Write12Command.wr_protect ∧
    Located Scsi.Write12Command.ofBytes 8 Scsi.Write12Command.logical_block_address ∧
    Located Scsi.Write12Command.ofBytes 40 Scsi.Write12Command.transfer_length ∧
    Located Scsi.Write12Command.ofBytes 72 Scsi.Write12Command.group_number ∧
    Located Scsi.Write12Command.ofBytes 77 Scsi.Write12Command.reserved_2 ∧
    Located Scsi.Write12Command.ofBytes 79 Scsi.Write12Command.restricted_mmc_5 ∧
    Located Scsi.Write12Command.ofBytes 80 Scsi.Write12Command.cb_obsolete ∧
    Located Scsi.Write12Command.ofBytes 82 Scsi.Write12Command.naca ∧
    Located Scsi.Write12Command.ofBytes 83 Scsi.Write12Command.cb_reserved ∧
    Located Scsi.Write12Command.ofBytes 86 Scsi.Write12Command.cb_vendor :=
  ⟨located_getF _ _ _ fun _ => rfl, located_getF _ _ _ fun _ => rfl, located_getF _ _ _ fun _ => rfl, located_getF _ _ _ fun _ => rfl, located_getF _ _ _ fun _ => rfl, located_getF _ _ _ fun _ => rfl, located_getF _ _ _ fun _ => rfl, located_getF _ _ _ fun _ => rfl, located_getF _ _ _ fun _ => rfl, located_getF _ _ _ fun _ => rfl, located_getF _ _ _ fun _ => rfl, located_getF _ _ _ fun _ => rfl, located_getF _ _ _ fun _ => rfl, located_getF _ _ _ fun _ => rfl⟩

/-- **C63.** lib/scsi.h:734 -/
theorem C63_fields_Write16Command :
    Located Scsi.Write16Command.ofBytes 0 Scsi.Write16Command.dld_2 ∧
    Located Scsi.Write16Command.ofBytes 1 Scsi.Write16Command.obsolete ∧
    Located Scsi.Write16Command.ofBytes 2 Scsi.Write16Command.reserved ∧
    Located Scsi.Write16Command.ofBytes 3 Scsi.Write16Command.fua ∧
    Located Scsi.Write16Command.ofBytes 4 Scsi.Write16Command.dpo ∧
    Located Scsi.Write16Command.ofBytes 5 Scsi.Write16Command.wr_protect ∧
    Located Scsi.Write16Command.ofBytes 8 Scsi.Write16Command.logical_block_address ∧
    Located Scsi.Write16Command.ofBytes 72 Scsi.Write16Command.transfer_length ∧
    Located Scsi.Write16Command.ofBytes 104 Scsi.Write16Command.group_number ∧
    Located Scsi.Write16Command.ofBytes 110 Scsi.Write16Command.dld_0 ∧
    Located Scsi.Write16Command.ofBytes 111 Scsi.Write16Command.dld_1 ∧
    Located Scsi.Write16Command.ofBytes 112 Scsi.Write16Command.cb_obsolete ∧
    Located Scsi.Write16Command.ofBytes 114 Scsi.Write16Command.naca ∧
    Located Scsi.Write16Command.ofBytes 115 Scsi.Write16Command.cb_reserved ∧
    Located Scsi.Write16Command.ofBytes 118 Scsi.Write16Command.cb_vendor :=
  ⟨located_getF _ _ _ fun _ => rfl, located_getF _ _ _ fun _ => rfl, located_getF _ _ _ fun _ => rfl, located_getF _ _ _ fun _ => rfl, located_getF _ _ _ fun _ => rfl, located_getF _ _ _ fun _ => rfl, located_getF _ _ _ fun _ => rfl, located_getF _ _ _ fun _ => rfl, located_getF _ _ _ fun _ => rfl, located_getF _ _ _ fun _ => rfl, located_getF _ _ _ fun _ => rfl, located_getF _ _ _ fun _ => rfl, located_getF _ _ _ fun _ => rfl, located_getF _ _ _ fun _ => rfl, located_getF _ _ _ fun _ => rfl⟩

/-- **C63.** lib/scsi.h:752 -/
theorem C63_fields_Verify10Command :
    Located Scsi.Verify10Command.ofBytes 0 Scsi.Verify10Command.obsolete ∧
    Located Scsi.Verify10Command.ofBytes 1 Scsi.Verify10Command.bytchk ∧
    Located Scsi.Verify10Command.ofBytes 3 Scsi.Verify10Command.reserved_1 ∧
    Located Scsi.Verify10Command.ofBytes 4 Scsi.Verify10Command.dpo ∧
    Located Scsi.Verify10Command.ofBytes 5 Scsi.Verify10Command.vr_protect ∧
    Located Scsi.Verify10Command.ofBytes 8 Scsi.Verify10Command.logical_block_address ∧
    Located Scsi.Verify10Command.ofBytes 40 Scsi.Verify10Command.group_number ∧
    Located Scsi.Verify10Command.ofBytes 45 Scsi.Verify10Command.reserved_2 ∧
    Located Scsi.Verify10Command.ofBytes 47 Scsi.Verify10Command.restricted_mmc_5 ∧
    Located Scsi.Verify10Command.ofBytes 48 Scsi.Verify10Command.verification_length ∧
    Located Scsi.Verify10Command.ofBytes 64 Scsi.Verify10Command.cb_obsolete ∧
    Located Scsi.Verify10Command.ofBytes 66 Scsi.Verify10Command.naca ∧
    Located Scsi.Verify10Command.ofBytes 67 Scsi.Verify10Command.cb_reserved ∧
    Located Scsi.Verify10Command.ofBytes 70 Scsi.Verify10Command.cb_vendor :=
  ⟨located_getF _ _ _ fun _ => rfl, located_getF _ _ _ fun _ => rfl, located_getF _ _ _ fun _ => rfl, located_getF _ _ _ fun _ => rfl, located_getF _ _ _ fun _ => rfl, located_getF _ _ _ fun _ => rfl, located_getF _ _ _ fun _ => rfl, located_getF _ _ _ fun _ => rfl, located_getF _ _ _ fun _ => rfl, located_getF _ _ _ fun _ => rfl, located_getF _ _ _ fun _ => rfl, located_getF _ _ _ fun _ => rfl, located_getF _ _ _ fun _ => rfl, located_getF _ _ _ fun _ => rfl⟩

/-- **C63.** lib/scsi.h:833 -/
theorem C63_fields_ModeSense6Command :
    Located Scsi.ModeSense6Command.ofBytes 0 Scsi.ModeSense6Command.reserved_1 ∧
    Located Scsi.ModeSense6Command.ofBytes 3 Scsi.ModeSense6Command.dbd ∧
    Located Scsi.ModeSense6Command.ofBytes 4 Scsi.ModeSense6Command.reserved_2 ∧
    Located Scsi.ModeSense6Command.ofBytes 8 Scsi.ModeSense6Command.page_code ∧
    Located Scsi.ModeSense6Command.ofBytes 14 Scsi.ModeSense6Command.pc ∧
    Located Scsi.ModeSense6Command.ofBytes 16 Scsi.ModeSense6Command.sub_page_code ∧
    Located Scsi.ModeSense6Command.ofBytes 24 Scsi.ModeSense6Command.alloc_length ∧
    Located Scsi.ModeSense6Command.ofBytes 32 Scsi.ModeSense6Command.cb_obsolete ∧
    Located Scsi.ModeSense6Command.ofBytes 34 Scsi.ModeSense6Command.naca ∧
    Located Scsi.ModeSense6Command.ofBytes 35 Scsi.ModeSense6Command.cb_reserved ∧
    Located Scsi.ModeSense6Command.ofBytes 38 Scsi.ModeSense6Command.cb_vendor :=
  ⟨located_getF _ _ _ fun _ => rfl, located_getF _ _ _ fun _ => rfl, located_getF _ _ _ fun _ => rfl, located_getF _ _ _ fun _ => rfl, located_getF _ _ _ fun _ => rfl, located_getF _ _ _ fun _ => rfl, located_getF _ _ _ fun _ => rfl, located_getF _ _ _ fun _ => rfl, located_getF _ _ _ fun _ => rfl, located_getF _ _ _ fun _ => rfl, located_getF _ _ _ fun _ => rfl⟩

/-- **C63.** lib/scsi.h:847 -/
theorem C63_fields_ModeSense10Command :
    Located Scsi.ModeSense10Command.ofBytes 0 Scsi.ModeSense10Command.reserved_1 ∧
    Located Scsi.ModeSense10Command.ofBytes 3 Scsi.ModeSense10Command.dbd ∧
    Located Scsi.ModeSense10Command.ofBytes 4 Scsi.ModeSense10Command.llbaa ∧
    Located Scsi.ModeSense10Command.ofBytes 5 Scsi.ModeSense10Command.reserved_2 ∧
    Located Scsi.ModeSense10Command.ofBytes 8 Scsi.ModeSense10Command.page_code ∧
    Located Scsi.ModeSense10Command.ofBytes 14 Scsi.ModeSense10Command.pc ∧
    Located Scsi.ModeSense10Command.ofBytes 16 Scsi.ModeSense10Command.sub_page_code ∧
    Located Scsi.ModeSense10Command.ofBytes 24 Scsi.ModeSense10Command.reserved_3 ∧
    Located Scsi.ModeSense10Command.ofBytes 48 Scsi.ModeSense10Command.alloc_length ∧
    Located Scsi.ModeSense10Command.ofBytes 64 Scsi.ModeSense10Command.cb_obsolete ∧
    Located Scsi.ModeSense10Command.ofBytes 66 Scsi.ModeSense10Command.naca ∧
    Located Scsi.ModeSense10Command.ofBytes 67 Scsi.ModeSense10Command.cb_reserved ∧
    Located Scsi.ModeSense10Command.ofBytes 70 Scsi.ModeSense10Command.cb_vendor :=
  ⟨located_getF _ _ _ fun _ => rfl, located_getF _ _ _ fun _ => rfl, located_getF _ _ _ fun _ => rfl, located_getF _ _ _ fun _ => rfl, located_getF _ _ _ fun _ => rfl, located_getF _ _ _ fun _ => rfl, located_getF _ _ _ fun _ => rfl, located_getF _ _ _ fun _ => rfl, located_getF _ _ _ fun _ => rfl, located_getF _ _ _ fun _ => rfl, located_getF _ _ _ fun _ => rfl, located_getF _ _ _ fun _ => rfl, located_getF _ _ _ fun _ => rfl⟩

/-- **C63.** lib/scsi.h:871 -/
theorem C63_fields_ReportLunsCommand :
    Located Scsi.ReportLunsCommand.ofBytes 0 Scsi.ReportLunsCommand.reserved_1 ∧
    Located Scsi.ReportLunsCommand.ofBytes 8 Scsi.ReportLunsCommand.select_report ∧
    Located Scsi.ReportLunsCommand.ofBytes 16 Scsi.ReportLunsCommand.reserved_2 ∧
    Located Scsi.ReportLunsCommand.ofBytes 40 Scsi.ReportLunsCommand.alloc_length ∧
    Located Scsi.ReportLunsCommand.ofBytes 72 Scsi.ReportLunsCommand.reserved_3 ∧
    Located Scsi.ReportLunsCommand.ofBytes 80 Scsi.ReportLunsCommand.cb_obsolete ∧
    Located Scsi.ReportLunsCommand.ofBytes 82 Scsi.ReportLunsCommand.naca ∧
    Located Scsi.ReportLunsCommand.ofBytes 83 Scsi.ReportLunsCommand.cb_reserved ∧
    Located Scsi.ReportLunsCommand.ofBytes 86 Scsi.ReportLunsCommand.cb_vendor :=
  ⟨located_getF _ _ _ fun _ => rfl, located_getF _ _ _ fun _ => rfl, located_getF _ _ _ fun _ => rfl, located_getF _ _ _ fun _ => rfl, located_getF _ _ _ fun _ => rfl, located_getF _ _ _ fun _ => rfl, located_getF _ _ _ fun _ => rfl, located_getF _ _ _ fun _ => rfl, located_getF _ _ _ fun _ => rfl⟩

/-- **C63.** lib/scsi.h:900 -/
theorem C63_fields_ReportOpCodesCommand :
    Located Scsi.ReportOpCodesCommand.ofBytes 0 Scsi.ReportOpCodesCommand.service_action ∧
    Located Scsi.ReportOpCodesCommand.ofBytes 5 Scsi.ReportOpCodesCommand.mi_reserved_1 ∧
    Located Scsi.ReportOpCodesCommand.ofBytes 8 Scsi.ReportOpCodesCommand.reporting_options ∧
    Located Scsi.ReportOpCodesCommand.ofBytes 11 Scsi.ReportOpCodesCommand.reserved_1 ∧
    Located Scsi.ReportOpCodesCommand.ofBytes 15 Scsi.ReportOpCodesCommand.rctd ∧
    Located Scsi.ReportOpCodesCommand.ofBytes 16 Scsi.ReportOpCodesCommand.requested_op_code ∧
    Located Scsi.ReportOpCodesCommand.ofBytes 24 Scsi.ReportOpCodesCommand.requested_service_action ∧
    Located Scsi.ReportOpCodesCommand.ofBytes 40 Scsi.ReportOpCodesCommand.alloc_length ∧
    Located Scsi.ReportOpCodesCommand.ofBytes 72 Scsi.ReportOpCodesCommand.reserved_2 ∧
    Located Scsi.ReportOpCodesCommand.ofBytes 80 Scsi.ReportOpCodesCommand.cb_obsolete ∧
    Located Scsi.ReportOpCodesCommand.ofBytes 82 Scsi.ReportOpCodesCommand.naca ∧
    Located Scsi.ReportOpCodesCommand.ofBytes 83 Scsi.ReportOpCodesCommand.cb_reserved ∧
    Located Scsi.ReportOpCodesCommand.ofBytes 86 Scsi.ReportOpCodesCommand.cb_vendor :=
  ⟨located_getF _ _ _ fun _ => rfl, located_getF _ _ _ fun _ => rfl, located_getF _ _ _ fun _ => rfl, located_getF _ _ _ fun _ => rfl, located_getF _ _ _ fun _ => rfl, located_getF _ _ _ fun _ => rfl, located_getF _ _ _ fun _ => rfl, located_getF _ _ _ fun _ => rfl, located_getF _ _ _ fun _ => rfl, located_getF _ _ _ fun _ => rfl, located_getF _ _ _ fun _ => rfl, located_getF _ _ _ fun _ => rfl, located_getF _ _ _ fun _ => rfl⟩

/-- **C63.** lib/scsi.h:1028 -/
theorem C63_fields_UnmapCommand :
    Located Scsi.UnmapCommand.ofBytes 0 Scsi.UnmapCommand.anchor ∧
    Located Scsi.UnmapCommand.ofBytes 1 Scsi.UnmapCommand.reserved_1 ∧
    Located Scsi.UnmapCommand.ofBytes 8 Scsi.UnmapCommand.reserved_2 ∧
    Located Scsi.UnmapCommand.ofBytes 40 Scsi.UnmapCommand.group_number ∧
    Located Scsi.UnmapCommand.ofBytes 45 Scsi.UnmapCommand.reserved_3 ∧
    Located Scsi.UnmapCommand.ofBytes 48 Scsi.UnmapCommand.param_list_length ∧
    Located Scsi.UnmapCommand.ofBytes 64 Scsi.UnmapCommand.cb_obsolete ∧
    Located Scsi.UnmapCommand.ofBytes 66 Scsi.UnmapCommand.naca ∧
    Located Scsi.UnmapCommand.ofBytes 67 Scsi.UnmapCommand.cb_reserved ∧
    Located Scsi.UnmapCommand.ofBytes 70 Scsi.UnmapCommand.cb_vendor :=
  ⟨located_getF _ _ _ fun _ => rfl, located_getF _ _ _ fun _ => rfl, located_getF _ _ _ fun _ => rfl, located_getF _ _ _ fun _ => rfl, located_getF _ _ _ fun _ => rfl, located_getF _ _ _ fun _ => rfl, located_getF _ _ _ fun _ => rfl, located_getF _ _ _ fun _ => rfl, located_getF _ _ _ fun _ => rfl, located_getF _ _ _ fun _ => rfl⟩

/-- **C63.** lib/scsi.h:1198 -/
theorem C63_fields_RequestSenseCommand :
    Located Scsi.RequestSenseCommand.ofBytes 0 Scsi.RequestSenseCommand.desc ∧
    Located Scsi.RequestSenseCommand.ofBytes 1 Scsi.RequestSenseCommand.reserved_1 ∧
    Located Scsi.RequestSenseCommand.ofBytes 8 Scsi.RequestSenseCommand.reserved_2 ∧
    Located Scsi.RequestSenseCommand.ofBytes 24 Scsi.RequestSenseCommand.allocation_length ∧
    Located Scsi.RequestSenseCommand.ofBytes 32 Scsi.RequestSenseCommand.cb_obsolete ∧
    Located Scsi.RequestSenseCommand.ofBytes 34 Scsi.RequestSenseCommand.naca ∧
    Located Scsi.RequestSenseCommand.ofBytes 35 Scsi.RequestSenseCommand.cb_reserved ∧
    Located Scsi.RequestSenseCommand.ofBytes 38 Scsi.RequestSenseCommand.cb_vendor :=
  ⟨located_getF _ _ _ fun _ => rfl, located_getF _ _ _ fun _ => rfl, located_getF _ _ _ fun _ => rfl, located_getF _ _ _ fun _ => rfl, located_getF _ _ _ fun _ => rfl, located_getF _ _ _ fun _ => rfl, located_getF _ _ _ fun _ => rfl, located_getF _ _ _ fun _ => rfl⟩

/-- **C63.** lib/scsi.h:455 -/
theorem C63_fields_ReadCapacity10Data :
    Located Scsi.ReadCapacity10Data.ofBytes 0 Scsi.ReadCapacity10Data.returned_logical_block_address ∧
    Located Scsi.ReadCapacity10Data.ofBytes 32 Scsi.ReadCapacity10Data.block_length :=
  ⟨located_getF _ _ _ fun _ => rfl, located_getF _ _ _ fun _ => rfl⟩

/-- **C63.** lib/scsi.h:513 -/
theorem C63_fields_InquiryData :
    Located Scsi.InquiryData.ofBytes 0 Scsi.InquiryData.peripheral_device_type ∧
    Located Scsi.InquiryData.ofBytes 5 Scsi.InquiryData.peripheral_qualifier ∧
    Located Scsi.InquiryData.ofBytes 8 Scsi.InquiryData.reserved_1 ∧
    Located Scsi.InquiryData.ofBytes 14 Scsi.InquiryData.lu_cong ∧
    Located Scsi.InquiryData.ofBytes 15 Scsi.InquiryData.rmb ∧
    Located Scsi.InquiryData.ofBytes 16 Scsi.InquiryData.version ∧
    Located Scsi.InquiryData.ofBytes 24 Scsi.InquiryData.response_data_format ∧
    Located Scsi.InquiryData.ofBytes 28 Scsi.InquiryData.hisup ∧
    Located Scsi.InquiryData.ofBytes 29 Scsi.InquiryData.normaca ∧
    Located Scsi.InquiryData.ofBytes 30 Scsi.InquiryData.reserved_2 ∧
    Located Scsi.InquiryData.ofBytes 32 Scsi.InquiryData.additional_length ∧
    Located Scsi.InquiryData.ofBytes 40 Scsi.InquiryData.protect ∧
    Located Scsi.InquiryData.ofBytes 41 Scsi.InquiryData.reserved_3 ∧
    Located Scsi.InquiryData.ofBytes 43 Scsi.InquiryData.third_party_copy ∧
    Located Scsi.InquiryData.ofBytes 44 Scsi.InquiryData.tpgs ∧
    Located Scsi.InquiryData.ofBytes 46 Scsi.InquiryData.acc ∧
    Located Scsi.InquiryData.ofBytes 47 Scsi.InquiryData.sccs ∧
    Located Scsi.InquiryData.ofBytes 48 Scsi.InquiryData.addr_16 ∧
    Located Scsi.InquiryData.ofBytes 49 Scsi.InquiryData.reserved_4 ∧
    Located Scsi.InquiryData.ofBytes 51 Scsi.InquiryData.obsolete_1 ∧
    Located Scsi.InquiryData.ofBytes 52 Scsi.InquiryData.multip ∧
    Located Scsi.InquiryData.ofBytes 53 Scsi.InquiryData.vs_1 ∧
    Located Scsi.InquiryData.ofBytes 54 Scsi.InquiryData.encserv ∧
    Located Scsi.InquiryData.ofBytes 55 Scsi.InquiryData.obsolete_2 ∧
    Located Scsi.InquiryData.ofBytes 56 Scsi.InquiryData.vs_2 ∧
    Located Scsi.InquiryData.ofBytes 57 Scsi.InquiryData.cmdque ∧
    Located Scsi.InquiryData.ofBytes 58 Scsi.InquiryData.reserved_5 ∧
    Located Scsi.InquiryData.ofBytes 59 Scsi.InquiryData.obsolete_3 ∧
    Located Scsi.InquiryData.ofBytes 60 Scsi.InquiryData.sync ∧
    Located Scsi.InquiryData.ofBytes 61 Scsi.InquiryData.wbus_16 ∧
    Located Scsi.InquiryData.ofBytes 62 Scsi.InquiryData.reserved_6 ∧
    Located Scsi.InquiryData.ofBytes 63 Scsi.InquiryData.obsolete_4 ∧
    Located Scsi.InquiryData.ofBytes 64 Scsi.InquiryData.vendor_identification ∧
    Located Scsi.InquiryData.ofBytes 128 Scsi.InquiryData.product_identification ∧
    Located Scsi.InquiryData.ofBytes 256 Scsi.InquiryData.product_revision_level ∧
    Located Scsi.InquiryData.ofBytes 288 Scsi.InquiryData.vendor_specific_1 ∧
    Located Scsi.InquiryData.ofBytes 448 Scsi.InquiryData.ius ∧
    Located Scsi.InquiryData.ofBytes 449 Scsi.InquiryData.qas ∧
    Located Scsi.InquiryData.ofBytes 450 Scsi.InquiryData.clocking ∧
    Located Scsi.InquiryData.ofBytes 452 Scsi.InquiryData.reserved_7 ∧
    Located Scsi.InquiryData.ofBytes 456 Scsi.InquiryData.reserved_8 ∧
    Located Scsi.InquiryData.ofBytes 464 Scsi.InquiryData.vendor_descriptors ∧
    Located Scsi.InquiryData.ofBytes 592 Scsi.InquiryData.reserved_9 :=
  ⟨located_getF _ _ _ fun _ => rfl, located_getF _ _ _ fun _ => rfl, located_getF _ _ _ fun _ => rfl, located_getF _ _ _ fun _ => rfl, located_getF _ _ _ fun _ => rfl, located_getF _ _ _ fun _ => rfl, located_getF _ _ _ fun _ => rfl, located_getF _ _ _ fun _ => rfl, located_getF _ _ _ fun _ => rfl, located_getF _ _ _ fun _ => rfl, located_getF _ _ _ fun _ => rfl, located_getF _ _ _ fun _ => rfl, located_getF _ _ _ fun _ => rfl, located_getF _ _ _ fun _ => rfl, located_getF _ _ _ fun _ => rfl, located_getF _ _ _ fun _ => rfl, located_getF _ _ _ fun _ => rfl, located_getF _ _ _ fun _ => rfl, located_getF _ _ _ fun _ => rfl, located_getF _ _ _ fun _ => rfl, located_getF _ _ _ fun _ => rfl, located_getF _ _ _ fun _ => rfl, located_getF _ _ _ fun _ => rfl, located_getF _ _ _ fun _ => rfl, located_getF _ _ _ fun _ => rfl, located_getF _ _ _ fun _ => rfl, located_getF _ _ _ fun _ => rfl, located_getF _ _ _ fun _ => rfl, located_getF _ _ _ fun _ => rfl, located_getF _ _ _ fun _ => rfl, located_getF _ _ _ fun _ => rfl, located_getF _ _ _ fun _ => rfl, located_getF _ _ _ fun _ => rfl, located_getF _ _ _ fun _ => rfl, located_getF _ _ _ fun _ => rfl, located_getF _ _ _ fun _ => rfl, located_getF _ _ _ fun _ => rfl, located_getF _ _ _ fun _ => rfl, located_getF _ _ _ fun _ => rfl, located_getF _ _ _ fun _ => rfl, located_getF _ _ _ fun _ => rfl, located_getF _ _ _ fun _ => rfl, located_getF _ _ _ fun _ => rfl⟩

/-- **C63.** lib/scsi.h:884 -/
theorem C63_fields_ReportLunsParamData :
    Located Scsi.ReportLunsParamData.ofBytes 0 Scsi.ReportLunsParamData.list_byte_length ∧
    Located Scsi.ReportLunsParamData.ofBytes 32 Scsi.ReportLunsParamData.reserved_1 :=
  ⟨located_getF _ _ _ fun _ => rfl, located_getF _ _ _ fun _ => rfl⟩

/-- **C63.** lib/scsi.h:960 -/
theorem C63_fields_OneCommandParamData :
    Located Scsi.OneCommandParamData.ofBytes 0 Scsi.OneCommandParamData.reserved_1 ∧
    Located Scsi.OneCommandParamData.ofBytes 8 Scsi.OneCommandParamData.support ∧
    Located Scsi.OneCommandParamData.ofBytes 11 Scsi.OneCommandParamData.reserved_2 ∧
    Located Scsi.OneCommandParamData.ofBytes 15 Scsi.OneCommandParamData.ctdp ∧
    Located Scsi.OneCommandParamData.ofBytes 16 Scsi.OneCommandParamData.cdb_size :=
  ⟨located_getF _ _ _ fun _ => rfl, located_getF _ _ _ fun _ => rfl, located_getF _ _ _ fun _ => rfl, located_getF _ _ _ fun _ => rfl, located_getF _ _ _ fun _ => rfl⟩

/-- **C63.** lib/scsi.h:1042 -/
theorem C63_fields_UnmapParamList :
    Located Scsi.UnmapParamList.ofBytes 0 Scsi.UnmapParamList.data_length ∧
    Located Scsi.UnmapParamList.ofBytes 16 Scsi.UnmapParamList.block_desc_data_length ∧
    Located Scsi.UnmapParamList.ofBytes 32 Scsi.UnmapParamList.reserved_1 :=
  ⟨located_getF _ _ _ fun _ => rfl, located_getF _ _ _ fun _ => rfl, located_getF _ _ _ fun _ => rfl⟩

/-- **C63.** lib/scsi.h:1051 -/
theorem C63_fields_UnmapBlockDescriptor :
    Located Scsi.UnmapBlockDescriptor.ofBytes 0 Scsi.UnmapBlockDescriptor.logical_block_addr ∧
    Located Scsi.UnmapBlockDescriptor.ofBytes 64 Scsi.UnmapBlockDescriptor.logical_block_count ∧
    Located Scsi.UnmapBlockDescriptor.ofBytes 96 Scsi.UnmapBlockDescriptor.reserved_1 :=
  ⟨located_getF _ _ _ fun _ => rfl, located_getF _ _ _ fun _ => rfl, located_getF _ _ _ fun _ => rfl⟩

/-- **C63.** lib/scsi.h:1060 -/
theorem C63_fields_CachingModePage :
    Located Scsi.CachingModePage.ofBytes 0 Scsi.CachingModePage.page_code ∧
    Located Scsi.CachingModePage.ofBytes 6 Scsi.CachingModePage.spf ∧
    Located Scsi.CachingModePage.ofBytes 7 Scsi.CachingModePage.ps ∧
    Located Scsi.CachingModePage.ofBytes 8 Scsi.CachingModePage.page_length ∧
    Located Scsi.CachingModePage.ofBytes 16 Scsi.CachingModePage.rcd ∧
    Located Scsi.CachingModePage.ofBytes 17 Scsi.CachingModePage.mf ∧
    Located Scsi.CachingModePage.ofBytes 18 Scsi.CachingModePage.wce ∧
    Located Scsi.CachingModePage.ofBytes 19 Scsi.CachingModePage.size_enable ∧
    Located Scsi.CachingModePage.ofBytes 20 Scsi.CachingModePage.disc ∧
    Located Scsi.CachingModePage.ofBytes 21 Scsi.CachingModePage.cap ∧
    Located Scsi.CachingModePage.ofBytes 22 Scsi.CachingModePage.abpf ∧
    Located Scsi.CachingModePage.ofBytes 23 Scsi.CachingModePage.ic ∧
    Located Scsi.CachingModePage.ofBytes 24 Scsi.CachingModePage.wrp ∧
    Located Scsi.CachingModePage.ofBytes 28 Scsi.CachingModePage.drrp ∧
    Located Scsi.CachingModePage.ofBytes 32 Scsi.CachingModePage.dptl ∧
    Located Scsi.CachingModePage.ofBytes 48 Scsi.CachingModePage.min_prefetch ∧
    Located Scsi.CachingModePage.ofBytes 64 Scsi.CachingModePage.max_prefetch ∧
    Located Scsi.CachingModePage.ofBytes 80 Scsi.CachingModePage.max_prefetch_ceil ∧
    Located Scsi.CachingModePage.ofBytes 96 Scsi.CachingModePage.nv_dis ∧
    Located Scsi.CachingModePage.ofBytes 97 Scsi.CachingModePage.sync_prog ∧
    Located Scsi.CachingModePage.ofBytes 99 Scsi.CachingModePage.vs ∧
    Located Scsi.CachingModePage.ofBytes 101 Scsi.CachingModePage.dra ∧
    Located Scsi.CachingModePage.ofBytes 102 Scsi.CachingModePage.lbcss ∧
    Located Scsi.CachingModePage.ofBytes 103 Scsi.CachingModePage.fsw ∧
    Located Scsi.CachingModePage.ofBytes 104 Scsi.CachingModePage.nocs ∧
    Located Scsi.CachingModePage.ofBytes 112 Scsi.CachingModePage.cache_segment_time ∧
    Located Scsi.CachingModePage.ofBytes 128 Scsi.CachingModePage.reserved ∧
    Located Scsi.CachingModePage.ofBytes 136 Scsi.CachingModePage.obsolete :=
  ⟨located_getF _ _ _ fun _ => rfl, located_getF _ _ _ fun _ => rfl, located_getF _ _ _ fun _ => rfl, located_getF _ _ _ fun _ => rfl, located_getF _ _ _ fun _ => rfl, located_getF _ _ _ fun _ => rfl, located_getF _ _ _ fun _ => rfl, located_getF _ _ _ fun _ => rfl, located_getF _ _ _ fun _ => rfl, located_getF _ _ _ fun _ => rfl, located_getF _ _ _ fun _ => rfl, located_getF _ _ _ fun _ => rfl, located_getF _ _ _ fun _ => rfl, located_getF _ _ _ fun _ => rfl, located_getF _ _ _ fun _ => rfl, located_getF _ _ _ fun _ => rfl, located_getF _ _ _ fun _ => rfl, located_getF _ _ _ fun _ => rfl, located_getF _ _ _ fun _ => rfl, located_getF _ _ _ fun _ => rfl, located_getF _ _ _ fun _ => rfl, located_getF _ _ _ fun _ => rfl, located_getF _ _ _ fun _ => rfl, located_getF _ _ _ fun _ => rfl, located_getF _ _ _ fun _ => rfl, located_getF _ _ _ fun _ => rfl, located_getF _ _ _ fun _ => rfl, located_getF _ _ _ fun _ => rfl⟩

/-- **C63.** lib/scsi.h:1094 -/
theorem C63_fields_ControlModePage :
    Located Scsi.ControlModePage.ofBytes 0 Scsi.ControlModePage.page_code ∧
    Located Scsi.ControlModePage.ofBytes 6 Scsi.ControlModePage.spf ∧
    Located Scsi.ControlModePage.ofBytes 7 Scsi.ControlModePage.ps ∧
    Located Scsi.ControlModePage.ofBytes 8 Scsi.ControlModePage.page_length ∧
    Located Scsi.ControlModePage.ofBytes 16 Scsi.ControlModePage.rlec ∧
    Located Scsi.ControlModePage.ofBytes 17 Scsi.ControlModePage.gltsd ∧
    Located Scsi.ControlModePage.ofBytes 18 Scsi.ControlModePage.d_sense ∧
    Located Scsi.ControlModePage.ofBytes 19 Scsi.ControlModePage.dpicz ∧
    Located Scsi.ControlModePage.ofBytes 20 Scsi.ControlModePage.tmf_only ∧
    Located Scsi.ControlModePage.ofBytes 21 Scsi.ControlModePage.tst ∧
    Located Scsi.ControlModePage.ofBytes 24 Scsi.ControlModePage.dque ∧
    Located Scsi.ControlModePage.ofBytes 25 Scsi.ControlModePage.qerr ∧
    Located Scsi.ControlModePage.ofBytes 27 Scsi.ControlModePage.nuar ∧
    Located Scsi.ControlModePage.ofBytes 28 Scsi.ControlModePage.qam ∧
    Located Scsi.ControlModePage.ofBytes 32 Scsi.ControlModePage.obsolete_1 ∧
    Located Scsi.ControlModePage.ofBytes 35 Scsi.ControlModePage.swp ∧
    Located Scsi.ControlModePage.ofBytes 36 Scsi.ControlModePage.ua_intlck_ctrl ∧
    Located Scsi.ControlModePage.ofBytes 38 Scsi.ControlModePage.rac ∧
    Located Scsi.ControlModePage.ofBytes 39 Scsi.ControlModePage.vs ∧
    Located Scsi.ControlModePage.ofBytes 40 Scsi.ControlModePage.autoload_mode ∧
    Located Scsi.ControlModePage.ofBytes 43 Scsi.ControlModePage.reserved ∧
    Located Scsi.ControlModePage.ofBytes 44 Scsi.ControlModePage.rwwp ∧
    Located Scsi.ControlModePage.ofBytes 45 Scsi.ControlModePage.atmpe ∧
    Located Scsi.ControlModePage.ofBytes 46 Scsi.ControlModePage.tas ∧
    Located Scsi.ControlModePage.ofBytes 47 Scsi.ControlModePage.ato ∧
    Located Scsi.ControlModePage.ofBytes 48 Scsi.ControlModePage.obsolete_2 ∧
    Located Scsi.ControlModePage.ofBytes 64 Scsi.ControlModePage.busy_timeout_period ∧
    Located Scsi.ControlModePage.ofBytes 80 Scsi.ControlModePage.estct :=
  ⟨located_getF _ _ _ fun _ => rfl, located_getF _ _ _ fun _ => rfl, located_getF _ _ _ fun _ => rfl, located_getF _ _ _ fun _ => rfl, located_getF _ _ _ fun _ => rfl, located_getF _ _ _ fun _ => rfl, located_getF _ _ _ fun _ => rfl, located_getF _ _ _ fun _ => rfl, located_getF _ _ _ fun _ => rfl, located_getF _ _ _ fun _ => rfl, located_getF _ _ _ fun _ => rfl, located_getF _ _ _ fun _ => rfl, located_getF _ _ _ fun _ => rfl, located_getF _ _ _ fun _ => rfl, located_getF _ _ _ fun _ => rfl, located_getF _ _ _ fun _ => rfl, located_getF _ _ _ fun _ => rfl, located_getF _ _ _ fun _ => rfl, located_getF _ _ _ fun _ => rfl, located_getF _ _ _ fun _ => rfl, located_getF _ _ _ fun _ => rfl, located_getF _ _ _ fun _ => rfl, located_getF _ _ _ fun _ => rfl, located_getF _ _ _ fun _ => rfl, located_getF _ _ _ fun _ => rfl, located_getF _ _ _ fun _ => rfl, located_getF _ _ _ fun _ => rfl, located_getF _ _ _ fun _ => rfl⟩

/-- **C63.** lib/scsi.h:1128 -/
theorem C63_fields_PowerConditionModePage :
    Located Scsi.PowerConditionModePage.ofBytes 0 Scsi.PowerConditionModePage.page_code ∧
    Located Scsi.PowerConditionModePage.ofBytes 6 Scsi.PowerConditionModePage.spf ∧
    Located Scsi.PowerConditionModePage.ofBytes 7 Scsi.PowerConditionModePage.ps ∧
    Located Scsi.PowerConditionModePage.ofBytes 8 Scsi.PowerConditionModePage.page_length ∧
    Located Scsi.PowerConditionModePage.ofBytes 16 Scsi.PowerConditionModePage.standby_y ∧
    Located Scsi.PowerConditionModePage.ofBytes 17 Scsi.PowerConditionModePage.reserved_1 ∧
    Located Scsi.PowerConditionModePage.ofBytes 22 Scsi.PowerConditionModePage.pm_bg_precedence ∧
    Located Scsi.PowerConditionModePage.ofBytes 24 Scsi.PowerConditionModePage.standby_z ∧
    Located Scsi.PowerConditionModePage.ofBytes 25 Scsi.PowerConditionModePage.idle_a ∧
    Located Scsi.PowerConditionModePage.ofBytes 26 Scsi.PowerConditionModePage.idle_b ∧
    Located Scsi.PowerConditionModePage.ofBytes 27 Scsi.PowerConditionModePage.idle_c ∧
    Located Scsi.PowerConditionModePage.ofBytes 28 Scsi.PowerConditionModePage.reserved_2 ∧
    Located Scsi.PowerConditionModePage.ofBytes 32 Scsi.PowerConditionModePage.idle_a_ct ∧
    Located Scsi.PowerConditionModePage.ofBytes 64 Scsi.PowerConditionModePage.standby_z_ct ∧
    Located Scsi.PowerConditionModePage.ofBytes 96 Scsi.PowerConditionModePage.idle_b_ct ∧
    Located Scsi.PowerConditionModePage.ofBytes 128 Scsi.PowerConditionModePage.idle_c_ct ∧
    Located Scsi.PowerConditionModePage.ofBytes 160 Scsi.PowerConditionModePage.standby_y_ct ∧
    Located Scsi.PowerConditionModePage.ofBytes 192 Scsi.PowerConditionModePage.reserved_3 ∧
    Located Scsi.PowerConditionModePage.ofBytes 312 Scsi.PowerConditionModePage.reserved_4 ∧
    Located Scsi.PowerConditionModePage.ofBytes 314 Scsi.PowerConditionModePage.ccf_stopped ∧
    Located Scsi.PowerConditionModePage.ofBytes 316 Scsi.PowerConditionModePage.ccf_standby ∧
    Located Scsi.PowerConditionModePage.ofBytes 318 Scsi.PowerConditionModePage.ccf_idle :=
  ⟨located_getF _ _ _ fun _ => rfl, located_getF _ _ _ fun _ => rfl, located_getF _ _ _ fun _ => rfl, located_getF _ _ _ fun _ => rfl, located_getF _ _ _ fun _ => rfl, located_getF _ _ _ fun _ => rfl, located_getF _ _ _ fun _ => rfl, located_getF _ _ _ fun _ => rfl, located_getF _ _ _ fun _ => rfl, located_getF _ _ _ fun _ => rfl, located_getF _ _ _ fun _ => rfl, located_getF _ _ _ fun _ => rfl, located_getF _ _ _ fun _ => rfl, located_getF _ _ _ fun _ => rfl, located_getF _ _ _ fun _ => rfl, located_getF _ _ _ fun _ => rfl, located_getF _ _ _ fun _ => rfl, located_getF _ _ _ fun _ => rfl, located_getF _ _ _ fun _ => rfl, located_getF _ _ _ fun _ => rfl, located_getF _ _ _ fun _ => rfl, located_getF _ _ _ fun _ => rfl⟩

/-- **C63.** lib/scsi.h:1156 -/
theorem C63_fields_ModeParameter6Header :
    Located Scsi.ModeParameter6Header.ofBytes 0 Scsi.ModeParameter6Header.mode_data_length ∧
    Located Scsi.ModeParameter6Header.ofBytes 8 Scsi.ModeParameter6Header.medium_type ∧
    Located Scsi.ModeParameter6Header.ofBytes 16 Scsi.ModeParameter6Header.reserved_2 ∧
    Located Scsi.ModeParameter6Header.ofBytes 20 Scsi.ModeParameter6Header.dpofua ∧
    Located Scsi.ModeParameter6Header.ofBytes 21 Scsi.ModeParameter6Header.reserved_1 ∧
    Located Scsi.ModeParameter6Header.ofBytes 23 Scsi.ModeParameter6Header.wp ∧
    Located Scsi.ModeParameter6Header.ofBytes 24 Scsi.ModeParameter6Header.bdl :=
  ⟨located_getF _ _ _ fun _ => rfl, located_getF _ _ _ fun _ => rfl, located_getF _ _ _ fun _ => rfl, located_getF _ _ _ fun _ => rfl, located_getF _ _ _ fun _ => rfl, located_getF _ _ _ fun _ => rfl, located_getF _ _ _ fun _ => rfl⟩

/-- **C63.** lib/scsi.h:1169 -/
theorem C63_fields_ModeParameter10Header :
    Located Scsi.ModeParameter10Header.ofBytes 0 Scsi.ModeParameter10Header.mode_data_length ∧
    Located Scsi.ModeParameter10Header.ofBytes 16 Scsi.ModeParameter10Header.medium_type ∧
    Located Scsi.ModeParameter10Header.ofBytes 24 Scsi.ModeParameter10Header.reserved_1 ∧
    Located Scsi.ModeParameter10Header.ofBytes 28 Scsi.ModeParameter10Header.dpofua ∧
    Located Scsi.ModeParameter10Header.ofBytes 29 Scsi.ModeParameter10Header.reserved_2 ∧
    Located Scsi.ModeParameter10Header.ofBytes 31 Scsi.ModeParameter10Header.wp ∧
    Located Scsi.ModeParameter10Header.ofBytes 32 Scsi.ModeParameter10Header.longlba ∧
    Located Scsi.ModeParameter10Header.ofBytes 33 Scsi.ModeParameter10Header.reserved_3 ∧
    Located Scsi.ModeParameter10Header.ofBytes 48 Scsi.ModeParameter10Header.bdl :=
  ⟨located_getF _ _ _ fun _ => rfl, located_getF _ _ _ fun _ => rfl, located_getF _ _ _ fun _ => rfl, located_getF _ _ _ fun _ => rfl, located_getF _ _ _ fun _ => rfl, located_getF _ _ _ fun _ => rfl, located_getF _ _ _ fun _ => rfl, located_getF _ _ _ fun _ => rfl, located_getF _ _ _ fun _ => rfl⟩

/-- **C63.** lib/scsi.h:1182 -/
theorem C63_fields_ShortLbaBlockDescriptor :
    Located Scsi.ShortLbaBlockDescriptor.ofBytes 0 Scsi.ShortLbaBlockDescriptor.number_of_blocks ∧
    Located Scsi.ShortLbaBlockDescriptor.ofBytes 32 Scsi.ShortLbaBlockDescriptor.reserved ∧
    Located Scsi.ShortLbaBlockDescriptor.ofBytes 40 Scsi.ShortLbaBlockDescriptor.logical_block_length :=
  ⟨located_getF _ _ _ fun _ => rfl, located_getF _ _ _ fun _ => rfl, located_getF _ _ _ fun _ => rfl⟩

/-- **C63.** lib/scsi.h:1189 -/
theorem C63_fields_LongLbaBlockDescriptor :
    Located Scsi.LongLbaBlockDescriptor.ofBytes 0 Scsi.LongLbaBlockDescriptor.number_of_blocks ∧
    Located Scsi.LongLbaBlockDescriptor.ofBytes 64 Scsi.LongLbaBlockDescriptor.reserved ∧
    Located Scsi.LongLbaBlockDescriptor.ofBytes 96 Scsi.LongLbaBlockDescriptor.logical_block_length :=
  ⟨located_getF _ _ _ fun _ => rfl, located_getF _ _ _ fun _ => rfl, located_getF _ _ _ fun _ => rfl⟩

/-- **C63.** lib/scsi.h:1209 -/
theorem C63_fields_FixedFormatSenseData :
    Located Scsi.FixedFormatSenseData.ofBytes 0 Scsi.FixedFormatSenseData.response_code ∧
    Located Scsi.FixedFormatSenseData.ofBytes 7 Scsi.FixedFormatSenseData.valid ∧
    Located Scsi.FixedFormatSenseData.ofBytes 8 Scsi.FixedFormatSenseData.obsolete ∧
    Located Scsi.FixedFormatSenseData.ofBytes 16 Scsi.FixedFormatSenseData.sense_key ∧
    Located Scsi.FixedFormatSenseData.ofBytes 20 Scsi.FixedFormatSenseData.reserved_1 ∧
    Located Scsi.FixedFormatSenseData.ofBytes 21 Scsi.FixedFormatSenseData.ili ∧
    Located Scsi.FixedFormatSenseData.ofBytes 22 Scsi.FixedFormatSenseData.eom ∧
    Located Scsi.FixedFormatSenseData.ofBytes 23 Scsi.FixedFormatSenseData.filemark ∧
    Located Scsi.FixedFormatSenseData.ofBytes 24 Scsi.FixedFormatSenseData.info ∧
    Located Scsi.FixedFormatSenseData.ofBytes 56 Scsi.FixedFormatSenseData.additional_sense_length ∧
    Located Scsi.FixedFormatSenseData.ofBytes 64 Scsi.FixedFormatSenseData.command_specific_info ∧
    Located Scsi.FixedFormatSenseData.ofBytes 96 Scsi.FixedFormatSenseData.additional_sense_code ∧
    Located Scsi.FixedFormatSenseData.ofBytes 104 Scsi.FixedFormatSenseData.additional_sense_code_qualifier ∧
    Located Scsi.FixedFormatSenseData.ofBytes 112 Scsi.FixedFormatSenseData.field_replaceable_unit_code ∧
    Located Scsi.FixedFormatSenseData.ofBytes 120 Scsi.FixedFormatSenseData.sense_key_specific_1 ∧
    Located Scsi.FixedFormatSenseData.ofBytes 127 Scsi.FixedFormatSenseData.sksv ∧
    Located Scsi.FixedFormatSenseData.ofBytes 128 Scsi.FixedFormatSenseData.sense_key_specific_2 :=
  ⟨located_getF _ _ _ fun _ => rfl, located_getF _ _ _ fun _ => rfl, located_getF _ _ _ fun _ => rfl, located_getF _ _ _ fun _ => rfl, located_getF _ _ _ fun _ => rfl, located_getF _ _ _ fun _ => rfl, located_getF _ _ _ fun _ => rfl, located_getF _ _ _ fun _ => rfl, located_getF _ _ _ fun _ => rfl, located_getF _ _ _ fun _ => rfl, located_getF _ _ _ fun _ => rfl, located_getF _ _ _ fun _ => rfl, located_getF _ _ _ fun _ => rfl, located_getF _ _ _ fun _ => rfl, located_getF _ _ _ fun _ => rfl, located_getF _ _ _ fun _ => rfl, located_getF _ _ _ fun _ => rfl⟩

/-- **C63.** lib/scsi.h:1232 -/
theorem C63_fields_DescriptorFormatSenseData :
    Located Scsi.DescriptorFormatSenseData.ofBytes 0 Scsi.DescriptorFormatSenseData.response_code ∧
    Located Scsi.DescriptorFormatSenseData.ofBytes 7 Scsi.DescriptorFormatSenseData.reserved_1 ∧
    Located Scsi.DescriptorFormatSenseData.ofBytes 8 Scsi.DescriptorFormatSenseData.sense_key ∧
    Located Scsi.DescriptorFormatSenseData.ofBytes 12 Scsi.DescriptorFormatSenseData.reserved_2 ∧
    Located Scsi.DescriptorFormatSenseData.ofBytes 16 Scsi.DescriptorFormatSenseData.additional_sense_code ∧
    Located Scsi.DescriptorFormatSenseData.ofBytes 24 Scsi.DescriptorFormatSenseData.additional_sense_code_qualifier ∧
    Located Scsi.DescriptorFormatSenseData.ofBytes 32 Scsi.DescriptorFormatSenseData.reserved_3 ∧
    Located Scsi.DescriptorFormatSenseData.ofBytes 56 Scsi.DescriptorFormatSenseData.additional_sense_length :=
  ⟨located_getF _ _ _ fun _ => rfl, located_getF _ _ _ fun _ => rfl, located_getF _ _ _ fun _ => rfl, located_getF _ _ _ fun _ => rfl, located_getF _ _ _ fun _ => rfl, located_getF _ _ _ fun _ => rfl, located_getF _ _ _ fun _ => rfl, located_getF _ _ _ fun _ => rfl⟩

/-- **C63.** lib/scsi.h:1246 -/
theorem C63_fields_SupportedVitalProductData :
    Located Scsi.SupportedVitalProductData.ofBytes 0 Scsi.SupportedVitalProductData.peripheral_device_type ∧
    Located Scsi.SupportedVitalProductData.ofBytes 5 Scsi.SupportedVitalProductData.peripheral_qualifier ∧
    Located Scsi.SupportedVitalProductData.ofBytes 8 Scsi.SupportedVitalProductData.page_code ∧
    Located Scsi.SupportedVitalProductData.ofBytes 16 Scsi.SupportedVitalProductData.reserved ∧
    Located Scsi.SupportedVitalProductData.ofBytes 24 Scsi.SupportedVitalProductData.page_length :=
  ⟨located_getF _ _ _ fun _ => rfl, located_getF _ _ _ fun _ => rfl, located_getF _ _ _ fun _ => rfl, located_getF _ _ _ fun _ => rfl, located_getF _ _ _ fun _ => rfl⟩

/-- **C63.** lib/scsi.h:1258 -/
theorem C63_fields_UnitSerialNumber :
    Located Scsi.UnitSerialNumber.ofBytes 0 Scsi.UnitSerialNumber.peripheral_device_type ∧
    Located Scsi.UnitSerialNumber.ofBytes 5 Scsi.UnitSerialNumber.peripheral_qualifier ∧
    Located Scsi.UnitSerialNumber.ofBytes 8 Scsi.UnitSerialNumber.page_code ∧
    Located Scsi.UnitSerialNumber.ofBytes 16 Scsi.UnitSerialNumber.reserved ∧
    Located Scsi.UnitSerialNumber.ofBytes 24 Scsi.UnitSerialNumber.page_length :=
  ⟨located_getF _ _ _ fun _ => rfl, located_getF _ _ _ fun _ => rfl, located_getF _ _ _ fun _ => rfl, located_getF _ _ _ fun _ => rfl, located_getF _ _ _ fun _ => rfl⟩

/-- **C63.** lib/scsi.h:1270 -/
theorem C63_fields_IdentificationDescriptor :
    Located Scsi.IdentificationDescriptor.ofBytes 0 Scsi.IdentificationDescriptor.code_set ∧
    Located Scsi.IdentificationDescriptor.ofBytes 4 Scsi.IdentificationDescriptor.protocol_identifier ∧
    Located Scsi.IdentificationDescriptor.ofBytes 8 Scsi.IdentificationDescriptor.identifier_type ∧
    Located Scsi.IdentificationDescriptor.ofBytes 12 Scsi.IdentificationDescriptor.association ∧
    Located Scsi.IdentificationDescriptor.ofBytes 14 Scsi.IdentificationDescriptor.reserved1 ∧
    Located Scsi.IdentificationDescriptor.ofBytes 15 Scsi.IdentificationDescriptor.protocol_identifier_valid ∧
    Located Scsi.IdentificationDescriptor.ofBytes 16 Scsi.IdentificationDescriptor.reserved2 ∧
    Located Scsi.IdentificationDescriptor.ofBytes 24 Scsi.IdentificationDescriptor.identifier_length :=
  ⟨located_getF _ _ _ fun _ => rfl, located_getF _ _ _ fun _ => rfl, located_getF _ _ _ fun _ => rfl, located_getF _ _ _ fun _ => rfl, located_getF _ _ _ fun _ => rfl, located_getF _ _ _ fun _ => rfl, located_getF _ _ _ fun _ => rfl, located_getF _ _ _ fun _ => rfl⟩

/-- **C63.** lib/scsi.h:1284 -/
theorem C63_fields_DeviceIdentificationVpd :
    Located Scsi.DeviceIdentificationVpd.ofBytes 0 Scsi.DeviceIdentificationVpd.peripheral_device_type ∧
    Located Scsi.DeviceIdentificationVpd.ofBytes 5 Scsi.DeviceIdentificationVpd.peripheral_qualifier ∧
    Located Scsi.DeviceIdentificationVpd.ofBytes 8 Scsi.DeviceIdentificationVpd.page_code ∧
    Located Scsi.DeviceIdentificationVpd.ofBytes 16 Scsi.DeviceIdentificationVpd.page_length :=
  ⟨located_getF _ _ _ fun _ => rfl, located_getF _ _ _ fun _ => rfl, located_getF _ _ _ fun _ => rfl, located_getF _ _ _ fun _ => rfl⟩

/-- **C63.** lib/scsi.h:1294 -/
theorem C63_fields_ExtendedInquiryDataVpd :
    Located Scsi.ExtendedInquiryDataVpd.ofBytes 0 Scsi.ExtendedInquiryDataVpd.peripheral_device_type ∧
    Located Scsi.ExtendedInquiryDataVpd.ofBytes 5 Scsi.ExtendedInquiryDataVpd.peripheral_qualifer ∧
    Located Scsi.ExtendedInquiryDataVpd.ofBytes 8 Scsi.ExtendedInquiryDataVpd.page_code ∧
    Located Scsi.ExtendedInquiryDataVpd.ofBytes 16 Scsi.ExtendedInquiryDataVpd.page_length ∧
    Located Scsi.ExtendedInquiryDataVpd.ofBytes 32 Scsi.ExtendedInquiryDataVpd.ref_chk ∧
    Located Scsi.ExtendedInquiryDataVpd.ofBytes 33 Scsi.ExtendedInquiryDataVpd.app_chk ∧
    Located Scsi.ExtendedInquiryDataVpd.ofBytes 34 Scsi.ExtendedInquiryDataVpd.grd_chk ∧
    Located Scsi.ExtendedInquiryDataVpd.ofBytes 35 Scsi.ExtendedInquiryDataVpd.spt ∧
    Located Scsi.ExtendedInquiryDataVpd.ofBytes 38 Scsi.ExtendedInquiryDataVpd.activate_microcode ∧
    Located Scsi.ExtendedInquiryDataVpd.ofBytes 40 Scsi.ExtendedInquiryDataVpd.simpsup ∧
    Located Scsi.ExtendedInquiryDataVpd.ofBytes 41 Scsi.ExtendedInquiryDataVpd.ordsup ∧
    Located Scsi.ExtendedInquiryDataVpd.ofBytes 42 Scsi.ExtendedInquiryDataVpd.headsup ∧
    Located Scsi.ExtendedInquiryDataVpd.ofBytes 43 Scsi.ExtendedInquiryDataVpd.prior_sup ∧
    Located Scsi.ExtendedInquiryDataVpd.ofBytes 44 Scsi.ExtendedInquiryDataVpd.group_sup ∧
    Located Scsi.ExtendedInquiryDataVpd.ofBytes 45 Scsi.ExtendedInquiryDataVpd.uask_sup ∧
    Located Scsi.ExtendedInquiryDataVpd.ofBytes 46 Scsi.ExtendedInquiryDataVpd.reserved1 ∧
    Located Scsi.ExtendedInquiryDataVpd.ofBytes 48 Scsi.ExtendedInquiryDataVpd.v_sup ∧
    Located Scsi.ExtendedInquiryDataVpd.ofBytes 49 Scsi.ExtendedInquiryDataVpd.nv_sup ∧
    Located Scsi.ExtendedInquiryDataVpd.ofBytes 50 Scsi.ExtendedInquiryDataVpd.crd_sup ∧
    Located Scsi.ExtendedInquiryDataVpd.ofBytes 51 Scsi.ExtendedInquiryDataVpd.wu_sup ∧
    Located Scsi.ExtendedInquiryDataVpd.ofBytes 52 Scsi.ExtendedInquiryDataVpd.reserved2 ∧
    Located Scsi.ExtendedInquiryDataVpd.ofBytes 56 Scsi.ExtendedInquiryDataVpd.luiclr ∧
    Located Scsi.ExtendedInquiryDataVpd.ofBytes 57 Scsi.ExtendedInquiryDataVpd.reserved3 ∧
    Located Scsi.ExtendedInquiryDataVpd.ofBytes 60 Scsi.ExtendedInquiryDataVpd.p_i_i_sup ∧
    Located Scsi.ExtendedInquiryDataVpd.ofBytes 61 Scsi.ExtendedInquiryDataVpd.no_pi_chk ∧
    Located Scsi.ExtendedInquiryDataVpd.ofBytes 62 Scsi.ExtendedInquiryDataVpd.reserved4 ∧
    Located Scsi.ExtendedInquiryDataVpd.ofBytes 64 Scsi.ExtendedInquiryDataVpd.obsolete ∧
    Located Scsi.ExtendedInquiryDataVpd.ofBytes 65 Scsi.ExtendedInquiryDataVpd.hssrelef ∧
    Located Scsi.ExtendedInquiryDataVpd.ofBytes 66 Scsi.ExtendedInquiryDataVpd.rtd_sup ∧
    Located Scsi.ExtendedInquiryDataVpd.ofBytes 67 Scsi.ExtendedInquiryDataVpd.reserved5 ∧
    Located Scsi.ExtendedInquiryDataVpd.ofBytes 68 Scsi.ExtendedInquiryDataVpd.r_sup ∧
    Located Scsi.ExtendedInquiryDataVpd.ofBytes 69 Scsi.ExtendedInquiryDataVpd.reserved6 ∧
    Located Scsi.ExtendedInquiryDataVpd.ofBytes 72 Scsi.ExtendedInquiryDataVpd.multi_t_nexus_microcode_download ∧
    Located Scsi.ExtendedInquiryDataVpd.ofBytes 76 Scsi.ExtendedInquiryDataVpd.reserved7 ∧
    Located Scsi.ExtendedInquiryDataVpd.ofBytes 80 Scsi.ExtendedInquiryDataVpd.extended_self_test_completion_minutes ∧
    Located Scsi.ExtendedInquiryDataVpd.ofBytes 96 Scsi.ExtendedInquiryDataVpd.reserved8 ∧
    Located Scsi.ExtendedInquiryDataVpd.ofBytes 101 Scsi.ExtendedInquiryDataVpd.vsa_sup ∧
    Located Scsi.ExtendedInquiryDataVpd.ofBytes 102 Scsi.ExtendedInquiryDataVpd.hra_sup ∧
    Located Scsi.ExtendedInquiryDataVpd.ofBytes 103 Scsi.ExtendedInquiryDataVpd.poa_sup ∧
    Located Scsi.ExtendedInquiryDataVpd.ofBytes 104 Scsi.ExtendedInquiryDataVpd.maximum_supported_sense_data_length :=
  ⟨located_getF _ _ _ fun _ => rfl, located_getF _ _ _ fun _ => rfl, located_getF _ _ _ fun _ => rfl, located_getF _ _ _ fun _ => rfl, located_getF _ _ _ fun _ => rfl, located_getF _ _ _ fun _ => rfl, located_getF _ _ _ fun _ => rfl, located_getF _ _ _ fun _ => rfl, located_getF _ _ _ fun _ => rfl, located_getF _ _ _ fun _ => rfl, located_getF _ _ _ fun _ => rfl, located_getF _ _ _ fun _ => rfl, located_getF _ _ _ fun _ => rfl, located_getF _ _ _ fun _ => rfl, located_getF _ _ _ fun _ => rfl, located_getF _ _ _ fun _ => rfl, located_getF _ _ _ fun _ => rfl, located_getF _ _ _ fun _ => rfl, located_getF _ _ _ fun _ => rfl, located_getF _ _ _ fun _ => rfl, located_getF _ _ _ fun _ => rfl, located_getF _ _ _ fun _ => rfl, located_getF _ _ _ fun _ => rfl, located_getF _ _ _ fun _ => rfl, located_getF _ _ _ fun _ => rfl, located_getF _ _ _ fun _ => rfl, located_getF _ _ _ fun _ => rfl, located_getF _ _ _ fun _ => rfl, located_getF _ _ _ fun _ => rfl, located_getF _ _ _ fun _ => rfl, located_getF _ _ _ fun _ => rfl, located_getF _ _ _ fun _ => rfl, located_getF _ _ _ fun _ => rfl, located_getF _ _ _ fun _ => rfl, located_getF _ _ _ fun _ => rfl, located_getF _ _ _ fun _ => rfl, located_getF _ _ _ fun _ => rfl, located_getF _ _ _ fun _ => rfl, located_getF _ _ _ fun _ => rfl, located_getF _ _ _ fun _ => rfl⟩

/-- **C63.** lib/scsi.h:1341 -/
theorem C63_fields_BlockDeviceCharacteristicsVpd :
    Located Scsi.BlockDeviceCharacteristicsVpd.ofBytes 0 Scsi.BlockDeviceCharacteristicsVpd.peripheral_device_type ∧
    Located Scsi.BlockDeviceCharacteristicsVpd.ofBytes 5 Scsi.BlockDeviceCharacteristicsVpd.peripheral_qualifier ∧
    Located Scsi.BlockDeviceCharacteristicsVpd.ofBytes 8 Scsi.BlockDeviceCharacteristicsVpd.page_code ∧
    Located Scsi.BlockDeviceCharacteristicsVpd.ofBytes 16 Scsi.BlockDeviceCharacteristicsVpd.page_length ∧
    Located Scsi.BlockDeviceCharacteristicsVpd.ofBytes 32 Scsi.BlockDeviceCharacteristicsVpd.medium_rotation_rate ∧
    Located Scsi.BlockDeviceCharacteristicsVpd.ofBytes 48 Scsi.BlockDeviceCharacteristicsVpd.product_type ∧
    Located Scsi.BlockDeviceCharacteristicsVpd.ofBytes 56 Scsi.BlockDeviceCharacteristicsVpd.nominal_form_factor ∧
    Located Scsi.BlockDeviceCharacteristicsVpd.ofBytes 60 Scsi.BlockDeviceCharacteristicsVpd.wacereq ∧
    Located Scsi.BlockDeviceCharacteristicsVpd.ofBytes 62 Scsi.BlockDeviceCharacteristicsVpd.wabereq ∧
    Located Scsi.BlockDeviceCharacteristicsVpd.ofBytes 64 Scsi.BlockDeviceCharacteristicsVpd.vbuls ∧
    Located Scsi.BlockDeviceCharacteristicsVpd.ofBytes 65 Scsi.BlockDeviceCharacteristicsVpd.fuab ∧
    Located Scsi.BlockDeviceCharacteristicsVpd.ofBytes 66 Scsi.BlockDeviceCharacteristicsVpd.bocs ∧
    Located Scsi.BlockDeviceCharacteristicsVpd.ofBytes 67 Scsi.BlockDeviceCharacteristicsVpd.reserved1 ∧
    Located Scsi.BlockDeviceCharacteristicsVpd.ofBytes 68 Scsi.BlockDeviceCharacteristicsVpd.zoned ∧
    Located Scsi.BlockDeviceCharacteristicsVpd.ofBytes 70 Scsi.BlockDeviceCharacteristicsVpd.reserved2 :=
  ⟨located_getF _ _ _ fun _ => rfl, located_getF _ _ _ fun _ => rfl, located_getF _ _ _ fun _ => rfl, located_getF _ _ _ fun _ => rfl, located_getF _ _ _ fun _ => rfl, located_getF _ _ _ fun _ => rfl, located_getF _ _ _ fun _ => rfl, located_getF _ _ _ fun _ => rfl, located_getF _ _ _ fun _ => rfl, located_getF _ _ _ fun _ => rfl, located_getF _ _ _ fun _ => rfl, located_getF _ _ _ fun _ => rfl, located_getF _ _ _ fun _ => rfl, located_getF _ _ _ fun _ => rfl, located_getF _ _ _ fun _ => rfl⟩

/-- **C63.** lib/scsi.h:1363 -/
theorem C63_fields_LogicalBlockProvisioningVpd :
    Located Scsi.LogicalBlockProvisioningVpd.ofBytes 0 Scsi.LogicalBlockProvisioningVpd.peripheral_device_type ∧
    Located Scsi.LogicalBlockProvisioningVpd.ofBytes 5 Scsi.LogicalBlockProvisioningVpd.peripheral_qualifier ∧
    Located Scsi.LogicalBlockProvisioningVpd.ofBytes 8 Scsi.LogicalBlockProvisioningVpd.page_code ∧
    Located Scsi.LogicalBlockProvisioningVpd.ofBytes 16 Scsi.LogicalBlockProvisioningVpd.page_length ∧
    Located Scsi.LogicalBlockProvisioningVpd.ofBytes 32 Scsi.LogicalBlockProvisioningVpd.threshold_exponent ∧
    Located Scsi.LogicalBlockProvisioningVpd.ofBytes 40 Scsi.LogicalBlockProvisioningVpd.dp ∧
    Located Scsi.LogicalBlockProvisioningVpd.ofBytes 41 Scsi.LogicalBlockProvisioningVpd.anc_sup ∧
    Located Scsi.LogicalBlockProvisioningVpd.ofBytes 42 Scsi.LogicalBlockProvisioningVpd.lbprz ∧
    Located Scsi.LogicalBlockProvisioningVpd.ofBytes 45 Scsi.LogicalBlockProvisioningVpd.lbpws10 ∧
    Located Scsi.LogicalBlockProvisioningVpd.ofBytes 46 Scsi.LogicalBlockProvisioningVpd.lbpws ∧
    Located Scsi.LogicalBlockProvisioningVpd.ofBytes 47 Scsi.LogicalBlockProvisioningVpd.lbpu ∧
    Located Scsi.LogicalBlockProvisioningVpd.ofBytes 48 Scsi.LogicalBlockProvisioningVpd.provisioning_type ∧
    Located Scsi.LogicalBlockProvisioningVpd.ofBytes 51 Scsi.LogicalBlockProvisioningVpd.min_percentage ∧
    Located Scsi.LogicalBlockProvisioningVpd.ofBytes 56 Scsi.LogicalBlockProvisioningVpd.threshold_percentage ∧
    Located Scsi.LogicalBlockProvisioningVpd.ofBytes 64 Scsi.LogicalBlockProvisioningVpd.provisioning_group_descriptor :=
  ⟨located_getF _ _ _ fun _ => rfl, located_getF _ _ _ fun _ => rfl, located_getF _ _ _ fun _ => rfl, located_getF _ _ _ fun _ => rfl, located_getF _ _ _ fun _ => rfl, located_getF _ _ _ fun _ => rfl, located_getF _ _ _ fun _ => rfl, located_getF _ _ _ fun _ => rfl, located_getF _ _ _ fun _ => rfl, located_getF _ _ _ fun _ => rfl, located_getF _ _ _ fun _ => rfl, located_getF _ _ _ fun _ => rfl, located_getF _ _ _ fun _ => rfl, located_getF _ _ _ fun _ => rfl, located_getF _ _ _ fun _ => rfl⟩

/-- **C63.** lib/scsi.h:1384 -/
theorem C63_fields_BlockLimitsVpd :
    Located Scsi.BlockLimitsVpd.ofBytes 0 Scsi.BlockLimitsVpd.peripheral_device_type ∧
    Located Scsi.BlockLimitsVpd.ofBytes 5 Scsi.BlockLimitsVpd.peripheral_qualifier ∧
    Located Scsi.BlockLimitsVpd.ofBytes 8 Scsi.BlockLimitsVpd.page_code ∧
    Located Scsi.BlockLimitsVpd.ofBytes 16 Scsi.BlockLimitsVpd.page_length ∧
    Located Scsi.BlockLimitsVpd.ofBytes 32 Scsi.BlockLimitsVpd.wsnz ∧
    Located Scsi.BlockLimitsVpd.ofBytes 33 Scsi.BlockLimitsVpd.reserved ∧
    Located Scsi.BlockLimitsVpd.ofBytes 40 Scsi.BlockLimitsVpd.max_compare_write_length ∧
    Located Scsi.BlockLimitsVpd.ofBytes 48 Scsi.BlockLimitsVpd.optimal_translater_length_granularity ∧
    Located Scsi.BlockLimitsVpd.ofBytes 64 Scsi.BlockLimitsVpd.max_transfer_length ∧
    Located Scsi.BlockLimitsVpd.ofBytes 96 Scsi.BlockLimitsVpd.optimal_transfer_length ∧
    Located Scsi.BlockLimitsVpd.ofBytes 128 Scsi.BlockLimitsVpd.max_prefetch_length ∧
    Located Scsi.BlockLimitsVpd.ofBytes 160 Scsi.BlockLimitsVpd.max_unmap_lba_count ∧
    Located Scsi.BlockLimitsVpd.ofBytes 192 Scsi.BlockLimitsVpd.max_unmap_block_descriptor_count ∧
    Located Scsi.BlockLimitsVpd.ofBytes 224 Scsi.BlockLimitsVpd.optimal_unmap_granularity ∧
    Located Scsi.BlockLimitsVpd.ofBytes 256 Scsi.BlockLimitsVpd.unmap_granularity_alignment_1 ∧
    Located Scsi.BlockLimitsVpd.ofBytes 263 Scsi.BlockLimitsVpd.ugavalid ∧
    Located Scsi.BlockLimitsVpd.ofBytes 264 Scsi.BlockLimitsVpd.unmap_graularity_alignment_2 ∧
    Located Scsi.BlockLimitsVpd.ofBytes 288 Scsi.BlockLimitsVpd.max_write_same_length ∧
    Located Scsi.BlockLimitsVpd.ofBytes 352 Scsi.BlockLimitsVpd.max_atomic_transfer_length ∧
    Located Scsi.BlockLimitsVpd.ofBytes 384 Scsi.BlockLimitsVpd.atomic_alignment ∧
    Located Scsi.BlockLimitsVpd.ofBytes 416 Scsi.BlockLimitsVpd.atomic_transfer_length_granularity ∧
    Located Scsi.BlockLimitsVpd.ofBytes 448 Scsi.BlockLimitsVpd.max_atomic_transfer_length_with_atomic_boundary ∧
    Located Scsi.BlockLimitsVpd.ofBytes 480 Scsi.BlockLimitsVpd.max_atomic_boundary_size :=
  ⟨located_getF _ _ _ fun _ => rfl, located_getF _ _ _ fun _ => rfl, located_getF _ _ _ fun _ => rfl, located_getF _ _ _ fun _ => rfl, located_getF _ _ _ fun _ => rfl, located_getF _ _ _ fun _ => rfl, located_getF _ _ _ fun _ => rfl, located_getF _ _ _ fun _ => rfl, located_getF _ _ _ fun _ => rfl, located_getF _ _ _ fun _ => rfl, located_getF _ _ _ fun _ => rfl, located_getF _ _ _ fun _ => rfl, located_getF _ _ _ fun _ => rfl, located_getF _ _ _ fun _ => rfl, located_getF _ _ _ fun _ => rfl, located_getF _ _ _ fun _ => rfl, located_getF _ _ _ fun _ => rfl, located_getF _ _ _ fun _ => rfl, located_getF _ _ _ fun _ => rfl, located_getF _ _ _ fun _ => rfl, located_getF _ _ _ fun _ => rfl, located_getF _ _ _ fun _ => rfl, located_getF _ _ _ fun _ => rfl⟩

/-! ## Completions -/

/-- **C63.** The status of a completion is made of bits 1-8 (status code) and 9-11 (status code type) of the 16-bit word in
its last two bytes, and dword 0 of its first four bytes. -/
theorem C63_completion_status (bs : List Byte) (h : bs.length = 16) :
    cplStatus (Nvme.GenericQueueEntryCpl.ofBytes bs) = statusOf (leAt bs 14 2 / 512 % 8) (leAt bs 14 2 / 2 % 256) ∧
      (Nvme.GenericQueueEntryCpl.ofBytes bs).cdw0.toNat = leAt bs 0 4 := by
  have e14 : leAt bs 14 2 = leNat bs / 2 ^ 112 := by
    rw [leAt_eq, leNat_slice]
    have := leNat_lt bs
    rw [h] at this
    rw [Nat.mod_eq_of_lt (by omega)]
  have e0 : leAt bs 0 4 = leNat bs % 2 ^ 32 := by
    rw [leAt_eq, leNat_slice]
    simp
  rw [e14, e0]
  unfold cplStatus Nvme.GenericQueueEntryCpl.ofBytes
  simp only [getF_toNat]
  refine ⟨?_, by omega⟩
  congr 1 <;> omega

/-- A completion on the wire: LBA out of range (status code type 0, code 80h), phase bit and do-not-retry set. -/
example : cplStatus (Nvme.GenericQueueEntryCpl.ofBytes [0, 0, 0, 0, 0, 0, 0, 0, 0, 0, 0, 0, 0, 0, 0x01, 0x81]) = ⟨0x02, 0x05, 0x21, 0x00⟩ := by
  decide

/-! ## The Identify structures, which are read in place -/

/-- The field `f` of a structure read in place occupies `w` bits from bit `off`, least significant first. -/
def At {w : Nat} (off : Nat) (f : Fld w) : Prop :=
  ∀ bs k, k < w → (getF bs f).getLsbD k = Spec.bit bs ((off + k) / 8) ((off + k) % 8)

theorem at_getF {w : Nat} (off : Nat) (f : Fld w) (h : f.off = off) : At off f := by
  subst h
  exact located_getF id f.off (fun bs => getF bs f) (fun _ => rfl)

/-- **C63.** third_party/spdk/nvme.h:475-697, by the byte numbers in Figure 247 of the NVMe Base Specification 1.4 (times 8, plus the bit). -/
theorem C63_fields_IdentifyControllerData :
    At 0 Nvme.IdentifyControllerData.vid ∧
    At 16 Nvme.IdentifyControllerData.ssvid ∧
    At 32 Nvme.IdentifyControllerData.sn ∧
    At 192 Nvme.IdentifyControllerData.mn ∧
    At 512 Nvme.IdentifyControllerData.fr ∧
    At 576 Nvme.IdentifyControllerData.rab ∧
    At 584 Nvme.IdentifyControllerData.ieee ∧
    At 608 Nvme.IdentifyControllerData.cmic ∧
    At 616 Nvme.IdentifyControllerData.mdts ∧
    At 624 Nvme.IdentifyControllerData.cntlid ∧
    At 640 Nvme.IdentifyControllerData.ver ∧
    At 672 Nvme.IdentifyControllerData.rtd3r ∧
    At 704 Nvme.IdentifyControllerData.rtd3e ∧
    At 736 Nvme.IdentifyControllerData.oaes ∧
    At 768 Nvme.IdentifyControllerData.ctratt ∧
    At 800 Nvme.IdentifyControllerData.reserved_100 ∧
    At 896 Nvme.IdentifyControllerData.fguid ∧
    At 1024 Nvme.IdentifyControllerData.reserved_128 ∧
    At 2048 Nvme.IdentifyControllerData.oacs ∧
    At 2064 Nvme.IdentifyControllerData.acl ∧
    At 2072 Nvme.IdentifyControllerData.aerl ∧
    At 2080 Nvme.IdentifyControllerData.frmw ∧
    At 2088 Nvme.IdentifyControllerData.lpa ∧
    At 2096 Nvme.IdentifyControllerData.elpe ∧
    At 2104 Nvme.IdentifyControllerData.npss ∧
    At 2112 Nvme.IdentifyControllerData.avscc ∧
    At 2120 Nvme.IdentifyControllerData.apsta ∧
    At 2128 Nvme.IdentifyControllerData.wctemp ∧
    At 2144 Nvme.IdentifyControllerData.cctemp ∧
    At 2160 Nvme.IdentifyControllerData.mtfa ∧
    At 2176 Nvme.IdentifyControllerData.hmpre ∧
    At 2208 Nvme.IdentifyControllerData.hmmin ∧
    At 2240 Nvme.IdentifyControllerData.tnvmcap ∧
    At 2368 Nvme.IdentifyControllerData.unvmcap ∧
    At 2496 Nvme.IdentifyControllerData.rpmbs ∧
    At 2528 Nvme.IdentifyControllerData.edstt ∧
    At 2544 Nvme.IdentifyControllerData.dsto ∧
    At 2552 Nvme.IdentifyControllerData.fwug ∧
    At 2560 Nvme.IdentifyControllerData.kas ∧
    At 2576 Nvme.IdentifyControllerData.hctma ∧
    At 2592 Nvme.IdentifyControllerData.mntmt ∧
    At 2608 Nvme.IdentifyControllerData.mxtmt ∧
    At 2624 Nvme.IdentifyControllerData.sanicap ∧
    At 2656 Nvme.IdentifyControllerData.reserved3 ∧
    At 4096 Nvme.IdentifyControllerData.sqes ∧
    At 4104 Nvme.IdentifyControllerData.cqes ∧
    At 4112 Nvme.IdentifyControllerData.maxcmd ∧
    At 4128 Nvme.IdentifyControllerData.nn ∧
    At 4160 Nvme.IdentifyControllerData.oncs_compare ∧
    At 4161 Nvme.IdentifyControllerData.oncs_write_unc ∧
    At 4162 Nvme.IdentifyControllerData.oncs_dsm ∧
    At 4163 Nvme.IdentifyControllerData.oncs_rest ∧
    At 4176 Nvme.IdentifyControllerData.fuses_compare_and_write ∧
    At 4177 Nvme.IdentifyControllerData.fuses_reserved ∧
    At 4192 Nvme.IdentifyControllerData.fna ∧
    At 4200 Nvme.IdentifyControllerData.vwc_present ∧
    At 4201 Nvme.IdentifyControllerData.vwc_rest ∧
    At 4208 Nvme.IdentifyControllerData.rest := by
  refine ⟨?_, ?_, ?_, ?_, ?_, ?_, ?_, ?_, ?_, ?_, ?_, ?_, ?_, ?_, ?_, ?_, ?_, ?_, ?_, ?_, ?_, ?_, ?_, ?_, ?_, ?_, ?_, ?_, ?_, ?_, ?_, ?_, ?_, ?_, ?_, ?_, ?_, ?_, ?_, ?_, ?_, ?_, ?_, ?_, ?_, ?_, ?_, ?_, ?_, ?_, ?_, ?_, ?_, ?_, ?_, ?_, ?_, ?_⟩ <;> exact at_getF _ _ rfl

/-- **C63.** third_party/spdk/nvme.h:701-821, by the byte numbers in Figure 245 of the NVMe Base Specification 1.4 (times 8, plus the bit). -/
theorem C63_fields_IdentifyNamespace :
    At 0 Nvme.IdentifyNamespace.nsze ∧
    At 64 Nvme.IdentifyNamespace.ncap ∧
    At 128 Nvme.IdentifyNamespace.nuse ∧
    At 192 Nvme.IdentifyNamespace.nsfeat_thin_prov ∧
    At 193 Nvme.IdentifyNamespace.nsfeat_rest ∧
    At 200 Nvme.IdentifyNamespace.nlbaf ∧
    At 208 Nvme.IdentifyNamespace.flbas_format ∧
    At 212 Nvme.IdentifyNamespace.flbas_rest ∧
    At 216 Nvme.IdentifyNamespace.mc ∧
    At 224 Nvme.IdentifyNamespace.dpc_pit1 ∧
    At 225 Nvme.IdentifyNamespace.dpc_pit2 ∧
    At 226 Nvme.IdentifyNamespace.dpc_pit3 ∧
    At 227 Nvme.IdentifyNamespace.dpc_md_start ∧
    At 228 Nvme.IdentifyNamespace.dpc_md_end ∧
    At 229 Nvme.IdentifyNamespace.dpc_pad ∧
    At 232 Nvme.IdentifyNamespace.dps_pit ∧
    At 235 Nvme.IdentifyNamespace.dps_md_start ∧
    At 236 Nvme.IdentifyNamespace.dps_reserved ∧
    At 240 Nvme.IdentifyNamespace.nmic ∧
    At 248 Nvme.IdentifyNamespace.nsrescap ∧
    At 256 Nvme.IdentifyNamespace.fpi ∧
    At 264 Nvme.IdentifyNamespace.dlfeat ∧
    At 272 Nvme.IdentifyNamespace.nawun ∧
    At 288 Nvme.IdentifyNamespace.nawupf ∧
    At 304 Nvme.IdentifyNamespace.nacwu ∧
    At 320 Nvme.IdentifyNamespace.nabsn ∧
    At 336 Nvme.IdentifyNamespace.nabo ∧
    At 352 Nvme.IdentifyNamespace.nabspf ∧
    At 368 Nvme.IdentifyNamespace.noiob ∧
    At 384 Nvme.IdentifyNamespace.nvmcap ∧
    At 512 Nvme.IdentifyNamespace.reserved64 ∧
    At 832 Nvme.IdentifyNamespace.nguid_0 ∧
    At 896 Nvme.IdentifyNamespace.nguid_1 ∧
    At 960 Nvme.IdentifyNamespace.eui64 ∧
    At 1024 Nvme.IdentifyNamespace.lbaf ∧
    At 1536 Nvme.IdentifyNamespace.reserved6 ∧
    At 3072 Nvme.IdentifyNamespace.vendor_specific := by
  refine ⟨?_, ?_, ?_, ?_, ?_, ?_, ?_, ?_, ?_, ?_, ?_, ?_, ?_, ?_, ?_, ?_, ?_, ?_, ?_, ?_, ?_, ?_, ?_, ?_, ?_, ?_, ?_, ?_, ?_, ?_, ?_, ?_, ?_, ?_, ?_, ?_, ?_⟩ <;> exact at_getF _ _ rfl

/-- **C63.** The data size of LBA format `i` (LBADS): bits 16-23 of the dword at byte 128 + 4 i.
third_party/spdk/nvme.h:811-816 -/
theorem C63_fields_lbads (i : Nat) : At (1024 + 32 * i + 16) (Nvme.IdentifyNamespace.lbads i) :=
  at_getF _ _ rfl

end Scsi2Nvme
