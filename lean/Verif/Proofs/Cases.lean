import Verif.Proofs.Begin
/-!
# Closed forms of the cases of the `switch` in `Begin`
-/

namespace Scsi2Nvme
open Spec

/-! ## INQUIRY -/

/-- Identify command of the translator. -/
def identifyCmd (nsid cns : U32) (prp1 : U64) : Nvme.GenericQueueEntryCmd :=
  { opc := Nvme.AdminOpcode.kIdentify, nsid := nsid, prp1 := prp1, cdw_0 := cns }

/-- A finished Identify wrapper. -/
def identifyWr (nsid cns : U32) (prp1 : U64) : NvmeCmdWrapper :=
  { cmd := identifyCmd nsid cns prp1, buffer_len := 4096, is_admin := true }

theorem identifyCmd_toBytes (nsid cns : U32) (prp1 : U64) :
    (identifyCmd nsid cns prp1).toBytes = identifySqe nsid.toNat cns.toNat prp1.toNat := by
  unfold identifyCmd identifySqe
  rw [toBytes_sqe]; rfl

theorem clean_e0 {as : Arr3 Allocation} (h : Clean as) : as.e0.data_addr = 0 :=
  ((pagesOf_eq_nil _).mp ((Clean_iff as).mp h).1).1

theorem clean_e1 {as : Arr3 Allocation} (h : Clean as) : as.e1.data_addr = 0 :=
  ((pagesOf_eq_nil _).mp ((Clean_iff as).mp h).2.1).1

theorem kPageSize_mul : kPageSize * 1 = 4096 := by decide

theorem inquiry_short (E : Env) (cdb : List Byte) (nsid : U32) (p : Pipe) (w : World)
    (hl : cdb.length < 6) :
    beginInquiry E cdb.tail nsid p w = .ok ({ p with status := .kInvalidInput, count := 2 }, w) := by
  unfold beginInquiry Inquiry.InquiryToNvme
  rw [readValue_none (by simp [Scsi.InquiryCommand.size]; omega)]
  rfl

theorem inquiry_fail0 (E : Env) (cdb : List Byte) (nsid : U32) (p : Pipe) (w : World)
    (hl : 6 ≤ cdb.length) (hc : Clean p.as) (h0 : setA E w = 0) :
    beginInquiry E cdb.tail nsid p w = .ok ({ p with
      status := .kFailure, count := 2, as := { p.as with e0 := setAl E w }
      alloc_len := BitVec.ofNat 32 (beAt cdb 3 2) }, setW E w) := by
  unfold beginInquiry Inquiry.InquiryToNvme
  rw [readValue_some (by simp [Scsi.InquiryCommand.size]; omega)]
  have f := field16 cdb 5 16 2 (by omega) (by omega) (by omega)
  simp only [Nat.reduceAdd] at f
  simp only [M.bind_run, kPageSize, SetPages_free E _ _ (clean_e0 hc), h0, if_true]
  simp only [ne_eq, reduceCtorEq, not_false_eq_true, if_true, M.pure_run, ntohs_def]
  congr 3
  apply BitVec.eq_of_toNat_eq
  rw [BitVec.toNat_setWidth, BitVec.toNat_ofNat]
  exact congrArg (· % 2 ^ 32) f

theorem inquiry_fail1 (E : Env) (cdb : List Byte) (nsid : U32) (p : Pipe) (w : World)
    (hl : 6 ≤ cdb.length) (hc : Clean p.as) (h0 : setA E w ≠ 0) (h1 : setA E (setW E w) = 0) :
    beginInquiry E cdb.tail nsid p w = .ok ({
      status := .kFailure, count := 2
      ws := { p.ws with e0 := { identifyWr nsid 0 (setA E w) with is_admin := p.ws.e0.is_admin } }
      as := { p.as with e0 := setAl E w, e1 := setAl E (setW E w) }
      alloc_len := BitVec.ofNat 32 (beAt cdb 3 2) }, setW E (setW E w)) := by
  unfold beginInquiry Inquiry.InquiryToNvme
  rw [readValue_some (by simp [Scsi.InquiryCommand.size]; omega)]
  have f := field16 cdb 5 16 2 (by omega) (by omega) (by omega)
  simp only [Nat.reduceAdd] at f
  simp only [M.bind_run, kPageSize, SetPages_free E _ _ (clean_e0 hc), h0, if_false,
    SetPages_free E _ _ (clean_e1 hc), h1, if_true]
  simp only [ne_eq, reduceCtorEq, not_true_eq_false, not_false_eq_true, if_true, if_false, M.bind_run,
    SetPages_free E _ _ (clean_e1 hc), h1, M.pure_run, ntohs_def]
  congr 3
  apply BitVec.eq_of_toNat_eq
  rw [BitVec.toNat_setWidth, BitVec.toNat_ofNat]
  exact congrArg (· % 2 ^ 32) f

theorem inquiry_ok (E : Env) (cdb : List Byte) (nsid : U32) (p : Pipe) (w : World)
    (hl : 6 ≤ cdb.length) (hc : Clean p.as) (h0 : setA E w ≠ 0) (h1 : setA E (setW E w) ≠ 0) :
    beginInquiry E cdb.tail nsid p w = .ok ({
      status := .kSuccess, count := 2
      ws := { p.ws with e0 := identifyWr nsid 0 (setA E w), e1 := identifyWr 0 1 (setA E (setW E w)) }
      as := { p.as with e0 := setAl E w, e1 := setAl E (setW E w) }
      alloc_len := BitVec.ofNat 32 (beAt cdb 3 2) }, setW E (setW E w)) := by
  unfold beginInquiry Inquiry.InquiryToNvme
  rw [readValue_some (by simp [Scsi.InquiryCommand.size]; omega)]
  have f := field16 cdb 5 16 2 (by omega) (by omega) (by omega)
  simp only [Nat.reduceAdd] at f
  simp only [M.bind_run, kPageSize, SetPages_free E _ _ (clean_e0 hc), h0, if_false]
  simp only [ne_eq, reduceCtorEq, not_true_eq_false, not_false_eq_true, if_true, if_false, M.bind_run,
    SetPages_free E _ _ (clean_e1 hc), h1, M.pure_run, ntohs_def]
  congr 3
  apply BitVec.eq_of_toNat_eq
  rw [BitVec.toNat_setWidth, BitVec.toNat_ofNat]
  exact congrArg (· % 2 ^ 32) f

end Scsi2Nvme
