import Verif.Model.Translation
import Verif.Proofs.Wire
/-!
# Closed forms of the allocation and flush functions
-/

namespace Scsi2Nvme

/-! ## AllocPages, DeallocPages, SetPages -/

/-- Answer of `AllocPages`. -/
def allocRes (E : Env) (ps : U32) (n : U16) (w : World) : U64 :=
  match E.allocCb with
  | none => 0
  | some f => (f w ps n).1

/-- World after `AllocPages`. -/
def allocW (E : Env) (ps : U32) (n : U16) (w : World) : World :=
  match E.allocCb with
  | none => w
  | some f => { mem := (f w ps n).2, trace := .alloc ps n (f w ps n).1 :: w.trace }

/-- World after `DeallocPages`. -/
def deallocW (E : Env) (p : U64) (n : U16) (w : World) : World :=
  match E.deallocCb with
  | none => w
  | some f => { mem := f w p n, trace := .dealloc p n :: w.trace }

theorem AllocPages_run (E : Env) (ps : U32) (n : U16) (w : World) :
    AllocPages E ps n w = .ok (allocRes E ps n w, allocW E ps n w) := by
  unfold AllocPages allocRes allocW
  cases E.allocCb <;> rfl

theorem DeallocPages_run (E : Env) (p : U64) (n : U16) (w : World) :
    DeallocPages E p n w = .ok ((), deallocW E p n w) := by
  unfold DeallocPages deallocW
  cases E.deallocCb <;> rfl

/-- World after the two calls of `SetPages(…, 1, 0)`. -/
def setW (E : Env) (w : World) : World := allocW E 4096 0 (allocW E 4096 1 w)
/-- Address obtained by `SetPages(…, 1, 0)` for the data page. -/
def setA (E : Env) (w : World) : U64 := allocRes E 4096 1 w
/-- Address obtained by `SetPages(…, 1, 0)` for zero metadata pages. -/
def setM (E : Env) (w : World) : U64 := allocRes E 4096 0 (allocW E 4096 1 w)
/-- The allocation record after `SetPages(…, 1, 0)`. -/
def setAl (E : Env) (w : World) : Allocation :=
  { data_addr := setA E w, data_page_count := 1, mdata_addr := setM E w, mdata_page_count := 0 }

theorem SetPages_used (E : Env) (a : Allocation) (w : World) (h : a.data_addr ≠ 0) :
    a.SetPages E 4096 1 0 w = .ok ((.kFailure, a), w) := by
  unfold Allocation.SetPages
  rw [if_pos (Or.inl ⟨by decide, h⟩)]
  rfl

theorem SetPages_free (E : Env) (a : Allocation) (w : World) (h : a.data_addr = 0) :
    a.SetPages E 4096 1 0 w =
      .ok ((if setA E w = 0 then .kFailure else .kSuccess, setAl E w), setW E w) := by
  unfold Allocation.SetPages
  rw [if_neg (by simp [h])]
  simp only [M.bind_run, AllocPages_run]
  by_cases hz : setA E w = 0
  · rw [if_pos (Or.inl ⟨by decide, hz⟩), if_pos hz]; rfl
  · rw [if_neg (by simp [setA] at hz ⊢; exact hz), if_neg hz]; rfl

/-! ## FlushMemory, AbortPipeline -/

/-- The pages of one allocation record that will be handed back. -/
def pagesOf (a : Allocation) : List (U64 × U16) :=
  (if a.data_addr ≠ 0 then [(a.data_addr, a.data_page_count)] else [])
    ++ (if a.mdata_addr ≠ 0 then [(a.mdata_addr, a.mdata_page_count)] else [])

/-- Hand back a list of page ranges. -/
def deallocAll (E : Env) (ps : List (U64 × U16)) (w : World) : World :=
  ps.foldl (fun w p => deallocW E p.1 p.2 w) w

/-- A record after it was flushed. -/
def clearA (a : Allocation) : Allocation := { a with data_addr := 0, mdata_addr := 0 }

theorem flushAllocation_run (E : Env) (a : Allocation) (w : World) :
    flushAllocation E a w = .ok (clearA a, deallocAll E (pagesOf a) w) := by
  unfold flushAllocation pagesOf clearA deallocAll
  obtain ⟨d, dc, m, mc⟩ := a
  by_cases h1 : d = 0#64 <;> by_cases h2 : m = 0#64 <;>
    simp [h1, h2, DeallocPages_run]

/-- The pages recorded in the first `n` slots. -/
def livePages (n : Nat) (as : Arr3 Allocation) : List (U64 × U16) :=
  (as.toList.take n).flatMap pagesOf

/-- The slots after flushing the first `n`. -/
def clearN (n : Nat) (as : Arr3 Allocation) : Arr3 Allocation :=
  { e0 := if 0 < n then clearA as.e0 else as.e0
    e1 := if 1 < n then clearA as.e1 else as.e1
    e2 := if 2 < n then clearA as.e2 else as.e2 }

theorem deallocAll_append (E : Env) (a b : List (U64 × U16)) (w : World) :
    deallocAll E (a ++ b) w = deallocAll E b (deallocAll E a w) := by
  simp [deallocAll, List.foldl_append]

theorem flushLoop_run (E : Env) (n : Nat) (as : Arr3 Allocation) (w : World) (h : n ≤ 3) :
    flushLoop E n 0 as w = .ok (clearN n as, deallocAll E (livePages n as) w) := by
  obtain ⟨a, b, c⟩ := as
  have : n = 0 ∨ n = 1 ∨ n = 2 ∨ n = 3 := by omega
  rcases this with rfl | rfl | rfl | rfl <;>
    simp [flushLoop, Arr3.get?, Arr3.set?, flushAllocation_run, clearN, livePages, Arr3.toList,
      deallocAll]

theorem FlushMemory_run (E : Env) (t : Translation) (w : World) (h : t.nvme_cmd_count ≤ 3) :
    t.FlushMemory E w = .ok ({ t with allocations := clearN t.nvme_cmd_count t.allocations },
      deallocAll E (livePages t.nvme_cmd_count t.allocations) w) := by
  unfold Translation.FlushMemory
  simp [flushLoop_run E _ _ _ h]

theorem AbortPipeline_run (E : Env) (t : Translation) (w : World) (h : t.nvme_cmd_count ≤ 3) :
    t.AbortPipeline E w = .ok ({ t with
        pipeline_status := .kUninitialized, nvme_cmd_count := 0
        allocations := clearN t.nvme_cmd_count t.allocations },
      deallocAll E (livePages t.nvme_cmd_count t.allocations) w) := by
  unfold Translation.AbortPipeline
  simp only [M.bind_run]
  rw [FlushMemory_run E _ _ (by exact h)]
  simp

/-- No page is recorded in the slots. -/
def Clean (as : Arr3 Allocation) : Prop := livePages 3 as = []

theorem pagesOf_eq_nil (a : Allocation) : pagesOf a = [] ↔ a.data_addr = 0 ∧ a.mdata_addr = 0 := by
  unfold pagesOf
  by_cases h1 : a.data_addr = 0 <;> by_cases h2 : a.mdata_addr = 0 <;> simp [h1, h2]

@[simp] theorem pagesOf_clearA (a : Allocation) : pagesOf (clearA a) = [] := by
  rw [pagesOf_eq_nil]; simp [clearA]

theorem Clean_iff (as : Arr3 Allocation) :
    Clean as ↔ pagesOf as.e0 = [] ∧ pagesOf as.e1 = [] ∧ pagesOf as.e2 = [] := by
  obtain ⟨a, b, c⟩ := as
  simp [Clean, livePages, Arr3.toList]

theorem livePages_mono_nil {as : Arr3 Allocation} (h : Clean as) (n : Nat) : livePages n as = [] := by
  rw [Clean_iff] at h
  obtain ⟨h0, h1, h2⟩ := h
  unfold livePages
  simp only [List.flatMap_eq_nil_iff]
  intro a ha
  have := List.mem_of_mem_take ha
  simp [Arr3.toList] at this
  rcases this with rfl | rfl | rfl <;> assumption

/-- The pages recorded at index `n` or beyond. -/
theorem clean_clearN {as : Arr3 Allocation} {n : Nat} (h : livePages 3 as = livePages n as) (hn : n ≤ 3) :
    Clean (clearN n as) := by
  obtain ⟨a, b, c⟩ := as
  rw [Clean_iff]
  have : n = 0 ∨ n = 1 ∨ n = 2 ∨ n = 3 := by omega
  rcases this with rfl | rfl | rfl | rfl <;>
    simp_all [livePages, Arr3.toList, clearN]

/-! ## Objects -/

/-- An object that is ready for a command: nothing pending, no commands, no pages. -/
structure Idle (t : Translation) : Prop where
  status : t.pipeline_status = .kUninitialized
  count : t.nvme_cmd_count = 0
  clean : Clean t.allocations

theorem Idle_init (ws : Arr3 NvmeCmdWrapper) : Idle (Translation.init ws) :=
  ⟨rfl, rfl, by simp [Translation.init, Clean_iff, pagesOf_eq_nil]⟩

end Scsi2Nvme
