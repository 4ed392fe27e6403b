import Verif.Proofs.Ran
import Verif.Properties.Status
/-!
# INQUIRY pages: what is written
-/

namespace Scsi2Nvme
open Spec

theorem subspan_lt {s : Span} {k : Nat} (h : k < s.len) : s.subspan k = ⟨s.ptr + k, s.len - k⟩ := by
  unfold Span.subspan
  rw [if_neg (by omega), sizeSub_le (by omega)]

theorem subspan_ge {s : Span} {k : Nat} (h : s.len ≤ k) : s.subspan k = ⟨0, 0⟩ := by
  unfold Span.subspan
  rw [if_pos h]

theorem subspan_len (s : Span) (k : Nat) : (s.subspan k).len = s.len - k := by
  rcases Nat.lt_or_ge k s.len with h | h
  · rw [subspan_lt h]
  · rw [subspan_ge h]; simp only; omega

/-- A status computed from the result of a write. -/
theorem write_status {bytes : List Byte} {out : Span} {n : Nat} {w w' : World} {st : StatusCode}
    (h : (do let ok ← WriteValue bytes out n; pure (if ok then StatusCode.kSuccess else StatusCode.kFailure) : M StatusCode) w
      = .ok (st, w')) : ∃ ok, WriteValue bytes out n w = .ok (ok, w') ∧ st = if ok then .kSuccess else .kFailure := by
  simp only [M.bind_run] at h
  cases hw : WriteValue bytes out n w with
  | error e => rw [hw] at h; cases h
  | ok x =>
    obtain ⟨ok, w1⟩ := x
    rw [hw] at h
    simp only [M.pure_run, Except.ok.injEq, Prod.mk.injEq] at h
    exact ⟨ok, by rw [h.2], h.1.symm⟩

theorem write'_status {bytes : List Byte} {out : Span} {w w' : World} {st : StatusCode}
    (h : (do let ok ← WriteValue' bytes out; pure (if ok then StatusCode.kSuccess else StatusCode.kFailure) : M StatusCode) w
      = .ok (st, w')) :
    (bytes.length ≤ out.len ∧ st = .kSuccess ∧ w' = { w with mem := w.mem.put out.ptr bytes }) ∨
    (out.len < bytes.length ∧ st = .kFailure ∧ w' = w) := by
  obtain ⟨ok, h1, h2⟩ := write_status h
  rcases WriteValue'_inv h1 with ⟨a, b, -, c⟩ | ⟨a, b, c⟩
  · exact Or.inl ⟨a, by rw [h2, b]; rfl, c⟩
  · exact Or.inr ⟨a, by rw [h2, b]; rfl, c⟩

theorem writeHeaderAndBody_inv {header body : List Byte} {buffer : Span} {w w' : World} {st : StatusCode}
    (hh : header.length = 4) (hb : body ≠ [])
    (h : Inquiry.writeHeaderAndBody header body buffer w = .ok (st, w')) :
    (buffer.len < 4 ∧ st = .kFailure ∧ w' = w) ∨
    (4 ≤ buffer.len ∧ buffer.len < 4 + body.length ∧ st = .kFailure ∧ w' = { w with mem := w.mem.put buffer.ptr header }) ∨
    (4 + body.length ≤ buffer.len ∧ st = .kSuccess ∧ w' = { w with mem := w.mem.put buffer.ptr (header ++ body) }) := by
  unfold Inquiry.writeHeaderAndBody at h
  simp only [M.bind_run] at h
  cases hw : WriteValue' header buffer w with
  | error e => rw [hw] at h; cases h
  | ok x =>
    obtain ⟨ok, w1⟩ := x
    rw [hw] at h
    rcases WriteValue'_inv hw with ⟨a, rfl, -, rfl⟩ | ⟨a, rfl, rfl⟩
    · right
      simp only [if_pos] at h
      have hbl : 0 < body.length := List.length_pos_iff.mpr hb
      rcases write'_status h with ⟨c, d, e⟩ | ⟨c, d, e⟩
      · right
        rw [subspan_len] at c
        refine ⟨by omega, d, ?_⟩
        rw [e, subspan_lt (by omega)]
        simp only
        rw [← hh, put_append]
      · left
        rw [subspan_len] at c
        exact ⟨by omega, by omega, d, e⟩
    · left
      simp only [Bool.false_eq_true, if_false, M.pure_run, Except.ok.injEq, Prod.mk.injEq] at h
      exact ⟨by omega, h.1.symm, h.2.symm⟩

/-! ## Device identification -/

theorem put_swap (m : Mem) (p : Nat) (a b : List Byte) :
    (m.put (p + a.length) b).put p a = m.put p (a ++ b) := by
  funext x
  unfold Mem.put
  simp only [List.length_append]
  by_cases h2 : p ≤ x ∧ x < p + a.length
  · rw [if_pos h2, if_pos (by omega), List.getElem?_append_left (by omega)]
  · rw [if_neg h2]
    by_cases h1 : p + a.length ≤ x ∧ x < p + a.length + b.length
    · rw [if_pos h1, if_pos (by omega), List.getElem?_append_right (by omega)]
      congr 1; omega
    · rw [if_neg h1, if_neg (by omega)]

theorem descriptor_length (n : Byte) : (Inquiry.identificationDescriptor n).toBytes.length = 4 :=
  Scsi.IdentificationDescriptor.toBytes_length _

/-- Identifier, descriptor and header are written or nothing is. -/
theorem deviceId_core {id : List Byte} {n : Byte} {head : List Byte} {buffer : Span} {w w' : World} {st : StatusCode}
    (hid : id.length = n.toNat) (hn : 0 < id.length) (hh : head.length = 3)
    (h : (do
      let (st, idlen) ← (do
        let ok ← WriteValue' id ((buffer.subspan 3).subspan 4)
        if ok then Inquiry.writeDescriptor n (buffer.subspan 3) else pure (StatusCode.kFailure, n) : M (StatusCode × Byte))
      if st ≠ .kSuccess then pure st
      else do
        let ok ← WriteValue' head buffer
        pure (if ok then .kSuccess else .kFailure) : M StatusCode) w = .ok (st, w')) :
    (buffer.len < 7 + id.length ∧ st = .kFailure ∧ w' = w) ∨
    (7 + id.length ≤ buffer.len ∧ st = .kSuccess ∧
      w' = { w with mem := w.mem.put buffer.ptr (head ++ designator id) }) := by
  simp only [M.bind_run] at h
  cases hw : WriteValue' id ((buffer.subspan 3).subspan 4) w with
  | error e => rw [hw] at h; cases h
  | ok x =>
    obtain ⟨ok, w1⟩ := x
    rw [hw] at h
    rcases WriteValue'_inv hw with ⟨a, rfl, -, rfl⟩ | ⟨a, rfl, rfl⟩
    · right
      rw [subspan_len, subspan_len] at a
      rw [subspan_lt (s := buffer) (k := 3) (by omega)] at h
      rw [subspan_lt (by simp only; omega)] at h
      simp only [if_pos] at h
      unfold Inquiry.writeDescriptor at h
      simp only [M.bind_run] at h
      generalize hW : ({ w with mem := w.mem.put (buffer.ptr + 3 + 4) id } : World) = W at h
      cases hw2 : WriteValue' (Inquiry.identificationDescriptor n).toBytes ⟨buffer.ptr + 3, buffer.len - 3⟩ W with
      | error e => rw [hw2] at h; cases h
      | ok x =>
        obtain ⟨ok, w2⟩ := x
        rw [hw2] at h
        rcases WriteValue'_inv hw2 with ⟨b, rfl, -, rfl⟩ | ⟨b, rfl, rfl⟩
        · simp only [if_pos, M.pure_run, ne_eq, not_true, if_false] at h
          rcases write'_status h with ⟨c, d, e⟩ | ⟨c, d, e⟩
          · refine ⟨by omega, d, ?_⟩
            rw [e, ← hW]
            simp only
            rw [← designator_eq id n hid]
            have l4 := descriptor_length n
            generalize (Inquiry.identificationDescriptor n).toBytes = desc at *
            rw [← l4, put_swap, ← hh, put_swap]
          · rw [hh] at c; omega
        · rw [descriptor_length] at b
          simp only at b
          omega
    · left
      rw [subspan_len, subspan_len] at a
      simp only [Bool.false_eq_true, if_false, M.pure_run, ne_eq, reduceCtorEq, not_false_eq_true, if_true,
        Except.ok.injEq, Prod.mk.injEq] at h
      exact ⟨by omega, h.1.symm, h.2.symm⟩

theorem deviceId_inv {ns : List Byte} (hl : ns.length = 4096) {buffer : Span} {w w' : World} {st : StatusCode}
    (h : Inquiry.TranslateDeviceIdentificationVpd ns buffer w = .ok (st, w')) :
    match identifier ns with
    | none => st = .kFailure ∧ w' = w
    | some id =>
      (buffer.len < 7 + id.length ∧ st = .kFailure ∧ w' = w) ∨
      (7 + id.length ≤ buffer.len ∧ st = .kSuccess ∧
        w' = { w with mem := w.mem.put buffer.ptr ([0x00, 0x83] ++ le 1 (3 + id.length) ++ designator id) }) := by
  unfold identifier
  have ln : (nguid ns).length = 16 := by unfold nguid slice; rw [List.length_take, List.length_drop]; omega
  have le8 : (eui64 ns).length = 8 := by unfold eui64 slice; rw [List.length_take, List.length_drop]; omega
  have hn := nguid_nz ns hl
  have he := eui64_nz ns hl
  unfold Inquiry.TranslateDeviceIdentificationVpd Inquiry.BuildIdentificationDescriptor at h
  by_cases c1 : nguid ns ≠ zeros 16
  · rw [if_pos c1]
    simp only [if_pos (hn.mpr c1), nguidBytes_eq ns hl] at h
    have := deviceId_core (id := nguid ns) (n := 0x10) (head := [0x00, 0x83, 0x13]) (buffer := buffer) (w := w) (w' := w')
      (st := st) (by rw [ln]; rfl) (by omega) rfl ?_
    · simp only [ln] at this ⊢
      exact this
    · simp only [M.bind_run] at h ⊢
      rw [← h]
      simp only [Scsi.DeviceIdentificationVpd.size, Scsi.IdentificationDescriptor.size]
      cases hw : WriteValue' (nguid ns) ((buffer.subspan 3).subspan 4) w with
      | error e => rfl
      | ok x =>
        obtain ⟨ok, w1⟩ := x
        cases ok with
        | false => rfl
        | true =>
          simp only [if_pos, Inquiry.writeDescriptor, M.bind_run, Inquiry.kIdentifierLengthNguid]
          cases hw2 : WriteValue' (Inquiry.identificationDescriptor 0x10).toBytes (buffer.subspan 3) w1 with
          | error e => rfl
          | ok x =>
            obtain ⟨ok, w2⟩ := x
            have hh := identificationHead_eq.1
            cases ok with
            | false => rfl
            | true =>
              simp only [if_pos, M.pure_run, ne_eq, not_true, if_false, M.bind_run]
              simp only [Scsi.DeviceIdentificationVpd.size] at hh
              rw [hh]
  · rw [if_neg c1]
    simp only [if_neg (fun h => c1 (hn.mp h))] at h
    by_cases c2 : eui64 ns ≠ zeros 8
    · rw [if_pos c2]
      simp only [if_pos (he.mpr c2), eui64Bytes_eq ns hl] at h
      have := deviceId_core (id := eui64 ns) (n := 0x8) (head := [0x00, 0x83, 0x0b]) (buffer := buffer) (w := w) (w' := w')
        (st := st) (by rw [le8]; rfl) (by omega) rfl ?_
      · simp only [le8] at this ⊢
        exact this
      · simp only [M.bind_run] at h ⊢
        rw [← h]
        simp only [Scsi.DeviceIdentificationVpd.size, Scsi.IdentificationDescriptor.size]
        cases hw : WriteValue' (eui64 ns) ((buffer.subspan 3).subspan 4) w with
        | error e => rfl
        | ok x =>
          obtain ⟨ok, w1⟩ := x
          cases ok with
          | false => rfl
          | true =>
            simp only [if_pos, Inquiry.writeDescriptor, M.bind_run, Inquiry.kIdentifierLengthEui64]
            cases hw2 : WriteValue' (Inquiry.identificationDescriptor 0x8).toBytes (buffer.subspan 3) w1 with
            | error e => rfl
            | ok x =>
              obtain ⟨ok, w2⟩ := x
              have hh := identificationHead_eq.2
              cases ok with
              | false => rfl
              | true =>
                simp only [if_pos, M.pure_run, ne_eq, not_true, if_false, M.bind_run]
                simp only [Scsi.DeviceIdentificationVpd.size] at hh
                rw [hh]
    · rw [if_neg c2]
      simp only [if_neg (fun h => c2 (he.mp h))] at h
      simp only [M.bind_run, M.pure_run, ne_eq, reduceCtorEq, not_false_eq_true, if_true, Except.ok.injEq,
        Prod.mk.injEq] at h
      exact ⟨h.1.symm, h.2.symm⟩

end Scsi2Nvme
