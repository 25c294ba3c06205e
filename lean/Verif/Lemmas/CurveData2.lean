import Verif.Lemmas.CurveData
import Verif.Lemmas.Compress

/-! More kernel checks of the curve table: the orders are odd and small enough for OpenSSL, and which of
the ten curves have the point with abscissa 1 that cannot be compressed. -/

namespace Dstu

open Spec WeierstrassCurve

/-- The numbers of an entry that a DSTU 4145 group needs. -/
structure EntryNumbers (c : NamedCurve) (m : Nat) : Prop where
  odd : m % 2 = 1
  n_odd : fieldAt c.data m 1 % 2 = 1
  n_bits : numBits (fieldAt c.data m 1) ≤ numBits (arr2poly c.poly) + 1

/-- `w² + w + 1 = b` on spread integers. -/
def traceOneCheck (m : Nat) (ks : List Nat) (w b : Nat) : Bool :=
  decide (w < 2 ^ m) && (slotMul slotW m ks (slotMask slotW (2 * m)) (spread slotW m w) (spread slotW m w) ^^^
    spread slotW m w ^^^ 1 == spread slotW m b)

/-- `w² + w = y` on spread integers. -/
def traceZeroCheck (m : Nat) (ks : List Nat) (w y : Nat) : Bool :=
  decide (w < 2 ^ m) && decide (y < 2 ^ m) && (slotMul slotW m ks (slotMask slotW (2 * m)) (spread slotW m w) (spread slotW m w) ^^^
    spread slotW m w == spread slotW m y)

theorem traceOneCheck_sound (m : Nat) (ks : List Nat) (hm : 0 < m) (hmw : m < 2 ^ slotW) (hk : ∀ k ∈ ks, 2 * k ≤ m)
    {w b : Nat} (hb : b < 2 ^ m) (h : traceOneCheck m ks w b = true) (q : Nat) (hq : q = bitsOf (m :: ks)) :
    GF.ofNat q w ^ 2 + GF.ofNat q w + 1 = GF.ofNat q b := by
  subst hq
  simp only [traceOneCheck, Bool.and_eq_true, decide_eq_true_eq, beq_iff_eq] at h
  have rm := slotRel_mul m ks hm hmw hk
  have ra := slotRel_add m ks
  have rw' := slotRel_spread m ks w h.1
  have rb := slotRel_spread m ks b hb
  have r := ra _ _ _ _ (ra _ _ _ _ (rm _ _ _ _ rw' rw') rw') (slotRel_one m ks hm)
  rw [h.2] at r
  rw [sq]
  exact r.2.symm.trans rb.2

theorem traceZeroCheck_sound (m : Nat) (ks : List Nat) (hm : 0 < m) (hmw : m < 2 ^ slotW) (hk : ∀ k ∈ ks, 2 * k ≤ m)
    {w y : Nat} (h : traceZeroCheck m ks w y = true) (q : Nat) (hq : q = bitsOf (m :: ks)) :
    y < 2 ^ m ∧ GF.ofNat q w ^ 2 + GF.ofNat q w = GF.ofNat q y := by
  subst hq
  simp only [traceZeroCheck, Bool.and_eq_true, decide_eq_true_eq, beq_iff_eq] at h
  refine ⟨h.1.2, ?_⟩
  have rm := slotRel_mul m ks hm hmw hk
  have ra := slotRel_add m ks
  have rw' := slotRel_spread m ks w h.1.1
  have ry := slotRel_spread m ks y h.1.2
  have r := ra _ _ _ _ (rm _ _ _ _ rw' rw') rw'
  rw [h.2] at r
  rw [sq]
  exact r.2.symm.trans ry.2

set_option maxRecDepth 20000 in
theorem entryNumbers163 (nid : Nat) : EntryNumbers ⟨nid, [163, 7, 6, 3, 0, -1], data163⟩ 163 where
  odd := by decide
  n_odd := by simp only; decide +kernel
  n_bits := by simp only; decide +kernel

set_option maxRecDepth 20000 in
theorem entryNumbers167 (nid : Nat) : EntryNumbers ⟨nid, [167, 6, 0, -1, 0, 0], data167⟩ 167 where
  odd := by decide
  n_odd := by simp only; decide +kernel
  n_bits := by simp only; decide +kernel

set_option maxRecDepth 20000 in
theorem entryNumbers173 (nid : Nat) : EntryNumbers ⟨nid, [173, 10, 2, 1, 0, -1], data173⟩ 173 where
  odd := by decide
  n_odd := by simp only; decide +kernel
  n_bits := by simp only; decide +kernel

set_option maxRecDepth 20000 in
theorem entryNumbers179 (nid : Nat) : EntryNumbers ⟨nid, [179, 4, 2, 1, 0, -1], data179⟩ 179 where
  odd := by decide
  n_odd := by simp only; decide +kernel
  n_bits := by simp only; decide +kernel

set_option maxRecDepth 20000 in
theorem entryNumbers191 (nid : Nat) : EntryNumbers ⟨nid, [191, 9, 0, -1, 0, 0], data191⟩ 191 where
  odd := by decide
  n_odd := by simp only; decide +kernel
  n_bits := by simp only; decide +kernel

set_option maxRecDepth 20000 in
theorem entryNumbers233 (nid : Nat) : EntryNumbers ⟨nid, [233, 9, 4, 1, 0, -1], data233⟩ 233 where
  odd := by decide
  n_odd := by simp only; decide +kernel
  n_bits := by simp only; decide +kernel

set_option maxRecDepth 20000 in
theorem entryNumbers257 (nid : Nat) : EntryNumbers ⟨nid, [257, 12, 0, -1, 0, 0], data257⟩ 257 where
  odd := by decide
  n_odd := by simp only; decide +kernel
  n_bits := by simp only; decide +kernel

set_option maxRecDepth 20000 in
theorem entryNumbers307 (nid : Nat) : EntryNumbers ⟨nid, [307, 8, 4, 2, 0, -1], data307⟩ 307 where
  odd := by decide
  n_odd := by simp only; decide +kernel
  n_bits := by simp only; decide +kernel

set_option maxRecDepth 20000 in
theorem entryNumbers367 (nid : Nat) : EntryNumbers ⟨nid, [367, 21, 0, -1, 0, 0], data367⟩ 367 where
  odd := by decide
  n_odd := by simp only; decide +kernel
  n_bits := by simp only; decide +kernel

set_option maxRecDepth 20000 in
theorem entryNumbers431 (nid : Nat) : EntryNumbers ⟨nid, [431, 5, 3, 1, 0, -1], data431⟩ 431 where
  odd := by decide
  n_odd := by simp only; decide +kernel
  n_bits := by simp only; decide +kernel

set_option maxRecDepth 20000 in
theorem a_zero173 : aOf data173 = 0 := by decide +kernel

set_option maxRecDepth 20000 in
theorem a_zero257 : aOf data257 = 0 := by decide +kernel

set_option maxRecDepth 20000 in
theorem trace_b167 : aOf data167 = 1 ∧ ∃ w, traceOneCheck 167 [6, 0] w (fieldAt data167 167 0) = true :=
  ⟨by decide +kernel, 0x328e7149d886000fd9d4deb70d25cae37275b9359f, by decide +kernel⟩

set_option maxRecDepth 20000 in
theorem trace_b179 : aOf data179 = 1 ∧ ∃ w, traceOneCheck 179 [4, 2, 1, 0] w (fieldAt data179 179 0) = true :=
  ⟨by decide +kernel, 0x25bb15142aab1f121eaeb33d03b84c3d335333fcbca63, by decide +kernel⟩

set_option maxRecDepth 20000 in
theorem trace_b191 : aOf data191 = 1 ∧ ∃ w, traceOneCheck 191 [9, 0] w (fieldAt data191 191 0) = true :=
  ⟨by decide +kernel, 0x26f0c464e7a403f02cf6c6bb2a133aaa2b04e25ab4d776e8, by decide +kernel⟩

set_option maxRecDepth 20000 in
theorem trace_b233 : aOf data233 = 1 ∧ ∃ w, traceOneCheck 233 [9, 4, 1, 0] w (fieldAt data233 233 0) = true :=
  ⟨by decide +kernel, 0x1b741a85a511397f61352a7895e3b9270b8377a7f108219ee78d43d9545, by decide +kernel⟩

set_option maxRecDepth 20000 in
theorem trace_b307 : aOf data307 = 1 ∧ ∃ w, traceOneCheck 307 [8, 4, 2, 0] w (fieldAt data307 307 0) = true :=
  ⟨by decide +kernel, 0x5d40ca80b594fe8522a23ac091987033c8532ceb9feb1ff9f8a2aae5c106d7e33ffcf9ce92039, by decide +kernel⟩

set_option maxRecDepth 20000 in
theorem trace_b431 : aOf data431 = 1 ∧ ∃ w, traceOneCheck 431 [5, 3, 1, 0] w (fieldAt data431 431 0) = true :=
  ⟨by decide +kernel, 0x15bd8eaf9fc7a93044d71ea2f4b1cba92f48e71f9202209423b640bd0b114a9a2e291f2deb050f44afdf46d21420c5faf9321929fee6, by decide +kernel⟩

set_option maxRecDepth 20000 in
/-- The point with abscissa 1 is in the subgroup of order `n`, and its ordinate has trace 0. -/
theorem exception_check163 : ∃ y w, curveCheck 163 [7, 6, 3, 0] (aOf data163) (fieldAt data163 163 0) (fieldAt data163 163 1) 1 y = true ∧
    traceZeroCheck 163 [7, 6, 3, 0] w y = true :=
  ⟨0x5834c6899dae6cf57bbbf6df203c0e0d50383df36, 0x63c230d3479718731561fb71c2e6f2c7da8541197, by decide +kernel, by decide +kernel⟩

set_option maxRecDepth 20000 in
/-- The point with abscissa 1 is in the subgroup of order `n`, and its ordinate has trace 0. -/
theorem exception_check367 : ∃ y w, curveCheck 367 [21, 0] (aOf data367) (fieldAt data367 367 0) (fieldAt data367 367 1) 1 y = true ∧
    traceZeroCheck 367 [21, 0] w y = true :=
  ⟨0x7861efa1449483af1b503b9b1f11fcebb2999d82bbe789c973d5440d8715c00f65960dffe3474d51bf4cd317012, 0x791518c842d8f9fb85e8f1784b36b5553f0b255d95ac464de2a74f2806172a67e8a63441f2431336ccc3148ba4ee, by decide +kernel, by decide +kernel⟩

theorem table_numbers (nids : CurveNids) (i : Nat) (c : NamedCurve) (hc : (dstu_curves nids)[i]? = some c) :
    ∃ m ks, tableExps[i]? = some (m, ks) ∧ EntryNumbers c m := by
  match i with
  | 0 => simp only [dstu_curves, List.getElem?_cons_succ, List.getElem?_cons_zero, Option.some.injEq] at hc; subst hc; exact ⟨_, _, rfl, entryNumbers163 _⟩
  | 1 => simp only [dstu_curves, List.getElem?_cons_succ, List.getElem?_cons_zero, Option.some.injEq] at hc; subst hc; exact ⟨_, _, rfl, entryNumbers167 _⟩
  | 2 => simp only [dstu_curves, List.getElem?_cons_succ, List.getElem?_cons_zero, Option.some.injEq] at hc; subst hc; exact ⟨_, _, rfl, entryNumbers173 _⟩
  | 3 => simp only [dstu_curves, List.getElem?_cons_succ, List.getElem?_cons_zero, Option.some.injEq] at hc; subst hc; exact ⟨_, _, rfl, entryNumbers179 _⟩
  | 4 => simp only [dstu_curves, List.getElem?_cons_succ, List.getElem?_cons_zero, Option.some.injEq] at hc; subst hc; exact ⟨_, _, rfl, entryNumbers191 _⟩
  | 5 => simp only [dstu_curves, List.getElem?_cons_succ, List.getElem?_cons_zero, Option.some.injEq] at hc; subst hc; exact ⟨_, _, rfl, entryNumbers233 _⟩
  | 6 => simp only [dstu_curves, List.getElem?_cons_succ, List.getElem?_cons_zero, Option.some.injEq] at hc; subst hc; exact ⟨_, _, rfl, entryNumbers257 _⟩
  | 7 => simp only [dstu_curves, List.getElem?_cons_succ, List.getElem?_cons_zero, Option.some.injEq] at hc; subst hc; exact ⟨_, _, rfl, entryNumbers307 _⟩
  | 8 => simp only [dstu_curves, List.getElem?_cons_succ, List.getElem?_cons_zero, Option.some.injEq] at hc; subst hc; exact ⟨_, _, rfl, entryNumbers367 _⟩
  | 9 => simp only [dstu_curves, List.getElem?_cons_succ, List.getElem?_cons_zero, Option.some.injEq] at hc; subst hc; exact ⟨_, _, rfl, entryNumbers431 _⟩
  | i + 10 => simp [dstu_curves] at hc

/-- Why a curve has no point with abscissa 1 in the subgroup. -/
def NoException (c : NamedCurve) (m : Nat) (ks : List Nat) : Prop :=
  aOf c.data = 0 ∨ (aOf c.data = 1 ∧ ∃ w, traceOneCheck m ks w (fieldAt c.data m 0) = true)

theorem table_no_exception (nids : CurveNids) (i : Nat) (h0 : i ≠ 0) (h8 : i ≠ 8) (c : NamedCurve)
    (hc : (dstu_curves nids)[i]? = some c) : ∃ m ks, tableExps[i]? = some (m, ks) ∧ NoException c m ks := by
  match i with
  | 0 => exact absurd rfl h0
  | 1 => simp only [dstu_curves, List.getElem?_cons_succ, List.getElem?_cons_zero, Option.some.injEq] at hc; subst hc; exact ⟨_, _, rfl, Or.inr trace_b167⟩
  | 2 => simp only [dstu_curves, List.getElem?_cons_succ, List.getElem?_cons_zero, Option.some.injEq] at hc; subst hc; exact ⟨_, _, rfl, Or.inl a_zero173⟩
  | 3 => simp only [dstu_curves, List.getElem?_cons_succ, List.getElem?_cons_zero, Option.some.injEq] at hc; subst hc; exact ⟨_, _, rfl, Or.inr trace_b179⟩
  | 4 => simp only [dstu_curves, List.getElem?_cons_succ, List.getElem?_cons_zero, Option.some.injEq] at hc; subst hc; exact ⟨_, _, rfl, Or.inr trace_b191⟩
  | 5 => simp only [dstu_curves, List.getElem?_cons_succ, List.getElem?_cons_zero, Option.some.injEq] at hc; subst hc; exact ⟨_, _, rfl, Or.inr trace_b233⟩
  | 6 => simp only [dstu_curves, List.getElem?_cons_succ, List.getElem?_cons_zero, Option.some.injEq] at hc; subst hc; exact ⟨_, _, rfl, Or.inl a_zero257⟩
  | 7 => simp only [dstu_curves, List.getElem?_cons_succ, List.getElem?_cons_zero, Option.some.injEq] at hc; subst hc; exact ⟨_, _, rfl, Or.inr trace_b307⟩
  | 8 => exact absurd rfl h8
  | 9 => simp only [dstu_curves, List.getElem?_cons_succ, List.getElem?_cons_zero, Option.some.injEq] at hc; subst hc; exact ⟨_, _, rfl, Or.inr trace_b431⟩
  | i + 10 => simp [dstu_curves] at hc

theorem table_exception (nids : CurveNids) (i : Nat) (h : i = 0 ∨ i = 8) (c : NamedCurve)
    (hc : (dstu_curves nids)[i]? = some c) : ∃ m ks, tableExps[i]? = some (m, ks) ∧
      ∃ y w, curveCheck m ks (aOf c.data) (fieldAt c.data m 0) (fieldAt c.data m 1) 1 y = true ∧ traceZeroCheck m ks w y = true := by
  rcases h with rfl | rfl
  · simp only [dstu_curves, List.getElem?_cons_succ, List.getElem?_cons_zero, Option.some.injEq] at hc; subst hc; exact ⟨_, _, rfl, exception_check163⟩
  · simp only [dstu_curves, List.getElem?_cons_succ, List.getElem?_cons_zero, Option.some.injEq] at hc; subst hc; exact ⟨_, _, rfl, exception_check367⟩

end Dstu
