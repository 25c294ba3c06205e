import Verif.Lemmas.OrderPrime
import Verif.Lemmas.Halving
import Verif.Lemmas.Sign
import Mathlib.Data.Set.Card

/-! How many field elements, points, digests, keys and numbers meet one verification equation (for C107 and C108). -/

namespace Dstu

open Spec WeierstrassCurve

/-! The orders are below the number of field elements. -/

theorem order_lt163 : fieldAt data163 163 1 < 2 ^ 163 := by decide +kernel

theorem order_lt167 : fieldAt data167 167 1 < 2 ^ 167 := by decide +kernel

theorem order_lt173 : fieldAt data173 173 1 < 2 ^ 173 := by decide +kernel

theorem order_lt179 : fieldAt data179 179 1 < 2 ^ 179 := by decide +kernel

theorem order_lt191 : fieldAt data191 191 1 < 2 ^ 191 := by decide +kernel

theorem order_lt233 : fieldAt data233 233 1 < 2 ^ 233 := by decide +kernel

theorem order_lt257 : fieldAt data257 257 1 < 2 ^ 257 := by decide +kernel

theorem order_lt307 : fieldAt data307 307 1 < 2 ^ 307 := by decide +kernel

theorem order_lt367 : fieldAt data367 367 1 < 2 ^ 367 := by decide +kernel

theorem order_lt431 : fieldAt data431 431 1 < 2 ^ 431 := by decide +kernel

theorem table_order_lt (nids : CurveNids) (i : Nat) (c : NamedCurve) (hc : (dstu_curves nids)[i]? = some c) :
    ∃ m ks, tableExps[i]? = some (m, ks) ∧ fieldAt c.data m 1 < 2 ^ m := by
  match i with
  | 0 => simp only [dstu_curves, List.getElem?_cons_succ, List.getElem?_cons_zero, Option.some.injEq] at hc; subst hc; exact ⟨_, _, rfl, order_lt163⟩
  | 1 => simp only [dstu_curves, List.getElem?_cons_succ, List.getElem?_cons_zero, Option.some.injEq] at hc; subst hc; exact ⟨_, _, rfl, order_lt167⟩
  | 2 => simp only [dstu_curves, List.getElem?_cons_succ, List.getElem?_cons_zero, Option.some.injEq] at hc; subst hc; exact ⟨_, _, rfl, order_lt173⟩
  | 3 => simp only [dstu_curves, List.getElem?_cons_succ, List.getElem?_cons_zero, Option.some.injEq] at hc; subst hc; exact ⟨_, _, rfl, order_lt179⟩
  | 4 => simp only [dstu_curves, List.getElem?_cons_succ, List.getElem?_cons_zero, Option.some.injEq] at hc; subst hc; exact ⟨_, _, rfl, order_lt191⟩
  | 5 => simp only [dstu_curves, List.getElem?_cons_succ, List.getElem?_cons_zero, Option.some.injEq] at hc; subst hc; exact ⟨_, _, rfl, order_lt233⟩
  | 6 => simp only [dstu_curves, List.getElem?_cons_succ, List.getElem?_cons_zero, Option.some.injEq] at hc; subst hc; exact ⟨_, _, rfl, order_lt257⟩
  | 7 => simp only [dstu_curves, List.getElem?_cons_succ, List.getElem?_cons_zero, Option.some.injEq] at hc; subst hc; exact ⟨_, _, rfl, order_lt307⟩
  | 8 => simp only [dstu_curves, List.getElem?_cons_succ, List.getElem?_cons_zero, Option.some.injEq] at hc; subst hc; exact ⟨_, _, rfl, order_lt367⟩
  | 9 => simp only [dstu_curves, List.getElem?_cons_succ, List.getElem?_cons_zero, Option.some.injEq] at hc; subst hc; exact ⟨_, _, rfl, order_lt431⟩
  | k + 10 => simp [dstu_curves] at hc

variable {p : Nat} [hirr : Fact (Irreducible (bitPoly p))]

omit hirr in
/-- Two field elements with the same low part and the same high part are equal. -/
theorem elemToInt_inj (hp : 1 < p) (n : Nat) (u v : GF p) (hl : elemToInt n u = elemToInt n v)
    (hh : GF.toNat u / 2 ^ n.log2 = GF.toNat v / 2 ^ n.log2) : u = v := by
  apply GF.toNat_injective p (by omega)
  unfold elemToInt at hl
  rw [← Nat.div_add_mod (GF.toNat u) (2 ^ n.log2), ← Nat.div_add_mod (GF.toNat v) (2 ^ n.log2), hl, hh]

omit hirr in
/-- The high part of a field element. -/
theorem high_lt (hp : 1 < p) (n : Nat) (hn : n < 2 ^ fieldDegree p) (hn0 : n ≠ 0) (u : GF p) :
    GF.toNat u / 2 ^ n.log2 < 2 ^ (fieldDegree p - n.log2) := by
  have h1 := GF.toNat_lt p hp u
  have h2 : n.log2 < fieldDegree p := (Nat.log2_lt hn0).mpr hn
  rw [Nat.div_lt_iff_lt_mul (Nat.two_pow_pos _), ← pow_add, Nat.sub_add_cancel h2.le]
  exact h1

/-- At most two points share an abscissa. -/
theorem two_points {a b : GF p} : ∃ f : Affine.Point (binCurve a b) → Bool, ∀ x y hxy y' hxy',
    f (Affine.Point.some x y hxy) = f (Affine.Point.some x y' hxy') → y = y' := by
  classical
  refine ⟨fun P => match P with
    | .zero => true
    | .some x y _ => if h : ∃ z, (binCurve a b).Nonsingular x z then decide (y = h.choose) else true, ?_⟩
  intro x y hxy y' hxy' hf
  have hex : ∃ z, (binCurve a b).Nonsingular x z := ⟨y, hxy⟩
  simp only [dif_pos hex, decide_eq_decide] at hf
  by_cases hy : y = hex.choose
  · rw [hy, hf.mp hy]
  · have hy' : y' ≠ hex.choose := fun h => hy (hf.mpr h)
    have h1 := (Affine.Y_eq_of_X_eq hxy.1 hex.choose_spec.1 rfl).resolve_left hy
    have h2 := (Affine.Y_eq_of_X_eq hxy'.1 hex.choose_spec.1 rfl).resolve_left hy'
    rw [h1, h2]

/-- At most `2 * 2 ^ (m - ⌊log₂ n⌋)` points meet the equation for one digest and one `r`. -/
theorem points_count (hp : 1 < p) {a b : GF p} (n r : Nat) (hn : n < 2 ^ fieldDegree p) (hn0 : n ≠ 0) (H : GF p) (hH : H ≠ 0)
    {α : Type*} (S : Set α) (f : α → Affine.Point (binCurve a b)) (hf : Set.InjOn f S)
    (hS : ∀ s ∈ S, ∃ x y hxy, f s = Affine.Point.some x y hxy ∧ r = elemToInt n (H * x)) :
    S.Finite ∧ S.ncard ≤ 2 * 2 ^ (fieldDegree p - n.log2) := by
  classical
  obtain ⟨bit, hbit⟩ := two_points (a := a) (b := b)
  let key : Affine.Point (binCurve a b) → Nat × Bool := fun P => match P with
    | .zero => (0, true)
    | .some x y h => (GF.toNat (H * x) / 2 ^ n.log2, bit (.some x y h))
  let T : Finset (Nat × Bool) := Finset.range (2 ^ (fieldDegree p - n.log2)) ×ˢ Finset.univ
  have hinj : Set.InjOn (fun s => key (f s)) S := by
    intro s hs t ht hst
    obtain ⟨x, y, hxy, h1, h2⟩ := hS s hs
    obtain ⟨x', y', hxy', h1', h2'⟩ := hS t ht
    apply hf hs ht
    simp only [h1, h1', key, Prod.mk.injEq] at hst
    have hx := elemToInt_inj hp n _ _ (h2.symm.trans h2') hst.1
    have hx := mul_left_cancel₀ hH hx
    subst hx
    have hy := hbit _ _ hxy _ hxy' hst.2
    subst hy
    rw [h1, h1']
  have hmap : ∀ s ∈ S, key (f s) ∈ (T : Set (Nat × Bool)) := by
    intro s hs
    obtain ⟨x, y, hxy, h1, _⟩ := hS s hs
    simp only [h1, key, T, Finset.coe_product, Set.mem_prod, Finset.mem_coe, Finset.mem_range, Finset.mem_univ, and_true]
    exact high_lt hp n hn hn0 _
  refine ⟨Set.Finite.of_injOn hmap hinj T.finite_toSet, ?_⟩
  have := Set.ncard_le_ncard_of_injOn _ hmap hinj T.finite_toSet
  rw [Set.ncard_coe_finset, Finset.card_product, Finset.card_range, Finset.card_univ, Fintype.card_bool, mul_comm] at this
  exact this

/-- At most `2 ^ (m - ⌊log₂ n⌋)` digests meet the equation for one point. -/
theorem digests_count (hp : 1 < p) (n r : Nat) (hn : n < 2 ^ fieldDegree p) (hn0 : n ≠ 0) (x : GF p) (hx : x ≠ 0)
    (S : Set Nat) (hS : ∀ h ∈ S, h < 2 ^ fieldDegree p ∧ r = elemToInt n (GF.ofNat p h * x)) :
    S.Finite ∧ S.ncard ≤ 2 ^ (fieldDegree p - n.log2) := by
  let T : Finset Nat := Finset.range (2 ^ (fieldDegree p - n.log2))
  have hinj : Set.InjOn (fun h => GF.toNat (GF.ofNat p h * x) / 2 ^ n.log2) S := by
    intro s hs t ht hst
    obtain ⟨h1, h2⟩ := hS s hs
    obtain ⟨h1', h2'⟩ := hS t ht
    have hx := mul_right_cancel₀ hx (elemToInt_inj hp n _ _ (h2.symm.trans h2') hst)
    rw [← GF.toNat_ofNat p (by omega) s h1, hx, GF.toNat_ofNat p (by omega) t h1']
  have hmap : ∀ h ∈ S, GF.toNat (GF.ofNat p h * x) / 2 ^ n.log2 ∈ (T : Set Nat) := by
    intro s hs
    simp only [T, Finset.mem_coe, Finset.mem_range]
    exact high_lt hp n hn hn0 _
  refine ⟨Set.Finite.of_injOn hmap hinj T.finite_toSet, ?_⟩
  have := Set.ncard_le_ncard_of_injOn _ hmap hinj T.finite_toSet
  rwa [Set.ncard_coe_finset, Finset.card_range] at this

/-- Points of odd order with equal odd multiples: `r` and `n` coprime. -/
theorem coprime_cancel {A : Type*} [AddCommGroup A] (n r : Nat) (hc : Nat.Coprime r n) (P Q : A) (hP : n • P = 0) (hQ : n • Q = 0)
    (h : r • P = r • Q) : P = Q := by
  have h1 : r • (P - Q) = 0 := by rw [nsmul_sub, h, sub_self]
  have h2 : n • (P - Q) = 0 := by rw [nsmul_sub, hP, hQ, sub_self]
  have h3 := addOrderOf_dvd_of_nsmul_eq_zero h1
  have h4 := addOrderOf_dvd_of_nsmul_eq_zero h2
  have h5 : addOrderOf (P - Q) = 1 := Nat.eq_one_of_dvd_one (hc ▸ Nat.dvd_gcd h3 h4)
  exact sub_eq_zero.mp (AddMonoid.addOrderOf_eq_one_iff.mp h5)

end Dstu
