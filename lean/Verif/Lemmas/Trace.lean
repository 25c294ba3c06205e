import Verif.Lemmas.GF2
import Verif.Spec.Trace
import Mathlib.FieldTheory.Finite.Basic
import Mathlib.LinearAlgebra.FreeModule.Finite.Matrix

/-! The trace of a binary field. -/

namespace Dstu

open Polynomial Spec

theorem GF.card (p : Nat) [h : Fact (Irreducible (bitPoly p))] :
    Finite (GF p) ∧ Nat.card (GF p) = 2 ^ fieldDegree p := by
  have hp := irreducible_pos p h.out
  have hm := bitPoly_monic p (by omega)
  have : Module.Finite (ZMod 2) (GF p) := hm.finite_adjoinRoot
  have hfin : Finite (GF p) := Module.finite_of_finite (ZMod 2)
  refine ⟨hfin, ?_⟩
  rw [Module.natCard_eq_pow_finrank (K := ZMod 2), Nat.card_zmod,
    PowerBasis.finrank (AdjoinRoot.powerBasis' hm), AdjoinRoot.powerBasis'_dim, bitPoly_natDegree p (by omega)]

theorem GF.frobenius (p : Nat) [h : Fact (Irreducible (bitPoly p))] (x : GF p) : x ^ 2 ^ fieldDegree p = x := by
  obtain ⟨hf, hc⟩ := GF.card p
  have := Fintype.ofFinite (GF p)
  rw [← hc, Nat.card_eq_fintype_card]
  exact FiniteField.pow_card x

section
variable {F : Type} [Field F] [CharP F 2]

/-- The sum of the first `m` conjugates. -/
def trSum (m : Nat) (x : F) : F := ∑ i ∈ Finset.range m, x ^ 2 ^ i

theorem trSum_add (m : Nat) (x y : F) : trSum m (x + y) = trSum m x + trSum m y := by
  unfold trSum
  rw [← Finset.sum_add_distrib]
  exact Finset.sum_congr rfl fun i _ => add_pow_char_pow x y 2 i

theorem trSum_succ (m : Nat) (x : F) : trSum (m + 1) x = trSum m x ^ 2 + x := by
  unfold trSum
  rw [Finset.sum_range_succ', sum_pow_char]
  simp only [pow_zero, pow_one]
  congr 1
  exact Finset.sum_congr rfl fun i _ => by rw [← pow_mul, pow_succ]

theorem trSum_sq (m : Nat) (x : F) : trSum m (x ^ 2) = trSum m x ^ 2 := by
  unfold trSum
  rw [sum_pow_char]
  exact Finset.sum_congr rfl fun i _ => by rw [← pow_mul, ← pow_mul, Nat.mul_comm]

omit [CharP F 2] in
theorem trSum_one (m : Nat) : trSum m (1 : F) = m := by simp [trSum]

omit [CharP F 2] in
theorem trSum_zero (m : Nat) : trSum m (0 : F) = 0 := by
  unfold trSum
  exact Finset.sum_eq_zero fun i _ => zero_pow (by positivity)

/-- The full trace is invariant under squaring. -/
theorem trSum_full_sq (m : Nat) (hF : ∀ x : F, x ^ 2 ^ m = x) (x : F) : trSum m x ^ 2 = trSum m x := by
  have h1 := trSum_succ m x
  have h2 : trSum (m + 1) x = trSum m x + x := by
    unfold trSum; rw [Finset.sum_range_succ, hF]
  rw [h2] at h1
  exact (add_right_cancel h1).symm

theorem trSum_full_cases (m : Nat) (hF : ∀ x : F, x ^ 2 ^ m = x) (x : F) : trSum m x = 0 ∨ trSum m x = 1 := by
  have h := trSum_full_sq m hF x
  have : trSum m x * (trSum m x - 1) = 0 := by linear_combination h
  rcases mul_eq_zero.mp this with h | h
  · exact Or.inl h
  · exact Or.inr (sub_eq_zero.mp h)

theorem trSum_sq_add (m : Nat) (hF : ∀ x : F, x ^ 2 ^ m = x) (x : F) : trSum m (x ^ 2 + x) = 0 := by
  rw [trSum_add, trSum_sq, trSum_full_sq m hF, CharTwo.add_self_eq_zero]

theorem trSum_one_odd (m : Nat) (hm : m % 2 = 1) : trSum m (1 : F) = 1 := by
  rw [trSum_one, ← Nat.div_add_mod m 2, hm]
  push_cast
  have : (2 : F) = 0 := CharTwo.two_eq_zero
  rw [this, zero_mul, zero_add]

/-- Solutions of `z² + z = w` differ by 0 or 1. -/
theorem quad_unique {z w : F} (h : z ^ 2 + z = w ^ 2 + w) : z = w ∨ z = w + 1 := by
  have t : (2 : F) = 0 := CharTwo.two_eq_zero
  have : (z - w) * (z - (w + 1)) = 0 := by linear_combination h + (w ^ 2 - w * z + w - z) * t
  rcases mul_eq_zero.mp this with h | h
  · exact Or.inl (sub_eq_zero.mp h)
  · exact Or.inr (sub_eq_zero.mp h)

end

end Dstu
