import Verif.Spec.GF2
import Mathlib.Algebra.CharP.Two
import Mathlib.Algebra.CharP.Algebra

namespace Dstu

open Polynomial Spec

theorem bitPoly_coeff (s k : Nat) : (bitPoly s).coeff k = if s.testBit k then 1 else 0 := by
  simp only [bitPoly, finsetSum_coeff, coeff_X_pow]
  simp [Finset.sum_ite_eq]

theorem zmod2_cases (x : ZMod 2) : x = 0 ∨ x = 1 := by
  revert x; decide

theorem bitPoly_polyBits (q : (ZMod 2)[X]) : bitPoly (polyBits q) = q := by
  unfold bitPoly polyBits
  rw [Finset.toFinset_bitIndices_sum_two_pow]
  ext k
  simp only [finsetSum_coeff, coeff_X_pow, Finset.sum_ite_eq, mem_support_iff]
  rcases zmod2_cases (q.coeff k) with h | h <;> simp [h]

theorem bitPoly_support (s : Nat) : (bitPoly s).support = s.bitIndices.toFinset := by
  ext k
  simp [bitPoly_coeff]

theorem polyBits_bitPoly (s : Nat) : polyBits (bitPoly s) = s := by
  unfold polyBits
  rw [bitPoly_support, Finset.sum_toFinset_bitIndices_two_pow]

theorem bitPoly_injective : Function.Injective bitPoly := fun a b h => by
  rw [← polyBits_bitPoly a, h, polyBits_bitPoly]

theorem polyBits_injective : Function.Injective polyBits := fun a b h => by
  rw [← bitPoly_polyBits a, h, bitPoly_polyBits]

theorem bitPoly_xor (a b : Nat) : bitPoly (a ^^^ b) = bitPoly a + bitPoly b := by
  ext k
  simp only [bitPoly_coeff, coeff_add, Nat.testBit_xor]
  cases a.testBit k <;> cases b.testBit k <;> simp
  exact (CharTwo.add_self_eq_zero (1 : ZMod 2)).symm

theorem bitPoly_zero : bitPoly 0 = 0 := by simp [bitPoly]
theorem bitPoly_one : bitPoly 1 = 1 := by simp [bitPoly]

theorem polyBits_add (p q : (ZMod 2)[X]) : polyBits (p + q) = polyBits p ^^^ polyBits q := by
  apply bitPoly_injective
  rw [bitPoly_xor, bitPoly_polyBits, bitPoly_polyBits, bitPoly_polyBits]

theorem bitPoly_degree_lt (a m : Nat) : (bitPoly a).degree < m ↔ a < 2 ^ m := by
  rw [Polynomial.degree_lt_iff_coeff_zero]
  constructor
  · intro h
    apply Nat.lt_pow_two_of_testBit
    intro i hi
    have := h i hi
    rw [bitPoly_coeff] at this
    cases ht : a.testBit i
    · rfl
    · simp [ht] at this
  · intro h k hk
    rw [bitPoly_coeff, Nat.testBit_lt_two_pow (lt_of_lt_of_le h (Nat.pow_le_pow_right (by omega) hk))]
    simp

theorem bitPoly_natDegree (p : Nat) (hp : p ≠ 0) : (bitPoly p).natDegree = fieldDegree p := by
  have h1 : (bitPoly p).degree < (fieldDegree p + 1 : Nat) := (bitPoly_degree_lt p _).mpr Nat.lt_log2_self
  have h2 : ¬ (bitPoly p).degree < (fieldDegree p : Nat) := by
    rw [bitPoly_degree_lt]
    have := Nat.log2_self_le hp
    unfold fieldDegree
    omega
  have hne : bitPoly p ≠ 0 := fun h => hp (bitPoly_injective (h.trans bitPoly_zero.symm))
  rw [degree_eq_natDegree hne] at h1 h2
  have h1' : (bitPoly p).natDegree < fieldDegree p + 1 := by exact_mod_cast h1
  have h2' : ¬ (bitPoly p).natDegree < fieldDegree p := fun h => h2 (by exact_mod_cast h)
  omega

theorem bitPoly_ne_zero (p : Nat) (hp : p ≠ 0) : bitPoly p ≠ 0 :=
  fun h => hp (bitPoly_injective (h.trans bitPoly_zero.symm))

theorem monic_of_ne_zero (q : (ZMod 2)[X]) (h : q ≠ 0) : q.Monic := by
  rcases zmod2_cases q.leadingCoeff with h0 | h1
  · exact absurd (leadingCoeff_eq_zero.mp h0) h
  · exact h1

theorem bitPoly_monic (p : Nat) (hp : p ≠ 0) : (bitPoly p).Monic :=
  monic_of_ne_zero _ (bitPoly_ne_zero p hp)

theorem GF.toNat_eq (p : Nat) (hp : p ≠ 0) (x : GF p) :
    GF.toNat x = polyBits (AdjoinRoot.modByMonicHom (bitPoly_monic p hp) x) := by
  unfold GF.toNat
  rw [dif_pos (bitPoly_monic p hp)]

theorem GF.toNat_mk (p : Nat) (hp : p ≠ 0) (q : (ZMod 2)[X]) :
    GF.toNat (AdjoinRoot.mk (bitPoly p) q : GF p) = polyBits (q %ₘ bitPoly p) := by
  rw [GF.toNat_eq p hp, AdjoinRoot.modByMonicHom_mk]

theorem GF.ofNat_toNat (p : Nat) (hp : p ≠ 0) (x : GF p) : GF.ofNat p (GF.toNat x) = x := by
  rw [GF.toNat_eq p hp, GF.ofNat, bitPoly_polyBits]
  exact AdjoinRoot.mk_leftInverse (bitPoly_monic p hp) x

theorem GF.toNat_injective (p : Nat) (hp : p ≠ 0) : Function.Injective (GF.toNat : GF p → Nat) := fun a b h => by
  rw [← GF.ofNat_toNat p hp a, h, GF.ofNat_toNat p hp]

theorem GF.toNat_lt (p : Nat) (hp : 1 < p) (x : GF p) : GF.toNat x < 2 ^ fieldDegree p := by
  obtain ⟨q, rfl⟩ := AdjoinRoot.mk_surjective x
  rw [GF.toNat_mk p (by omega), ← bitPoly_degree_lt, bitPoly_polyBits,
    ← bitPoly_natDegree p (by omega), ← degree_eq_natDegree (bitPoly_ne_zero p (by omega))]
  exact degree_modByMonic_lt _ (bitPoly_monic p (by omega))

theorem GF.toNat_ofNat (p : Nat) (hp : p ≠ 0) (a : Nat) (ha : a < 2 ^ fieldDegree p) :
    GF.toNat (GF.ofNat p a) = a := by
  rw [GF.ofNat, GF.toNat_mk p hp, (modByMonic_eq_self_iff (bitPoly_monic p hp)).mpr, polyBits_bitPoly]
  rw [degree_eq_natDegree (bitPoly_ne_zero p hp), bitPoly_natDegree p hp]
  exact (bitPoly_degree_lt a _).mpr ha

theorem GF.toNat_zero (p : Nat) (hp : p ≠ 0) : GF.toNat (0 : GF p) = 0 := by
  rw [GF.toNat_eq p hp, map_zero]; simp [polyBits]

theorem GF.toNat_eq_zero (p : Nat) (hp : p ≠ 0) (x : GF p) : GF.toNat x = 0 ↔ x = 0 := by
  constructor
  · intro h; exact GF.toNat_injective p hp (h.trans (GF.toNat_zero p hp).symm)
  · rintro rfl; exact GF.toNat_zero p hp

theorem GF.ofNat_zero (p : Nat) : GF.ofNat p 0 = 0 := by rw [GF.ofNat, bitPoly_zero, map_zero]
theorem GF.ofNat_one (p : Nat) : GF.ofNat p 1 = 1 := by rw [GF.ofNat, bitPoly_one, map_one]

theorem GF.ofNat_xor (p a b : Nat) : GF.ofNat p (a ^^^ b) = GF.ofNat p a + GF.ofNat p b := by
  rw [GF.ofNat, bitPoly_xor, map_add]; rfl

theorem GF.toNat_add (p : Nat) (hp : p ≠ 0) (x y : GF p) : GF.toNat (x + y) = GF.toNat x ^^^ GF.toNat y := by
  rw [GF.toNat_eq p hp, GF.toNat_eq p hp, GF.toNat_eq p hp, map_add, polyBits_add]

theorem GF.toNat_one (p : Nat) (hp : 1 < p) : GF.toNat (1 : GF p) = 1 := by
  rw [← GF.ofNat_one p, GF.toNat_ofNat p (by omega)]
  have : 1 ≤ fieldDegree p := by
    unfold fieldDegree
    exact (Nat.le_log2 (by omega)).mpr (by omega)
  exact Nat.one_lt_two_pow (by omega)

/-- Multiplication of representatives. -/
theorem GF.toNat_ofNat_mul (p : Nat) (hp : p ≠ 0) (a b : Nat) :
    GF.toNat (GF.ofNat p a * GF.ofNat p b) = polyBits ((bitPoly a * bitPoly b) %ₘ bitPoly p) := by
  rw [GF.ofNat, GF.ofNat, ← map_mul, GF.toNat_mk p hp]

instance (p : Nat) [h : Fact (Irreducible (bitPoly p))] : CharP (GF p) 2 := by
  have : CharP (ZMod 2) 2 := ZMod.charP 2
  exact charP_of_injective_algebraMap (algebraMap (ZMod 2) (GF p)).injective 2

theorem irreducible_pos (p : Nat) (h : Irreducible (bitPoly p)) : 1 < p := by
  rcases Nat.lt_or_ge 1 p with h1 | h1
  · exact h1
  · exfalso
    have : p = 0 ∨ p = 1 := by omega
    rcases this with rfl | rfl
    · rw [bitPoly_zero] at h; exact not_irreducible_zero h
    · rw [bitPoly_one] at h; exact not_irreducible_one h

end Dstu
