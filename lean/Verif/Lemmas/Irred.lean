import Verif.Lemmas.Spread
import Mathlib.FieldTheory.Finite.Extension
import Mathlib.Tactic.NormNum.Prime

/-! Irreducibility of a polynomial of prime degree over GF(2) from one kernel computation. -/

namespace Dstu

open Polynomial Spec

theorem irreducible_of_frobenius (F : (ZMod 2)[X]) (m : Nat) (hm : m.Prime) (hd : F.natDegree = m)
    (h0 : F.eval 0 ≠ 0) (h1 : F.eval 1 ≠ 0) (hf : F ∣ X ^ 2 ^ m - X) : Irreducible F := by
  have hF0 : F ≠ 0 := by rintro rfl; simp at h0
  have hFu : ¬ IsUnit F := by
    intro hu
    have := natDegree_eq_zero_of_isUnit hu
    have := hm.pos
    omega
  obtain ⟨g, hg, hgF⟩ := WfDvdMonoid.exists_irreducible_factor hFu hF0
  have hcard : Nat.card (ZMod 2) = 2 := Nat.card_zmod 2
  have hdiv : g.natDegree ∣ m := by
    apply hg.natDegree_dvd_of_dvd_X_pow_card_pow_sub_X
    rw [hcard]
    exact hgF.trans hf
  rcases (Nat.dvd_prime hm).mp hdiv with h | h
  · obtain ⟨c, hc⟩ := exists_root_of_degree_eq_one (by
      rw [degree_eq_natDegree hg.ne_zero, h, Nat.cast_one])
    have hFc : F.eval c = 0 := hc.dvd hgF
    have : c = 0 ∨ c = 1 := zmod2_cases c
    rcases this with rfl | rfl
    · exact absurd hFc h0
    · exact absurd hFc h1
  · obtain ⟨c, rfl⟩ := hgF
    have hg0 : g ≠ 0 := hg.ne_zero
    have hc0 : c ≠ 0 := by rintro rfl; simp at hF0
    have hcd : c.natDegree = 0 := by
      rw [natDegree_mul hg0 hc0, h] at hd
      omega
    have hcu : IsUnit c := by
      rw [natDegree_eq_zero] at hcd
      obtain ⟨a, rfl⟩ := hcd
      refine isUnit_C.mpr (IsUnit.mk0 a ?_)
      rintro rfl
      simp at hc0
    exact (associated_mul_unit_right g c hcu).irreducible hg

/-- `n` squarings. -/
def slotFrob (w m : Nat) (ks : List Nat) (mask : Nat) : Nat → Nat → Nat
  | 0, x => x
  | n + 1, x => slotFrob w m ks mask n (slotMul w m ks mask x x)

theorem slotFrob_spec (w m : Nat) (ks : List Nat) (hw : 0 < w) (hm : 0 < m) (hmw : m < 2 ^ w)
    (hk : ∀ k ∈ ks, 2 * k ≤ m) (n : Nat) {a : Nat} (ha : SlotsLt w m a) :
    slotGF w (bitsOf (m :: ks)) (slotFrob w m ks (slotMask w (2 * m)) n a) =
      slotGF w (bitsOf (m :: ks)) a ^ 2 ^ n := by
  induction n generalizing a with
  | zero => simp [slotFrob]
  | succ n ih =>
    obtain ⟨h1, h2⟩ := slotMul_spec w m ks hw hm hmw hk ha ha
    rw [slotFrob, ih h1, h2, ← pow_two, ← pow_mul, ← pow_succ']

theorem eval_bitsOf (x : ZMod 2) (l : List Nat) : (bitPoly (bitsOf l)).eval x = (l.map (x ^ ·)).sum := by
  induction l with
  | nil => simp [bitsOf, bitPoly_zero]
  | cons k l ih => simp [bitsOf, bitPoly_xor, bitPoly_two_pow, ih]

theorem bitsOf_lt (l : List Nat) (m : Nat) (h : ∀ k ∈ l, k < m) : bitsOf l < 2 ^ m := by
  induction l with
  | nil => simp [bitsOf]
  | cons k l ih =>
    rw [bitsOf]
    exact Nat.xor_lt_two_pow (Nat.pow_lt_pow_right (by omega) (h k (by simp)))
      (ih (fun k' h' => h k' (by simp [h'])))

theorem bitsOf_natDegree (m : Nat) (ks : List Nat) (h : ∀ k ∈ ks, k < m) :
    (bitPoly (bitsOf (m :: ks))).natDegree = m := by
  rw [bitsOf, bitPoly_xor, bitPoly_two_pow]
  rw [natDegree_add_eq_left_of_degree_lt, natDegree_X_pow]
  rw [degree_X_pow]
  exact (bitPoly_degree_lt _ _).mpr (bitsOf_lt ks m h)

theorem irreducible_of_check (w m : Nat) (ks : List Nat) (mask : Nat) (hw : 0 < w) (hm : m.Prime)
    (hmw : m < 2 ^ w) (hk : ∀ k ∈ ks, 2 * k ≤ m) (hmask : mask = slotMask w (2 * m))
    (h0 : ((m :: ks).map ((0 : ZMod 2) ^ ·)).sum = 1) (h1 : ((m :: ks).map ((1 : ZMod 2) ^ ·)).sum = 1)
    (hf : slotFrob w m ks mask m (2 ^ w) = 2 ^ w) : Irreducible (bitPoly (bitsOf (m :: ks))) := by
  have hk' : ∀ k ∈ ks, k < m := fun k h => by have := hk k h; have := hm.pos; omega
  apply irreducible_of_frobenius _ m hm (bitsOf_natDegree m ks hk')
  · rw [eval_bitsOf, h0]; decide
  · rw [eval_bitsOf, h1]; decide
  · subst hmask
    have hX : slotPoly w (2 ^ w) = X := by
      ext k
      rw [slotPoly_coeff _ _ _ hw, Nat.testBit_two_pow, coeff_X]
      have : (w = w * k) = (1 = k) := by
        apply propext
        constructor
        · intro h; exact (Nat.mul_left_cancel hw (by omega : w * k = w * 1)).symm
        · rintro rfl; omega
      simp only [this, decide_eq_true_eq]
    have hs : SlotsLt w m (2 ^ w) := by
      intro i hi
      rw [Nat.testBit_two_pow] at hi
      simp only [decide_eq_true_eq] at hi
      subst hi
      have := hm.two_le
      exact ⟨Nat.dvd_refl _, by nlinarith⟩
    have := slotFrob_spec w m ks hw hm.pos hmw hk m hs
    rw [hf] at this
    unfold slotGF at this
    rw [hX, ← map_pow] at this
    exact AdjoinRoot.mk_eq_mk.mp this.symm


end Dstu
