import Verif.Lemmas.CurveTable
import Verif.Spec.Dstu4145

/-! Kernel computation of a multiple of the base point and of a product in the field. -/

namespace Dstu

open Polynomial Spec WeierstrassCurve

/-- `k` times the base point is `(x', y')` and `h x' = v`, on spread integers. -/
def mulCheck (m : Nat) (ks : List Nat) (a b x y k x' y' h v : Nat) : Bool :=
  let mask := slotMask slotW (2 * m)
  let mul := slotMul slotW m ks mask
  let X := spread slotW m x
  let Y := spread slotW m y
  let S := ldRun (· ^^^ ·) mul (spread slotW m a) (spread slotW m b) X Y k k.log2 (X, Y, 1)
  let X' := spread slotW m x'
  (S.2.2 != 0) && (S.1 == mul X' S.2.2) && (S.2.1 == mul (spread slotW m y') (mul S.2.2 S.2.2)) &&
    (mul (spread slotW m h) X' == spread slotW m v)

/-- A check of `k • G`. -/
theorem ldRun_mul {F : Type} [Field F] [CharP F 2] [DecidableEq F] {a b x y : F} (hG : (binCurve a b).Nonsingular x y)
    (k : Nat) (hk : k ≠ 0) (S : F × F × F) (x' y' : F)
    (hS : S = ldRun (· + ·) (· * ·) a b x y k k.log2 (x, y, 1)) (hz : S.2.2 ≠ 0)
    (hx : S.1 = x' * S.2.2) (hy : S.2.1 = y' * (S.2.2 * S.2.2)) :
    ∃ h, k • Affine.Point.some x y hG = Affine.Point.some x' y' h := by
  have hone : k >>> k.log2 = 1 := by
    rw [Nat.shiftRight_eq_div_pow]
    have h1 := Nat.log2_self_le hk
    have h2 := Nat.lt_log2_self (n := k)
    rw [pow_succ] at h2
    exact Nat.div_eq_of_lt_le (by omega) (by omega)
  have hr := ldRun_rep hG k k.log2 (x, y, 1) (by rw [← hS]; exact hz) (by
    intro _
    refine ⟨one_ne_zero, ?_⟩
    rw [hone, one_nsmul]
    simp only [div_one, one_pow, exists_prop, and_true]
    exact hG)
  rw [← hS] at hr
  obtain ⟨_, hn, hrep⟩ := hr
  have ex : S.1 / S.2.2 = x' := by rw [hx]; field_simp
  have ey : S.2.1 / S.2.2 ^ 2 = y' := by rw [hy]; field_simp
  subst ex ey
  exact ⟨hn, hrep⟩

theorem mulCheck_sound (m : Nat) (ks : List Nat) (hm : 0 < m) (hmw : m < 2 ^ slotW) (hk : ∀ k ∈ ks, 2 * k ≤ m)
    (p : Nat) (hp : p = bitsOf (m :: ks)) [Fact (Irreducible (bitPoly p))]
    {a b x y k x' y' h v : Nat} (ha : a < 2 ^ m) (hb : b < 2 ^ m) (hx : x < 2 ^ m) (hy : y < 2 ^ m) (hx' : x' < 2 ^ m)
    (hy' : y' < 2 ^ m) (hh : h < 2 ^ m) (hv : v < 2 ^ m) (hk0 : k ≠ 0)
    (hc : mulCheck m ks a b x y k x' y' h v = true)
    (hG : (binCurve (GF.ofNat p a) (GF.ofNat p b)).Nonsingular (GF.ofNat p x) (GF.ofNat p y)) :
    (∃ hns, k • Affine.Point.some _ _ hG = Affine.Point.some (GF.ofNat p x') (GF.ofNat p y') hns) ∧
      GF.ofNat p h * GF.ofNat p x' = GF.ofNat p v := by
  subst hp
  simp only [mulCheck, Bool.and_eq_true, beq_iff_eq, bne_iff_ne] at hc
  obtain ⟨⟨⟨h1, h2⟩, h3⟩, h4⟩ := hc
  have rm := slotRel_mul m ks hm hmw hk
  have ra := slotRel_add m ks
  have rA := slotRel_spread m ks a ha
  have rB := slotRel_spread m ks b hb
  have rX := slotRel_spread m ks x hx
  have rY := slotRel_spread m ks y hy
  have rX' := slotRel_spread m ks x' hx'
  have rY' := slotRel_spread m ks y' hy'
  have rH := slotRel_spread m ks h hh
  have rV := slotRel_spread m ks v hv
  have r1 := slotRel_one m ks hm
  have hrun := ldRun_rel (R := SlotRel m ks) ra rm rA rB rX rY k k.log2
    (S := (spread slotW m x, spread slotW m y, 1)) (T := (GF.ofNat _ x, GF.ofNat _ y, 1)) ⟨rX, rY, r1⟩
  obtain ⟨q1, q2, q3⟩ := hrun
  refine ⟨ldRun_mul hG k hk0 _ _ _ rfl ?_ ?_ ?_, ?_⟩
  · intro h0
    apply h1
    refine slotGF_inj slotW m ks (by decide) hm (fun k h => by have := hk k h; omega) q3.1 (SlotsLt.zero _ _) ?_
    rw [q3.2, h0]
    simp [slotGF, slotPoly_zero]
  · have := rm _ _ _ _ rX' q3
    rw [← h2] at this
    exact q1.2.symm.trans this.2
  · have := rm _ _ _ _ rY' (rm _ _ _ _ q3 q3)
    rw [← h3] at this
    exact q2.2.symm.trans this.2
  · have := rm _ _ _ _ rH rX'
    rw [h4] at this
    exact this.2.symm.trans rV.2

end Dstu
