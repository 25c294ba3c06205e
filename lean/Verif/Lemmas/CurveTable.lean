import Verif.Model.Curves
import Verif.Lemmas.Irred
import Verif.Lemmas.Curve

/-! Kernel checks of the curve table. -/

namespace Dstu

open Polynomial Spec WeierstrassCurve

/-- Width of a slot: all degrees are below `2^9`. -/
def slotW : Nat := 9

/-- The base point lies on the curve and `n` times it is zero, on spread integers. -/
def curveCheck (m : Nat) (ks : List Nat) (a b n x y : Nat) : Bool :=
  let mask := slotMask slotW (2 * m)
  let mul := slotMul slotW m ks mask
  let A := spread slotW m a
  let B := spread slotW m b
  let X := spread slotW m x
  let Y := spread slotW m y
  let S := ldRun (· ^^^ ·) mul A B X Y (n - 1) (n - 1).log2 (X, Y, 1)
  (mul Y Y ^^^ mul X Y == mul (mul X X) X ^^^ mul A (mul X X) ^^^ B) &&
  (S.2.2 != 0) && (S.1 == mul X S.2.2) && (S.2.1 == mul (X ^^^ Y) (mul S.2.2 S.2.2))

/-- The element of the field and its spread representative. -/
def SlotRel (m : Nat) (ks : List Nat) (s : Nat) (x : GF (bitsOf (m :: ks))) : Prop :=
  SlotsLt slotW m s ∧ slotGF slotW (bitsOf (m :: ks)) s = x

theorem slotRel_add (m : Nat) (ks : List Nat) (s t : Nat) (x y : GF (bitsOf (m :: ks))) (h1 : SlotRel m ks s x)
    (h2 : SlotRel m ks t y) : SlotRel m ks (s ^^^ t) (x + y) := by
  obtain ⟨h1, rfl⟩ := h1
  obtain ⟨h2, rfl⟩ := h2
  exact ⟨h1.xor h2, slotGF_xor _ _ (by decide) _ _⟩

theorem slotRel_mul (m : Nat) (ks : List Nat) (hm : 0 < m) (hmw : m < 2 ^ slotW) (hk : ∀ k ∈ ks, 2 * k ≤ m)
    (s t : Nat) (x y : GF (bitsOf (m :: ks))) (h1 : SlotRel m ks s x) (h2 : SlotRel m ks t y) :
    SlotRel m ks (slotMul slotW m ks (slotMask slotW (2 * m)) s t) (x * y) := by
  obtain ⟨h1, rfl⟩ := h1
  obtain ⟨h2, rfl⟩ := h2
  exact slotMul_spec slotW m ks (by decide) hm hmw hk h1 h2

theorem slotRel_spread (m : Nat) (ks : List Nat) (a : Nat) (ha : a < 2 ^ m) :
    SlotRel m ks (spread slotW m a) (GF.ofNat _ a) :=
  ⟨spread_slots _ _ _ (by decide), slotGF_spread _ _ _ _ (by decide) ha⟩

theorem slotRel_one (m : Nat) (ks : List Nat) (hm : 0 < m) : SlotRel m ks 1 1 := by
  refine ⟨?_, ?_⟩
  · intro i hi
    rw [show (1 : Nat) = 2 ^ 0 from rfl, Nat.testBit_two_pow] at hi
    simp only [decide_eq_true_eq] at hi
    subst hi
    exact ⟨Nat.dvd_zero _, Nat.mul_pos (by decide) hm⟩
  · have h := slotGF_spread slotW m (bitsOf (m :: ks)) 1 (by decide) (Nat.one_lt_two_pow (by omega))
    have e : spread slotW m 1 = 1 := by
      apply Nat.eq_of_testBit_eq
      intro i
      rw [spread_testBit _ _ _ (by decide), show (1 : Nat) = 2 ^ 0 from rfl, Nat.testBit_two_pow,
        Nat.testBit_two_pow]
      simp only [decide_eq_decide, decide_eq_true_eq]
      constructor
      · rintro ⟨⟨j, rfl⟩, _, h0⟩
        rw [Nat.mul_div_cancel_left _ (by decide)] at h0
        subst h0; rfl
      · rintro rfl
        exact ⟨Nat.dvd_zero _, Nat.mul_pos (by decide) hm, by simp⟩
    rw [e, GF.ofNat_one] at h
    exact h

theorem curveCheck_onCurve (m : Nat) (ks : List Nat) (hm : 0 < m) (hmw : m < 2 ^ slotW) (hk : ∀ k ∈ ks, 2 * k ≤ m)
    {a b n x y : Nat} (ha : a < 2 ^ m) (hb : b < 2 ^ m) (hx : x < 2 ^ m) (hy : y < 2 ^ m)
    (hc : curveCheck m ks a b n x y = true) :
    OnCurve (GF.ofNat (bitsOf (m :: ks)) a) (GF.ofNat _ b) (GF.ofNat _ x) (GF.ofNat _ y) := by
  simp only [curveCheck, Bool.and_eq_true, beq_iff_eq] at hc
  obtain ⟨⟨⟨h, _⟩, _⟩, _⟩ := hc
  have rm := slotRel_mul m ks hm hmw hk
  have ra := slotRel_add m ks
  have rA := slotRel_spread m ks a ha
  have rB := slotRel_spread m ks b hb
  have rX := slotRel_spread m ks x hx
  have rY := slotRel_spread m ks y hy
  have l := ra _ _ _ _ (rm _ _ _ _ rY rY) (rm _ _ _ _ rX rY)
  have r := ra _ _ _ _ (ra _ _ _ _ (rm _ _ _ _ (rm _ _ _ _ rX rX) rX) (rm _ _ _ _ rA (rm _ _ _ _ rX rX))) rB
  rw [h] at l
  have e := l.2.symm.trans r.2
  rw [OnCurve]
  rw [pow_two, pow_two, pow_succ, pow_two]
  exact e

theorem curveCheck_order (m : Nat) (ks : List Nat) (hm : 0 < m) (hmw : m < 2 ^ slotW) (hk : ∀ k ∈ ks, 2 * k ≤ m)
    [Fact (Irreducible (bitPoly (bitsOf (m :: ks))))] [DecidableEq (GF (bitsOf (m :: ks)))]
    {a b n x y : Nat} (ha : a < 2 ^ m) (hb : b < 2 ^ m) (hx : x < 2 ^ m) (hy : y < 2 ^ m) (hn : 2 ≤ n)
    (hc : curveCheck m ks a b n x y = true)
    (hG : (binCurve (GF.ofNat (bitsOf (m :: ks)) a) (GF.ofNat _ b)).Nonsingular (GF.ofNat _ x) (GF.ofNat _ y)) :
    n • Affine.Point.some _ _ hG = 0 := by
  simp only [curveCheck, Bool.and_eq_true, beq_iff_eq, bne_iff_ne] at hc
  obtain ⟨⟨⟨_, h1⟩, h2⟩, h3⟩ := hc
  have rm := slotRel_mul m ks hm hmw hk
  have ra := slotRel_add m ks
  have rA := slotRel_spread m ks a ha
  have rB := slotRel_spread m ks b hb
  have rX := slotRel_spread m ks x hx
  have rY := slotRel_spread m ks y hy
  have r1 := slotRel_one m ks hm
  have hrun := ldRun_rel (R := SlotRel m ks) ra rm rA rB rX rY (n - 1) (n - 1).log2
    (S := (spread slotW m x, spread slotW m y, 1)) (T := (GF.ofNat _ x, GF.ofNat _ y, 1)) ⟨rX, rY, r1⟩
  obtain ⟨q1, q2, q3⟩ := hrun
  have := ldRun_order hG (n - 1) (by omega) _ rfl ?_ ?_ ?_
  · rwa [Nat.sub_add_cancel (by omega)] at this
  · intro h0
    apply h1
    refine slotGF_inj slotW m ks (by decide) hm (fun k h => by have := hk k h; omega) q3.1 (SlotsLt.zero _ _) ?_
    rw [q3.2, h0]
    simp [slotGF, slotPoly_zero]
  · have := rm _ _ _ _ rX q3
    rw [← h2] at this
    exact q1.2.symm.trans this.2
  · have := rm _ _ _ _ (ra _ _ _ _ rX rY) (rm _ _ _ _ q3 q3)
    rw [← h3] at this
    exact q2.2.symm.trans this.2

/-- Field `k` (0: B, 1: N, 2: Px, 3: Py) of the data of a curve of degree `m`. -/
def fieldAt (data : List Byte) (m k : Nat) : Nat := bin2bn ((data.drop (1 + k * ((m + 7) / 8))).take ((m + 7) / 8))

/-- The coefficient `a` of the data of a curve. -/
def aOf (data : List Byte) : Nat := if data.headD 0 ≠ 0 then 1 else 0

theorem gf2m_mod_eq (p a : Nat) (hp : p ≠ 0) (ha : a < 2 ^ p.log2) : gf2m_mod p a = a :=
  GF.toNat_ofNat p hp a ha

/-- Everything that is computed about one entry. -/
structure EntryCheck (c : NamedCurve) (m : Nat) (ks : List Nat) : Prop where
  prime : m.Prime
  small : m < 2 ^ slotW
  exps : ∀ k ∈ ks, 2 * k ≤ m
  head : c.poly.headD 0 = m
  poly : arr2poly c.poly = bitsOf (m :: ks)
  log2 : (bitsOf (m :: ks)).log2 = m
  weight : weight (bitsOf (m :: ks)) = 3 ∨ weight (bitsOf (m :: ks)) = 5
  length : 1 + 4 * ((m + 7) / 8) ≤ c.data.length
  eval0 : ((m :: ks).map ((0 : ZMod 2) ^ ·)).sum = 1
  eval1 : ((m :: ks).map ((1 : ZMod 2) ^ ·)).sum = 1
  frob : slotFrob slotW m ks (slotMask slotW (2 * m)) m (2 ^ slotW) = 2 ^ slotW
  b_lt : fieldAt c.data m 0 < 2 ^ m
  x_lt : fieldAt c.data m 2 < 2 ^ m
  y_lt : fieldAt c.data m 3 < 2 ^ m
  b_ne : fieldAt c.data m 0 ≠ 0
  n_gt : 1 < fieldAt c.data m 1
  curve : curveCheck m ks (aOf c.data) (fieldAt c.data m 0) (fieldAt c.data m 1) (fieldAt c.data m 2)
    (fieldAt c.data m 3) = true

/-- The group of an entry. -/
def entryGroup (c : NamedCurve) (m : Nat) : EcGroup :=
  ⟨arr2poly c.poly, aOf c.data, fieldAt c.data m 0, fieldAt c.data m 2, fieldAt c.data m 3, fieldAt c.data m 1, 1⟩

theorem entry_valid {c : NamedCurve} {m : Nat} {ks : List Nat} (h : EntryCheck c m ks) :
    ValidCurve (arr2poly c.poly) (aOf c.data) (fieldAt c.data m 0) (fieldAt c.data m 2) (fieldAt c.data m 3)
      (fieldAt c.data m 1) := by
  have hm := h.prime.pos
  have hd : fieldDegree (arr2poly c.poly) = m := by rw [h.poly]; exact h.log2
  have ha : aOf c.data < 2 ^ m := by
    have h1 : aOf c.data ≤ 1 := by unfold aOf; split <;> omega
    exact lt_of_le_of_lt h1 (Nat.one_lt_two_pow (by omega))
  refine ⟨?_, ?_, ?_, ?_, ?_, h.b_ne, h.n_gt, ?_, ?_⟩
  · rw [h.poly]
    exact irreducible_of_check slotW m ks _ (by decide) h.prime h.small h.exps rfl h.eval0 h.eval1 h.frob
  · rw [hd]; exact ha
  · rw [hd]; exact h.b_lt
  · rw [hd]; exact h.x_lt
  · rw [hd]; exact h.y_lt
  · rw [h.poly]
    exact curveCheck_onCurve m ks hm h.small h.exps ha h.b_lt h.x_lt h.y_lt h.curve
  · rw [h.poly]
    intro _ hG
    exact curveCheck_order m ks hm h.small h.exps ha h.b_lt h.x_lt h.y_lt h.n_gt h.curve hG

theorem entry_group {c : NamedCurve} {m : Nat} {ks : List Nat} (h : EntryCheck c m ks) :
    groupOfEntry c = some (entryGroup c m) := by
  have hv := entry_valid h
  have hp : arr2poly c.poly ≠ 0 := by have := irreducible_pos _ hv.irreducible; omega
  have hw : weight (arr2poly c.poly) = 3 ∨ weight (arr2poly c.poly) = 5 := by rw [h.poly]; exact h.weight
  have ea : (if c.data.headD 0 ≠ 0 then 1 else 0 : Nat) = aOf c.data := rfl
  have eb : bin2bn ((c.data.drop 1).take ((m + 7) / 8)) = fieldAt c.data m 0 := by simp [fieldAt]
  have en : bin2bn (((c.data.drop 1).drop ((m + 7) / 8)).take ((m + 7) / 8)) = fieldAt c.data m 1 := by
    simp only [fieldAt, List.drop_drop]
    congr 3
    ring
  have ex : bin2bn ((((c.data.drop 1).drop ((m + 7) / 8)).drop ((m + 7) / 8)).take ((m + 7) / 8)) =
      fieldAt c.data m 2 := by
    simp only [fieldAt, List.drop_drop]
    congr 3
    ring
  have ey : bin2bn (((((c.data.drop 1).drop ((m + 7) / 8)).drop ((m + 7) / 8)).drop ((m + 7) / 8)).take
      ((m + 7) / 8)) = fieldAt c.data m 3 := by
    simp only [fieldAt, List.drop_drop]
    congr 3
    ring
  unfold groupOfEntry
  rw [h.head]
  simp only [Int.toNat_natCast]
  rw [ea, eb, en, ex, ey]
  simp only [h.length, guard_true, new_curve_GF2m, hw, if_true, Option.pure_def, Option.bind_eq_bind,
    Option.bind_some, gf2m_mod_eq _ _ hp hv.a_lt, gf2m_mod_eq _ _ hp hv.b_lt, set_affine, hv.onCurve]
  rfl

end Dstu
