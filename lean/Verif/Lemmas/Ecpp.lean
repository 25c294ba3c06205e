import Mathlib.AlgebraicGeometry.EllipticCurve.Affine.Point
import Mathlib.Data.ZMod.Basic
import Mathlib.Algebra.Field.ZMod
import Mathlib.GroupTheory.OrderOfElement
import Mathlib.Tactic.LinearCombination
import Mathlib.Tactic.FieldSimp

/-! Primality certificates on elliptic curves: a point `Q` with `q Q = 0`, for a prime `q` large enough,
over the integers modulo `n`, makes `n` prime. -/

namespace Dstu

open WeierstrassCurve

/-! ### Jacobian coordinates over a field -/

section Field

variable {F : Type} [Field F] [DecidableEq F]

/-- The curve `y² = x³ + a x + b`. -/
def shortCurve (a b : F) : WeierstrassCurve.Affine F := ⟨0, 0, 0, a, b⟩

theorem shortCurve_equation (a b x y : F) : (shortCurve a b).Equation x y ↔ y ^ 2 = x ^ 3 + a * x + b := by
  rw [Affine.equation_iff]
  simp [shortCurve]

theorem shortCurve_nonsingular {a b x y : F} (h : y ^ 2 = x ^ 3 + a * x + b) (hy : 2 * y ≠ 0) :
    (shortCurve a b).Nonsingular x y := by
  rw [Affine.nonsingular_iff]
  refine ⟨(shortCurve_equation a b x y).mpr h, Or.inr ?_⟩
  simp only [shortCurve, zero_mul, sub_zero]
  intro he
  exact hy (by linear_combination he)

theorem shortCurve_negY (a b x y : F) : (shortCurve a b).negY x y = -y := by simp [Affine.negY, shortCurve]

theorem shortCurve_double {a b x y : F} (h : (shortCurve a b).Nonsingular x y) (hy : 2 * y ≠ 0) (l x₃ y₃ : F)
    (hl : l * (2 * y) = 3 * x ^ 2 + a) (hx₃ : x₃ = l ^ 2 - 2 * x) (hy₃ : y₃ = l * (x - x₃) - y) :
    ∃ h' : (shortCurve a b).Nonsingular x₃ y₃,
      Affine.Point.some x y h + Affine.Point.some x y h = Affine.Point.some x₃ y₃ h' := by
  have hne : y ≠ (shortCurve a b).negY x y := by
    rw [shortCurve_negY]
    intro he
    exact hy (by linear_combination he)
  have hsl : (shortCurve a b).slope x x y y = l := by
    rw [Affine.slope_of_Y_ne rfl hne, shortCurve_negY]
    simp only [shortCurve]
    rw [div_eq_iff (by intro he; exact hy (by linear_combination he))]
    linear_combination -hl
  have hX : (shortCurve a b).addX x x ((shortCurve a b).slope x x y y) = x₃ := by
    rw [hsl, hx₃]
    simp only [Affine.addX, shortCurve]
    ring
  have hY : (shortCurve a b).addY x x y ((shortCurve a b).slope x x y y) = y₃ := by
    rw [Affine.addY, Affine.negAddY, hX, shortCurve_negY, hsl, hy₃]
    ring
  refine ⟨?_, ?_⟩
  · rw [← hX, ← hY]
    exact Affine.nonsingular_add h h (fun hc => hne hc.2)
  · rw [Affine.Point.add_self_of_Y_ne hne]
    simp only [hX, hY]

theorem shortCurve_add {a b x₁ y₁ x₂ y₂ : F} (h₁ : (shortCurve a b).Nonsingular x₁ y₁)
    (h₂ : (shortCurve a b).Nonsingular x₂ y₂) (hx : x₁ ≠ x₂) (l x₃ y₃ : F)
    (hl : l * (x₁ - x₂) = y₁ - y₂) (hx₃ : x₃ = l ^ 2 - x₁ - x₂) (hy₃ : y₃ = l * (x₁ - x₃) - y₁) :
    ∃ h' : (shortCurve a b).Nonsingular x₃ y₃,
      Affine.Point.some x₁ y₁ h₁ + Affine.Point.some x₂ y₂ h₂ = Affine.Point.some x₃ y₃ h' := by
  have hsl : (shortCurve a b).slope x₁ x₂ y₁ y₂ = l := by
    rw [Affine.slope_of_X_ne hx, div_eq_iff (sub_ne_zero.mpr hx)]
    exact hl.symm
  have hX : (shortCurve a b).addX x₁ x₂ ((shortCurve a b).slope x₁ x₂ y₁ y₂) = x₃ := by
    rw [hsl, hx₃]
    simp only [Affine.addX, shortCurve]
    ring
  have hY : (shortCurve a b).addY x₁ x₂ y₁ ((shortCurve a b).slope x₁ x₂ y₁ y₂) = y₃ := by
    rw [Affine.addY, Affine.negAddY, hX, shortCurve_negY, hsl, hy₃]
    ring
  refine ⟨?_, ?_⟩
  · rw [← hX, ← hY]
    exact Affine.nonsingular_add h₁ h₂ (fun hc => hx hc.1)
  · rw [Affine.Point.add_of_X_ne hx]
    simp only [hX, hY]

/-- Doubling in Jacobian coordinates. -/
def jDouble (a : F) (S : F × F × F) : F × F × F :=
  let X3 := (3 * S.1 ^ 2 + a * S.2.2 ^ 4) ^ 2 - 2 * (4 * S.1 * S.2.1 ^ 2)
  (X3, (3 * S.1 ^ 2 + a * S.2.2 ^ 4) * (4 * S.1 * S.2.1 ^ 2 - X3) - 8 * S.2.1 ^ 4, 2 * S.2.1 * S.2.2)

/-- Addition of an affine point. -/
def jAdd (x y : F) (S : F × F × F) : F × F × F :=
  let H := x * S.2.2 ^ 2 - S.1
  let R := y * S.2.2 ^ 3 - S.2.1
  let X3 := R ^ 2 - H ^ 3 - 2 * S.1 * H ^ 2
  (X3, R * (S.1 * H ^ 2 - X3) - S.2.1 * H ^ 3, S.2.2 * H)

/-- The triple stands for the point. -/
def JRep (a b : F) (S : F × F × F) (P : (shortCurve a b).Point) : Prop :=
  S.2.2 ≠ 0 ∧ ∃ h, P = Affine.Point.some (S.1 / S.2.2 ^ 2) (S.2.1 / S.2.2 ^ 3) h

theorem jDouble_rep {a b : F} {S : F × F × F} {P : (shortCurve a b).Point} (h : JRep a b S P)
    (hz : (jDouble a S).2.2 ≠ 0) : JRep a b (jDouble a S) (P + P) := by
  obtain ⟨X, Y, Z⟩ := S
  obtain ⟨hZ, hn, rfl⟩ := h
  simp only [jDouble] at hz hZ hn ⊢
  have hY : Y ≠ 0 := by rintro rfl; simp at hz
  have h2 : (2 : F) ≠ 0 := by intro h0; apply hz; rw [h0]; ring
  refine ⟨hz, ?_⟩
  obtain ⟨h', he⟩ := shortCurve_double hn (by field_simp; exact div_ne_zero (mul_ne_zero h2 hY) (pow_ne_zero _ hZ))
    ((3 * X ^ 2 + a * Z ^ 4) / (2 * Y * Z))
    (((3 * X ^ 2 + a * Z ^ 4) ^ 2 - 2 * (4 * X * Y ^ 2)) / (2 * Y * Z) ^ 2)
    (((3 * X ^ 2 + a * Z ^ 4) * (4 * X * Y ^ 2 - ((3 * X ^ 2 + a * Z ^ 4) ^ 2 - 2 * (4 * X * Y ^ 2))) - 8 * Y ^ 4) /
      (2 * Y * Z) ^ 3) (by field_simp) (by field_simp; ring) (by field_simp; ring)
  exact ⟨h', he⟩

theorem jAdd_rep {a b x y : F} (hG : (shortCurve a b).Nonsingular x y) {S : F × F × F} {P : (shortCurve a b).Point}
    (h : JRep a b S P) (hz : (jAdd x y S).2.2 ≠ 0) : JRep a b (jAdd x y S) (P + Affine.Point.some x y hG) := by
  obtain ⟨X, Y, Z⟩ := S
  obtain ⟨hZ, hn, rfl⟩ := h
  simp only [jAdd] at hz hZ hn ⊢
  have hH : x * Z ^ 2 - X ≠ 0 := right_ne_zero_of_mul hz
  refine ⟨hz, ?_⟩
  have hx : X / Z ^ 2 ≠ x := by
    intro he
    apply hH
    rw [← he]
    field_simp
    ring
  obtain ⟨H, hHd⟩ : ∃ H, H = x * Z ^ 2 - X := ⟨_, rfl⟩
  rw [← hHd] at hH hz ⊢
  obtain rfl : X = x * Z ^ 2 - H := by rw [hHd]; ring
  obtain ⟨h', he⟩ := shortCurve_add hn hG hx ((y * Z ^ 3 - Y) / (Z * H))
    (((y * Z ^ 3 - Y) ^ 2 - H ^ 3 - 2 * (x * Z ^ 2 - H) * H ^ 2) / (Z * H) ^ 2)
    (((y * Z ^ 3 - Y) * ((x * Z ^ 2 - H) * H ^ 2 - ((y * Z ^ 3 - Y) ^ 2 - H ^ 3 - 2 * (x * Z ^ 2 - H) * H ^ 2)) -
      Y * H ^ 3) / (Z * H) ^ 3)
    (by field_simp; ring) (by field_simp; ring) (by field_simp; try ring)
  exact ⟨h', he⟩

/-- Double-and-add over the low `i` bits of `k`. -/
def jRun (a x y : F) (k : Nat) : Nat → F × F × F → F × F × F
  | 0, S => S
  | i + 1, S =>
    let S' := jDouble a S
    jRun a x y k i (if k.testBit i then jAdd x y S' else S')

theorem jRun_rep {a b x y : F} (hG : (shortCurve a b).Nonsingular x y) (k i : Nat) (S : F × F × F)
    (hz : (jRun a x y k i S).2.2 ≠ 0) (h : S.2.2 ≠ 0 → JRep a b S ((k >>> i) • Affine.Point.some x y hG)) :
    JRep a b (jRun a x y k i S) (k • Affine.Point.some x y hG) := by
  induction i generalizing S with
  | zero => simpa [jRun] using h (by simpa [jRun] using hz)
  | succ i ih =>
    rw [jRun] at hz ⊢
    apply ih _ hz
    have hk : k >>> i = (k >>> (i + 1)) + (k >>> (i + 1)) + if k.testBit i then 1 else 0 := by
      rw [Nat.shiftRight_succ, Nat.testBit_eq_decide_div_mod_eq, ← Nat.shiftRight_eq_div_pow]
      simp only [decide_eq_true_eq]
      split <;> omega
    cases hb : k.testBit i
    · simp only [hb, Bool.false_eq_true, if_false] at hk ⊢
      intro hz'
      rw [hk, Nat.add_zero, add_nsmul]
      refine jDouble_rep (h ?_) hz'
      intro h0
      apply hz'
      simp [jDouble, h0]
    · simp only [hb, if_true] at hk ⊢
      intro hz'
      have hz2 : (jDouble a S).2.2 ≠ 0 := by
        intro h0
        apply hz'
        simp only [jAdd, h0]
        simp
      rw [hk, add_nsmul, one_nsmul, add_nsmul]
      refine jAdd_rep hG (jDouble_rep (h ?_) hz2) hz'
      intro h0
      apply hz2
      simp [jDouble, h0]

/-- A check that `(k + 1) • G = 0`. -/
theorem jRun_order {a b x y : F} (hG : (shortCurve a b).Nonsingular x y) (k : Nat) (hk : k ≠ 0) (S : F × F × F)
    (hS : S = jRun a x y k k.log2 (x, y, 1)) (hz : S.2.2 ≠ 0)
    (hx : S.1 = x * S.2.2 ^ 2) (hy : S.2.1 + y * S.2.2 ^ 3 = 0) :
    (k + 1) • Affine.Point.some x y hG = 0 := by
  have hone : k >>> k.log2 = 1 := by
    rw [Nat.shiftRight_eq_div_pow]
    have h1 := Nat.log2_self_le hk
    have h2 := Nat.lt_log2_self (n := k)
    rw [pow_succ] at h2
    exact Nat.div_eq_of_lt_le (by omega) (by omega)
  have hr := jRun_rep hG k k.log2 (x, y, 1) (by rw [← hS]; exact hz) (by
    intro _
    refine ⟨one_ne_zero, ?_⟩
    rw [hone, one_nsmul]
    simp only [div_one, one_pow, exists_prop, and_true]
    exact hG)
  rw [← hS] at hr
  obtain ⟨_, hn, hrep⟩ := hr
  have ex : S.1 / S.2.2 ^ 2 = x := by rw [hx]; field_simp
  have ey : S.2.1 / S.2.2 ^ 3 = -y := by
    rw [eq_neg_of_add_eq_zero_left hy]
    field_simp
  rw [add_nsmul, one_nsmul, hrep]
  rw [Affine.Point.add_of_Y_eq ex (by rw [shortCurve_negY]; exact ey)]

/-- A point of prime order `q` needs `(q - 1) / 2` different abscissae. -/
theorem order_le_card [Fintype F] {W : WeierstrassCurve.Affine F} (P : W.Point) (h0 : P ≠ 0) (q : Nat) (hq : q.Prime)
    (hP : q • P = 0) : (q - 1) / 2 ≤ Fintype.card F := by
  have : Fact q.Prime := ⟨hq⟩
  have hord : addOrderOf P = q := addOrderOf_eq_prime hP h0
  have hne : ∀ j, 0 < j → j < q → j • P ≠ 0 := by
    intro j h1 h2 h3
    have := Nat.le_of_dvd h1 (addOrderOf_dvd_of_nsmul_eq_zero h3)
    omega
  have hinj : ∀ i j, i < q → j < q → i • P = j • P → i = j := by
    intro i j hi hj he
    exact nsmul_injOn_Iio_addOrderOf (by rw [hord]; exact hi) (by rw [hord]; exact hj) he
  let f : Fin ((q - 1) / 2) → F := fun j =>
    match (j.val + 1) • P with
    | .zero => 0
    | .some x _ _ => x
  have hf : Function.Injective f := by
    intro i j he
    have hi := i.isLt
    have hj := j.isLt
    have hi0 := hne (i.val + 1) (by omega) (by omega)
    have hj0 := hne (j.val + 1) (by omega) (by omega)
    simp only [f] at he
    rcases hPi : (i.val + 1) • P with _ | ⟨x1, y1, n1⟩
    · exact absurd hPi hi0
    · rcases hPj : (j.val + 1) • P with _ | ⟨x2, y2, n2⟩
      · exact absurd hPj hj0
      · rw [hPi, hPj] at he
        simp only at he
        subst he
        rcases Affine.Y_eq_of_X_eq n1.1 n2.1 rfl with hy | hy
        · subst hy
          have := hinj (i.val + 1) (j.val + 1) (by omega) (by omega) (hPi.trans hPj.symm)
          exact Fin.ext (by omega)
        · exfalso
          have hz : (i.val + 1) • P + (j.val + 1) • P = 0 := by
            rw [hPi, hPj]
            exact Affine.Point.add_of_Y_eq rfl hy
          rw [← add_nsmul] at hz
          exact hne _ (by omega) (by omega) hz
  have := Fintype.card_le_of_injective f hf
  simpa using this

end Field

/-! ### The same on integers modulo `n` -/

/-- Doubling, with `-1` written as `n - 1`. -/
def nDouble (n a : Nat) (S : Nat × Nat × Nat) : Nat × Nat × Nat :=
  let YY := S.2.1 * S.2.1 % n
  let T := 4 * S.1 * YY % n
  let ZZ := S.2.2 * S.2.2 % n
  let M := (3 * (S.1 * S.1) + a * (ZZ * ZZ % n)) % n
  let X3 := (M * M + (n - 1) * (2 * T)) % n
  (X3, (M * (T + (n - 1) * X3) + (n - 1) * (8 * (YY * YY))) % n, 2 * S.2.1 * S.2.2 % n)

/-- Addition of an affine point. -/
def nAdd (n x y : Nat) (S : Nat × Nat × Nat) : Nat × Nat × Nat :=
  let ZZ := S.2.2 * S.2.2 % n
  let H := (x * ZZ + (n - 1) * S.1) % n
  let R := (y * (ZZ * S.2.2 % n) + (n - 1) * S.2.1) % n
  let HH := H * H % n
  let HHH := HH * H % n
  let V := S.1 * HH % n
  let X3 := (R * R + (n - 1) * (HHH + 2 * V)) % n
  (X3, (R * (V + (n - 1) * X3) + (n - 1) * (S.2.1 * HHH)) % n, S.2.2 * H % n)

/-- Double-and-add over the low `i` bits of `k`. -/
def nRun (n a x y k : Nat) : Nat → Nat × Nat × Nat → Nat × Nat × Nat
  | 0, S => S
  | i + 1, S =>
    let S' := nDouble n a S
    nRun n a x y k i (if k.testBit i then nAdd n x y S' else S')

/-- The certificate: with `b = y² - x³ - a x`, the point `Q = (x, y)` of `y² = x³ + a x + b` has `q Q = 0`,
modulo every prime divisor of `n`, and `q` is too large for a divisor up to the square root of `n`. -/
def ecCheck (n a x y q : Nat) : Bool :=
  let S := nRun n a x y (q - 1) (q - 1).log2 (x, y, 1)
  decide (1 < n) && decide (4 * n < (q - 2) * (q - 2)) && decide (1 < q) && (Nat.gcd (2 * y) n == 1) && (Nat.gcd S.2.2 n == 1) &&
    (S.1 % n == x * (S.2.2 * S.2.2) % n) && ((S.2.1 + y * (S.2.2 * S.2.2 * S.2.2)) % n == 0)

section Mod

variable {n r : Nat} [hr : Fact r.Prime]

theorem cast_mod_dvd (h : r ∣ n) (e : Nat) : ((e % n : Nat) : ZMod r) = e := by
  conv_rhs => rw [← Nat.div_add_mod e n]
  push_cast
  rw [(ZMod.natCast_eq_zero_iff n r).mpr h]
  ring

theorem cast_pred (h : r ∣ n) (hn : 0 < n) : ((n - 1 : Nat) : ZMod r) = -1 := by
  rw [Nat.cast_sub hn, (ZMod.natCast_eq_zero_iff n r).mpr h]
  simp

/-- The triple modulo `r`. -/
def red3 (r : Nat) (S : Nat × Nat × Nat) : ZMod r × ZMod r × ZMod r := (S.1, S.2.1, S.2.2)

theorem nDouble_red (h : r ∣ n) (hn : 0 < n) (a : Nat) (S : Nat × Nat × Nat) :
    red3 r (nDouble n a S) = jDouble (a : ZMod r) (red3 r S) := by
  simp only [red3, nDouble, jDouble, cast_mod_dvd h, Nat.cast_add, Nat.cast_mul, cast_pred h hn, Nat.cast_ofNat, Prod.mk.injEq]
  exact ⟨by ring, by ring, by first | trivial | ring⟩

theorem nAdd_red (h : r ∣ n) (hn : 0 < n) (x y : Nat) (S : Nat × Nat × Nat) :
    red3 r (nAdd n x y S) = jAdd (x : ZMod r) (y : ZMod r) (red3 r S) := by
  simp only [red3, nAdd, jAdd, cast_mod_dvd h, Nat.cast_add, Nat.cast_mul, cast_pred h hn, Nat.cast_ofNat, Prod.mk.injEq]
  exact ⟨by ring, by ring, by first | trivial | ring⟩

theorem nRun_red (h : r ∣ n) (hn : 0 < n) (a x y k i : Nat) (S : Nat × Nat × Nat) :
    red3 r (nRun n a x y k i S) = jRun (a : ZMod r) (x : ZMod r) (y : ZMod r) k i (red3 r S) := by
  induction i generalizing S with
  | zero => rfl
  | succ i ih =>
    rw [nRun, jRun, ih, ← nDouble_red h hn]
    cases k.testBit i
    · rfl
    · simp only [if_true]
      rw [nAdd_red h hn]

theorem cast_ne_zero_of_coprime (h : r ∣ n) {e : Nat} (he : Nat.gcd e n = 1) : (e : ZMod r) ≠ 0 := by
  intro h0
  have h1 := (ZMod.natCast_eq_zero_iff e r).mp h0
  have h2 := Nat.dvd_gcd h1 h
  rw [he] at h2
  exact hr.out.one_lt.ne' (Nat.dvd_one.mp h2)

end Mod

/-- A certificate makes `n` prime. -/
theorem ecCheck_prime {n a x y q : Nat} (h : ecCheck n a x y q = true) (hq : q.Prime) : n.Prime := by
  simp only [ecCheck, Bool.and_eq_true, decide_eq_true_eq, beq_iff_eq] at h
  obtain ⟨⟨⟨⟨⟨⟨hn, hsize⟩, hq1⟩, hy⟩, hz⟩, hX⟩, hY⟩ := h
  by_contra hnp
  have hrp : n.minFac.Prime := Nat.minFac_prime (by omega)
  have hdvd : n.minFac ∣ n := Nat.minFac_dvd n
  have hsq : n.minFac ^ 2 ≤ n := Nat.minFac_sq_le_self (by omega) hnp
  generalize n.minFac = r at hrp hdvd hsq
  have : Fact r.Prime := ⟨hrp⟩
  have hy0 := cast_ne_zero_of_coprime hdvd hy
  have hz0 := cast_ne_zero_of_coprime hdvd hz
  have hX' := congrArg (fun e : Nat => (e : ZMod r)) hX
  have hY' := congrArg (fun e : Nat => (e : ZMod r)) hY
  simp only [cast_mod_dvd hdvd, Nat.cast_mul, Nat.cast_add, Nat.cast_zero, Nat.cast_ofNat] at hX' hY' hy0
  have hrun := nRun_red hdvd (by omega) a x y (q - 1) (q - 1).log2 (x, y, 1)
  generalize nRun n a x y (q - 1) (q - 1).log2 (x, y, 1) = S at hX' hY' hz0 hrun
  have hG : (shortCurve (a : ZMod r) ((y : ZMod r) ^ 2 - (x : ZMod r) ^ 3 - (a : ZMod r) * (x : ZMod r))).Nonsingular (x : ZMod r) (y : ZMod r) :=
    shortCurve_nonsingular (by ring) hy0
  have hord := jRun_order hG (q - 1) (by omega) (red3 r S) (by rw [hrun]; simp [red3]) hz0
    (by simp only [red3]; rw [hX']; ring) (by simp only [red3]; linear_combination hY')
  rw [Nat.sub_add_cancel (by omega)] at hord
  have hcard := order_le_card _ (Affine.Point.some_ne_zero hG) q hq hord
  rw [ZMod.card] at hcard
  have hlt : q - 2 ≤ 2 * r := by omega
  have h4 : (q - 2) * (q - 2) ≤ 2 * r * (2 * r) := Nat.mul_le_mul hlt hlt
  nlinarith

end Dstu
