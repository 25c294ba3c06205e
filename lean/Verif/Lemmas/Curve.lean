import Verif.Spec.Curve
import Verif.Lemmas.GF2
import Mathlib.Tactic.LinearCombination
import Mathlib.Tactic.FieldSimp

/-! Curves in characteristic two: the affine group law, and López–Dahab coordinates. -/

namespace Dstu

open Spec WeierstrassCurve

variable {F : Type} [Field F] [DecidableEq F] [CharP F 2]

omit [DecidableEq F] in
theorem two_zero : (2 : F) = 0 := CharTwo.two_eq_zero

omit [DecidableEq F] [CharP F 2] in
theorem binCurve_equation (a b x y : F) : (binCurve a b).Equation x y ↔ OnCurve a b x y := by
  rw [Affine.equation_iff, OnCurve]
  simp [binCurve]

omit [DecidableEq F] in
theorem binCurve_nonsingular {a b : F} (hb : b ≠ 0) {x y : F} (h : OnCurve a b x y) :
    (binCurve a b).Nonsingular x y := by
  rw [Affine.nonsingular_iff, binCurve_equation]
  refine ⟨h, ?_⟩
  simp only [binCurve]
  by_cases hx : x = 0
  · subst hx
    left
    rw [OnCurve] at h
    simp only [zero_mul, add_zero, ne_eq, OfNat.ofNat_ne_zero, not_false_eq_true, zero_pow, mul_zero,
      zero_add] at h ⊢
    intro h'
    have hy : y = 0 := by linear_combination h'
    subst hy
    apply hb
    simpa using h.symm
  · right
    intro h'
    apply hx
    have t := two_zero (F := F)
    linear_combination h' - (y + x) * t + x * t

omit [DecidableEq F] in
theorem binCurve_negY (a b x y : F) : (binCurve a b).negY x y = x + y := by
  simp only [Affine.negY, binCurve]
  have t := two_zero (F := F)
  linear_combination (-y - x) * t

/-- Doubling. -/
theorem binCurve_double {a b x y : F} (h : (binCurve a b).Nonsingular x y) (hx : x ≠ 0) (x₃ y₃ : F)
    (hx₃ : x₃ = x ^ 2 + b / x ^ 2) (hy₃ : y₃ = x ^ 2 + (x + y / x) * x₃ + x₃) :
    ∃ h' : (binCurve a b).Nonsingular x₃ y₃,
      Affine.Point.some x y h + Affine.Point.some x y h = Affine.Point.some x₃ y₃ h' := by
  have t := two_zero (F := F)
  have hy : y ≠ (binCurve a b).negY x y := by
    rw [binCurve_negY]
    intro he
    exact hx (by linear_combination -he)
  have he := (binCurve_equation a b x y).mp h.1
  rw [OnCurve] at he
  have hsl : (binCurve a b).slope x x y y = x + y / x := by
    rw [Affine.slope_of_Y_ne rfl hy, binCurve_negY]
    simp only [binCurve]
    have hd : y - (x + y) = -x := by ring
    rw [hd]
    field_simp
    linear_combination (-2 * x ^ 2 - x * a) * t
  have hX : (binCurve a b).addX x x ((binCurve a b).slope x x y y) = x₃ := by
    rw [hsl, hx₃]
    simp only [Affine.addX, binCurve]
    field_simp
    linear_combination he + (x ^ 2 * y) * t
  have hY : (binCurve a b).addY x x y ((binCurve a b).slope x x y y) = y₃ := by
    rw [Affine.addY, Affine.negAddY, hX, binCurve_negY, hsl, hy₃]
    have e : (x + y / x) * (x₃ - x) = (x + y / x) * x₃ - x ^ 2 - y := by
      field_simp
      ring
    rw [e]
    linear_combination (-x ^ 2) * t
  refine ⟨?_, ?_⟩
  · rw [← hX, ← hY]
    exact Affine.nonsingular_add h h (fun hc => hy hc.2)
  · rw [Affine.Point.add_self_of_Y_ne hy]
    simp only [hX, hY]

/-- Addition of points with different abscissae. -/
theorem binCurve_add {a b x₁ y₁ x₂ y₂ : F} (h₁ : (binCurve a b).Nonsingular x₁ y₁)
    (h₂ : (binCurve a b).Nonsingular x₂ y₂) (hx : x₁ ≠ x₂) (l x₃ y₃ : F)
    (hl : l = (y₁ + y₂) / (x₁ + x₂)) (hx₃ : x₃ = l ^ 2 + l + x₁ + x₂ + a)
    (hy₃ : y₃ = l * (x₁ + x₃) + x₃ + y₁) :
    ∃ h' : (binCurve a b).Nonsingular x₃ y₃,
      Affine.Point.some x₁ y₁ h₁ + Affine.Point.some x₂ y₂ h₂ = Affine.Point.some x₃ y₃ h' := by
  have t := two_zero (F := F)
  have hsl : (binCurve a b).slope x₁ x₂ y₁ y₂ = l := by
    rw [Affine.slope_of_X_ne hx, hl]
    have e1 : y₁ - y₂ = y₁ + y₂ := by linear_combination -y₂ * t
    have e2 : x₁ - x₂ = x₁ + x₂ := by linear_combination -x₂ * t
    rw [e1, e2]
  have hX : (binCurve a b).addX x₁ x₂ ((binCurve a b).slope x₁ x₂ y₁ y₂) = x₃ := by
    rw [hsl, hx₃]
    simp only [Affine.addX, binCurve]
    linear_combination (-a - x₁ - x₂) * t
  have hY : (binCurve a b).addY x₁ x₂ y₁ ((binCurve a b).slope x₁ x₂ y₁ y₂) = y₃ := by
    rw [Affine.addY, Affine.negAddY, hX, binCurve_negY, hsl, hy₃]
    linear_combination (- l * x₁) * t
  refine ⟨?_, ?_⟩
  · rw [← hX, ← hY]
    exact Affine.nonsingular_add h₁ h₂ (fun hc => hx hc.1)
  · rw [Affine.Point.add_of_X_ne hx]
    simp only [hX, hY]

/-! ### López–Dahab coordinates -/

/-- Doubling of `(X, Y, Z)`, standing for `(X / Z, Y / Z²)`. -/
def ldDouble {α : Type} (add mul : α → α → α) (a b : α) (S : α × α × α) : α × α × α :=
  let x2 := mul S.1 S.1
  let z2 := mul S.2.2 S.2.2
  let bz4 := mul b (mul z2 z2)
  let z3 := mul x2 z2
  let x3 := add (mul x2 x2) bz4
  (x3, add (mul bz4 z3) (mul x3 (add (add (mul a z3) (mul S.2.1 S.2.1)) bz4)), z3)

/-- Addition of the affine point `(x, y)`. -/
def ldAdd {α : Type} (add mul : α → α → α) (a x y : α) (S : α × α × α) : α × α × α :=
  let z2 := mul S.2.2 S.2.2
  let A := add (mul y z2) S.2.1
  let B := add (mul x S.2.2) S.1
  let C := mul S.2.2 B
  let D := mul (mul B B) (add C (mul a z2))
  let z3 := mul C C
  let E := mul A C
  let x3 := add (add (mul A A) D) E
  (x3, add (mul (add E z3) (add x3 (mul x z3))) (mul (add x y) (mul z3 z3)), z3)

/-- The triple stands for the point. -/
def LdRep (a b : F) (S : F × F × F) (P : (binCurve a b).Point) : Prop :=
  S.2.2 ≠ 0 ∧ ∃ h, P = Affine.Point.some (S.1 / S.2.2) (S.2.1 / S.2.2 ^ 2) h

theorem ldDouble_rep {a b : F} {S : F × F × F} {P : (binCurve a b).Point} (h : LdRep a b S P)
    (hz : (ldDouble (· + ·) (· * ·) a b S).2.2 ≠ 0) : LdRep a b (ldDouble (· + ·) (· * ·) a b S) (P + P) := by
  obtain ⟨X, Y, Z⟩ := S
  obtain ⟨hZ, hn, rfl⟩ := h
  simp only at hZ hn
  have hX : X ≠ 0 := by
    rintro rfl
    simp [ldDouble] at hz
  have hx : X / Z ≠ 0 := div_ne_zero hX hZ
  refine ⟨hz, ?_⟩
  obtain ⟨x, rfl⟩ : ∃ x, X = x * Z := ⟨X / Z, by field_simp⟩
  obtain ⟨y, rfl⟩ : ∃ y, Y = y * Z ^ 2 := ⟨Y / Z ^ 2, by field_simp⟩
  have ex : x * Z / Z = x := by field_simp
  have ey : y * Z ^ 2 / Z ^ 2 = y := by field_simp
  have t := two_zero (F := F)
  have he := (binCurve_equation a b _ _).mp hn.1
  rw [ex, ey, OnCurve] at he
  rw [ex] at hx
  obtain ⟨h', e'⟩ := binCurve_double (a := a) (b := b) hn (by rw [ex]; exact hx) _ _ rfl rfl
  rw [e']
  refine ⟨?_, ?_⟩
  swap
  · simp only [ldDouble]
    congr 1
    · rw [ex]
      field_simp
    · rw [ex, ey]
      field_simp
      linear_combination -((x ^ 4 + b) * he + ((x ^ 4 + b) * (a * x ^ 2 + b - x * y) - x ^ 6) * t)
  · convert h' using 1
    · simp only [ldDouble]
      rw [ex]
      field_simp
    · simp only [ldDouble]
      rw [ex, ey]
      field_simp
      linear_combination ((x ^ 4 + b) * he + ((x ^ 4 + b) * (a * x ^ 2 + b - x * y) - x ^ 6) * t)

theorem ldAdd_rep {a b x₂ y₂ : F} {S : F × F × F} {P : (binCurve a b).Point}
    (hQ : (binCurve a b).Nonsingular x₂ y₂) (h : LdRep a b S P)
    (hz : (ldAdd (· + ·) (· * ·) a x₂ y₂ S).2.2 ≠ 0) :
    LdRep a b (ldAdd (· + ·) (· * ·) a x₂ y₂ S) (P + Affine.Point.some x₂ y₂ hQ) := by
  obtain ⟨X, Y, Z⟩ := S
  obtain ⟨hZ, hn, rfl⟩ := h
  simp only at hZ hn
  obtain ⟨x, rfl⟩ : ∃ x, X = x * Z := ⟨X / Z, by field_simp⟩
  obtain ⟨y, rfl⟩ : ∃ y, Y = y * Z ^ 2 := ⟨Y / Z ^ 2, by field_simp⟩
  have ex : x * Z / Z = x := by field_simp
  have ey : y * Z ^ 2 / Z ^ 2 = y := by field_simp
  have t := two_zero (F := F)
  have hB : x₂ + x ≠ 0 := by
    intro h0
    apply hz
    simp only [ldAdd]
    have : x₂ * Z + x * Z = 0 := by rw [← add_mul, h0, zero_mul]
    rw [this]
    simp
  have hne : x₂ ≠ x := by
    rintro rfl
    exact hB (by linear_combination x₂ * t)
  refine ⟨hz, ?_⟩
  rw [add_comm]
  obtain ⟨h', e'⟩ := binCurve_add (a := a) (b := b) hQ hn (by rw [ex]; exact hne) _ _ _ rfl rfl rfl
  rw [e']
  have hX3 : (ldAdd (· + ·) (· * ·) a x₂ y₂ (x * Z, y * Z ^ 2, Z)).1 /
      (ldAdd (· + ·) (· * ·) a x₂ y₂ (x * Z, y * Z ^ 2, Z)).2.2 =
      ((y₂ + y) / (x₂ + x)) ^ 2 + (y₂ + y) / (x₂ + x) + x₂ + x + a := by
    simp only [ldAdd]
    have e1 : y₂ * (Z * Z) + y * Z ^ 2 = (y₂ + y) * Z ^ 2 := by ring
    have e2 : x₂ * Z + x * Z = (x₂ + x) * Z := by ring
    rw [e1, e2]
    field_simp
    ring
  have hY3 : (ldAdd (· + ·) (· * ·) a x₂ y₂ (x * Z, y * Z ^ 2, Z)).2.1 /
      (ldAdd (· + ·) (· * ·) a x₂ y₂ (x * Z, y * Z ^ 2, Z)).2.2 ^ 2 =
      (y₂ + y) / (x₂ + x) * (x₂ + (((y₂ + y) / (x₂ + x)) ^ 2 + (y₂ + y) / (x₂ + x) + x₂ + x + a)) +
        (((y₂ + y) / (x₂ + x)) ^ 2 + (y₂ + y) / (x₂ + x) + x₂ + x + a) + y₂ := by
    rw [← hX3]
    simp only [ldAdd]
    have e1 : y₂ * (Z * Z) + y * Z ^ 2 = (y₂ + y) * Z ^ 2 := by ring
    have e2 : x₂ * Z + x * Z = (x₂ + x) * Z := by ring
    rw [e1, e2]
    generalize x₂ + x = B at *
    field_simp
    linear_combination (B ^ 3 * x₂) * t
  simp only [ex, ey] at h' ⊢
  rw [hX3, hY3]
  exact ⟨h', rfl⟩

/-- Double-and-add over the low `i` bits of `k`. -/
def ldRun {α : Type} (add mul : α → α → α) (a b x y : α) (k : Nat) : Nat → α × α × α → α × α × α
  | 0, S => S
  | i + 1, S =>
    let S' := ldDouble add mul a b S
    ldRun add mul a b x y k i (if k.testBit i then ldAdd add mul a x y S' else S')

theorem ldRun_rep {a b x y : F} (hG : (binCurve a b).Nonsingular x y) (k i : Nat) (S : F × F × F)
    (hz : (ldRun (· + ·) (· * ·) a b x y k i S).2.2 ≠ 0)
    (h : S.2.2 ≠ 0 → LdRep a b S ((k >>> i) • Affine.Point.some x y hG)) :
    LdRep a b (ldRun (· + ·) (· * ·) a b x y k i S) (k • Affine.Point.some x y hG) := by
  induction i generalizing S with
  | zero => simpa [ldRun] using h (by simpa [ldRun] using hz)
  | succ i ih =>
    rw [ldRun] at hz ⊢
    apply ih _ hz
    have hk : k >>> i = (k >>> (i + 1)) + (k >>> (i + 1)) + if k.testBit i then 1 else 0 := by
      rw [Nat.shiftRight_succ, Nat.testBit_eq_decide_div_mod_eq, ← Nat.shiftRight_eq_div_pow]
      simp only [decide_eq_true_eq]
      split <;> omega
    cases hb : k.testBit i
    · simp only [hb, Bool.false_eq_true, if_false] at hk ⊢
      intro hz'
      rw [hk, Nat.add_zero, add_nsmul]
      refine ldDouble_rep (h ?_) hz'
      intro h0
      apply hz'
      simp [ldDouble, h0]
    · simp only [hb, if_true] at hk ⊢
      intro hz'
      have hz2 : (ldDouble (· + ·) (· * ·) a b S).2.2 ≠ 0 := by
        intro h0
        apply hz'
        simp only [ldAdd, h0]
        simp
      rw [hk, add_nsmul, one_nsmul, add_nsmul]
      refine ldAdd_rep hG (ldDouble_rep (h ?_) hz2) hz'
      intro h0
      apply hz2
      simp [ldDouble, h0]

/-- A check that `(k + 1) • G = 0`. -/
theorem ldRun_order {a b x y : F} (hG : (binCurve a b).Nonsingular x y) (k : Nat) (hk : k ≠ 0) (S : F × F × F)
    (hS : S = ldRun (· + ·) (· * ·) a b x y k k.log2 (x, y, 1)) (hz : S.2.2 ≠ 0)
    (hx : S.1 = x * S.2.2) (hy : S.2.1 = (x + y) * (S.2.2 * S.2.2)) :
    (k + 1) • Affine.Point.some x y hG = 0 := by
  have hone : k >>> k.log2 = 1 := by
    rw [Nat.shiftRight_eq_div_pow]
    have h1 := Nat.log2_self_le hk
    have h2 := Nat.lt_log2_self (n := k)
    rw [pow_succ] at h2
    exact Nat.div_eq_of_lt_le (by omega) (by omega)
  have hr := ldRun_rep hG k k.log2 (x, y, 1) (by rw [← hS]; exact hz) (by
    intro _
    refine ⟨one_ne_zero, ?_⟩
    rw [hone, one_nsmul]
    simp only [div_one, one_pow, exists_prop, and_true]
    exact hG)
  rw [← hS] at hr
  obtain ⟨_, hn, hrep⟩ := hr
  have ex : S.1 / S.2.2 = x := by rw [hx]; field_simp
  have ey : S.2.1 / S.2.2 ^ 2 = x + y := by rw [hy]; field_simp
  rw [add_nsmul, one_nsmul, hrep]
  rw [Affine.Point.add_of_Y_eq ex (by rw [binCurve_negY]; exact ey)]

/-! ### Transfer of the formulas along a relation -/

section Rel

variable {α β : Type} {R : α → β → Prop} {add mul : α → α → α} {add' mul' : β → β → β}

/-- Componentwise relation of triples. -/
def Rel3 (R : α → β → Prop) (S : α × α × α) (T : β × β × β) : Prop :=
  R S.1 T.1 ∧ R S.2.1 T.2.1 ∧ R S.2.2 T.2.2

theorem ldDouble_rel (hadd : ∀ x y u v, R x u → R y v → R (add x y) (add' u v))
    (hmul : ∀ x y u v, R x u → R y v → R (mul x y) (mul' u v)) {a b : α} {a' b' : β} (ha : R a a') (hb : R b b')
    {S : α × α × α} {T : β × β × β} (h : Rel3 R S T) : Rel3 R (ldDouble add mul a b S) (ldDouble add' mul' a' b' T) := by
  obtain ⟨h1, h2, h3⟩ := h
  refine ⟨?_, ?_, ?_⟩ <;> simp only [ldDouble] <;>
    repeat' first | assumption | apply hadd | apply hmul

theorem ldAdd_rel (hadd : ∀ x y u v, R x u → R y v → R (add x y) (add' u v))
    (hmul : ∀ x y u v, R x u → R y v → R (mul x y) (mul' u v)) {a x y : α} {a' x' y' : β} (ha : R a a')
    (hx : R x x') (hy : R y y')
    {S : α × α × α} {T : β × β × β} (h : Rel3 R S T) : Rel3 R (ldAdd add mul a x y S) (ldAdd add' mul' a' x' y' T) := by
  obtain ⟨h1, h2, h3⟩ := h
  refine ⟨?_, ?_, ?_⟩ <;> simp only [ldAdd] <;>
    repeat' first | assumption | apply hadd | apply hmul

theorem ldRun_rel (hadd : ∀ x y u v, R x u → R y v → R (add x y) (add' u v))
    (hmul : ∀ x y u v, R x u → R y v → R (mul x y) (mul' u v)) {a b x y : α} {a' b' x' y' : β} (ha : R a a')
    (hb : R b b') (hx : R x x') (hy : R y y') (k i : Nat)
    {S : α × α × α} {T : β × β × β} (h : Rel3 R S T) :
    Rel3 R (ldRun add mul a b x y k i S) (ldRun add' mul' a' b' x' y' k i T) := by
  induction i generalizing S T with
  | zero => exact h
  | succ i ih =>
    rw [ldRun, ldRun]
    apply ih
    cases k.testBit i
    · exact ldDouble_rel hadd hmul ha hb h
    · exact ldAdd_rel hadd hmul ha hx hy (ldDouble_rel hadd hmul ha hb h)

end Rel

end Dstu
