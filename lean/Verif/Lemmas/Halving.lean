import Verif.Lemmas.Curve
import Verif.Lemmas.Trace
import Verif.Lemmas.Torsion
import Verif.Props.Compress
import Mathlib.GroupTheory.Perm.Cycle.Type

/-! Halving points of binary curves, and how many points there are. -/

namespace Dstu

open Spec WeierstrassCurve Props

section
variable {F : Type} [Field F] [CharP F 2]

/-- The half trace solves `z² + z = w` when the trace of `w` is 0. -/
theorem quad_solvable (m : Nat) (hm : m % 2 = 1) (hF : ∀ x : F, x ^ 2 ^ m = x) (w : F) (hw : trSum m w = 0) :
    ∃ z, z ^ 2 + z = w := by
  have hht : ∀ k, (∑ i ∈ Finset.range k, w ^ 2 ^ (2 * i)) ^ 2 + (∑ i ∈ Finset.range k, w ^ 2 ^ (2 * i)) = trSum (2 * k) w := by
    intro k
    induction k with
    | zero => simp [trSum]
    | succ k ih =>
      rw [Finset.sum_range_succ, CharTwo.add_sq]
      rw [show 2 * (k + 1) = 2 * k + 1 + 1 by omega]
      unfold trSum at ih ⊢
      rw [Finset.sum_range_succ, Finset.sum_range_succ, ← ih, ← pow_mul, ← pow_succ]
      ring
  refine ⟨∑ i ∈ Finset.range ((m + 1) / 2), w ^ 2 ^ (2 * i), ?_⟩
  rw [hht, show 2 * ((m + 1) / 2) = m + 1 by omega]
  unfold trSum at hw ⊢
  rw [Finset.sum_range_succ, hw, zero_add, hF]

variable [DecidableEq F]

/-- A point whose abscissa has the trace of the coefficient `a` is twice a point. -/
theorem halvable (m : Nat) (hm : m % 2 = 1) (hF : ∀ x : F, x ^ 2 ^ m = x) {a b : F} (hb : b ≠ 0) (x y : F)
    (h : (binCurve a b).Nonsingular x y) (ht : trSum m x = trSum m a) :
    ∃ R : (binCurve a b).Point, R + R = Affine.Point.some x y h := by
  have t : (2 : F) = 0 := CharTwo.two_eq_zero
  obtain ⟨l, hl⟩ := quad_solvable m hm hF (x + a) (by rw [trSum_add, ht]; exact CharTwo.add_self_eq_zero _)
  have heq := (binCurve_equation a b x y).mp h.1
  unfold OnCurve at heq
  obtain ⟨u, hu⟩ : ∃ u : F, u ^ 2 = y + (l + 1) * x := by
    refine ⟨(y + (l + 1) * x) ^ 2 ^ (m - 1), ?_⟩
    rw [← pow_mul, ← pow_succ, show m - 1 + 1 = m by omega, hF]
  have hub : u ^ 4 + u ^ 2 * x = b := by
    linear_combination (u ^ 2 + y + (l + 1) * x + x) * hu + heq + x ^ 2 * hl + (x ^ 3 + a * x ^ 2 + y * (l + 1) * x + x ^ 2 * l + x ^ 2) * t
  have hu0 : u ≠ 0 := by
    rintro rfl
    apply hb
    rw [← hub]; ring
  have hon : OnCurve a b u (u * (u + l)) := by
    unfold OnCurve
    linear_combination hub + u ^ 2 * hl + (u ^ 3 * l) * t
  have hns := binCurve_nonsingular hb hon
  refine ⟨Affine.Point.some _ _ hns, ?_⟩
  have hdiv : u * (u + l) / u = u + l := by field_simp
  obtain ⟨h', he⟩ := binCurve_double hns hu0 x y (by
      have : b / u ^ 2 = u ^ 2 + x := by
        rw [← hub]; field_simp
      rw [this]
      linear_combination (-u ^ 2) * t) (by
      rw [hdiv]
      linear_combination (-1 : F) * hu + (-u * x - (l + 1) * x) * t)
  exact he

/-- The point of order 2. -/
theorem two_torsion (a b : F) (P : (binCurve a b).Point) (hP : P + P = 0) (h0 : P ≠ 0) :
    ∃ y h, P = Affine.Point.some 0 y h ∧ y ^ 2 = b := by
  cases P with
  | zero => exact absurd rfl h0
  | some x y h =>
    by_cases hx : x = 0
    · subst hx
      refine ⟨y, h, rfl, ?_⟩
      have heq := (binCurve_equation a b 0 y).mp h.1
      unfold OnCurve at heq
      linear_combination heq
    · obtain ⟨h', he⟩ := binCurve_double h hx _ _ rfl rfl
      rw [he] at hP
      exact absurd hP (Affine.Point.some_ne_zero _)

/-- There is only one. -/
theorem two_torsion_unique (a b : F) (P Q : (binCurve a b).Point) (hP : P + P = 0) (h0 : P ≠ 0) (hQ : Q + Q = 0) (h0' : Q ≠ 0) :
    P = Q := by
  obtain ⟨y, h, rfl, hy⟩ := two_torsion a b P hP h0
  obtain ⟨z, h', rfl, hz⟩ := two_torsion a b Q hQ h0'
  have : y = z := by
    have t : (2 : F) = 0 := CharTwo.two_eq_zero
    have h2 : (y - z) ^ 2 = 0 := by linear_combination hy - hz + (z ^ 2 - y * z) * t
    exact sub_eq_zero.mp (pow_eq_zero_iff (by norm_num) |>.mp h2)
  subst this
  rfl

omit [CharP F 2] in
/-- There are at most two points for each abscissa. -/
theorem points_le (a b : F) [Finite F] : Finite (binCurve a b).Point ∧ Nat.card (binCurve a b).Point ≤ 2 * Nat.card F + 1 := by
  classical
  let f : (binCurve a b).Point → Option (F × Bool) := fun P =>
    match P with
    | .zero => none
    | .some x y _ => some (x, decide (∃ h : ∃ y, (binCurve a b).Nonsingular x y, y = h.choose))
  have hf : Function.Injective f := by
    intro P Q he
    cases P with
    | zero =>
      cases Q with
      | zero => rfl
      | some x y h => cases he
    | some x y h =>
      cases Q with
      | zero => cases he
      | some u v h' =>
        simp only [f, Option.some.injEq, Prod.mk.injEq, decide_eq_decide] at he
        obtain ⟨rfl, he⟩ := he
        have hex : ∃ y, (binCurve a b).Nonsingular x y := ⟨y, h⟩
        have hyv : y = v := by
          by_cases hy : y = hex.choose
          · obtain ⟨_, hv⟩ := he.mp ⟨hex, hy⟩
            exact hy.trans hv.symm
          · have hv : v ≠ hex.choose := fun hv => hy (he.mpr ⟨hex, hv⟩).choose_spec
            have h1 := (Affine.Y_eq_of_X_eq h.1 hex.choose_spec.1 rfl).resolve_left hy
            have h2 := (Affine.Y_eq_of_X_eq h'.1 hex.choose_spec.1 rfl).resolve_left hv
            rw [h1, h2]
        subst hyv
        rfl
  have hfin : Finite (binCurve a b).Point := Finite.of_injective f hf
  refine ⟨hfin, ?_⟩
  have := Nat.card_le_card_of_injective f hf
  have h2 : Nat.card (Option (F × Bool)) = 2 * Nat.card F + 1 := by
    rw [Finite.card_option, Nat.card_prod, Nat.card_eq_fintype_card (α := Bool), Fintype.card_bool, mul_comm]
  omega

/-- The doubles. -/
def doubles (a b : F) : AddSubgroup (binCurve a b).Point := (nsmulAddMonoidHom 2).range

theorem mem_doubles (a b : F) (P : (binCurve a b).Point) : P ∈ doubles a b ↔ ∃ R, R + R = P := by
  simp only [doubles, AddMonoidHom.mem_range, nsmulAddMonoidHom_apply, two_nsmul]

/-- If the curve has a point of order 2, at most half the points are doubles. -/
theorem doubles_le (a b : F) [Finite F] (T : (binCurve a b).Point) (hT : T + T = 0) (h0 : T ≠ 0) :
    Nat.card (doubles a b) ≤ Nat.card F := by
  classical
  obtain ⟨hfin, hle⟩ := points_le a b
  have hr : ∀ P : doubles a b, ∃ R, R + R = P.1 := fun P => (mem_doubles a b P.1).mp P.2
  choose r hr using hr
  let f : doubles a b × Bool → (binCurve a b).Point := fun Pb => r Pb.1 + if Pb.2 then T else 0
  have hf : Function.Injective f := by
    rintro ⟨P, c⟩ ⟨Q, d⟩ he
    simp only [f] at he
    have hdbl : ∀ (S : doubles a b) (c : Bool), (r S + if c then T else 0) + (r S + if c then T else 0) = S.1 := by
      intro S c
      rw [add_add_add_comm, hr]
      cases c <;> simp [hT]
    have hPQ : P = Q := Subtype.ext (by rw [← hdbl P c, he, hdbl Q d])
    subst hPQ
    have := add_left_cancel he
    cases c <;> cases d
    · rfl
    · exact absurd (by simpa using this.symm) h0
    · exact absurd (by simpa using this) h0
    · rfl
  have := Nat.card_le_card_of_injective f hf
  rw [Nat.card_prod, Nat.card_eq_fintype_card (α := Bool), Fintype.card_bool] at this
  omega

/-- There are twice as many points as doubles. -/
theorem points_eq (a b : F) [Finite F] (T : (binCurve a b).Point) (hT : T + T = 0) (h0 : T ≠ 0) :
    Nat.card (binCurve a b).Point = 2 * Nat.card (doubles a b) := by
  classical
  obtain ⟨hfin, _⟩ := points_le a b
  have hr : ∀ P : doubles a b, ∃ R, R + R = P.1 := fun P => (mem_doubles a b P.1).mp P.2
  choose r hr using hr
  let dbl : (binCurve a b).Point → doubles a b := fun P => ⟨P + P, (mem_doubles a b _).mpr ⟨P, rfl⟩⟩
  have hcase : ∀ P, P = r (dbl P) ∨ P = r (dbl P) + T := by
    intro P
    have h2 : (P - r (dbl P)) + (P - r (dbl P)) = 0 := by
      have := hr (dbl P)
      simp only [dbl] at this ⊢
      rw [sub_add_sub_comm, this, sub_self]
    by_cases hz : P - r (dbl P) = 0
    · exact Or.inl (sub_eq_zero.mp hz)
    · right
      have := two_torsion_unique a b _ _ h2 hz hT h0
      rw [← this]
      abel
  let f : (binCurve a b).Point → doubles a b × Bool := fun P => (dbl P, decide (P = r (dbl P)))
  let e : doubles a b × Bool → (binCurve a b).Point := fun Pb => r Pb.1 + if Pb.2 then 0 else T
  have hfe : Function.LeftInverse e f := by
    intro P
    simp only [e, f]
    rcases hcase P with h | h
    · rw [← h]; simp
    · have : ¬ P = r (dbl P) := fun h' => h0 (add_eq_left.mp (h.symm.trans h'))
      simp only [this, decide_false, Bool.false_eq_true, if_false]
      exact h.symm
  have hef : Function.RightInverse e f := by
    rintro ⟨P, c⟩
    have hd : dbl (e (P, c)) = P := by
      apply Subtype.ext
      simp only [dbl, e]
      rw [add_add_add_comm, hr]
      cases c <;> simp [hT]
    have : decide (e (P, c) = r (dbl (e (P, c)))) = c := by
      rw [hd]
      cases c <;> simp [e, h0]
    simp only [f]
    rw [this, hd]
  rw [Nat.card_congr ⟨f, e, hfe, hef⟩, Nat.card_prod, Nat.card_eq_fintype_card (α := Bool), Fintype.card_bool, mul_comm]

/-- The order of a point divides the number of doubles if it is odd. -/
theorem odd_dvd_doubles (a b : F) [Finite F] (G : (binCurve a b).Point) (q : Nat) (hq : q.Prime) (h2 : q % 2 = 1) (hG : q • G = 0)
    (h0 : G ≠ 0) : q ∣ Nat.card (doubles a b) := by
  have : Fact q.Prime := ⟨hq⟩
  have hmem : G ∈ doubles a b := by
    rw [mem_doubles]
    refine ⟨((q + 1) / 2) • G, ?_⟩
    rw [← add_nsmul, show (q + 1) / 2 + (q + 1) / 2 = q + 1 by omega, add_nsmul, hG, zero_add, one_nsmul]
  have hord : addOrderOf (⟨G, hmem⟩ : doubles a b) = q := by
    apply addOrderOf_eq_prime
    · exact Subtype.ext hG
    · exact fun h => h0 (congrArg Subtype.val h)
  rw [← hord]
  exact addOrderOf_dvd_natCard _

/-- If the coefficient `a` has trace 1 and the order `q` of some point is prime and more than a third of the number of field elements,
there are `q` doubles. -/
theorem doubles_card_one (m : Nat) (hF : ∀ x : F, x ^ 2 ^ m = x) (a b : F) [Finite F] (ha : trSum m a = 1)
    (T : (binCurve a b).Point) (hT : T + T = 0) (hT0 : T ≠ 0) (G : (binCurve a b).Point) (q : Nat) (hq : q.Prime) (h2 : q % 2 = 1)
    (hG : q • G = 0) (h0 : G ≠ 0) (hsize : Nat.card F < 3 * q) : Nat.card (doubles a b) = q := by
  obtain ⟨hfin, _⟩ := points_le a b
  have hle := doubles_le a b T hT hT0
  obtain ⟨u, hu⟩ := odd_dvd_doubles a b G q hq h2 hG h0
  have hodd : ¬ 2 ∣ Nat.card (doubles a b) := by
    intro hd
    have : Fact (Nat.Prime 2) := ⟨Nat.prime_two⟩
    obtain ⟨D, hD⟩ := exists_prime_addOrderOf_dvd_card' (G := doubles a b) 2 hd
    have hD2 : D.1 + D.1 = 0 := by
      have := addOrderOf_nsmul_eq_zero D
      rw [hD, two_nsmul] at this
      exact congrArg Subtype.val this
    have hD0 : D.1 ≠ 0 := by
      intro h
      have : D = 0 := Subtype.ext h
      rw [this, addOrderOf_zero] at hD
      exact absurd hD (by decide)
    obtain ⟨y, h, he, _⟩ := two_torsion a b D.1 hD2 hD0
    obtain ⟨R, hR⟩ := (mem_doubles a b D.1).mp D.2
    have := trace_double m hF R 0 y h (hR.trans he)
    rw [ha, trSum_zero] at this
    exact zero_ne_one this
  have hu1 : u = 1 := by
    have hlt : q * u < q * 3 := by omega
    have h3 : u < 3 := lt_of_mul_lt_mul_left hlt (by omega)
    have hu2 : ¬ 2 ∣ u := fun h => hodd (by rw [hu]; exact Dvd.dvd.mul_left h q)
    omega
  rw [hu, hu1, mul_one]

theorem doubles_order_one (m : Nat) (hF : ∀ x : F, x ^ 2 ^ m = x) (a b : F) [Finite F] (ha : trSum m a = 1)
    (T : (binCurve a b).Point) (hT : T + T = 0) (hT0 : T ≠ 0) (G : (binCurve a b).Point) (q : Nat) (hq : q.Prime) (h2 : q % 2 = 1)
    (hG : q • G = 0) (h0 : G ≠ 0) (hsize : Nat.card F < 3 * q) (P : (binCurve a b).Point) (hP : P ∈ doubles a b) : q • P = 0 := by
  have := card_nsmul_eq_zero' (x := (⟨P, hP⟩ : doubles a b))
  rw [doubles_card_one m hF a b ha T hT hT0 G q hq h2 hG h0 hsize] at this
  exact congrArg Subtype.val this

/-- If the order `q` of some point is prime and more than a quarter of the number of field elements, and the point of order 2 is a double, there are `2 q`
doubles. -/
theorem doubles_card_zero (a b : F) [Finite F] (T : (binCurve a b).Point) (hT : T + T = 0) (hT0 : T ≠ 0)
    (hTd : T ∈ doubles a b) (G : (binCurve a b).Point) (q : Nat) (hq : q.Prime) (h2 : q % 2 = 1)
    (hG : q • G = 0) (h0 : G ≠ 0) (hsize : Nat.card F < 4 * q) : Nat.card (doubles a b) = q * 2 := by
  obtain ⟨hfin, _⟩ := points_le a b
  have hle := doubles_le a b T hT hT0
  obtain ⟨u, hu⟩ := odd_dvd_doubles a b G q hq h2 hG h0
  have heven : 2 ∣ Nat.card (doubles a b) := by
    have hord : addOrderOf (⟨T, hTd⟩ : doubles a b) = 2 := by
      have : Fact (Nat.Prime 2) := ⟨Nat.prime_two⟩
      apply addOrderOf_eq_prime
      · rw [two_nsmul]; exact Subtype.ext hT
      · exact fun h => hT0 (congrArg Subtype.val h)
    rw [← hord]
    exact addOrderOf_dvd_natCard _
  have hpos : 0 < Nat.card (doubles a b) := Nat.card_pos
  have hu1 : u = 2 := by
    have hlt : q * u < q * 4 := by omega
    have h3 : u < 4 := lt_of_mul_lt_mul_left hlt (by omega)
    have hu2 : 2 ∣ u := by
      rw [hu] at heven
      rcases (Nat.Prime.dvd_mul Nat.prime_two).mp heven with h | h
      · omega
      · exact h
    have : u ≠ 0 := by rintro rfl; omega
    omega
  rw [hu, hu1]

theorem doubles_order_zero (a b : F) [Finite F] (T : (binCurve a b).Point) (hT : T + T = 0) (hT0 : T ≠ 0)
    (hTd : T ∈ doubles a b) (G : (binCurve a b).Point) (q : Nat) (hq : q.Prime) (h2 : q % 2 = 1)
    (hG : q • G = 0) (h0 : G ≠ 0) (hsize : Nat.card F < 4 * q) (P : (binCurve a b).Point) (hP : P ∈ doubles a b) :
    2 • q • P = 0 := by
  have := card_nsmul_eq_zero' (x := (⟨P, hP⟩ : doubles a b))
  rw [doubles_card_zero a b T hT hT0 hTd G q hq h2 hG h0 hsize] at this
  have h3 : (q * 2) • P = 0 := congrArg Subtype.val this
  rw [← mul_nsmul]
  exact h3

end

end Dstu
