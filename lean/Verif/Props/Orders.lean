import Verif.Lemmas.OrderPrime
import Verif.Lemmas.Torsion
import Verif.Props.Builtin

/-! The orders of the built-in base points are prime (C33), and what this means for generated keys (C42). -/

namespace Dstu.Props

open Spec WeierstrassCurve

/-- The order value of a built-in curve is prime. -/
theorem named_prime (nids : CurveNids) (i : Fin 10) (g : EcGroup) (hg : group_from_named_curve nids i = some g) : g.n.Prime := by
  obtain ⟨c, m, ks, hc, hm, he, rfl⟩ := named_entry nids i g hg
  obtain ⟨m', ks', hm', hn⟩ := table_order_prime nids i c hc
  rw [hm] at hm'
  cases hm'
  exact hn

/-- C33, third part: for each of the ten curves the order value is a prime number, and it is the order of the
base point: the smallest positive number that annihilates it. -/
theorem C33_order_prime (nids : CurveNids) (i : Fin 10) (g : EcGroup) [hgood : GoodGroup g]
    (hg : group_from_named_curve nids i = some g) :
    g.n.Prime ∧ g.n • g.gen = 0 ∧ ∀ k, 0 < k → k < g.n → k • g.gen ≠ 0 := by
  have hp := named_prime nids i g hg
  have h0 : g.n • g.gen = 0 := hgood.valid.order _
  refine ⟨hp, h0, fun k hk hkn hz => ?_⟩
  have : Fact g.n.Prime := ⟨hp⟩
  have hord : addOrderOf g.gen = g.n := addOrderOf_eq_prime h0 (Affine.Point.some_ne_zero _)
  have := Nat.le_of_dvd hk (addOrderOf_dvd_of_nsmul_eq_zero hz)
  omega

/-- C33, fourth part: on none of the ten curves can discrete logarithms be moved to an extension of degree up to 32 of
the field, the limit of DSTU 4145: `n` divides none of `2^m - 1`, ..., `2^(32 m) - 1`. -/
theorem C33_no_small_embedding (nids : CurveNids) (i : Fin 10) (g : EcGroup) (hg : group_from_named_curve nids i = some g)
    (k : Nat) (hk : 0 < k) (hk32 : k ≤ 32) : ¬ g.n ∣ (2 ^ fieldDegree g.p) ^ k - 1 := by
  have hp := (named_prime nids i g hg).two_le
  obtain ⟨c, m, ks, hc, hm, he, rfl⟩ := named_entry nids i g hg
  obtain ⟨m', ks', hm', hn⟩ := table_order_mov nids i c hc
  rw [hm] at hm'
  cases hm'
  have hd : fieldDegree (entryGroup c m).p = m := by
    change fieldDegree (arr2poly c.poly) = m
    rw [he.poly]; exact he.log2
  rw [hd]
  intro hdvd
  have h1 := hn ⟨k - 1, by omega⟩
  simp only [Nat.sub_add_cancel hk] at h1
  apply h1
  change _ % (entryGroup c m).n = 1
  generalize (entryGroup c m).n = n at *
  have hpos : 1 ≤ (2 ^ m) ^ k := Nat.one_le_pow _ _ (by positivity)
  obtain ⟨e, he'⟩ := hdvd
  rw [show (2 ^ m) ^ k = n * e + 1 by omega, Nat.mul_add_mod, Nat.mod_eq_of_lt (by omega)]

/-- Every built-in curve meets the hypotheses; for example that of degree 431. -/
example : ∃ g, ∃ _ : GoodGroup g, group_from_named_curve nidsEx 9 = some g ∧ 2 • g.gen ≠ 0 := by
  obtain ⟨c, g, _, hg, hv, _, _⟩ := C33_curve_table_sound nidsEx 9
  have hgood : GoodGroup g := ⟨hv⟩
  refine ⟨g, hgood, hg, ?_⟩
  have hodd := (named_dstu nidsEx 9 g hg).n_odd
  have h2 := (named_prime nidsEx 9 g hg).two_le
  exact (C33_order_prime nidsEx 9 g hg).2.2 2 (by omega) (by omega)

/-- C33, fifth part: the points annihilated by the order value are the multiples of the base point and no others.  So
a point of a built-in curve has a private key exactly if the order value annihilates it. -/
theorem C33_subgroup (nids : CurveNids) (i : Fin 10) (g : EcGroup) [hgood : GoodGroup g]
    (hg : group_from_named_curve nids i = some g) (P : g.Point) : g.n • P = 0 ↔ ∃ d, d < g.n ∧ P = -(d • g.gen) := by
  obtain ⟨hp, h0, _⟩ := C33_order_prime nids i g hg
  constructor
  · intro hP
    obtain ⟨c, m, ks, hc, hm, he, hge⟩ := named_entry nids i g hg
    obtain ⟨m', ks', hm', hn⟩ := table_order_size nids i c hc
    rw [hm] at hm'
    cases hm'
    have hd : fieldDegree g.p = m := by
      rw [hge]
      change fieldDegree (arr2poly c.poly) = m
      rw [he.poly]; exact he.log2
    have hgn : g.n = fieldAt c.data m 1 := by rw [hge]; rfl
    obtain ⟨hfin, hcard⟩ := GF.card g.p
    have := Fintype.ofFinite (GF g.p)
    obtain ⟨k, hk, hkP⟩ := torsion_cyclic g.gen (-P) (Affine.Point.some_ne_zero _) g.n hp h0
      (by rw [neg_nsmul, hP, neg_zero]) (by rw [← Nat.card_eq_fintype_card, hcard, hd, hgn]; exact hn)
    exact ⟨k, hk, by rw [← hkP, neg_neg]⟩
  · rintro ⟨d, _, rfl⟩
    rw [neg_nsmul, neg_eq_zero, ← mul_nsmul, mul_comm, mul_nsmul, h0, nsmul_zero]

/-- C42 on the built-in curves: a generated public key is never the point at infinity, it lies in the subgroup of the
base point, and the private key is determined by it. -/
theorem C42_generated_builtin (nids : CurveNids) (i : Fin 10) (g : EcGroup) [hgood : GoodGroup g]
    (hg : group_from_named_curve nids i = some g) (key k : EcKey g) (draws : List (Option Nat)) (hr : ∀ d, some d ∈ draws → d < g.n)
    (h : dstu_generate_key g key draws = .done k) :
    ∃ d, k.priv = some d ∧ 1 ≤ d ∧ d < g.n ∧ k.pub = some (-(d • g.gen)) ∧ -(d • g.gen) ≠ 0 ∧ g.n • -(d • g.gen) = 0 ∧
      ∀ e, e < g.n → -(e • g.gen) = -(d • g.gen) → e = d := by
  obtain ⟨d, h1, h2, h3, h4⟩ := C42_generated key k draws hr h
  obtain ⟨hp, h0, hmin⟩ := C33_order_prime nids i g hg
  have hord : addOrderOf g.gen = g.n := by
    have : Fact g.n.Prime := ⟨hp⟩
    exact addOrderOf_eq_prime h0 (Affine.Point.some_ne_zero _)
  refine ⟨d, h1, h2, h3, h4, neg_ne_zero.mpr (hmin d (by omega) h3), ?_, fun e he hee => ?_⟩
  · rw [neg_nsmul, neg_eq_zero, ← mul_nsmul, mul_comm, mul_nsmul, h0, nsmul_zero]
  · exact nsmul_injOn_Iio_addOrderOf (by rw [hord]; exact he) (by rw [hord]; exact h3) (neg_injective hee)

example : ∃ g, ∃ _ : GoodGroup g, group_from_named_curve nidsEx 9 = some g ∧ ¬ g.n ∣ (2 ^ fieldDegree g.p) ^ 6 - 1 ∧ (∃ d, d < g.n ∧ g.gen = -(d • g.gen)) ∧
    ∃ k d, dstu_generate_key g ⟨none, none⟩ [some 1] = .done k ∧ k.priv = some d ∧ k.pub = some (-(d • g.gen)) ∧ -(d • g.gen) ≠ 0 := by
  obtain ⟨c, g, _, hg, hv, _, _⟩ := C33_curve_table_sound nidsEx 9
  have hgood : GoodGroup g := ⟨hv⟩
  have h2 := (named_prime nidsEx 9 g hg).two_le
  refine ⟨g, hgood, hg, C33_no_small_embedding nidsEx 9 g hg 6 (by omega) (by omega), (C33_subgroup nidsEx 9 g hg _).mp (C33_order_prime nidsEx 9 g hg).2.1, ?_⟩
  obtain ⟨k, hk, _⟩ := C42_generation_succeeds (g := g) ⟨none, none⟩ 0 1 (by omega) []
  obtain ⟨d, h1, _, _, h4, h5, _⟩ := C42_generated_builtin nidsEx 9 g hg _ k _ (by
    intro d hd
    simp only [List.replicate_zero, List.nil_append, List.mem_singleton, Option.some.injEq] at hd
    omega) hk
  exact ⟨k, d, hk, h1, h4, h5⟩

end Dstu.Props
