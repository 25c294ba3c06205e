import Verif.Lemmas.CurveData2
import Verif.Props.KeyPair

/-! C31 and C41 on the ten built-in curves: which of them have a point that cannot be compressed. -/

namespace Dstu.Props

open Spec WeierstrassCurve

/-- The entry behind a built-in group. -/
theorem named_entry (nids : CurveNids) (i : Fin 10) (g : EcGroup) (hg : group_from_named_curve nids i = some g) :
    ∃ c m ks, (dstu_curves nids)[i.val]? = some c ∧ tableExps[i.val]? = some (m, ks) ∧ EntryCheck c m ks ∧
      g = entryGroup c m := by
  have hlt : i.val < (dstu_curves nids).length := i.isLt
  have hc : (dstu_curves nids)[i.val]? = some (dstu_curves nids)[i.val] := List.getElem?_eq_getElem hlt
  obtain ⟨m, ks, hm, he⟩ := table_check nids i _ hc
  refine ⟨_, m, ks, hc, hm, he, ?_⟩
  rw [group_from_named_curve, hc] at hg
  have := entry_group he
  exact Option.some.inj (hg.symm.trans this)

/-- The built-in groups are DSTU 4145 groups. -/
theorem named_dstu (nids : CurveNids) (i : Fin 10) (g : EcGroup) (hg : group_from_named_curve nids i = some g) :
    DstuCurve g := by
  obtain ⟨c, m, ks, hc, hm, he, rfl⟩ := named_entry nids i g hg
  obtain ⟨m', ks', hm', hn⟩ := table_numbers nids i c hc
  rw [hm] at hm'
  cases hm'
  have hd : fieldDegree (entryGroup c m).p = m := by
    change fieldDegree (arr2poly c.poly) = m
    rw [he.poly]; exact he.log2
  refine ⟨⟨entry_valid he⟩, by rw [hd]; exact hn.odd, by rw [hd]; exact lt_trans he.small (by decide), ?_, ?_, hn.n_odd,
    ⟨?_, ?_⟩, rfl⟩
  · change weight (arr2poly c.poly) = 3 ∨ weight (arr2poly c.poly) = 5
    rw [he.poly]; exact he.weight
  · change aOf c.data = 0 ∨ aOf c.data = 1
    unfold aOf
    split <;> simp
  · have := he.n_gt
    change (0 : Int) < ((fieldAt c.data m 1 : Nat) : Int)
    omega
  · change numBits ((fieldAt c.data m 1 : Nat) : Int).toNat ≤ _
    rw [Int.toNat_natCast]
    exact hn.n_bits

/-- On eight of the built-in curves no point of odd order has abscissa 1. -/
theorem named_no_exception (nids : CurveNids) (i : Fin 10) (h0 : i ≠ 0) (h8 : i ≠ 8) (g : EcGroup) [hgood : GoodGroup g]
    (hg : group_from_named_curve nids i = some g) (x y : GF g.p) (hxy : g.curve.Nonsingular x y)
    (hP : g.n • (Affine.Point.some x y hxy : g.Point) = 0) : x ≠ 1 := by
  have hD := named_dstu nids i g hg
  obtain ⟨c, m, ks, hc, hm, he, hge⟩ := named_entry nids i g hg
  obtain ⟨m', ks', hm', hn⟩ := table_no_exception nids i (fun h => h0 (Fin.ext h)) (fun h => h8 (Fin.ext h)) c hc
  rw [hm] at hm'
  cases hm'
  rintro rfl
  have hone : trace (1 : GF g.p) = 1 := trSum_one_odd _ hD.odd
  have hdouble : ((g.n + 1) / 2) • (Affine.Point.some 1 y hxy : g.Point) +
      ((g.n + 1) / 2) • (Affine.Point.some 1 y hxy : g.Point) = Affine.Point.some 1 y hxy := by
    have := hD.n_odd
    rw [← add_nsmul, show (g.n + 1) / 2 + (g.n + 1) / 2 = g.n + 1 by omega, add_nsmul, hP, zero_add, one_nsmul]
  have htr : trace (1 : GF g.p) = trace (GF.ofNat g.p g.a) :=
    trace_double (fieldDegree g.p) (GF.frobenius g.p) _ 1 y hxy hdouble
  have hon : OnCurve (GF.ofNat g.p g.a) (GF.ofNat g.p g.b) 1 y := (binCurve_equation _ _ _ y).mp hxy.1
  have ha : g.a = aOf c.data := by rw [hge]; rfl
  have hb : g.b = fieldAt c.data m 0 := by rw [hge]; rfl
  have hq : g.p = bitsOf (m :: ks) := by rw [hge]; exact he.poly
  rcases hn with h | ⟨h, w, hw⟩
  · rw [ha, h, GF.ofNat_zero] at htr
    have hz : trace (0 : GF g.p) = 0 := trSum_zero _
    rw [hone, hz] at htr
    exact one_ne_zero htr
  · have hw := traceOneCheck_sound m ks he.prime.pos he.small he.exps he.b_lt hw g.p hq
    rw [ha, h, GF.ofNat_one, hb, ← hw] at hon
    have t : (2 : GF g.p) = 0 := CharTwo.two_eq_zero
    have hone' : (1 : GF g.p) = (y + GF.ofNat g.p w) ^ 2 + (y + GF.ofNat g.p w) := by
      unfold OnCurve at hon
      linear_combination (-1 : GF g.p) * hon + (1 - (y * GF.ofNat g.p w + GF.ofNat g.p w ^ 2 + GF.ofNat g.p w) - 2) * t
    have : trace (1 : GF g.p) = 0 := by
      rw [hone']
      exact trSum_sq_add _ (GF.frobenius g.p) _
    rw [hone] at this
    exact one_ne_zero this

/-- C31 on the built-in curves other than those of degrees 163 and 367, with no exception: every finite
point of the subgroup is compressed into exactly the field size and expands to itself. -/
theorem C31_builtin (sq : QuadSolver) (nids : CurveNids) (i : Fin 10) (h0 : i ≠ 0) (h8 : i ≠ 8) (g : EcGroup) [GoodGroup g]
    (hg : group_from_named_curve nids i = some g) (P : g.Point) (hP0 : P ≠ 0) (hP : g.n • P = 0) (L : Nat)
    (hL : g.fieldSize ≤ L) :
    ∃ c, dstu_point_compress g (affine P) L = (true, some c) ∧ c.length = g.fieldSize ∧
      dstu_point_expand sq c g = affine P := by
  have hD := named_dstu nids i g hg
  cases P with
  | zero => exact absurd rfl hP0
  | some x y hxy =>
    exact C31_round_trip_partial sq hD.odd hD.a01 hD.n_odd x y hxy hP
      (fun h => named_no_exception nids i h0 h8 g hg x y hxy hP h.1) L hL

/-- C31 fails on the other two, of degrees 163 and 367: each has a finite point of the subgroup that cannot
be compressed into any buffer. -/
theorem C31_builtin_refuted (nids : CurveNids) (i : Fin 10) (hi : i = 0 ∨ i = 8) (g : EcGroup) [hgood : GoodGroup g]
    (hg : group_from_named_curve nids i = some g) :
    ∃ P : g.Point, P ≠ 0 ∧ g.n • P = 0 ∧ ∀ L, (dstu_point_compress g (affine P) L).1 = false := by
  obtain ⟨c, m, ks, hc, hm, he, hge⟩ := named_entry nids i g hg
  obtain ⟨m', ks', hm', y, w, hy1, hy2⟩ := table_exception nids i (by rcases hi with rfl | rfl <;> simp) c hc
  rw [hm] at hm'
  cases hm'
  have hp := goodGroup_p g
  have ha : g.a = aOf c.data := by rw [hge]; rfl
  have hb : g.b = fieldAt c.data m 0 := by rw [hge]; rfl
  have hq : g.p = bitsOf (m :: ks) := by rw [hge]; exact he.poly
  have hn : g.n = fieldAt c.data m 1 := by rw [hge]; rfl
  have hfd : fieldDegree g.p = m := by rw [hq]; exact he.log2
  have ha' : aOf c.data < 2 ^ m := by rw [← ha, ← hfd]; exact hgood.valid.a_lt
  have h1 : 1 < 2 ^ m := Nat.one_lt_two_pow he.prime.pos.ne'
  obtain ⟨hy, hw⟩ := traceZeroCheck_sound m ks he.prime.pos he.small he.exps hy2 g.p hq
  have hon : OnCurve (GF.ofNat g.p g.a) (GF.ofNat g.p g.b) (GF.ofNat g.p 1) (GF.ofNat g.p y) := by
    rw [ha, hb, hq]
    exact curveCheck_onCurve m ks he.prime.pos he.small he.exps ha' he.b_lt h1 hy hy1
  have hns := binCurve_nonsingular (goodGroup_b g) hon
  refine ⟨Affine.Point.some _ _ hns, Affine.Point.some_ne_zero _, ?_, fun L => ?_⟩
  · have key : ∀ q a b n, q = bitsOf (m :: ks) → a = aOf c.data → b = fieldAt c.data m 0 → n = fieldAt c.data m 1 →
        ∀ [Fact (Irreducible (bitPoly q))]
        (hG : (binCurve (GF.ofNat q a) (GF.ofNat q b)).Nonsingular (GF.ofNat q 1) (GF.ofNat q y)),
        n • Affine.Point.some _ _ hG = 0 := by
      rintro q a b n rfl rfl rfl rfl _ hG
      exact curveCheck_order m ks he.prime.pos he.small he.exps ha' he.b_lt h1 hy he.n_gt hy1 hG
    exact key g.p g.a g.b g.n hq ha hb hn hns
  · rw [affine, GF.toNat_ofNat g.p (by omega) 1 (by rw [hfd]; exact h1), GF.toNat_ofNat g.p (by omega) y (by rw [hfd]; exact hy)]
    by_cases hL : g.fieldSize ≤ L
    · rw [compress_spec g 1 y L hL (by rw [hfd]; exact h1) (by decide)]
      have : compressedNum (p := g.p) 1 y = 0 := by
        unfold compressedNum
        rw [GF.ofNat_one, inv_one, mul_one, if_pos (by rw [← hw]; exact trSum_sq_add _ (GF.frobenius g.p) _)]
        rfl
      rw [this]
      rfl
    · unfold dstu_point_compress
      rw [if_pos (by omega)]

example : ∃ g, ∃ _ : GoodGroup g, group_from_named_curve nidsEx 0 = some g ∧ ∃ P : g.Point, P ≠ 0 ∧ g.n • P = 0 ∧ ∀ L, (dstu_point_compress g (affine P) L).1 = false := by
  obtain ⟨c, g, _, hg, hv, _, _⟩ := C33_curve_table_sound nidsEx 0
  haveI hgood : GoodGroup g := ⟨hv⟩
  exact ⟨g, hgood, hg, C31_builtin_refuted nidsEx 0 (Or.inl rfl) g hg⟩

/-- C41 on the built-in curves other than those of degrees 163 and 367, with no exception: every key whose
public key is a finite point of the subgroup is encoded, and decoding gives the same curve, effective
S-box and point. -/
theorem C41_builtin (env : Env) (i : Fin 10) (h0 : i ≠ 0) (h8 : i ≠ 8) (g : EcGroup) [GoodGroup g]
    (hg : group_from_named_curve env.nids i = some g) (t : KeyType) (key : DstuKey) (hkey : key.group = some g)
    (P : g.Point) (hpub : key.pub = some (affine P)) (hP0 : P ≠ 0) (hP : g.n • P = 0) (old : EvpPkey) :
    ∃ enc s, dstu_asn1_pub_encode env ⟨t, some key⟩ = some enc ∧ enc.alg = some t ∧
      dstu_asn1_pub_decode env old enc = (true, ⟨t, some ⟨some g, s, none, some (affine P)⟩⟩) ∧
      effectiveSbox s = effectiveSbox key.sbox := by
  cases P with
  | zero => exact absurd rfl hP0
  | some x y hxy =>
    exact C41_public_round_trip_partial env g (named_dstu env.nids i g hg) (Or.inl ⟨i, hg⟩) t key hkey x y hxy hpub hP
      (fun h => named_no_exception env.nids i h0 h8 g hg x y hxy hP h.1) old

/-- A public key on the default curve. -/
example (env : Env) (old : EvpPkey) : ∃ g, ∃ _ : GoodGroup g, group_from_named_curve env.nids 6 = some g ∧
    ∃ enc s, dstu_asn1_pub_encode env ⟨.le, some ⟨some g, none, none, some (affine g.gen)⟩⟩ = some enc ∧
      dstu_asn1_pub_decode env old enc = (true, ⟨.le, some ⟨some g, s, none, some (affine g.gen)⟩⟩) := by
  obtain ⟨c, g, _, hg, hv, _, _⟩ := C33_curve_table_sound env.nids 6
  haveI hgood : GoodGroup g := ⟨hv⟩
  obtain ⟨enc, s, h1, _, h2, _⟩ := C41_builtin env 6 (by decide) (by decide) g hg .le ⟨some g, none, none, some (affine g.gen)⟩ rfl g.gen rfl
    (Affine.Point.some_ne_zero _) (hv.order _) old
  exact ⟨g, hgood, hg, enc, s, h1, h2⟩

/-- C41 fails on the other two: each has a finite point of the subgroup such that no key with this public
key can be encoded. -/
theorem C41_builtin_refuted (env : Env) (i : Fin 10) (hi : i = 0 ∨ i = 8) (g : EcGroup) [GoodGroup g]
    (hg : group_from_named_curve env.nids i = some g) :
    ∃ P : g.Point, P ≠ 0 ∧ g.n • P = 0 ∧ ∀ t key, key.group = some g → key.pub = some (affine P) →
      dstu_asn1_pub_encode env ⟨t, some key⟩ = none := by
  obtain ⟨P, hP0, hP, hc⟩ := C31_builtin_refuted env.nids i hi g hg
  refine ⟨P, hP0, hP, fun t key hkey hpub => ?_⟩
  unfold dstu_asn1_pub_encode
  cases dstu_asn1_param_encode env ⟨t, some key⟩ with
  | none => rfl
  | some params =>
    simp only [hkey, hpub]
    rcases hcc : dstu_point_compress g (affine P) ((g.degree + 7) / 8) with ⟨r, w⟩
    have := hc ((g.degree + 7) / 8)
    rw [hcc] at this
    simp only at this
    subst this
    rfl

example (env : Env) : ∃ g, ∃ _ : GoodGroup g, ∃ P : g.Point, P ≠ 0 ∧ g.n • P = 0 ∧
    dstu_asn1_pub_encode env ⟨.be, some ⟨some g, none, none, some (affine P)⟩⟩ = none := by
  obtain ⟨c, g, _, hg, hv, _, _⟩ := C33_curve_table_sound env.nids 8
  haveI hgood : GoodGroup g := ⟨hv⟩
  obtain ⟨P, h1, h2, h3⟩ := C41_builtin_refuted env 8 (Or.inr rfl) g hg
  exact ⟨g, hgood, P, h1, h2, h3 _ _ rfl rfl⟩

/-- The hypotheses are met: every multiple of the base point of the built-in curve of degree 257 that is not
at infinity. -/
example (sq : QuadSolver) : ∃ g, ∃ _ : GoodGroup g, group_from_named_curve nidsEx 6 = some g ∧ g.gen ≠ 0 ∧
    ∀ k : Nat, k • g.gen ≠ 0 → ∃ c, dstu_point_compress g (affine (k • g.gen)) g.fieldSize = (true, some c) ∧
      c.length = g.fieldSize ∧ dstu_point_expand sq c g = affine (k • g.gen) := by
  obtain ⟨c, g, _, hg, hv, _, _⟩ := C33_curve_table_sound nidsEx 6
  haveI hgood : GoodGroup g := ⟨hv⟩
  refine ⟨g, hgood, hg, Affine.Point.some_ne_zero _, fun k hk => ?_⟩
  refine C31_builtin sq nidsEx 6 (by decide) (by decide) g hg _ hk ?_ _ (le_refl _)
  rw [← mul_nsmul, mul_comm, mul_nsmul]
  have : g.n • g.gen = 0 := hv.order _
  rw [this, nsmul_zero]

end Dstu.Props
