import Verif.Lemmas.Compress
import Verif.Lemmas.CurveData
import Verif.Props.Curves
import Verif.Model.Ec

/-! Point compression: C31 and C32. -/

namespace Dstu.Props

open Spec WeierstrassCurve

/-! ### C31 -/

/-- The abscissa of twice a point has the trace of the coefficient `a`. -/
theorem trace_double {F : Type} [Field F] [CharP F 2] [DecidableEq F] (m : Nat) (hF : ∀ x : F, x ^ 2 ^ m = x)
    {a b : F} (R : (binCurve a b).Point) (x y : F) (h : (binCurve a b).Nonsingular x y)
    (hR : R + R = Affine.Point.some x y h) : trSum m x = trSum m a := by
  cases R with
  | zero =>
    have : (0 : (binCurve a b).Point) + 0 = Affine.Point.some x y h := hR
    rw [add_zero] at this
    exact absurd this.symm (Affine.Point.some_ne_zero _)
  | some u v huv =>
    by_cases hu : u = 0
    · subst hu
      rw [Affine.Point.add_of_Y_eq rfl (by rw [binCurve_negY, zero_add])] at hR
      exact absurd hR.symm (Affine.Point.some_ne_zero _)
    · obtain ⟨h', he⟩ := binCurve_double huv hu _ _ rfl rfl
      rw [he] at hR
      have hx := (Affine.Point.some.inj hR).1
      have heq := (binCurve_equation a b u v).mp huv.1
      have hl : x = ((u + v / u) ^ 2 + (u + v / u)) + a := by
        rw [← hx]
        unfold OnCurve at heq
        have t : (2 : F) = 0 := CharTwo.two_eq_zero
        field_simp
        linear_combination (-1 : F) * heq + (-u * u * v - u ^ 3 - a * u ^ 2) * t
      rw [hl, trSum_add, trSum_sq_add m hF, zero_add]

variable {g : EcGroup} [hg : GoodGroup g]

/-- The compressed form of a point other than the exception is not zero. -/
theorem compressedNum_facts (x y : GF g.p) (hx0 : x ≠ 0) (hex : ¬ (x = 1 ∧ trace y = 0)) :
    compressedNum (p := g.p) (GF.toNat x) (GF.toNat y) ≠ 0 ∧
      bin2bn (bytesBE g.fieldSize (compressedNum (p := g.p) (GF.toNat x) (GF.toNat y))) = compressedNum (p := g.p) (GF.toNat x) (GF.toNat y) := by
  have hp := goodGroup_p g
  have hx := GF.toNat_lt g.p hp x
  have ex := GF.ofNat_toNat g.p (by omega) x
  have ey := GF.ofNat_toNat g.p (by omega) y
  have hx0' : GF.toNat x ≠ 0 := fun h => hx0 ((GF.toNat_eq_zero g.p (by omega) x).mp h)
  have hcn : compressedNum (p := g.p) (GF.toNat x) (GF.toNat y) ≠ 0 := by
    unfold compressedNum
    rw [ex, ey]
    split
    · rename_i h0
      intro hc
      have h1 : GF.toNat x = 1 := by unfold clearBit0 at hc; omega
      have hx1 : x = 1 := by rw [← ex, h1, GF.ofNat_one]
      rw [hx1, inv_one, mul_one] at h0
      exact hex ⟨hx1, h0⟩
    · unfold setBit0; omega
  have hcl : compressedNum (p := g.p) (GF.toNat x) (GF.toNat y) < 2 ^ fieldDegree g.p := by
    unfold compressedNum
    split
    · exact clearBit0_lt hx
    · exact setBit0_lt (mpos g.p) hx
  have hb : bin2bn (bytesBE g.fieldSize (compressedNum (p := g.p) (GF.toNat x) (GF.toNat y))) =
      compressedNum (p := g.p) (GF.toNat x) (GF.toNat y) := by
    rw [bin2bn_eq, beValue_bytesBE, Nat.mod_eq_of_lt (fits g _ hcl)]
  exact ⟨hcn, hb⟩

/-- What C31 rests on. -/
theorem round_trip_facts (hn : g.n % 2 = 1) (x y : GF g.p) (hxy : g.curve.Nonsingular x y)
    (hP : g.n • (Affine.Point.some x y hxy : g.Point) = 0) (hex : ¬ (x = 1 ∧ trace y = 0)) :
    OnCurve (GF.ofNat g.p g.a) (GF.ofNat g.p g.b) x y ∧ trace x = trace (GF.ofNat g.p g.a) ∧ x ≠ 0 ∧ GF.toNat x ≠ 0 ∧
      compressedNum (p := g.p) (GF.toNat x) (GF.toNat y) ≠ 0 ∧
      bin2bn (bytesBE g.fieldSize (compressedNum (p := g.p) (GF.toNat x) (GF.toNat y))) = compressedNum (p := g.p) (GF.toNat x) (GF.toNat y) := by
  have hp := goodGroup_p g
  have hon : OnCurve (GF.ofNat g.p g.a) (GF.ofNat g.p g.b) x y := (binCurve_equation _ _ x y).mp hxy.1
  have hx := GF.toNat_lt g.p hp x
  have hy := GF.toNat_lt g.p hp y
  have ex := GF.ofNat_toNat g.p (by omega) x
  have ey := GF.ofNat_toNat g.p (by omega) y
  -- the point is twice another
  have hdouble : ((g.n + 1) / 2) • (Affine.Point.some x y hxy : g.Point) +
      ((g.n + 1) / 2) • (Affine.Point.some x y hxy : g.Point) = Affine.Point.some x y hxy := by
    rw [← add_nsmul, show (g.n + 1) / 2 + (g.n + 1) / 2 = g.n + 1 by omega, add_nsmul, hP, zero_add, one_nsmul]
  have htr : trace x = trace (GF.ofNat g.p g.a) :=
    trace_double (fieldDegree g.p) (GF.frobenius g.p) _ x y hxy hdouble
  have hx0 : x ≠ 0 := by
    rintro rfl
    have h2 : (Affine.Point.some 0 y hxy : g.Point) + Affine.Point.some 0 y hxy = 0 :=
      Affine.Point.add_of_Y_eq rfl (by rw [binCurve_negY, zero_add])
    have : (g.n : Nat) • (Affine.Point.some 0 y hxy : g.Point) = Affine.Point.some 0 y hxy := by
      conv_lhs => rw [show g.n = g.n / 2 * 2 + 1 by omega]
      rw [add_nsmul, one_nsmul, mul_comm, mul_nsmul, two_nsmul, h2, nsmul_zero, zero_add]
    rw [hP] at this
    exact absurd this.symm (Affine.Point.some_ne_zero _)
  obtain ⟨hcn, hb⟩ := compressedNum_facts x y hx0 hex
  exact ⟨hon, htr, hx0, fun h => hx0 ((GF.toNat_eq_zero g.p (by omega) x).mp h), hcn, hb⟩

/-- C31, where it holds: on every curve with `a` in {0, 1} over a field of odd degree, for every finite
point `P` of odd order dividing `n`, except for one with abscissa 1 and ordinate of trace 0: compressing
into a large enough buffer succeeds and writes exactly the field size, and expanding what was written
gives the coordinates of `P` back.  Missing: the exceptional point, see `C31_round_trip_refuted`. -/
theorem C31_round_trip_partial (sq : QuadSolver) (hodd : fieldDegree g.p % 2 = 1) (ha : g.a = 0 ∨ g.a = 1)
    (hn : g.n % 2 = 1) (x y : GF g.p) (hxy : g.curve.Nonsingular x y)
    (hP : g.n • (Affine.Point.some x y hxy : g.Point) = 0) (hex : ¬ (x = 1 ∧ trace y = 0))
    (L : Nat) (hL : g.fieldSize ≤ L) :
    ∃ c, dstu_point_compress g (affine (Affine.Point.some x y hxy : g.Point)) L = (true, some c) ∧
      c.length = g.fieldSize ∧
      dstu_point_expand sq c g = affine (Affine.Point.some x y hxy : g.Point) := by
  obtain ⟨hon, htr, _, hx0', hcn, hb⟩ := round_trip_facts hn x y hxy hP hex
  have hp := goodGroup_p g
  have hx := GF.toNat_lt g.p hp x
  have hy := GF.toNat_lt g.p hp y
  have ex := GF.ofNat_toNat g.p (by omega) x
  have ey := GF.ofNat_toNat g.p (by omega) y
  refine ⟨bytesBE g.fieldSize (compressedNum (p := g.p) (GF.toNat x) (GF.toNat y)), ?_, bytesBE_length _ _, ?_⟩
  · rw [affine, compress_spec g _ _ L hL hx hx0', decide_eq_true hcn]
  · rw [affine]
    refine expand_spec g sq _ _ _ (by rw [bytesBE_length]) hodd ha hx hx0' hy ?_ ?_ hb (by rw [hb]; exact hcn)
    · rw [ex, ey]; exact hon
    · rw [ex]; exact htr

/-! The exceptional point exists on the built-in curve of degree 163. -/

/-- The table entry of the curve of degree 163. -/
def entry163x : NamedCurve := ⟨1149, [163, 7, 6, 3, 0, -1], data163⟩

theorem entry163x_check : EntryCheck entry163x 163 [7, 6, 3, 0] := entry163 1149

/-- Its group. -/
def g163 : EcGroup := entryGroup entry163x 163

instance instGoodGroup163 : GoodGroup g163 := ⟨by
  have := entry_valid entry163x_check
  unfold g163 entryGroup
  simpa only using this⟩

set_option maxRecDepth 20000 in
/-- It is the first built-in group. -/
theorem g163_builtin : group_from_named_curve nidsEx 0 = some g163 := by
  have h0 : (dstu_curves nidsEx)[0]? = some entry163x := rfl
  have he := entry_group entry163x_check
  unfold group_from_named_curve
  rw [h0]
  exact he

/-- The ordinate of the exceptional point, and a number `w` with `w² + w` equal to it. -/
def y163 : Nat := 0x5834c6899dae6cf57bbbf6df203c0e0d50383df36
def w163 : Nat := 0x63c230d3479718731561fb71c2e6f2c7da8541197

set_option maxRecDepth 20000 in
theorem check163 : curveCheck 163 [7, 6, 3, 0] (aOf data163) (fieldAt data163 163 0) (fieldAt data163 163 1) 1 y163 = true := by
  decide +kernel

set_option maxRecDepth 20000 in
theorem square163 : slotMul slotW 163 [7, 6, 3, 0] (slotMask slotW (2 * 163)) (spread slotW 163 w163) (spread slotW 163 w163) ^^^
    spread slotW 163 w163 = spread slotW 163 y163 := by
  decide +kernel

set_option maxRecDepth 20000 in
theorem numbers163 : aOf data163 < 2 ^ 163 ∧ y163 < 2 ^ 163 ∧ w163 < 2 ^ 163 ∧ 1 < 2 ^ 163 ∧ g163.degree = 163 ∧
    g163.p = bitsOf [163, 7, 6, 3, 0] ∧ g163.n % 2 = 1 ∧ (g163.a = 0 ∨ g163.a = 1) ∧ g163.fieldSize = 21 ∧
    g163.gx ≠ 1 := by
  decide +kernel

set_option maxRecDepth 20000 in
/-- The point with abscissa 1. -/
theorem exceptional163 : OnCurve (GF.ofNat g163.p g163.a) (GF.ofNat g163.p g163.b) (GF.ofNat g163.p 1) (GF.ofNat g163.p y163) ∧
    trace (GF.ofNat g163.p y163) = 0 ∧
    ∀ hns : g163.curve.Nonsingular (GF.ofNat g163.p 1) (GF.ofNat g163.p y163),
      g163.n • (Affine.Point.some _ _ hns : g163.Point) = 0 := by
  obtain ⟨ha, hy, hw, h1, hd, hpoly, _, _, hfs, _⟩ := numbers163
  have hc := entry163x_check
  have hb := hc.b_lt
  have hn := hc.n_gt
  have hon := curveCheck_onCurve 163 [7, 6, 3, 0] (by decide) hc.small hc.exps ha hb h1 hy check163
  refine ⟨by rw [hpoly]; exact hon, ?_, ?_⟩
  · have key : ∀ q, q = bitsOf [163, 7, 6, 3, 0] →
        GF.ofNat q w163 * GF.ofNat q w163 + GF.ofNat q w163 = GF.ofNat q y163 := by
      rintro q rfl
      have rm := slotRel_mul 163 [7, 6, 3, 0] (by decide) hc.small hc.exps
      have ra := slotRel_add 163 [7, 6, 3, 0]
      have rw' := slotRel_spread 163 [7, 6, 3, 0] w163 hw
      have ry := slotRel_spread 163 [7, 6, 3, 0] y163 hy
      have r := ra _ _ _ _ (rm _ _ _ _ rw' rw') rw'
      rw [square163] at r
      exact r.2.symm.trans ry.2
    have hsq : GF.ofNat g163.p w163 ^ 2 + GF.ofNat g163.p w163 = GF.ofNat g163.p y163 := by
      rw [sq]
      exact key _ hpoly
    rw [← hsq]
    exact trSum_sq_add _ (GF.frobenius g163.p) _
  · have key : ∀ q, q = bitsOf [163, 7, 6, 3, 0] → ∀ [Fact (Irreducible (bitPoly q))]
        (hG : (binCurve (GF.ofNat q (aOf data163)) (GF.ofNat q (fieldAt data163 163 0))).Nonsingular (GF.ofNat q 1)
          (GF.ofNat q y163)), fieldAt data163 163 1 • Affine.Point.some _ _ hG = 0 := by
      rintro q rfl _ hG
      exact curveCheck_order 163 [7, 6, 3, 0] (by decide) hc.small hc.exps ha hb h1 hy hn check163 hG
    exact key g163.p hpoly

/-- It cannot be compressed. -/
theorem exceptional163_compress (L : Nat) : (dstu_point_compress g163 (some (1, y163)) L).1 = false := by
  obtain ⟨ha, hy, hw, h1, hd, hpoly, _, _, hfs, _⟩ := numbers163
  have hfd : fieldDegree g163.p = 163 := hd
  by_cases hL : g163.fieldSize ≤ L
  · rw [compress_spec g163 1 y163 L hL (by rw [hfd]; exact h1) (by decide)]
    have : compressedNum (p := g163.p) 1 y163 = 0 := by
      unfold compressedNum
      rw [GF.ofNat_one, inv_one, mul_one, if_pos exceptional163.2.1]
      rfl
    rw [this]
    rfl
  · unfold dstu_point_compress
    rw [if_pos (by omega)]

/-- C31 fails: on the built-in curve of degree 163 there is a finite point `P` with `n P = 0` that cannot
be compressed, whatever the size of the buffer. -/
theorem C31_round_trip_refuted : ∃ P : g163.Point, P ≠ 0 ∧ g163.n • P = 0 ∧
    ∀ L, (dstu_point_compress g163 (affine P) L).1 = false := by
  obtain ⟨ha, hy, hw, h1, hd, hpoly, _, _, hfs, _⟩ := numbers163
  have hp := goodGroup_p g163
  have hfd : fieldDegree g163.p = 163 := hd
  obtain ⟨hon, _, hn⟩ := exceptional163
  have hns := binCurve_nonsingular (goodGroup_b g163) hon
  refine ⟨Affine.Point.some _ _ hns, Affine.Point.some_ne_zero _, hn hns, ?_⟩
  intro L
  rw [affine, GF.toNat_ofNat g163.p (by omega) 1 (by rw [hfd]; exact h1),
    GF.toNat_ofNat g163.p (by omega) y163 (by rw [hfd]; exact hy)]
  exact exceptional163_compress L

/-- The hypotheses of `C31_round_trip_partial` are met, e.g. by the base point of the same curve. -/
example (sq : QuadSolver) : ∃ c, dstu_point_compress g163 (affine g163.gen) 21 = (true, some c) ∧
    c.length = 21 ∧ dstu_point_expand sq c g163 = affine g163.gen := by
  obtain ⟨ha, hy, hw, h1, hd, hpoly, hn, haa, hfs, hgx⟩ := numbers163
  have hfd : fieldDegree g163.p = 163 := hd
  have hp := goodGroup_p g163
  have := C31_round_trip_partial (g := g163) sq (by rw [hfd]) haa hn _ _
    (binCurve_nonsingular (goodGroup_b g163) instGoodGroup163.valid.onCurve) (instGoodGroup163.valid.order _)
    (by
      rintro ⟨h, _⟩
      have hx := GF.toNat_ofNat g163.p (by omega) g163.gx instGoodGroup163.valid.x_lt
      rw [h, GF.toNat_one g163.p hp] at hx
      exact hgx hx.symm) 21 (by rw [hfs])
  rw [hfs] at this
  exact this

/-! ### C32 -/

omit hg in
/-- C32.  For every field polynomial of positive degree, every curve and every byte string: if expansion
succeeds then the input is at least of the field size and its value below `2^m`, and the coordinates are
below `2^m` and satisfy the curve equation. -/
theorem C32_expand_sound (sq : QuadSolver) (hp : 1 < g.p) (c : List Byte) (x y : Nat)
    (h : dstu_point_expand sq c g = some (x, y)) :
    OnCurve (GF.ofNat g.p g.a) (GF.ofNat g.p g.b) (GF.ofNat g.p x) (GF.ofNat g.p y) ∧
      x < 2 ^ fieldDegree g.p ∧ y < 2 ^ fieldDegree g.p := by
  obtain ⟨_, _, h3, h4, h5⟩ := expand_sound g hp sq c x y h
  exact ⟨h5, h3, h4⟩

omit hg in
/-- C32, rejection: inputs that are too short or whose value is `2^m` or more are refused. -/
theorem C32_expand_rejects (sq : QuadSolver) (hp : 1 < g.p) (c : List Byte)
    (h : c.length < (fieldDegree g.p + 7) / 8 ∨ 2 ^ fieldDegree g.p ≤ beValue c) :
    dstu_point_expand sq c g = none := by
  cases hc : dstu_point_expand sq c g with
  | none => rfl
  | some xy =>
    obtain ⟨h1, h2, _⟩ := expand_sound g hp sq c xy.1 xy.2 hc
    rw [bin2bn_eq] at h2
    unfold EcGroup.fieldSize EcGroup.degree at h1
    unfold fieldDegree at h h2
    omega

open Classical in
/-- A solver of quadratic equations exists, so the hypotheses about it are consistent. -/
noncomputable def quadSolver : QuadSolver where
  solve p a := if h : ∃ z, GF.ofNat p z ^ 2 + GF.ofNat p z = GF.ofNat p a ∧ z < 2 ^ fieldDegree p then some h.choose else none
  sound p a z h := by
    split at h
    · rename_i hex
      cases h
      exact hex.choose_spec
    · cases h
  complete p a hirr _ := by
    rintro ⟨z, hz⟩
    have hp := irreducible_pos p hirr
    have hex : ∃ z, GF.ofNat p z ^ 2 + GF.ofNat p z = GF.ofNat p a ∧ z < 2 ^ fieldDegree p :=
      ⟨GF.toNat z, by rw [GF.ofNat_toNat p (by omega)]; exact hz, GF.toNat_lt p hp z⟩
    rw [dif_pos hex]
    rfl

/-- The compressed form of the base point of the 163-bit curve is accepted, so that `C32_expand_sound` applies. -/
example (sq : QuadSolver) : ∃ c x y, dstu_point_expand sq c g163 = some (x, y) ∧
    OnCurve (GF.ofNat g163.p g163.a) (GF.ofNat g163.p g163.b) (GF.ofNat g163.p x) (GF.ofNat g163.p y) ∧ x < 2 ^ fieldDegree g163.p ∧ y < 2 ^ fieldDegree g163.p := by
  obtain ⟨ha, hy, hw, h1, hd, hpoly, hn, haa, hfs, hgx⟩ := numbers163
  have hp := goodGroup_p g163
  obtain ⟨c, h1, h2, h3⟩ := C31_round_trip_partial (g := g163) sq (by rw [show fieldDegree g163.p = 163 from hd]) haa hn _ _
    (binCurve_nonsingular (goodGroup_b g163) instGoodGroup163.valid.onCurve) (instGoodGroup163.valid.order _)
    (by
      rintro ⟨h, _⟩
      have hx := GF.toNat_ofNat g163.p (by omega) g163.gx instGoodGroup163.valid.x_lt
      rw [h, GF.toNat_one g163.p hp] at hx
      exact hgx hx.symm) 21 (by rw [hfs])
  rw [affine] at h3
  exact ⟨c, _, _, h3, C32_expand_sound sq hp c _ _ h3⟩

/-- Too few bytes. -/
example (sq : QuadSolver) (c : List Byte) (h : c.length < 21) : dstu_point_expand sq c g163 = none := by
  obtain ⟨_, _, _, _, hd, _, _, _, _, _⟩ := numbers163
  refine C32_expand_rejects sq (goodGroup_p g163) c (Or.inl ?_)
  rw [show fieldDegree g163.p = 163 from hd]
  exact h

end Dstu.Props
