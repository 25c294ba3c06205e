import Verif.Spec.PointForm
import Verif.Props.Subgroup

/-! C32 and C31, exactly: which strings stand for which points. -/

namespace Dstu.Props

open Spec WeierstrassCurve

variable {g : EcGroup} [hg : GoodGroup g]

theorem beValue_injective {l m : List Byte} (hl : l.length = m.length) (h : beValue l = beValue m) : l = m := by
  have := leValue_injective (l := l.reverse) (m := m.reverse) (by simpa using hl) h
  exact List.reverse_injective this

theorem bytesBE_beValue (c : List Byte) : bytesBE c.length (beValue c) = c := by
  refine beValue_injective (bytesBE_length _ _) ?_
  rw [beValue_bytesBE]
  refine Nat.mod_eq_of_lt ?_
  have := leValue_lt c.reverse
  rwa [List.length_reverse] at this

omit hg in
theorem ratio_unique [Fact (Irreducible (bitPoly g.p))] (x y : Nat) (hx : x < 2 ^ fieldDegree g.p) (hx0 : x ≠ 0) (z : GF g.p) (h : z * GF.ofNat g.p x = GF.ofNat g.p y) :
    z = GF.ofNat g.p y * (GF.ofNat g.p x)⁻¹ := by
  have hX : GF.ofNat g.p x ≠ 0 := fun h => hx0 ((ofNat_eq_zero g.p hx).mp h)
  rw [← h, mul_assoc, mul_inv_cancel₀ hX, mul_one]

omit hg in
theorem stands_num [Fact (Irreducible (bitPoly g.p))] {x y v : Nat} (hv : v ≠ 0) (h : StandsFor g.p g.a g.b v x y) : v = compressedNum (p := g.p) x y := by
  obtain ⟨hx, _, _, h⟩ := h
  rw [if_neg hv] at h
  obtain ⟨z, hx0, h2, _, hz, ht⟩ := h
  rw [ratio_unique x y hx hx0 z hz] at ht
  unfold compressedNum
  by_cases hb : v % 2 = 1
  · rw [if_pos hb] at ht
    rw [if_neg (by rw [ht]; exact one_ne_zero)]
    unfold setBit0
    omega
  · rw [if_neg hb] at ht
    rw [if_pos ht]
    unfold clearBit0
    omega

omit hg in
/-- C32, exactly: over every field of odd degree and with `a` 0 or 1, whatever `b`, order and generator are, a byte string is expanded to a point if and only if it is not shorter than the field
size and its value stands for this point. -/
theorem C32_expand_iff [Fact (Irreducible (bitPoly g.p))] (sq : QuadSolver) (hodd : fieldDegree g.p % 2 = 1) (ha : g.a = 0 ∨ g.a = 1) (c : List Byte) (x y : Nat) :
    dstu_point_expand sq c g = some (x, y) ↔ (fieldDegree g.p + 7) / 8 ≤ c.length ∧ StandsFor g.p g.a g.b (beValue c) x y := by
  have hp := pgt g.p
  have hone : trace (1 : GF g.p) = 1 := trSum_one_odd _ hodd
  constructor
  · intro h
    obtain ⟨h1, hlt, hx, hy, hon⟩ := expand_sound g hp sq c x y h
    have htr := expand_trace sq hodd ha c x y h
    refine ⟨h1, hx, hy, hon, ?_⟩
    rw [← bin2bn_eq]
    have hset : ∀ u v, set_affine g.p g.a g.b u v = some (x, y) → u = x ∧ v = y := by
      intro u v huv
      unfold set_affine at huv
      split at huv
      · simp only [Option.some.injEq, Prod.mk.injEq] at huv
        exact huv
      · cases huv
    unfold dstu_point_expand expandWith at h
    split at h
    · cases h
    simp only at h
    split at h
    · rename_i h0
      rw [if_pos h0]
      exact (hset _ _ h).1.symm.trans h0
    rename_i h0
    rw [if_neg h0]
    split at h
    · cases h
    split at h
    · cases h
    rename_i i hi
    split at h
    · cases h
    rename_i z hz
    obtain ⟨e1, e2⟩ := hset _ _ h
    have hx2 : bin2bn c / 2 = x / 2 := by
      rw [← e1]
      unfold setBit0 clearBit0
      split <;> omega
    have hx0 : x ≠ 0 := by
      intro hx0
      rw [e1, hx0] at hi
      have hz0 : GF.ofNat g.p (gf2m_sqr g.p 0) = 0 := by
        rw [gf2m_sqr, GF.ofNat_toNat g.p (by omega), GF.ofNat_zero, mul_zero]
      unfold gf2m_inv at hi
      simp [hz0] at hi
    rw [e1] at e2
    have hz2 := (sq.sound _ _ _ hz).2
    refine ⟨GF.ofNat g.p (if (bin2bn c % 2 ≠ 0 ∧ bn_trace z g.p = 0) ∨ (bin2bn c % 2 = 0 ∧ bn_trace z g.p ≠ 0) then z ^^^ 1 else z), hx0, hx2, htr.resolve_left hx0, ?_, ?_⟩
    · rw [← e2, gf2m_mul, GF.ofNat_toNat g.p (by omega)]
    · have hxor : trace (GF.ofNat g.p (z ^^^ 1)) = trace (GF.ofNat g.p z) + 1 := by
        rw [GF.ofNat_xor, GF.ofNat_one]
        refine (trSum_add _ _ _).trans ?_
        change trace _ + trace 1 = _
        rw [hone]
      rcases bn_trace_eq g.p z hz2 with ⟨ht, ht'⟩ | ⟨ht, ht'⟩ <;> rcases Nat.mod_two_eq_zero_or_one (bin2bn c) with hk | hk <;>
        simp only [ht, hk, ne_eq, not_true_eq_false, not_false_eq_true, true_and, false_and, or_self, or_false, false_or, one_ne_zero, zero_ne_one, if_true, if_false, reduceIte, hxor, ht',
          zero_add, CharTwo.add_self_eq_zero]
  · rintro ⟨hl, hs⟩
    obtain ⟨hx, hy, hon, hv⟩ := id hs
    by_cases h0 : beValue c = 0
    · rw [if_pos h0] at hv
      subst hv
      rw [GF.ofNat_zero] at hon
      exact expand_zero g sq c y hl hy hon (by rw [bin2bn_eq, h0])
    · have hn := stands_num h0 hs
      rw [if_neg h0] at hv
      obtain ⟨z, hx0, _, htr, _⟩ := hv
      exact expand_spec g sq c x y hl hodd ha hx hx0 hy hon htr (by rw [bin2bn_eq]; exact hn) (by rw [bin2bn_eq]; exact h0)

omit hg in
/-- C32: a point has one encoding of each length.  Two strings that are expanded to the same point have the same value. -/
theorem C32_unique [Fact (Irreducible (bitPoly g.p))] (sq : QuadSolver) (hodd : fieldDegree g.p % 2 = 1) (ha : g.a = 0 ∨ g.a = 1) (c c' : List Byte) (xy : Nat × Nat)
    (h : dstu_point_expand sq c g = some xy) (h' : dstu_point_expand sq c' g = some xy) :
    beValue c = beValue c' ∧ (c.length = c'.length → c = c') := by
  obtain ⟨_, h1⟩ := (C32_expand_iff sq hodd ha c xy.1 xy.2).1 h
  obtain ⟨_, h2⟩ := (C32_expand_iff sq hodd ha c' xy.1 xy.2).1 h'
  have key : beValue c = beValue c' := by
    by_cases h0 : beValue c = 0
    · by_cases h0' : beValue c' = 0
      · rw [h0, h0']
      · have e1 := h1.2.2.2
        have e2 := h2.2.2.2
        rw [if_pos h0] at e1
        rw [if_neg h0'] at e2
        obtain ⟨_, hx, _⟩ := e2
        exact absurd e1 hx
    · by_cases h0' : beValue c' = 0
      · have e1 := h1.2.2.2
        have e2 := h2.2.2.2
        rw [if_neg h0] at e1
        rw [if_pos h0'] at e2
        obtain ⟨_, hx, _⟩ := e1
        exact absurd e2 hx
      · rw [stands_num h0 h1, stands_num h0' h2]
  refine ⟨key, fun hl => ?_⟩
  rw [← bytesBE_beValue c, ← bytesBE_beValue c', key, hl]

omit hg in
/-- C31 and C32: a string of the size of the field that is expanded is what compressing the point gives. -/
theorem C32_canonical [Fact (Irreducible (bitPoly g.p))] (sq : QuadSolver) (hodd : fieldDegree g.p % 2 = 1) (ha : g.a = 0 ∨ g.a = 1) (c : List Byte) (xy : Nat × Nat)
    (hl : c.length = g.fieldSize) (h : dstu_point_expand sq c g = some xy) (L : Nat) (hL : g.fieldSize ≤ L) :
    dstu_point_compress g (some xy) L = (true, some c) := by
  obtain ⟨_, hs⟩ := (C32_expand_iff sq hodd ha c xy.1 xy.2).1 h
  by_cases h0 : beValue c = 0
  · have hx := hs.2.2.2
    rw [if_pos h0] at hx
    have hc : c = List.replicate g.fieldSize 0 := beValue_injective (by rw [hl, List.length_replicate]) (by rw [h0, beValue_replicate])
    unfold dstu_point_compress
    rw [if_neg (by omega)]
    obtain ⟨x, y⟩ := xy
    simp only at hx
    subst hx
    simp only [if_true]
    rw [← hc]
  · have hn := stands_num h0 hs
    have hx := hs.2.2.2
    rw [if_neg h0] at hx
    obtain ⟨_, hx0, _⟩ := hx
    obtain ⟨x, y⟩ := xy
    rw [compress_spec g x y L hL hs.1 hx0, ← hn, decide_eq_true h0, ← hl, bytesBE_beValue]

/-- C31, exactly: for every finite point of the curve, in the subgroup or not.  Compressing it and expanding the result gives the point back if and only if its abscissa
is 0, or has the trace of `a` and the point is not the exception. -/
theorem C31_round_trip_iff (sq : QuadSolver) (hodd : fieldDegree g.p % 2 = 1) (ha : g.a = 0 ∨ g.a = 1) (x y : GF g.p) (hxy : g.curve.Nonsingular x y) (L : Nat)
    (hL : g.fieldSize ≤ L) :
    (∃ c, dstu_point_compress g (affine (Affine.Point.some x y hxy : g.Point)) L = (true, some c) ∧
      dstu_point_expand sq c g = affine (Affine.Point.some x y hxy : g.Point)) ↔
    x = 0 ∨ (trace x = trace (GF.ofNat g.p g.a) ∧ ¬ (x = 1 ∧ trace y = 0)) := by
  have hp := goodGroup_p g
  have hx := GF.toNat_lt g.p hp x
  have hy := GF.toNat_lt g.p hp y
  have ex := GF.ofNat_toNat g.p (by omega) x
  have ey := GF.ofNat_toNat g.p (by omega) y
  have hon : OnCurve (GF.ofNat g.p g.a) (GF.ofNat g.p g.b) x y := (binCurve_equation _ _ x y).mp hxy.1
  rw [affine]
  constructor
  · rintro ⟨c, h1, h2⟩
    by_cases hx0 : x = 0
    · exact Or.inl hx0
    have hx0' : GF.toNat x ≠ 0 := fun h => hx0 ((GF.toNat_eq_zero g.p (by omega) x).mp h)
    right
    refine ⟨?_, ?_⟩
    · have := expand_trace sq hodd ha c _ _ h2
      rw [ex] at this
      exact this.resolve_left hx0'
    · rintro ⟨rfl, ht⟩
      rw [compress_spec g _ _ L hL hx hx0'] at h1
      have : compressedNum (p := g.p) (GF.toNat (1 : GF g.p)) (GF.toNat y) = 0 := by
        unfold compressedNum
        rw [ex, ey, inv_one, mul_one, if_pos ht, GF.toNat_one g.p hp]
        rfl
      rw [this] at h1
      cases h1
  · rintro (rfl | ⟨htr, hex⟩)
    · have h0 : GF.toNat (0 : GF g.p) = 0 := (GF.toNat_eq_zero g.p (by omega) _).mpr rfl
      refine ⟨List.replicate g.fieldSize 0, ?_, ?_⟩
      · unfold dstu_point_compress
        rw [if_neg (by omega), h0]
        rfl
      · rw [h0]
        refine expand_zero g sq _ _ (by simp) hy (by rw [ey]; exact hon) ?_
        rw [bin2bn_eq, beValue_replicate]
    · by_cases hx0 : x = 0
      · subst hx0
        have h0 : GF.toNat (0 : GF g.p) = 0 := (GF.toNat_eq_zero g.p (by omega) _).mpr rfl
        refine ⟨List.replicate g.fieldSize 0, ?_, ?_⟩
        · unfold dstu_point_compress
          rw [if_neg (by omega), h0]
          rfl
        · rw [h0]
          refine expand_zero g sq _ _ (by simp) hy (by rw [ey]; exact hon) ?_
          rw [bin2bn_eq, beValue_replicate]
      · have hx0' : GF.toNat x ≠ 0 := fun h => hx0 ((GF.toNat_eq_zero g.p (by omega) x).mp h)
        obtain ⟨hcn, hb⟩ := compressedNum_facts x y hx0 hex
        refine ⟨_, by rw [compress_spec g _ _ L hL hx hx0', decide_eq_true hcn], ?_⟩
        refine expand_spec g sq _ _ _ (by rw [bytesBE_length]) hodd ha hx hx0' hy ?_ ?_ hb (by rw [hb]; exact hcn)
        · rw [ex, ey]; exact hon
        · rw [ex]; exact htr

/-- The hypotheses hold on the built-in curve of degree 163, where a string of 21 bytes is expanded to the generator: its value stands for it, it is the only one of 21 bytes, and it
comes back from compression. -/
example (sq : QuadSolver) : ∃ c, c.length = g163.fieldSize ∧ ∃ x y, dstu_point_expand sq c g163 = some (x, y) ∧ StandsFor g163.p g163.a g163.b (beValue c) x y ∧
    (∀ c', c'.length = c.length → dstu_point_expand sq c' g163 = some (x, y) → c' = c) ∧ dstu_point_compress g163 (some (x, y)) 21 = (true, some c) := by
  obtain ⟨ha, hy, hw, h1, hd, hpoly, hn, haa, hfs, hgx⟩ := numbers163
  have hodd : fieldDegree g163.p % 2 = 1 := by rw [show fieldDegree g163.p = 163 from hd]
  have hp := goodGroup_p g163
  obtain ⟨c, h1, h2, h3⟩ := C31_round_trip_partial (g := g163) sq hodd haa hn _ _
    (binCurve_nonsingular (goodGroup_b g163) instGoodGroup163.valid.onCurve) (instGoodGroup163.valid.order _)
    (by
      rintro ⟨h, _⟩
      have hx := GF.toNat_ofNat g163.p (by omega) g163.gx instGoodGroup163.valid.x_lt
      rw [h, GF.toNat_one g163.p hp] at hx
      exact hgx hx.symm) 21 (by rw [hfs])
  rw [affine] at h3
  exact ⟨c, h2, _, _, h3, ((C32_expand_iff sq hodd haa c _ _).1 h3).2, fun c' hl h => (C32_unique sq hodd haa c' c _ h h3).2 hl, C32_canonical sq hodd haa c _ h2 h3 21 (by rw [hfs])⟩

/-- For the base point both sides of `C31_round_trip_iff` hold. -/
example (sq : QuadSolver) := C31_round_trip_iff (g := g163) sq (by rw [show fieldDegree g163.p = 163 from numbers163.2.2.2.2.1]) numbers163.2.2.2.2.2.2.2.1 _ _
  (binCurve_nonsingular (goodGroup_b g163) instGoodGroup163.valid.onCurve) 21 (by rw [numbers163.2.2.2.2.2.2.2.2.1])

end Dstu.Props
