import Verif.Model.Compress
import Verif.Lemmas.Trace
import Verif.Lemmas.Bytes
import Verif.Lemmas.CurveTable
import Mathlib.Data.Nat.Bitwise

/-! Lemmas about point compression. -/

namespace Dstu

open Spec

/-- The degree is positive. -/
theorem fieldDegree_pos {p : Nat} (hp : 1 < p) : 0 < fieldDegree p := by
  unfold fieldDegree
  exact (Nat.le_log2 (by omega)).mpr (by omega)

theorem traceLoop_big {p : Nat} (hp : 1 < p) (bn : Nat) (hb : 2 ^ fieldDegree p ≤ bn) (n r : Nat)
    (hr : 2 ^ fieldDegree p ≤ r) : 2 ^ fieldDegree p ≤ traceLoop p bn n r := by
  induction n generalizing r with
  | zero => exact hr
  | succ n ih =>
    apply ih
    by_contra hc
    have h0 : gf2m_sqr p r < 2 ^ fieldDegree p := GF.toNat_lt p hp _
    have := Nat.xor_lt_two_pow h0 (by omega : gf2m_sqr p r ^^^ bn < 2 ^ fieldDegree p)
    rw [← Nat.xor_assoc, Nat.xor_self, Nat.zero_xor] at this
    omega

/-- The trace function refuses numbers that are not reduced. -/
theorem bn_trace_big {p : Nat} (hp : 1 < p) (bn : Nat) (hb : 2 ^ fieldDegree p ≤ bn) : bn_trace bn p = -1 := by
  have hm := fieldDegree_pos hp
  have := traceLoop_big hp bn hb (numBits p - 2) bn hb
  have h2 : 2 ^ 1 ≤ 2 ^ fieldDegree p := Nat.pow_le_pow_right (by omega) hm
  unfold bn_trace
  simp only
  rw [if_neg (by omega), if_neg (by omega)]

section
variable (p : Nat) [hirr : Fact (Irreducible (bitPoly p))]

theorem pgt : 1 < p := irreducible_pos p hirr.out

theorem mpos : 0 < fieldDegree p := fieldDegree_pos (pgt p)

theorem tr_cases (x : GF p)  : trace x = 0 ∨ trace x = 1 := trSum_full_cases _ (GF.frobenius p) x

theorem tr_add (x y : GF p) : trace (x + y) = trace x + trace y := trSum_add _ x y

theorem numBits_two : numBits p - 2 = fieldDegree p - 1 := by
  have := pgt p
  unfold numBits fieldDegree
  rw [if_neg (by omega)]
  omega

theorem sqr_lt (x : Nat) : gf2m_sqr p x < 2 ^ fieldDegree p := GF.toNat_lt p (pgt p) _
theorem mul_lt (x y : Nat) : gf2m_mul p x y < 2 ^ fieldDegree p := GF.toNat_lt p (pgt p) _

theorem ofNat_sqr (x : Nat) : GF.ofNat p (gf2m_sqr p x) = GF.ofNat p x ^ 2 := by
  rw [gf2m_sqr, GF.ofNat_toNat p (by have := pgt p; omega), sq]

theorem ofNat_mul (x y : Nat) : GF.ofNat p (gf2m_mul p x y) = GF.ofNat p x * GF.ofNat p y := by
  rw [gf2m_mul, GF.ofNat_toNat p (by have := pgt p; omega)]

theorem ofNat_inj {x y : Nat} (hx : x < 2 ^ fieldDegree p) (hy : y < 2 ^ fieldDegree p)
    (h : GF.ofNat p x = GF.ofNat p y) : x = y := by
  have := pgt p
  rw [← GF.toNat_ofNat p (by omega) x hx, h, GF.toNat_ofNat p (by omega) y hy]

theorem ofNat_eq_zero {x : Nat} (hx : x < 2 ^ fieldDegree p) : GF.ofNat p x = 0 ↔ x = 0 := by
  constructor
  · intro h
    exact ofNat_inj p hx (by positivity) (h.trans (GF.ofNat_zero p).symm)
  · rintro rfl; exact GF.ofNat_zero p

theorem ofNat_eq_one {x : Nat} (hx : x < 2 ^ fieldDegree p) : GF.ofNat p x = 1 ↔ x = 1 := by
  constructor
  · intro h
    exact ofNat_inj p hx (Nat.one_lt_two_pow (by have := mpos p; omega)) (h.trans (GF.ofNat_one p).symm)
  · rintro rfl; exact GF.ofNat_one p

theorem traceLoop_spec (bn : Nat) (hb : bn < 2 ^ fieldDegree p) (n k r : Nat) (hr : r < 2 ^ fieldDegree p)
    (h : GF.ofNat p r = trSum k (GF.ofNat p bn)) :
    traceLoop p bn n r < 2 ^ fieldDegree p ∧
      GF.ofNat p (traceLoop p bn n r) = trSum (k + n) (GF.ofNat p bn) := by
  induction n generalizing k r with
  | zero => exact ⟨hr, h⟩
  | succ n ih =>
    have := ih (k + 1) (gf2m_sqr p r ^^^ bn) (Nat.xor_lt_two_pow (sqr_lt p r) hb)
      (by rw [GF.ofNat_xor, ofNat_sqr, h, trSum_succ])
    rw [traceLoop]
    rwa [show k + (n + 1) = k + 1 + n by omega]

/-- The trace function on reduced numbers. -/
theorem bn_trace_eq (bn : Nat) (hb : bn < 2 ^ fieldDegree p) :
    (bn_trace bn p = 0 ∧ trace (GF.ofNat p bn) = 0) ∨ (bn_trace bn p = 1 ∧ trace (GF.ofNat p bn) = 1) := by
  have hm := mpos p
  obtain ⟨h1, h2⟩ := traceLoop_spec p bn hb (fieldDegree p - 1) 1 bn hb (by simp [trSum])
  rw [show 1 + (fieldDegree p - 1) = fieldDegree p by omega] at h2
  unfold bn_trace
  rw [numBits_two]
  simp only
  rcases tr_cases p (GF.ofNat p bn) with h | h
  · left
    have : traceLoop p bn (fieldDegree p - 1) bn = 0 := (ofNat_eq_zero p h1).mp (h2.trans h)
    rw [this]
    exact ⟨rfl, h⟩
  · right
    have : traceLoop p bn (fieldDegree p - 1) bn = 1 := (ofNat_eq_one p h1).mp (h2.trans h)
    rw [this]
    exact ⟨rfl, h⟩

theorem gf2m_inv_some (x : Nat) (hx : GF.ofNat p x ≠ 0) :
    ∃ i, gf2m_inv p x = some i ∧ GF.ofNat p i = (GF.ofNat p x)⁻¹ := by
  have hp := pgt p
  have h : ∃ y : GF p, GF.ofNat p x * y = 1 := ⟨_, mul_inv_cancel₀ hx⟩
  refine ⟨_, by rw [gf2m_inv, dif_pos h], ?_⟩
  rw [GF.ofNat_toNat p (by omega)]
  exact eq_inv_of_mul_eq_one_right h.choose_spec

theorem gf2m_inv_none (x : Nat) (hx : GF.ofNat p x = 0) : gf2m_inv p x = none := by
  rw [gf2m_inv, dif_neg]
  rintro ⟨y, hy⟩
  rw [hx, zero_mul] at hy
  exact zero_ne_one hy

end

theorem clearBit0_even (x : Nat) : Even (clearBit0 x) := ⟨x / 2, by unfold clearBit0; omega⟩

theorem setBit0_eq (x : Nat) : setBit0 x = clearBit0 x ^^^ 1 := by
  rw [Nat.xor_one_of_even (clearBit0_even x)]
  rfl

theorem bit0_cases (x : Nat) : x = clearBit0 x ∨ x = clearBit0 x ^^^ 1 := by
  rw [← setBit0_eq]
  unfold clearBit0 setBit0
  omega

theorem clearBit0_idem (x : Nat) : clearBit0 (clearBit0 x) = clearBit0 x := by
  unfold clearBit0; omega

theorem clearBit0_setBit0 (x : Nat) : clearBit0 (setBit0 x) = clearBit0 x := by
  unfold clearBit0 setBit0; omega

theorem clearBit0_lt {x m : Nat} (h : x < 2 ^ m) : clearBit0 x < 2 ^ m := by
  unfold clearBit0; omega

theorem setBit0_lt {x m : Nat} (hm : 0 < m) (h : x < 2 ^ m) : setBit0 x < 2 ^ m := by
  rw [setBit0_eq]
  exact Nat.xor_lt_two_pow (clearBit0_lt h) (Nat.one_lt_two_pow (by omega))

section
variable (g : EcGroup) [hirr : Fact (Irreducible (bitPoly g.p))]

omit hirr in
theorem fits (x : Nat) (hx : x < 2 ^ fieldDegree g.p) : x < 256 ^ g.fieldSize := by
  refine lt_of_lt_of_le hx ?_
  rw [show (256 : Nat) = 2 ^ 8 by norm_num, ← pow_mul]
  apply Nat.pow_le_pow_right (by omega)
  unfold EcGroup.fieldSize EcGroup.degree fieldDegree
  omega

/-- The number that is encoded: the abscissa with bit 0 replaced by the trace of `y / x`. -/
noncomputable def compressedNum {p : Nat} [Fact (Irreducible (bitPoly p))] (x y : Nat) : Nat :=
  if trace (GF.ofNat p y * (GF.ofNat p x)⁻¹) = 0 then clearBit0 x else setBit0 x

theorem compress_spec (x y L : Nat) (hL : g.fieldSize ≤ L) (hx : x < 2 ^ fieldDegree g.p) (hx0 : x ≠ 0) :
    dstu_point_compress g (some (x, y)) L =
      (decide (compressedNum (p := g.p) x y ≠ 0), some (bytesBE g.fieldSize (compressedNum (p := g.p) x y))) := by
  have hX : GF.ofNat g.p x ≠ 0 := fun h => hx0 ((ofNat_eq_zero g.p hx).mp h)
  obtain ⟨i, hi, hi'⟩ := gf2m_inv_some g.p x hX
  have hlt : compressedNum (p := g.p) x y < 2 ^ fieldDegree g.p := by
    unfold compressedNum
    split
    · exact clearBit0_lt hx
    · exact setBit0_lt (mpos g.p) hx
  have henc := bn_encode_fits _ _ (fits g _ hlt)
  have hnum : ∀ n : Nat, (numBytes n ≠ 0) = (n ≠ 0) := by
    intro n
    have := numBytes_pos n
    apply propext
    omega
  unfold dstu_point_compress
  rw [if_neg (by omega)]
  simp only [hx0, if_false, hi]
  have htr := bn_trace_eq g.p (gf2m_mul g.p y i) (mul_lt g.p y i)
  rw [ofNat_mul, hi'] at htr
  unfold compressedNum at henc ⊢
  rcases htr with ⟨h1, h2⟩ | ⟨h1, h2⟩
  · rw [h1]
    rw [if_pos h2] at henc ⊢
    simp only [henc, ne_eq, not_true_eq_false, if_false, show ¬ (0 : Int) = -1 by decide]
    simp only [← ne_eq, hnum]
  · rw [h1]
    have hne : ¬ trace (GF.ofNat g.p y * (GF.ofNat g.p x)⁻¹) = 0 := by rw [h2]; exact one_ne_zero
    rw [if_neg hne] at henc ⊢
    rw [if_neg (show ¬ (1 : Int) = -1 by decide)]
    simp only [henc, ne_eq, one_ne_zero, not_false_eq_true, if_true]
    simp only [← ne_eq, hnum]

/-- Expansion of a number whose abscissa is `x`, with any outcome of the second trace. -/
theorem expand_spec_with (sq : QuadSolver) (second : Nat → Nat → Int) (c : List Byte) (x y y' : Nat) (hlen : g.fieldSize ≤ c.length)
    (hodd : fieldDegree g.p % 2 = 1) (ha : g.a = 0 ∨ g.a = 1)
    (hx : x < 2 ^ fieldDegree g.p) (hx0 : x ≠ 0)
    (hcurve : OnCurve (GF.ofNat g.p g.a) (GF.ofNat g.p g.b) (GF.ofNat g.p x) (GF.ofNat g.p y))
    (htr : trace (GF.ofNat g.p x) = trace (GF.ofNat g.p g.a))
    (hc : bin2bn c = compressedNum (p := g.p) x y) (hc0 : bin2bn c ≠ 0)
    (hy' : y' < 2 ^ fieldDegree g.p) (hcurve' : OnCurve (GF.ofNat g.p g.a) (GF.ofNat g.p g.b) (GF.ofNat g.p x) (GF.ofNat g.p y'))
    (hsel : ∀ w z, sq.solve g.p w = some z →
      GF.ofNat g.p w = (GF.ofNat g.p y * (GF.ofNat g.p x)⁻¹) ^ 2 + GF.ofNat g.p y * (GF.ofNat g.p x)⁻¹ →
      bin2bn c % 2 = (if trace (GF.ofNat g.p y * (GF.ofNat g.p x)⁻¹) = 0 then 0 else 1) →
      ∀ t, t = second z g.p → GF.ofNat g.p (if (bin2bn c % 2 ≠ 0 ∧ t = 0) ∨ (bin2bn c % 2 = 0 ∧ t ≠ 0) then z ^^^ 1 else z) =
        GF.ofNat g.p y' * (GF.ofNat g.p x)⁻¹) :
    expandWith sq second c g = some (x, y') := by
  have hone : trace (1 : GF g.p) = 1 := trSum_one_odd _ hodd
  have hm := mpos g.p
  have hX : GF.ofNat g.p x ≠ 0 := fun h => hx0 ((ofNat_eq_zero g.p hx).mp h)
  obtain ⟨X, hXd⟩ : ∃ X, X = GF.ofNat g.p x := ⟨_, rfl⟩
  obtain ⟨Y, hYd⟩ : ∃ Y, Y = GF.ofNat g.p y := ⟨_, rfl⟩
  obtain ⟨A, hAd⟩ : ∃ A, A = GF.ofNat g.p g.a := ⟨_, rfl⟩
  have ht : (2 : GF g.p) = 0 := CharTwo.two_eq_zero
  -- the bit
  have hclear : clearBit0 (bin2bn c) = clearBit0 x := by
    rw [hc]; unfold compressedNum; split
    · exact clearBit0_idem x
    · exact clearBit0_setBit0 x
  have hk : bin2bn c % 2 = if trace (Y * X⁻¹) = 0 then 0 else 1 := by
    rw [hc, hYd, hXd]; unfold compressedNum clearBit0 setBit0; split <;> omega
  -- the abscissa
  have htrA : trace A = if g.a = 0 then 0 else 1 := by
    rcases ha with h | h
    · rw [hAd, h, GF.ofNat_zero, if_pos rfl]; exact trSum_zero _
    · rw [hAd, h, GF.ofNat_one, hone, if_neg (by omega)]
  have hxr : ∀ t, t = bn_trace (clearBit0 x) g.p → t ≠ -1 ∧
      (if (t ≠ 0 ∧ g.a = 0) ∨ (t = 0 ∧ g.a = 1) then setBit0 (clearBit0 x) else clearBit0 x) = x := by
    intro t htd
    have hset : setBit0 (clearBit0 x) = clearBit0 x ^^^ 1 := by rw [setBit0_eq, clearBit0_idem]
    have hbt := bn_trace_eq g.p (clearBit0 x) (clearBit0_lt hx)
    rw [← htd] at hbt
    rw [← hXd, ← hAd, htrA] at htr
    rcases bit0_cases x with h0 | h0
    · rw [← h0, ← hXd, htr] at hbt
      rcases hbt with ⟨h1, h2⟩ | ⟨h1, h2⟩
      · have : ¬ g.a = 1 := by
          intro h; rw [h] at h2; simp at h2
        refine ⟨by omega, ?_⟩
        rw [if_neg (by simp [h1, this]), ← h0]
      · have : ¬ g.a = 0 := by
          intro h; rw [h] at h2; simp at h2
        refine ⟨by omega, ?_⟩
        rw [if_neg (by simp [h1, this]), ← h0]
    · have hXc : X = GF.ofNat g.p (clearBit0 x) + 1 := by
        rw [hXd, ← GF.ofNat_one g.p, ← GF.ofNat_xor, ← h0]
      rw [hXc, tr_add, hone] at htr
      rcases hbt with ⟨h1, h2⟩ | ⟨h1, h2⟩
      · rw [h2, zero_add] at htr
        have : g.a = 1 := by
          rcases ha with h | h
          · rw [if_pos h] at htr; exact absurd htr one_ne_zero
          · exact h
        refine ⟨by omega, ?_⟩
        rw [if_pos (by simp [h1, this]), hset, ← h0]
      · rw [h2, CharTwo.add_self_eq_zero] at htr
        have : g.a = 0 := by
          rcases ha with h | h
          · exact h
          · rw [if_neg (by omega)] at htr; exact absurd htr.symm one_ne_zero
        refine ⟨by omega, ?_⟩
        rw [if_pos (by simp [h1, this]), hset, ← h0]
  obtain ⟨hne, hxe⟩ := hxr _ rfl
  -- the quadratic equation
  obtain ⟨x2, hx2⟩ : ∃ x2, x2 = gf2m_sqr g.p x := ⟨_, rfl⟩
  have hX2 : GF.ofNat g.p x2 = X ^ 2 := by rw [hx2, ofNat_sqr, hXd]
  have hX2ne : GF.ofNat g.p x2 ≠ 0 := by rw [hX2, hXd]; exact pow_ne_zero _ hX
  obtain ⟨i2, hi2, hi2'⟩ := gf2m_inv_some g.p x2 hX2ne
  obtain ⟨w, hw⟩ : ∃ w, w = gf2m_mul g.p ((if g.a = 1 then gf2m_mul g.p x2 x ^^^ x2 else gf2m_mul g.p x2 x) ^^^ g.b) i2 :=
    ⟨_, rfl⟩
  have hW : GF.ofNat g.p w = (Y * X⁻¹) ^ 2 + Y * X⁻¹ := by
    have hnum : GF.ofNat g.p ((if g.a = 1 then gf2m_mul g.p x2 x ^^^ x2 else gf2m_mul g.p x2 x) ^^^ g.b) = Y ^ 2 + X * Y := by
      rw [hYd, hXd, hcurve, ← hXd, ← hAd]
      rcases ha with h | h
      · have hA0 : A = 0 := by rw [hAd, h, GF.ofNat_zero]
        rw [if_neg (by omega), GF.ofNat_xor, ofNat_mul, hX2, ← hXd, hA0]
        ring
      · have hA1 : A = 1 := by rw [hAd, h, GF.ofNat_one]
        rw [if_pos h, GF.ofNat_xor, GF.ofNat_xor, ofNat_mul, hX2, ← hXd, hA1]
        ring
    rw [hw, ofNat_mul, hnum, hi2', hX2]
    have : X ≠ 0 := by rw [hXd]; exact hX
    field_simp
  obtain ⟨z, hz⟩ := Option.isSome_iff_exists.mp (sq.complete g.p w hirr.out hodd ⟨_, hW.symm⟩)
  have hyf : ∀ z', GF.ofNat g.p z' = GF.ofNat g.p y' * (GF.ofNat g.p x)⁻¹ → gf2m_mul g.p z' x = y' := by
    intro z' h
    apply ofNat_inj g.p (mul_lt g.p _ _) hy'
    rw [ofNat_mul, h, mul_assoc, inv_mul_cancel₀ hX, mul_one]
  have hfin := hsel w z hz (by rw [hW, hXd, hYd]) (by rw [hk, hXd, hYd])
  unfold expandWith
  rw [if_neg (by omega)]
  simp only [hc0, if_false, hclear, hne, hxe, ← hx2, hi2, ← hw, hz]
  rw [hyf _ (hfin _ rfl), set_affine, if_pos hcurve']

/-- Expansion of a number whose abscissa is `x`. -/
theorem expand_spec (sq : QuadSolver) (c : List Byte) (x y : Nat) (hlen : g.fieldSize ≤ c.length)
    (hodd : fieldDegree g.p % 2 = 1) (ha : g.a = 0 ∨ g.a = 1)
    (hx : x < 2 ^ fieldDegree g.p) (hx0 : x ≠ 0) (hy : y < 2 ^ fieldDegree g.p)
    (hcurve : OnCurve (GF.ofNat g.p g.a) (GF.ofNat g.p g.b) (GF.ofNat g.p x) (GF.ofNat g.p y))
    (htr : trace (GF.ofNat g.p x) = trace (GF.ofNat g.p g.a))
    (hc : bin2bn c = compressedNum (p := g.p) x y) (hc0 : bin2bn c ≠ 0) :
    dstu_point_expand sq c g = some (x, y) := by
  refine expand_spec_with g sq bn_trace c x y y hlen hodd ha hx hx0 hcurve htr hc hc0 hy hcurve ?_
  have hone : trace (1 : GF g.p) = 1 := trSum_one_odd _ hodd
  intro w z hz hW hk
  obtain ⟨X, hXd⟩ : ∃ X, X = GF.ofNat g.p x := ⟨_, rfl⟩
  obtain ⟨Y, hYd⟩ : ∃ Y, Y = GF.ofNat g.p y := ⟨_, rfl⟩
  rw [← hXd, ← hYd] at hW hk ⊢
  obtain ⟨hz1, hz2⟩ := sq.sound g.p w z hz
  have hzz := quad_unique (hz1.trans hW)
  · intro t htd
    have hbt := bn_trace_eq g.p z hz2
    rw [← htd] at hbt
    rw [hk]
    have h11 : (1 : GF g.p) + 1 = 0 := CharTwo.add_self_eq_zero 1
    rcases hzz with h | h
    · rw [h] at hbt
      rcases hbt with ⟨h1, h2⟩ | ⟨h1, h2⟩
      · rw [if_neg (by simp [h1, h2]), h]
      · rw [if_neg (by simp [h1, h2]), h]
    · rw [h, tr_add, hone] at hbt
      rcases hbt with ⟨h1, h2⟩ | ⟨h1, h2⟩
      · have : ¬ trace (Y * X⁻¹) = 0 := by
          intro h3; rw [h3, zero_add] at h2; exact one_ne_zero h2
        rw [if_pos (by simp [h1, this]), GF.ofNat_xor, GF.ofNat_one, h, add_assoc, h11, add_zero]
      · have : trace (Y * X⁻¹) = 0 := by
          rcases tr_cases g.p (Y * X⁻¹) with h3 | h3
          · exact h3
          · rw [h3, h11] at h2; exact absurd h2 zero_ne_one
        rw [if_pos (by simp [h1, this]), GF.ofNat_xor, GF.ofNat_one, h, add_assoc, h11, add_zero]

/-- Expansion of zero. -/
theorem expand_zero (sq : QuadSolver) (c : List Byte) (y : Nat) (hlen : g.fieldSize ≤ c.length)
    (hy : y < 2 ^ fieldDegree g.p)
    (hcurve : OnCurve (GF.ofNat g.p g.a) (GF.ofNat g.p g.b) 0 (GF.ofNat g.p y)) (hc : bin2bn c = 0) :
    dstu_point_expand sq c g = some (0, y) := by
  have hp := pgt g.p
  have hm := mpos g.p
  have hy2 : GF.ofNat g.p y ^ 2 = GF.ofNat g.p g.b := by
    have := hcurve
    unfold OnCurve at this
    linear_combination this
  have hys : gf2m_sqrt g.p g.b = y := by
    apply ofNat_inj g.p (GF.toNat_lt g.p hp _) hy
    rw [GF.ofNat_toNat g.p (by omega), ← hy2, ← pow_mul, ← pow_succ',
      show g.p.log2 - 1 + 1 = fieldDegree g.p by unfold fieldDegree at *; omega, GF.frobenius]
  unfold dstu_point_expand expandWith
  rw [if_neg (by omega)]
  simp only [hc, if_true, hys]
  rw [set_affine, GF.ofNat_zero, if_pos hcurve]

omit hirr in
/-- What expansion can produce. -/
theorem expand_sound (hp : 1 < g.p) (sq : QuadSolver) (c : List Byte) (x y : Nat) (h : dstu_point_expand sq c g = some (x, y)) :
    g.fieldSize ≤ c.length ∧ bin2bn c < 2 ^ fieldDegree g.p ∧ x < 2 ^ fieldDegree g.p ∧ y < 2 ^ fieldDegree g.p ∧
      OnCurve (GF.ofNat g.p g.a) (GF.ofNat g.p g.b) (GF.ofNat g.p x) (GF.ofNat g.p y) := by
  have hm := fieldDegree_pos hp
  have hset : ∀ u v, set_affine g.p g.a g.b u v = some (x, y) → u = x ∧ v = y ∧
      OnCurve (GF.ofNat g.p g.a) (GF.ofNat g.p g.b) (GF.ofNat g.p x) (GF.ofNat g.p y) := by
    intro u v huv
    unfold set_affine at huv
    split at huv
    · simp only [Option.some.injEq, Prod.mk.injEq] at huv
      obtain ⟨rfl, rfl⟩ := huv
      exact ⟨rfl, rfl, by assumption⟩
    · cases huv
  unfold dstu_point_expand expandWith at h
  split at h
  · cases h
  · rename_i hlen
    refine ⟨by omega, ?_⟩
    simp only at h
    split at h
    · rename_i h0
      obtain ⟨h1, h2, h3⟩ := hset _ _ h
      refine ⟨by rw [h0]; positivity, by rw [← h1, h0]; positivity, by rw [← h2]; exact GF.toNat_lt g.p hp _, h3⟩
    · rename_i h0
      split at h
      · cases h
      · rename_i htr
        have hlt : clearBit0 (bin2bn c) < 2 ^ fieldDegree g.p := by
          by_contra hge
          exact htr (bn_trace_big hp _ (by omega))
        have hlt' : bin2bn c < 2 ^ fieldDegree g.p := by
          rcases bit0_cases (bin2bn c) with h1 | h1
          · rw [h1]; exact hlt
          · rw [h1]; exact Nat.xor_lt_two_pow hlt (Nat.one_lt_two_pow (by omega))
        split at h
        · cases h
        · split at h
          · cases h
          · obtain ⟨h1, h2, h3⟩ := hset _ _ h
            refine ⟨hlt', ?_, by rw [← h2]; exact GF.toNat_lt g.p hp _, h3⟩
            rw [← h1]
            split
            · exact setBit0_lt hm hlt
            · exact hlt

end

end Dstu
