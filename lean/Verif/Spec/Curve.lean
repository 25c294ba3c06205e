import Verif.Spec.GF2
import Mathlib.AlgebraicGeometry.EllipticCurve.Affine.Point

/-! Elliptic curves over binary fields: `y² + x y = x³ + a x² + b`, with the group of points of
Mathlib's `WeierstrassCurve.Affine.Point`. -/

namespace Dstu.Spec

open WeierstrassCurve

/-- The curve `y² + x y = x³ + a x² + b`. -/
def binCurve {F : Type} [CommRing F] (a b : F) : WeierstrassCurve.Affine F := ⟨1, a, 0, 0, b⟩

/-- `(x, y)` satisfies the equation of the curve. -/
def OnCurve {F : Type} [CommRing F] (a b x y : F) : Prop := y ^ 2 + x * y = x ^ 3 + a * x ^ 2 + b

noncomputable instance (p : Nat) : DecidableEq (GF p) := Classical.decEq _

/-- Domain parameters of DSTU 4145: an irreducible field polynomial `p`, a curve over that field with
coefficients `a`, `b ≠ 0`, and a point `(x, y)` of it that is annihilated by `n`; all of them
represented by integers below `2^m`, `m` the degree of the field. -/
structure ValidCurve (p a b x y n : Nat) : Prop where
  irreducible : Irreducible (bitPoly p)
  a_lt : a < 2 ^ fieldDegree p
  b_lt : b < 2 ^ fieldDegree p
  x_lt : x < 2 ^ fieldDegree p
  y_lt : y < 2 ^ fieldDegree p
  b_ne : b ≠ 0
  n_gt : 1 < n
  onCurve : OnCurve (GF.ofNat p a) (GF.ofNat p b) (GF.ofNat p x) (GF.ofNat p y)
  order : ∀ [Fact (Irreducible (bitPoly p))]
    (h : (binCurve (GF.ofNat p a) (GF.ofNat p b)).Nonsingular (GF.ofNat p x) (GF.ofNat p y)),
    n • Affine.Point.some _ _ h = 0

end Dstu.Spec
