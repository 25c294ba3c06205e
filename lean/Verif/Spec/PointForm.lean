import Verif.Spec.Curve
import Verif.Spec.Trace

/-! The compressed form of points in DSTU 4145. -/

namespace Dstu.Spec

/-- The number `v` stands for the point `(x, y)` of the curve with the coefficients `a` and `b`, as DSTU 4145 has it.  Zero stands for the point with abscissa 0.  Any other
number gives the abscissa, except for its lowest bit, which follows from its trace being the one of `a`; the lowest bit of the number is the trace of `y / x`. -/
def StandsFor (p a b v x y : Nat) : Prop :=
  x < 2 ^ fieldDegree p ∧ y < 2 ^ fieldDegree p ∧ OnCurve (GF.ofNat p a) (GF.ofNat p b) (GF.ofNat p x) (GF.ofNat p y) ∧
  if v = 0 then x = 0
  else ∃ z : GF p, x ≠ 0 ∧ v / 2 = x / 2 ∧ trace (GF.ofNat p x) = trace (GF.ofNat p a) ∧
    z * GF.ofNat p x = GF.ofNat p y ∧ trace z = if v % 2 = 1 then 1 else 0

end Dstu.Spec
