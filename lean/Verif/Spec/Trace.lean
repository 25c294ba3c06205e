import Verif.Spec.GF2
import Mathlib.Algebra.BigOperators.Group.Finset.Basic

/-! The trace of a binary field. -/

namespace Dstu.Spec

/-- The trace: the sum of the conjugates `x, x², x⁴, …, x^(2^(m-1))`, `m` the degree of the field. -/
noncomputable def trace {p : Nat} (x : GF p) : GF p := ∑ i ∈ Finset.range (fieldDegree p), x ^ 2 ^ i

end Dstu.Spec
