import Mathlib.RingTheory.AdjoinRoot
import Mathlib.Combinatorics.Colex
import Mathlib.Algebra.Field.ZMod

/-! Binary fields.  A non-negative integer stands for the polynomial over GF(2) whose coefficients
are its bits, as in OpenSSL's `BN_GF2m_*` functions. -/

namespace Dstu.Spec

open Polynomial

/-- The polynomial whose coefficient of `X^k` is bit `k` of `s`. -/
noncomputable def bitPoly (s : Nat) : (ZMod 2)[X] := ∑ k ∈ s.bitIndices.toFinset, X ^ k

/-- The integer whose bits are the coefficients of `q`. -/
noncomputable def polyBits (q : (ZMod 2)[X]) : Nat := ∑ k ∈ q.support, 2 ^ k

/-- `GF(2)[X]` modulo the polynomial `p`. -/
abbrev GF (p : Nat) : Type := AdjoinRoot (bitPoly p)

/-- The element with representative `a`. -/
noncomputable def GF.ofNat (p a : Nat) : GF p := AdjoinRoot.mk (bitPoly p) (bitPoly a)

open Classical in
/-- The representative of least degree. -/
noncomputable def GF.toNat {p : Nat} (x : GF p) : Nat :=
  if h : (bitPoly p).Monic then polyBits (AdjoinRoot.modByMonicHom h x) else 0

/-- Degree of the field: the degree of its polynomial. -/
def fieldDegree (p : Nat) : Nat := p.log2

end Dstu.Spec
