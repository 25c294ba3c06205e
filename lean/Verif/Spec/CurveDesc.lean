import Verif.Spec.Bytes
import Verif.Spec.KeyUtils
import Verif.Spec.PointForm

/-! The curve that is described by the fields of a `CustomCurveSpec` (DSTU 4145), and the limits of the two readers. -/

namespace Dstu.Spec

/-- The number in a string, in the byte order of a type of keys. -/
def numberIn (t : KeyType) (l : List Byte) : Nat := if t = .le then leValue l else beValue l

/-- The field polynomial has exactly the described exponents. -/
def FieldPoly (s : CustomCurveSpec) (p : Nat) : Prop := ∀ i : Nat, p.testBit i = true ↔ (i : Int) ∈ fieldExponents s

/-- The curve is the described one: the field, the coefficients, the base point, the order; the cofactor is set to 1. -/
structure Described (t : KeyType) (s : CustomCurveSpec) (g : EcGroup) : Prop where
  field : FieldPoly s g.p
  a : (g.a : Int) = s.a
  b_lt : g.b < 2 ^ fieldDegree g.p
  b : GF.ofNat g.p g.b = GF.ofNat g.p (numberIn t s.b)
  base : StandsFor g.p g.a g.b (numberIn t s.bp) g.gx g.gy
  n : (g.n : Int) = s.n
  h : g.h = 1

/-- What both readers demand of a description: three or five different exponents, a base point that is not too short, and a positive order that is not too long. -/
structure Limits (s : CustomCurveSpec) (m : Nat) : Prop where
  exponents : (fieldExponents s).toFinset.card = 3 ∨ (fieldExponents s).toFinset.card = 5
  base : (m + 7) / 8 ≤ s.bp.length
  n_pos : 0 < s.n
  n_lt : s.n < 2 ^ (m + 2)

/-- The curve that the key library makes of a description with any coefficient `a`: its sign is not looked at and it is reduced modulo the field polynomial; if it is
neither 0 nor 1 then, then the base point is the one with abscissa 0. -/
structure DescribedAny (s : CustomCurveSpec) (g : EcGroup) : Prop where
  field : FieldPoly s g.p
  a_lt : g.a < 2 ^ fieldDegree g.p
  a : GF.ofNat g.p g.a = GF.ofNat g.p s.a.natAbs
  b_lt : g.b < 2 ^ fieldDegree g.p
  b : GF.ofNat g.p g.b = GF.ofNat g.p (beValue s.b)
  base : StandsFor g.p g.a g.b (beValue s.bp) g.gx g.gy
  zero : g.a ≠ 0 → g.a ≠ 1 → beValue s.bp = 0
  n : (g.n : Int) = s.n
  h : g.h = 1

/-- What the engine demands in addition: the coefficient `a` is 0 or 1; exponents above 0 apart from the last, which is 0 in any case; and in little-endian order a coefficient `b` that is not empty. -/
structure EngineLimits (t : KeyType) (s : CustomCurveSpec) : Prop where
  a : s.a = 0 ∨ s.a = 1
  positive : ∀ e ∈ (fieldExponents s).dropLast, 0 < e
  b : t = .le → s.b ≠ []

/-- The curve that parameters stand for: one of the ten built-in ones, by its identifier, or a described one within the limits. -/
def CurveOf (env : Env) (t : KeyType) : CurveSpec → EcGroup → Prop
  | .named oid, g => ∃ i : Fin 10, env.objs.obj2nid oid = env.nids.uacurve i ∧ group_from_named_curve env.nids i = some g
  | .custom s, g => Described t s g ∧ Limits s (fieldDegree g.p) ∧ EngineLimits t s

/-- The S-box that parameters stand for: none, or the given 64 bytes; the default one is stored as none. -/
def SboxOf : Option (List Byte) → Option (Bytes 64) → Prop
  | none, sb => sb = none
  | some l, sb => (sb.getD default_sbox).toList = l ∧ sb ≠ some default_sbox

/-- The field of a described curve is one of odd degree, and the exponents fit into a C `int`. -/
def OddField : CurveSpec → Prop
  | .named _ => True
  | .custom s => (∀ e ∈ fieldExponents s, -2 ^ 31 ≤ e ∧ e < 2 ^ 31) ∧ ∃ p, FieldPoly s p ∧ Irreducible (bitPoly p) ∧ fieldDegree p % 2 = 1

end Dstu.Spec
