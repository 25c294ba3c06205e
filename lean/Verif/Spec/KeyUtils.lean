import Verif.Spec.Oid
import Verif.Model.KeyUtils
import Verif.Spec.Pkcs12

/-! What a PKCS#8 structure with attributes describes. -/

namespace Dstu.Spec

/-- Bit `i` of a bit string: the first bit is the most significant one of the first byte.  Zero beyond the end. -/
def bitAt (s : List Byte) (i : Nat) : Bool := (s.getD (i / 8) 0).getLsbD (7 - i % 8)

/-- The first octet or bit string among the values. -/
def FirstString (vals : List AsnVal) (s : List Byte) : Prop :=
  ∃ pre v post, vals = pre ++ v :: post ∧ (v = .octet s ∨ v = .bit s) ∧ ∀ t, .octet t ∉ pre ∧ .bit t ∉ pre

/-- There is no octet or bit string among the values. -/
def NoString (vals : List AsnVal) : Prop := ∀ t, .octet t ∉ vals ∧ .bit t ∉ vals

/-- The first curve among the values. -/
def FirstSpec (env : P8Env) (vals : List AsnVal) (spec : CustomCurveSpec) : Prop :=
  ∃ pre der post, vals = pre ++ .seq der :: post ∧ env.unpack_spec der = some spec ∧ ∀ d, .seq d ∈ pre → env.unpack_spec d = none

/-- The last attribute with an identifier. -/
def LastAttr (oid : List Byte) (attrs : List (Option Attr)) (attr : Attr) : Prop :=
  ∃ pre post, attrs = pre ++ some attr :: post ∧ attr.oid = some oid ∧ ∀ a, some a ∈ post → a.oid ≠ some oid

/-- The attributes describe a complete second key: a number, a curve, and the public key that belongs to them. -/
def SecondKey (env : P8Env) (attrs : List (Option Attr)) (k : EvpPkey) : Prop :=
  ∃ curveAttr keyAttr s spec g d Q,
    LastAttr oidCurveAttr attrs curveAttr ∧ LastAttr oidKeyAttr attrs keyAttr ∧
    FirstString keyAttr.values s ∧ (∀ i, Nat.testBit d i = bitAt s i) ∧
    FirstSpec env curveAttr.values spec ∧ makeECGROUPFromSpec env.sq spec = some (some g) ∧
    add_public_key env.toEnv g d = some Q ∧ k = ⟨.le, some ⟨some g, none, some d, some Q⟩⟩

/-- The exponents of the field polynomial that is described. -/
def fieldExponents (s : CustomCurveSpec) : List Int :=
  match s.poly with
  | .trinomial k => [s.m, k, 0]
  | .pentanomial k j l => [s.m, k, j, l, 0]

/-- The exponents are not negative, and fit into a C `int`. -/
def SaneField (s : CustomCurveSpec) : Prop := ∀ e ∈ fieldExponents s, 0 ≤ e ∧ e < 2 ^ 31

/-- An exponent as a C `int`: the low 32 bits with their sign, or -1 if it needs more than 64 bits. -/
def cInt (v : Int) : Int :=
  if v < -2 ^ 63 ∨ 2 ^ 63 ≤ v then -1 else if v % 2 ^ 32 < 2 ^ 31 then v % 2 ^ 32 else v % 2 ^ 32 - 2 ^ 32

/-- Among the exponents, as C integers, one is below -1, and none before it is -1. -/
def NegativeField (s : CustomCurveSpec) : Prop :=
  ∃ pre e post, fieldExponents s = pre ++ e :: post ∧ cInt e < -1 ∧ ∀ x ∈ pre, cInt x ≠ -1

/-- The attributes have one for keys and one for curves, and the curve that is taken has a negative exponent. -/
def NegativeCurve (env : P8Env) (attrs : List (Option Attr)) : Prop :=
  ∃ curveAttr keyAttr spec, LastAttr oidCurveAttr attrs curveAttr ∧ LastAttr oidKeyAttr attrs keyAttr ∧ FirstSpec env curveAttr.values spec ∧ NegativeField spec

end Dstu.Spec
