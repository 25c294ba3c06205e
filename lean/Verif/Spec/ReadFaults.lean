import Verif.Spec.KeyUtils

/-! What holds of the second key of a PKCS#8 structure when calls fail. -/

namespace Dstu.Spec

/-- A group made from a description has the field, the coefficient `b` and the order that are described, and the coefficient `a` that is described, or 0. -/
def MadeFrom (spec : CustomCurveSpec) (g : EcGroup) : Prop :=
  ∃ p a, makePoly spec.m spec.poly = some p ∧ (a = spec.a ∨ a = 0) ∧ new_curve_GF2m p a.natAbs (bin2bn spec.b) = some (g.p, g.a, g.b) ∧
    (g.n : Int) = spec.n ∧ g.h = 1

/-- What holds of a second key whatever failed: the number is that of the last key attribute; the curve is made from one of the curves in the last curve attribute,
possibly with 0 for the coefficient `a`; the public key belongs to the number on the curve of the key. -/
def SecondKeySafe (env : P8Env) (attrs : List (Option Attr)) (k : EvpPkey) : Prop :=
  ∃ curveAttr keyAttr s der spec g d Q,
    LastAttr oidCurveAttr attrs curveAttr ∧ LastAttr oidKeyAttr attrs keyAttr ∧
    FirstString keyAttr.values s ∧ (∀ i, Nat.testBit d i = bitAt s i) ∧
    .seq der ∈ curveAttr.values ∧ env.unpack_spec der = some spec ∧ MadeFrom spec g ∧
    add_public_key env.toEnv g d = some Q ∧ k = ⟨.le, some ⟨some g, none, some d, some Q⟩⟩

end Dstu.Spec
