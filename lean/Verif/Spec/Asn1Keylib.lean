import Verif.Spec.Asn1

/-! DER encodings of the structures in key files:

    IITStore ::= SEQUENCE { header SEQUENCE { type OBJECT IDENTIFIER, params SEQUENCE { mac OCTET STRING, pad OCTET STRING OPTIONAL } }, data OCTET STRING }
    AttrCurveSpec ::= SEQUENCE { spec ECBinary, dke OCTET STRING, dke1 OCTET STRING } -/

namespace Dstu.Spec

/-- The file of a Key-6 container. -/
def IsKey6File (type mac : List (BitVec 8)) (pad : Option (List (BitVec 8))) (data e : List (BitVec 8)) : Prop :=
  ∃ et em ep eh ed, IsElement 0x06 type et ∧ IsOctets mac em ∧
    (match pad with
      | none => IsSequence [em] ep
      | some pad => ∃ eq, IsOctets pad eq ∧ IsSequence [em, eq] ep) ∧
    IsSequence [et, ep] eh ∧ IsOctets data ed ∧ IsSequence [eh, ed] e

/-- The value of the attribute with the curve of the second key. -/
def IsCurveAttr (s : CustomCurveSpec) (dke dke1 e : List (BitVec 8)) : Prop :=
  ∃ es ed ed1, IsCustomCurve s es ∧ IsOctets dke ed ∧ IsOctets dke1 ed1 ∧ IsSequence [es, ed, ed1] e

end Dstu.Spec
