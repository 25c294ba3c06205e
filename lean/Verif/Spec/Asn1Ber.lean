import Verif.Spec.Asn1

/-! The encodings of the parameters of DSTU 4145-2002 with lengths in any definite form: as in `Verif.Spec.Asn1`, but a length below 128 may be written in the long
form, and the long form may have leading zeros. -/

namespace Dstu.Spec

/-- Length octets. -/
def AnyLength (n : Nat) (l : List (BitVec 8)) : Prop :=
  (n < 128 ∧ l = [BitVec.ofNat 8 n]) ∨ ∃ r, r ≠ [] ∧ r.length ≤ 127 ∧ beValue r = n ∧ l = BitVec.ofNat 8 (128 + r.length) :: r

/-- An element: tag, length, contents. -/
def AnyElement (tag : BitVec 8) (c e : List (BitVec 8)) : Prop := ∃ l, AnyLength c.length l ∧ e = tag :: (l ++ c)

/-- INTEGER: the shortest contents in two's complement. -/
def AnyInteger (v : Int) (e : List (BitVec 8)) : Prop :=
  ∃ c, (c ≠ [] ∧ twosValue c = v ∧ ∀ c', c' ≠ [] → twosValue c' = v → c.length ≤ c'.length) ∧ AnyElement 0x02 c e

/-- OCTET STRING. -/
def AnyOctets (c e : List (BitVec 8)) : Prop := AnyElement 0x04 c e

/-- OBJECT IDENTIFIER: subidentifiers, each ends with a byte below 128 and does not start with 128. -/
def AnyObject (oid e : List (BitVec 8)) : Prop :=
  (oid.head? ≠ some 0x80 ∧ (∃ b, oid.getLast? = some b ∧ b < 0x80) ∧ ∀ i b c, oid[i]? = some b → oid[i + 1]? = some c → b < 0x80 → c ≠ 0x80) ∧ AnyElement 0x06 oid e

/-- SEQUENCE of the given encodings. -/
def AnySequence (parts : List (List (BitVec 8))) (e : List (BitVec 8)) : Prop := AnyElement 0x30 parts.flatten e

/-- The polynomial. -/
def AnyPolynomial : PolySpec → List (BitVec 8) → Prop
  | .trinomial k, e => AnyInteger k e
  | .pentanomial k j l, e => ∃ ek ej el, AnyInteger k ek ∧ AnyInteger j ej ∧ AnyInteger l el ∧ AnySequence [ek, ej, el] e

/-- The curve given in full. -/
def AnyCustomCurve (s : CustomCurveSpec) (e : List (BitVec 8)) : Prop :=
  ∃ em ep ef ea eb en ebp, AnyInteger s.m em ∧ AnyPolynomial s.poly ep ∧ AnySequence [em, ep] ef ∧
    AnyInteger s.a ea ∧ AnyOctets s.b eb ∧ AnyInteger s.n en ∧ AnyOctets s.bp ebp ∧ AnySequence [ef, ea, eb, en, ebp] e

/-- The curve. -/
def AnyCurve : CurveSpec → List (BitVec 8) → Prop
  | .named oid, e => AnyObject oid e
  | .custom s, e => AnyCustomCurve s e

/-- The parameters. -/
def AnyParams (p : AlgorithmParameters) (e : List (BitVec 8)) : Prop :=
  ∃ ec, AnyCurve p.curve ec ∧ match p.sbox with
    | none => AnySequence [ec] e
    | some s => ∃ es, AnyOctets s es ∧ AnySequence [ec, es] e

/-- The parameters of the cipher. -/
def AnyCipherParams (iv dke e : List (BitVec 8)) : Prop :=
  ∃ ei ed, AnyOctets iv ei ∧ AnyOctets dke ed ∧ AnySequence [ei, ed] e

/-- The file of a Key-6 container. -/
def AnyKey6File (type mac : List (BitVec 8)) (pad : Option (List (BitVec 8))) (data e : List (BitVec 8)) : Prop :=
  ∃ et em ep eh ed, AnyObject type et ∧ AnyOctets mac em ∧
    (match pad with
      | none => AnySequence [em] ep
      | some pad => ∃ eq, AnyOctets pad eq ∧ AnySequence [em, eq] ep) ∧
    AnySequence [et, ep] eh ∧ AnyOctets data ed ∧ AnySequence [eh, ed] e

/-- The value of the attribute with the curve of the second key. -/
def AnyCurveAttr (s : CustomCurveSpec) (dke dke1 e : List (BitVec 8)) : Prop :=
  ∃ es ed ed1, AnyCustomCurve s es ∧ AnyOctets dke ed ∧ AnyOctets dke1 ed1 ∧ AnySequence [es, ed, ed1] e

end Dstu.Spec
