import Verif.Model.Key
import Verif.Spec.Bytes

/-! The DER encoding (X.690) of the parameters of DSTU 4145-2002:

    DSTU4145Params ::= SEQUENCE { definition CHOICE { namedCurve OBJECT IDENTIFIER, ecBinary ECBinary }, dke OCTET STRING OPTIONAL }
    ECBinary ::= SEQUENCE { f BinaryField, a INTEGER, b OCTET STRING, n INTEGER, bp OCTET STRING }
    BinaryField ::= SEQUENCE { m INTEGER, CHOICE { trinomial INTEGER, pentanomial SEQUENCE { k INTEGER, j INTEGER, l INTEGER } } }

Byte strings `e` that are the encoding, as relations. -/

namespace Dstu.Spec

/-- Length octets: the short form below 128, else the number of the following octets and the length in big-endian order without leading zero. -/
def IsLength (n : Nat) (l : List (BitVec 8)) : Prop :=
  (n < 128 ∧ l = [BitVec.ofNat 8 n]) ∨
    (128 ≤ n ∧ ∃ r, r.head? ≠ some 0 ∧ r.length < 127 ∧ beValue r = n ∧ l = BitVec.ofNat 8 (128 + r.length) :: r)

/-- An element: tag, length, contents. -/
def IsElement (tag : BitVec 8) (c e : List (BitVec 8)) : Prop := ∃ l, IsLength c.length l ∧ e = tag :: (l ++ c)

/-- Two's complement. -/
def twosValue (c : List (BitVec 8)) : Int :=
  match c with
  | [] => 0
  | b :: _ => (beValue c : Int) - if 128 ≤ b.toNat then 256 ^ c.length else 0

/-- INTEGER: the shortest contents in two's complement. -/
def IsInteger (v : Int) (e : List (BitVec 8)) : Prop :=
  ∃ c, (c ≠ [] ∧ twosValue c = v ∧ ∀ c', c' ≠ [] → twosValue c' = v → c.length ≤ c'.length) ∧ IsElement 0x02 c e

/-- OCTET STRING. -/
def IsOctets (c e : List (BitVec 8)) : Prop := IsElement 0x04 c e

/-- SEQUENCE of the given encodings. -/
def IsSequence (parts : List (List (BitVec 8))) (e : List (BitVec 8)) : Prop := IsElement 0x30 parts.flatten e

/-- The polynomial. -/
def IsPolynomial : PolySpec → List (BitVec 8) → Prop
  | .trinomial k, e => IsInteger k e
  | .pentanomial k j l, e => ∃ ek ej el, IsInteger k ek ∧ IsInteger j ej ∧ IsInteger l el ∧ IsSequence [ek, ej, el] e

/-- The curve given in full. -/
def IsCustomCurve (s : CustomCurveSpec) (e : List (BitVec 8)) : Prop :=
  ∃ em ep ef ea eb en ebp, IsInteger s.m em ∧ IsPolynomial s.poly ep ∧ IsSequence [em, ep] ef ∧
    IsInteger s.a ea ∧ IsOctets s.b eb ∧ IsInteger s.n en ∧ IsOctets s.bp ebp ∧ IsSequence [ef, ea, eb, en, ebp] e

/-- The curve; object identifiers have tag 6. -/
def IsCurve : CurveSpec → List (BitVec 8) → Prop
  | .named oid, e => IsElement 0x06 oid e
  | .custom s, e => IsCustomCurve s e

/-- The parameters. -/
def IsParams (p : AlgorithmParameters) (e : List (BitVec 8)) : Prop :=
  ∃ ec, IsCurve p.curve ec ∧ match p.sbox with
    | none => IsSequence [ec] e
    | some s => ∃ es, IsOctets s es ∧ IsSequence [ec, es] e

/-- The parameters of the cipher: `SEQUENCE { iv OCTET STRING, dke OCTET STRING }`. -/
def IsCipherParams (iv dke e : List (BitVec 8)) : Prop :=
  ∃ ei ed, IsOctets iv ei ∧ IsOctets dke ed ∧ IsSequence [ei, ed] e

end Dstu.Spec
