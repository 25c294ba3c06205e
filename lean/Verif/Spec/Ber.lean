import Verif.Spec.Asn1Ber

/-! The encodings of the structures of DSTU 4145-2002 and of the key library in BER (ITU-T X.690): as in `Verif.Spec.Asn1Ber`, and besides tag numbers may be written in the long form,
constructed elements may have an indefinite length, and octet strings may consist of pieces. -/

namespace Dstu.Spec

/-- The number in the low seven bits of bytes, most significant first. -/
def septets (l : List (BitVec 8)) : Nat := l.foldl (fun n b => 128 * n + b.toNat % 128) 0

/-- Identifier octets: the two highest bits are the class, the next tells constructed from primitive, the other five are the number of the tag, or all set and followed by the number in groups of
seven bits, the last without the highest bit. -/
def BerIdentifier (cls : BitVec 8) (constructed : Bool) (n : Nat) (i : List (BitVec 8)) : Prop :=
  ∃ b, b &&& 0xc0 = cls ∧ (b &&& 0x20 ≠ 0 ↔ constructed = true) ∧
    ((b &&& 0x1f ≠ 0x1f ∧ (b &&& 0x1f).toNat = n ∧ i = [b]) ∨
      b &&& 0x1f = 0x1f ∧ n < 2 ^ 31 ∧ ∃ more last, (∀ x ∈ more, 0x80 ≤ x) ∧ last < 0x80 ∧ septets (more ++ [last]) = n ∧ i = b :: (more ++ [last]))

/-- A primitive element. -/
def BerPrimitive (cls : BitVec 8) (n : Nat) (c e : List (BitVec 8)) : Prop :=
  ∃ i l, BerIdentifier cls false n i ∧ AnyLength c.length l ∧ e = i ++ (l ++ c)

/-- A constructed element, with definite or with indefinite length. -/
def BerConstructed (cls : BitVec 8) (n : Nat) (c e : List (BitVec 8)) : Prop :=
  ∃ i, BerIdentifier cls true n i ∧ ((∃ l, AnyLength c.length l ∧ e = i ++ (l ++ c)) ∨ e = i ++ 0x80 :: (c ++ [0, 0]))

/-- The pieces of the string `v`, with elements nested at most `d` deep below.  The types of the pieces do not matter; a piece is not the end mark. -/
inductive Pieces : Nat → List (BitVec 8) → List (BitVec 8) → Prop where
  | nil (d) : Pieces d [] []
  | piece {d cls n c e v es} : BerPrimitive cls n c e → e ≠ [0, 0] → Pieces d v es → Pieces d (c ++ v) (e ++ es)
  | nested {d cls n v c e w es} : Pieces d v c → BerConstructed cls n c e → Pieces (d + 1) w es → Pieces (d + 1) (v ++ w) (e ++ es)

/-- INTEGER: the shortest contents in two's complement. -/
def BerInteger (v : Int) (e : List (BitVec 8)) : Prop :=
  ∃ c, (c ≠ [] ∧ twosValue c = v ∧ ∀ c', c' ≠ [] → twosValue c' = v → c.length ≤ c'.length) ∧ BerPrimitive 0 2 c e

/-- OCTET STRING: in one piece, or in pieces nested at most five deep. -/
def BerOctets (v e : List (BitVec 8)) : Prop := BerPrimitive 0 4 v e ∨ ∃ c, Pieces 5 v c ∧ BerConstructed 0 4 c e

/-- OBJECT IDENTIFIER: subidentifiers, each ends with a byte below 128 and does not start with 128. -/
def BerObject (oid e : List (BitVec 8)) : Prop :=
  (oid.head? ≠ some 0x80 ∧ (∃ b, oid.getLast? = some b ∧ b < 0x80) ∧ ∀ i b c, oid[i]? = some b → oid[i + 1]? = some c → b < 0x80 → c ≠ 0x80) ∧ BerPrimitive 0 6 oid e

/-- SEQUENCE of the given encodings. -/
def BerSequence (parts : List (List (BitVec 8))) (e : List (BitVec 8)) : Prop := BerConstructed 0 16 parts.flatten e

/-- The polynomial. -/
def BerPolynomial : PolySpec → List (BitVec 8) → Prop
  | .trinomial k, e => BerInteger k e
  | .pentanomial k j l, e => ∃ ek ej el, BerInteger k ek ∧ BerInteger j ej ∧ BerInteger l el ∧ BerSequence [ek, ej, el] e

/-- The curve given in full. -/
def BerCustomCurve (s : CustomCurveSpec) (e : List (BitVec 8)) : Prop :=
  ∃ em ep ef ea eb en ebp, BerInteger s.m em ∧ BerPolynomial s.poly ep ∧ BerSequence [em, ep] ef ∧
    BerInteger s.a ea ∧ BerOctets s.b eb ∧ BerInteger s.n en ∧ BerOctets s.bp ebp ∧ BerSequence [ef, ea, eb, en, ebp] e

/-- The curve. -/
def BerCurve : CurveSpec → List (BitVec 8) → Prop
  | .named oid, e => BerObject oid e
  | .custom s, e => BerCustomCurve s e

/-- The parameters. -/
def BerParams (p : AlgorithmParameters) (e : List (BitVec 8)) : Prop :=
  ∃ ec, BerCurve p.curve ec ∧ match p.sbox with
    | none => BerSequence [ec] e
    | some s => ∃ es, BerOctets s es ∧ BerSequence [ec, es] e

/-- The parameters of the cipher. -/
def BerCipherParams (iv dke e : List (BitVec 8)) : Prop :=
  ∃ ei ed, BerOctets iv ei ∧ BerOctets dke ed ∧ BerSequence [ei, ed] e

/-- The file of a Key-6 container. -/
def BerKey6File (type mac : List (BitVec 8)) (pad : Option (List (BitVec 8))) (data e : List (BitVec 8)) : Prop :=
  ∃ et em ep eh ed, BerObject type et ∧ BerOctets mac em ∧
    (match pad with
      | none => BerSequence [em] ep
      | some pad => ∃ eq, BerOctets pad eq ∧ BerSequence [em, eq] ep) ∧
    BerSequence [et, ep] eh ∧ BerOctets data ed ∧ BerSequence [eh, ed] e

/-- The value of the attribute with the curve of the second key. -/
def BerCurveAttr (s : CustomCurveSpec) (dke dke1 e : List (BitVec 8)) : Prop :=
  ∃ es ed ed1, BerCustomCurve s es ∧ BerOctets dke ed ∧ BerOctets dke1 ed1 ∧ BerSequence [es, ed, ed1] e

end Dstu.Spec
