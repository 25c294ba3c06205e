import Verif.Spec.Ber
import Verif.Model.KeyUtils

/-! The files in which keys are kept, PKCS#8 and X.509:

    PrivateKeyInfo ::= SEQUENCE { version INTEGER, privateKeyAlgorithm AlgorithmIdentifier, privateKey OCTET STRING, attributes [0] IMPLICIT Attributes OPTIONAL }
    SubjectPublicKeyInfo ::= SEQUENCE { algorithm AlgorithmIdentifier, subjectPublicKey BIT STRING }
    AlgorithmIdentifier ::= SEQUENCE { algorithm OBJECT IDENTIFIER, parameters ANY DEFINED BY algorithm OPTIONAL }

    Attributes ::= SET OF Attribute
    Attribute ::= SEQUENCE { type OBJECT IDENTIFIER, values SET OF ANY }

Byte strings `e` that are the encoding, in DER (`Is`) and in BER (`Ber`).  `ep` is the encoding of the parameters, which are present.  The elements of a SET OF may be in any order. -/

namespace Dstu.Spec

def IsAlgorithm (oid ep e : List (BitVec 8)) : Prop := ∃ eo, IsElement 0x06 oid eo ∧ IsSequence [eo, ep] e

/-- A DER file with version 0 and no attributes. -/
def IsPrivateKeyInfo (oid ep key e : List (BitVec 8)) : Prop :=
  ∃ ev ea ek, IsInteger 0 ev ∧ IsAlgorithm oid ep ea ∧ IsOctets key ek ∧ IsSequence [ev, ea, ek] e

/-- A DER file; the bit string has no unused bits. -/
def IsPublicKeyInfo (oid ep key e : List (BitVec 8)) : Prop :=
  ∃ ea ek, IsAlgorithm oid ep ea ∧ IsElement 0x03 (0 :: key) ek ∧ IsSequence [ea, ek] e

/-- Elements of any type one after the other; what is inside one of definite length does not matter, one of indefinite length consists of elements. -/
inductive Elements : List (BitVec 8) → Prop where
  | nil : Elements []
  | definite {cls constructed n i l c es} : BerIdentifier cls constructed n i → AnyLength c.length l → i ++ (l ++ c) ≠ [0, 0] → Elements es → Elements (i ++ (l ++ c) ++ es)
  | indefinite {cls n i c es} : BerIdentifier cls true n i → Elements c → Elements es → Elements (i ++ 0x80 :: (c ++ [0, 0]) ++ es)

/-- A single element, of which only the tag matters. -/
def BerElement (cls : BitVec 8) (constructed : Bool) (n : Nat) (e : List (BitVec 8)) : Prop :=
  ∃ i, BerIdentifier cls constructed n i ∧
    ((∃ c l, AnyLength c.length l ∧ e = i ++ (l ++ c)) ∨ (constructed = true ∧ ∃ c, Elements c ∧ e = i ++ 0x80 :: (c ++ [0, 0])))

/-- A string with the given tag: in one piece, or in pieces nested at most five deep. -/
def BerString (n : Nat) (v e : List (BitVec 8)) : Prop := BerPrimitive 0 n v e ∨ ∃ c, Pieces 5 v c ∧ BerConstructed 0 n c e

/-- The bytes of a bit string with `u` unused bits, which count as 0. -/
def BitBytes (u : Nat) (raw key : List (BitVec 8)) : Prop :=
  (raw = [] ∧ key = []) ∨ ∃ r b, raw = r ++ [b] ∧ key = r ++ [BitVec.ofNat 8 (b.toNat / 2 ^ u * 2 ^ u)]

/-- BIT STRING: the first byte tells the number of unused bits.  If it is in pieces, it is the first byte of the first piece. -/
def BerBits (key e : List (BitVec 8)) : Prop := ∃ (u : BitVec 8) (raw : List (BitVec 8)), u.toNat < 8 ∧ BitBytes u.toNat raw key ∧ BerString 3 (u :: raw) e

/-- A value of any type: an octet string, a bit string, a sequence, which stands for itself, or something else: of another class, a set, or a value of a universal type of which `ok` tells
whether the contents are possible; truth values, numbers, nulls and identifiers are primitive. -/
def BerValue (ok : Nat → List (BitVec 8) → Bool) : AsnVal → List (BitVec 8) → Prop
  | .octet c, e => BerOctets c e
  | .bit b, e => BerBits b e
  | .seq s, e => e = s ∧ BerElement 0 true 16 e
  | .other, e => (∃ cls constructed n, cls ≠ 0 ∧ BerElement cls constructed n e) ∨ BerElement 0 true 17 e ∨
      ∃ n c, n ∉ [3, 4, 16, 17] ∧ ok n c = true ∧ e ≠ [0, 0] ∧ (BerPrimitive 0 n c e ∨ (n ∉ [1, 2, 5, 6, 10] ∧ BerString n c e))

/-- The encodings one after the other. -/
inductive BerList {α : Type} (R : α → List (BitVec 8) → Prop) : List α → List (BitVec 8) → Prop where
  | nil : BerList R [] []
  | cons {v vs e es} : R v e → BerList R vs es → BerList R (v :: vs) (e ++ es)

/-- SET OF with the given tag; whether it is marked as constructed does not matter. -/
def BerSetOf {α : Type} (cls : BitVec 8) (n : Nat) (R : α → List (BitVec 8) → Prop) (vs : List α) (e : List (BitVec 8)) : Prop :=
  ∃ c, BerList R vs c ∧ (BerPrimitive cls n c e ∨ BerConstructed cls n c e)

/-- An attribute. -/
def BerAttribute (ok : Nat → List (BitVec 8) → Bool) (a : Attr) (e : List (BitVec 8)) : Prop :=
  ∃ oid eo ev, a.oid = some oid ∧ BerObject oid eo ∧ BerSetOf 0 17 (BerValue ok) a.values ev ∧ BerSequence [eo, ev] e

def BerAlgorithm (oid ep e : List (BitVec 8)) : Prop := ∃ eo, BerObject oid eo ∧ BerSequence [eo, ep] e

/-- A file with some version, and attributes or none. -/
def BerPrivateKeyInfo (ok : Nat → List (BitVec 8) → Bool) (oid ep key : List (BitVec 8)) (attrs : Option (List Attr)) (e : List (BitVec 8)) : Prop :=
  ∃ v ev ea ek, BerInteger v ev ∧ BerAlgorithm oid ep ea ∧ BerOctets key ek ∧
    match attrs with
    | none => BerSequence [ev, ea, ek] e
    | some as => ∃ et, BerSetOf 0x80 0 (BerAttribute ok) as et ∧ BerSequence [ev, ea, ek, et] e

/-- A file with any number of unused bits. -/
def BerPublicKeyInfo (oid ep key e : List (BitVec 8)) : Prop := ∃ ea ek, BerAlgorithm oid ep ea ∧ BerBits key ek ∧ BerSequence [ea, ek] e

end Dstu.Spec
