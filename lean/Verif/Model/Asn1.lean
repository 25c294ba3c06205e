import Verif.Model.Key
import Verif.Spec.Bytes

/-! The ASN.1 templates of /repo/dstulib/asn1.c, and a stand-in for the interpreter of templates of OpenSSL 1.1.1
(crypto/asn1/tasn_enc.c, tasn_dec.c).  Simplification: the stand-in knows definite lengths, low tag numbers and primitive strings, that is DER with any form of the length;
the rest of BER, which OpenSSL reads as well, is refused here. -/

namespace Dstu

open Spec

/-- Tag, length, contents. -/
def tlv (tag : Byte) (c : List Byte) : List Byte := tag :: (derLen c.length ++ c)

/-- Definite length octets (OpenSSL `asn1_get_length`). -/
def parseLen : List Byte → Option (Nat × List Byte)
  | [] => none
  | b :: l =>
    if b.toNat < 128 then some (b.toNat, l)
    else if b.toNat = 128 ∨ l.length < b.toNat - 128 then none
    else some (bin2bn (l.take (b.toNat - 128)), l.drop (b.toNat - 128))

/-- OpenSSL `ASN1_get_object`: tag, contents and what follows; `none` for a bad header or an element that is longer than the input. -/
def getObject : List Byte → Option (Byte × List Byte × List Byte)
  | [] => none
  | b :: l =>
    if b &&& 0x1f = 0x1f then none
    else match parseLen l with
      | none => none
      | some (n, r) => if r.length < n then none else some (b, r.take n, r.drop n)

/-- Number of bytes of the shortest two's complement representation. -/
def intBytes (v : Int) : Nat := numBits (if 0 ≤ v then v.toNat else (-v - 1).toNat) / 8 + 1

/-- OpenSSL `i2c_ASN1_INTEGER`: contents of an INTEGER. -/
def encInt (v : Int) : List Byte := bytesBE (intBytes v) (v % (256 : Int) ^ intBytes v).toNat

/-- Value of the contents of an INTEGER. -/
def decInt (c : List Byte) : Int :=
  if 2 * beValue c < 256 ^ c.length then beValue c else (beValue c : Int) - 256 ^ c.length

/-- The primitive types in use. -/
inductive Prim where
  | integer
  | octets
  | object

def Prim.tag : Prim → Byte
  | .integer => 0x02
  | .octets => 0x04
  | .object => 0x06

/-- Values: integers, the bytes of a string, the contents of an identifier. -/
abbrev Prim.Val : Prim → Type
  | .integer => Int
  | .octets => List Byte
  | .object => List Byte

def Prim.enc : (k : Prim) → k.Val → List Byte
  | .integer, v => encInt v
  | .octets, c => c
  | .object, c => c

/-- OpenSSL `c2i_ASN1_OBJECT`: a subidentifier must not start with 0x80. -/
def oidPadded : Bool → List Byte → Bool
  | _, [] => false
  | start, b :: l => (start && b = 0x80) || oidPadded (b < 0x80) l

/-- Contents to value: OpenSSL `c2i_ASN1_INTEGER` (no empty contents, no padding), `c2i_ASN1_OBJECT`; any contents for strings. -/
def Prim.dec : (k : Prim) → List Byte → Option k.Val
  | .integer, c => match c with
    | [] => none
    | b :: d :: _ => if (b = 0 ∧ d < 0x80) ∨ (b = 0xff ∧ 0x80 ≤ d) then none else some (decInt c)
    | _ => some (decInt c)
  | .octets, c => some c
  | .object, c => match c.getLast? with
    | none => none
    | some b => if 0x80 ≤ b ∨ oidPadded true c then none else some c

mutual
/-- `ASN1_ITEM`: a primitive type, `ASN1_SEQUENCE`, `ASN1_CHOICE`. -/
inductive Item where
  | prim (k : Prim)
  | seq (fs : Fields)
  | choice (as : Fields)
/-- `ASN1_TEMPLATE` tables: `ASN1_SIMPLE`, and `ASN1_OPT` if the flag is set. -/
inductive Fields where
  | nil
  | cons (opt : Bool) (i : Item) (rest : Fields)
end

mutual
/-- The C structure an item describes. -/
def Item.Val : Item → Type
  | .prim k => k.Val
  | .seq fs => fs.SeqVal
  | .choice as => as.ChoiceVal
/-- A structure with a member for each field; an absent optional field is NULL. -/
def Fields.SeqVal : Fields → Type
  | .nil => Unit
  | .cons true i r => Option i.Val × r.SeqVal
  | .cons false i r => i.Val × r.SeqVal
/-- A selector and the member it selects. -/
def Fields.ChoiceVal : Fields → Type
  | .nil => Empty
  | .cons _ i r => i.Val ⊕ r.ChoiceVal
end

mutual
/-- OpenSSL `ASN1_item_ex_i2d`. -/
def Item.i2d : (i : Item) → i.Val → List Byte
  | .prim k, v => tlv k.tag (k.enc v)
  | .seq fs, v => tlv 0x30 (fs.seqI2d v)
  | .choice as, v => as.choiceI2d v
def Fields.seqI2d : (fs : Fields) → fs.SeqVal → List Byte
  | .nil, _ => []
  | .cons true i r, (v, vs) => (match v with | none => [] | some v => i.i2d v) ++ r.seqI2d vs
  | .cons false i r, (v, vs) => i.i2d v ++ r.seqI2d vs
def Fields.choiceI2d : (as : Fields) → as.ChoiceVal → List Byte
  | .nil, v => nomatch v
  | .cons _ i r, v => match v with
    | .inl v => i.i2d v
    | .inr v => r.choiceI2d v
end

/-- Result of `ASN1_item_ex_d2i`: -1, 0 or 1 with the value and the rest of the input. -/
inductive D2i (α : Type) where
  | absent
  | error
  | ok (v : α) (rest : List Byte)

def D2i.map {α β : Type} (f : α → β) : D2i α → D2i β
  | .absent => .absent
  | .error => .error
  | .ok v r => .ok (f v) r

/-- OpenSSL `asn1_check_tlen`: the element must have the tag; another tag is no error if the element may be absent. -/
def checkTag (tag : Byte) (opt : Bool) (l : List Byte) : D2i (List Byte) :=
  match getObject l with
  | none => .error
  | some (t, c, r) => if t = tag then .ok c r else if opt then .absent else .error

/-- The fields that are left when the contents of a sequence are used up: all must be optional. -/
def Fields.allAbsent : (fs : Fields) → Option fs.SeqVal
  | .nil => some ()
  | .cons true _ r => r.allAbsent.map fun vs => (none, vs)
  | .cons false _ _ => none

def Fields.isNil : Fields → Bool
  | .nil => true
  | .cons _ _ _ => false

mutual
/-- OpenSSL `asn1_item_embed_d2i`, primitive types, sequences and choices. -/
def Item.d2i : (i : Item) → Bool → List Byte → D2i i.Val
  | .prim k, opt, l => match checkTag k.tag opt l with
    | .absent => .absent
    | .error => .error
    | .ok c r => match k.dec c with
      | none => .error
      | some v => .ok v r
  | .seq fs, opt, l => match checkTag 0x30 opt l with
    | .absent => .absent
    | .error => .error
    | .ok c r => match fs.seqD2i c with
      | none => .error
      | some v => .ok v r
  | .choice as, opt, l => as.choiceD2i opt l
/-- The loop over the fields: it stops at the end of the contents; the last field is read as if it were not optional; contents left over are an error. -/
def Fields.seqD2i : (fs : Fields) → List Byte → Option fs.SeqVal
  | .nil, l => if l = [] then some () else none
  | .cons true i r, l =>
    if l = [] then (Fields.cons true i r).allAbsent
    else match i.d2i (!r.isNil) l with
      | .error => none
      | .absent => (r.seqD2i l).map fun vs => (none, vs)
      | .ok v l => (r.seqD2i l).map fun vs => (some v, vs)
  | .cons false i r, l =>
    if l = [] then none
    else match i.d2i false l with
      | .ok v l => (r.seqD2i l).map fun vs => (v, vs)
      | _ => none
/-- The loop over the alternatives: the first that is not absent decides. -/
def Fields.choiceD2i : (as : Fields) → Bool → List Byte → D2i as.ChoiceVal
  | .nil, opt, _ => if opt then .absent else .error
  | .cons _ i r, opt, l => match i.d2i true l with
    | .absent => (r.choiceD2i opt l).map .inr
    | .error => .error
    | .ok v l => .ok (.inl v) l
end

/-- Simple fields in order. -/
def simple : List Item → Fields
  | [] => .nil
  | i :: is => .cons false i (simple is)

/-- /repo/dstulib/asn1.c:9-14 `DSTU_Pentanomial`. -/
def itPentanomial : Item := .seq (simple [.prim .integer, .prim .integer, .prim .integer])

/-- /repo/dstulib/asn1.c:18-22 `DSTU_Polynomial`. -/
def itPolynomial : Item := .choice (simple [.prim .integer, itPentanomial])

/-- /repo/dstulib/asn1.c:26-30 `DSTU_BinaryField`. -/
def itBinaryField : Item := .seq (simple [.prim .integer, itPolynomial])

/-- /repo/dstulib/asn1.c:34-41 `DSTU_CustomCurveSpec`. -/
def itCustomCurveSpec : Item := .seq (simple [itBinaryField, .prim .integer, .prim .octets, .prim .integer, .prim .octets])

/-- /repo/dstulib/asn1.c:45-49 `DSTU_CurveSpec`. -/
def itCurveSpec : Item := .choice (simple [.prim .object, itCustomCurveSpec])

/-- /repo/dstulib/asn1.c:53-57 `DSTU_AlgorithmParameters`. -/
def itAlgorithmParameters : Item := .seq (.cons false itCurveSpec (.cons true (.prim .octets) .nil))

/-- /repo/dstulib/asn1.c:61-65 `DSTU_Gost28147Parameters`. -/
def itGost28147Parameters : Item := .seq (simple [.prim .octets, .prim .octets])

/-- The members of `DSTU_Polynomial` in the order of the template: selector `DSTU_TRINOMIAL` 0, `DSTU_PENTANOMIAL` 1, /repo/dstulib/asn1.h:24-33. -/
def PolySpec.val : PolySpec → itPolynomial.Val
  | .trinomial k => .inl k
  | .pentanomial k j l => .inr (.inl (k, j, l, ()))

def PolySpec.ofVal : itPolynomial.Val → PolySpec
  | .inl k => .trinomial k
  | .inr (.inl (k, j, l, ())) => .pentanomial k j l

/-- The members of `DSTU_CustomCurveSpec` and `DSTU_BinaryField` in the order of the templates. -/
def CustomCurveSpec.val (s : CustomCurveSpec) : itCustomCurveSpec.Val := ((s.m, s.poly.val, ()), s.a, s.b, s.n, s.bp, ())

def CustomCurveSpec.ofVal : itCustomCurveSpec.Val → CustomCurveSpec
  | ((m, poly, ()), a, b, n, bp, ()) => ⟨m, PolySpec.ofVal poly, a, b, n, bp⟩

/-- The members of `DSTU_CurveSpec`: selector `DSTU_STANDARD_CURVE` 0, `DSTU_CUSTOM_CURVE` 1, /repo/dstulib/asn1.h:58-67. -/
def CurveSpec.val : CurveSpec → itCurveSpec.Val
  | .named oid => .inl oid
  | .custom s => .inr (.inl s.val)

def CurveSpec.ofVal : itCurveSpec.Val → CurveSpec
  | .inl oid => .named oid
  | .inr (.inl s) => .custom (CustomCurveSpec.ofVal s)

def AlgorithmParameters.val (p : AlgorithmParameters) : itAlgorithmParameters.Val := (p.curve.val, p.sbox, ())

def AlgorithmParameters.ofVal : itAlgorithmParameters.Val → AlgorithmParameters
  | (c, s, ()) => ⟨CurveSpec.ofVal c, s⟩

/-- `i2d_DSTU_AlgorithmParameters`, made by `IMPLEMENT_ASN1_FUNCTIONS` at /repo/dstulib/asn1.c:59. -/
def i2d_params (p : AlgorithmParameters) : List Byte := itAlgorithmParameters.i2d p.val

/-- `d2i_DSTU_AlgorithmParameters`, made by `IMPLEMENT_ASN1_FUNCTIONS` at /repo/dstulib/asn1.c:59: the structure and the input that follows it. -/
def d2i_params (l : List Byte) : Option (AlgorithmParameters × List Byte) :=
  match itAlgorithmParameters.d2i false l with
  | .ok v r => some (.ofVal v, r)
  | _ => none

/-- `i2d_DSTU_Gost28147Parameters`, /repo/dstulib/asn1.c:67. -/
def i2d_cipher (iv dke : List Byte) : List Byte := itGost28147Parameters.i2d (iv, dke, ())

/-- `d2i_DSTU_Gost28147Parameters`, /repo/dstulib/asn1.c:67. -/
def d2i_cipher (l : List Byte) : Option ((List Byte × List Byte) × List Byte) :=
  match itGost28147Parameters.d2i false l with
  | .ok (iv, dke, ()) r => some ((iv, dke), r)
  | _ => none

/-- `d2i_ASN1_OCTET_STRING`. -/
def d2i_octets (l : List Byte) : Option (List Byte) :=
  match (Item.prim .octets).d2i false l with
  | .ok c _ => some c
  | _ => none

end Dstu
