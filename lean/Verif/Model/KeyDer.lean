import Verif.Model.Ber
import Verif.Model.KeyUtils

/-! Keys as files: the structures PKCS#8 `PrivateKeyInfo` and X.509 `SubjectPublicKeyInfo` that OpenSSL puts around what the ASN.1 method of engine/ameth.c gives, and
takes apart before it calls it.  As `Model/Ber`, a stand-in for the decoder of OpenSSL 1.1.1 (crypto/asn1/tasn_dec.c) with all of BER that it reads. -/

namespace Dstu

open Spec

/-- The identifiers `NID_dstu4145le` and `NID_dstu4145be` of OpenSSL, used at engine/ameth.c:201, 335, 428 and 595:
1.2.804.2.1.1.1.1.3.1.1 and 1.2.804.2.1.1.1.1.3.1.1.1.1. -/
def keyOid : KeyType → List Byte
  | .le => [0x2a, 0x86, 0x24, 0x02, 0x01, 0x01, 0x01, 0x01, 0x03, 0x01, 0x01]
  | .be => [0x2a, 0x86, 0x24, 0x02, 0x01, 0x01, 0x01, 0x01, 0x03, 0x01, 0x01, 0x01, 0x01]

/-- `OBJ_obj2nid`, for the comparisons at engine/ameth.c:203 and 430. -/
def algId (oid : List Byte) : AlgId := if oid = keyOid .le then some .le else if oid = keyOid .be then some .be else none

/-- A primitive type that must be there (OpenSSL `asn1_d2i_ex_primitive`). -/
def primBer (k : Prim) (l : List Byte) : Option (k.Val × List Byte) :=
  match (Item.prim k).ber false l with
  | .ok v r => some (v, r)
  | _ => none

/-- OpenSSL `c2i_ASN1_BIT_STRING`: the number of unused bits, and the bytes; the unused bits are cleared. -/
def c2i_bits : List Byte → Option (List Byte)
  | [] => none
  | u :: b => if u.toNat > 7 then none else some (if b = [] then [] else b.dropLast ++ [b.getLastD 0 &&& ((0xff : Byte) <<< u.toNat)])

/-- A BIT STRING (OpenSSL `asn1_d2i_ex_primitive`); the contents of pieces are joined, with their first bytes. -/
def bitsBer (l : List Byte) : Option (List Byte × List Byte) :=
  match checkBer 3 false l with
  | .ok (cst, b) _ =>
    match Prim.octets.contents cst b with
    | none => none
    | some (c, r) => (c2i_bits c).map fun v => (v, r)
  | _ => none

/-- OpenSSL `asn1_find_end`: what follows the end marks, `eoc` of which are missing.  `fuel`: at most so many rounds; each takes at least two bytes.  Simplification: OpenSSL gives up when
more than 2 ^ 32 - 1 end marks are missing; no input is that long. -/
def asn1_find_end : (fuel eoc : Nat) → List Byte → Option (List Byte)
  | 0, _, _ => none
  | fuel + 1, eoc, l =>
    if l = [] then none
    else if isEoc l then (if eoc = 1 then some (l.drop 2) else asn1_find_end fuel (eoc - 1) (l.drop 2))
    else
      match getBer l with
      | none => none
      | some ⟨_, _, _, .opened r⟩ => asn1_find_end fuel (eoc + 1) r
      | some ⟨_, _, _, .closed _ r⟩ => asn1_find_end fuel eoc r

/-- What follows an element that is left as it is. -/
def BerBody.after : BerBody → Option (List Byte)
  | .closed _ r => some r
  | .opened r => asn1_find_end (r.length + 1) 1 r

/-- A value of any type (OpenSSL `asn1_d2i_ex_primitive`, `V_ASN1_ANY`), as far as keylib/utils.c and engine/ameth.c tell types apart.  Sequences, sets and values of other classes than
the universal one are left as they are; a sequence is kept with tag and length.  Of the others, truth values, numbers, nulls and identifiers must be primitive.
`ok` tells whether the contents of a value of another type can be decoded (OpenSSL `asn1_ex_c2i`). -/
def d2i_any (ok : Nat → List Byte → Bool) (l : List Byte) : Option (AsnVal × List Byte) :=
  match getBer l with
  | none => none
  | some ⟨cls, num, cst, b⟩ =>
    if cls ≠ 0 then b.after.map fun r => (.other, r)
    else if num = 16 ∨ num = 17 then
      if cst then b.after.map fun r => (if num = 16 then .seq (l.take (l.length - r.length)) else .other, r)
      else none
    else
      match (if num = 1 ∨ num = 2 ∨ num = 5 ∨ num = 6 ∨ num = 10 then Prim.integer else Prim.octets).contents cst b with
      | none => none
      | some (c, r) =>
        if num = 4 then some (.octet c, r)
        else if num = 3 then (c2i_bits c).map fun v => (.bit v, r)
        else if ok num c then some (.other, r)
        else none

/-- The end of the contents of a sequence: the end mark (`inf`) or the end of the bytes. -/
def seqEnd (inf : Bool) (l : List Byte) : Option (List Byte) :=
  if inf then (if isEoc l then some (l.drop 2) else none) else (if l = [] then some [] else none)

/-- A field of a sequence that must be there. -/
def field {α : Type} (f : List Byte → Option (α × List Byte)) (l : List Byte) : Option (α × List Byte) := if l = [] ∨ isEoc l then none else f l

/-- The last field of a sequence, OPTIONAL, and the end.  It is read as if it were not optional. -/
def lastField {α : Type} (f : List Byte → Option (α × List Byte)) (inf : Bool) (l : List Byte) : Option (Option α × List Byte) :=
  if l = [] ∨ isEoc l then (seqEnd inf l).map fun r => (none, r)
  else
    match f l with
    | none => none
    | some (v, l) => (seqEnd inf l).map fun r => (some v, r)

/-- A SEQUENCE (OpenSSL `asn1_item_embed_d2i`); `fields` reads the contents up to the end mark or the end. -/
def seqBer {α : Type} (fields : Bool → List Byte → Option (α × List Byte)) (l : List Byte) : Option (α × List Byte) :=
  match checkBer 16 false l with
  | .ok (true, .closed c r) _ => (fields false c).map fun x => (x.1, r)
  | .ok (true, .opened r) _ => fields true r
  | _ => none

/-- The loop of OpenSSL `asn1_template_noexp_d2i` for SET OF: elements up to the end mark or the end.  `n`: at most so many rounds. -/
def manyBer {α : Type} (f : List Byte → Option (α × List Byte)) : (n : Nat) → (inf : Bool) → List Byte → Option (List α × List Byte)
  | 0, _, _ => none
  | n + 1, inf, l =>
    if l = [] ∨ isEoc l then (seqEnd inf l).map fun r => ([], r)
    else
      match f l with
      | none => none
      | some (v, l) => (manyBer f n inf l).map fun x => (v :: x.1, x.2)

/-- A SET OF with the given class and number (OpenSSL `asn1_template_noexp_d2i`), which does not look whether the element is constructed. -/
def setBer {α : Type} (cls : Byte) (num : Nat) (f : List Byte → Option (α × List Byte)) (l : List Byte) : Option (List α × List Byte) :=
  match getBer l with
  | none => none
  | some o =>
    if o.cls = cls ∧ o.num = num then
      match o.body with
      | .closed c r => (manyBer f (c.length + 1) false c).map fun x => (x.1, r)
      | .opened r => manyBer f (r.length + 1) true r
    else none

/-- OpenSSL `X509_ALGOR`: SEQUENCE { algorithm OBJECT IDENTIFIER, parameter ANY OPTIONAL }. -/
def d2i_algor (ok : Nat → List Byte → Bool) : List Byte → Option ((List Byte × Option AsnVal) × List Byte) :=
  seqBer fun inf l => do
    let (oid, l) ← field (primBer .object) l
    let (par, l) ← lastField (d2i_any ok) inf l
    return ((oid, par), l)

/-- OpenSSL `X509_ATTRIBUTE`: SEQUENCE { object OBJECT IDENTIFIER, set SET OF ANY }. -/
def d2i_attribute (ok : Nat → List Byte → Bool) : List Byte → Option (Attr × List Byte) :=
  seqBer fun inf l => do
    let (oid, l) ← field (primBer .object) l
    let (vs, l) ← field (setBer 0 17 (d2i_any ok)) l
    let l ← seqEnd inf l
    return (⟨some oid, vs⟩, l)

/-- The parameters of an algorithm if their type is SEQUENCE, with tag and length (engine/ameth.c:216-217 and 421-422). -/
def paramSeq : Option AsnVal → Option (List Byte)
  | some (.seq s) => some s
  | _ => none

/-- OpenSSL `i2d_X509_ALGOR` with parameters of type SEQUENCE, whose encoding is kept as it is. -/
def i2d_algor (t : KeyType) (params : List Byte) : List Byte := tlv 0x30 (tlv 0x06 (keyOid t) ++ params)

/-- OpenSSL `i2d_PKCS8_PRIV_KEY_INFO` after `PKCS8_pkey_set0` with version 0 (engine/ameth.c:335): no attributes. -/
def i2d_pkcs8 (t : KeyType) (params prk : List Byte) : List Byte := tlv 0x30 (tlv 0x02 [0] ++ (i2d_algor t params ++ tlv 0x04 prk))

/-- OpenSSL `PKCS8_PRIV_KEY_INFO`: SEQUENCE { version INTEGER, pkeyalg X509_ALGOR, pkey OCTET STRING, attributes [0] IMPLICIT SET OF X509_ATTRIBUTE OPTIONAL }.  The identifier and the
parameters of the algorithm, the key and the attributes; the version may be any number. -/
def pkcs8Ber (ok : Nat → List Byte → Bool) : List Byte → Option (((List Byte × Option AsnVal) × List Byte × Option (List Attr)) × List Byte) :=
  seqBer fun inf l => do
    let (_, l) ← field (primBer .integer) l
    let (alg, l) ← field (d2i_algor ok) l
    let (prk, l) ← field (primBer .octets) l
    let (as, l) ← lastField (setBer 0x80 0 (d2i_attribute ok)) inf l
    return ((alg, prk, as), l)

/-- OpenSSL `d2i_PKCS8_PRIV_KEY_INFO`, and what `PKCS8_pkey_get0` and `X509_ALGOR_get0` give (engine/ameth.c:195, 216). -/
def d2i_pkcs8 (ok : Nat → List Byte → Bool) (l : List Byte) : Option Pkcs8 :=
  (pkcs8Ber ok l).map fun x => ⟨algId x.1.1.1, paramSeq x.1.1.2, x.1.2.1⟩

/-- OpenSSL `i2d_X509_PUBKEY` after `X509_PUBKEY_set0_param` (engine/ameth.c:600): the bit string has no unused bits. -/
def i2d_spki (t : KeyType) (params pbk : List Byte) : List Byte := tlv 0x30 (i2d_algor t params ++ tlv 0x03 (0 :: pbk))

/-- OpenSSL `d2i_X509_PUBKEY`, and what `X509_PUBKEY_get0_param` and `X509_ALGOR_get0` give (engine/ameth.c:415, 421): SEQUENCE { algor X509_ALGOR, public_key BIT STRING }. -/
def d2i_spki (ok : Nat → List Byte → Bool) (l : List Byte) : Option X509Pubkey :=
  (seqBer (fun inf l => do
    let (alg, l) ← field (d2i_algor ok) l
    let (pbk, l) ← field bitsBer l
    let l ← seqEnd inf l
    return ((alg, pbk), l)) l).map fun x => ⟨algId x.1.1.1, paramSeq x.1.1.2, x.1.2⟩

variable (env : Env)

/-- OpenSSL `EVP_PKEY2PKCS8` and `i2d_PKCS8_PRIV_KEY_INFO`: engine/ameth.c:275-356 `dstu_asn1_priv_encode` fills the structure. -/
noncomputable def exportPrivate (pk : EvpPkey) : Option (List Byte) :=
  match dstu_asn1_priv_encode env pk with
  | some ⟨some t, some params, prk⟩ => some (i2d_pkcs8 t params prk)
  | _ => none

/-- OpenSSL `d2i_PKCS8_PRIV_KEY_INFO` and `EVP_PKCS82PKEY`: a new `EVP_PKEY` is given the type of the algorithm, then engine/ameth.c:182-273 `dstu_asn1_priv_decode`
fills it.  Keys of other algorithms are not modelled (`none`). -/
noncomputable def importPrivate (ok : Nat → List Byte → Bool) (l : List Byte) : Option EvpPkey :=
  match d2i_pkcs8 ok l with
  | none => none
  | some p8 =>
    match p8.alg with
    | none => none
    | some t =>
      match dstu_asn1_priv_decode env ⟨t, none⟩ p8 with
      | (true, pk) => some pk
      | (false, _) => none

/-- OpenSSL `i2d_PUBKEY`: engine/ameth.c:519-629 `dstu_asn1_pub_encode` fills the structure. -/
noncomputable def exportPublic (pk : EvpPkey) : Option (List Byte) :=
  match dstu_asn1_pub_encode env pk with
  | some ⟨some t, some params, pbk⟩ => some (i2d_spki t params pbk)
  | _ => none

/-- OpenSSL `d2i_PUBKEY`: engine/ameth.c:394-517 `dstu_asn1_pub_decode` fills the new key. -/
noncomputable def importPublic (ok : Nat → List Byte → Bool) (l : List Byte) : Option EvpPkey :=
  match d2i_spki ok l with
  | none => none
  | some pub =>
    match pub.alg with
    | none => none
    | some t =>
      match dstu_asn1_pub_decode env ⟨t, none⟩ pub with
      | (true, pk) => some pk
      | (false, _) => none

end Dstu
