import Verif.Model.Ec
import Verif.Model.Compress
import Verif.Model.Sbox
import Verif.Model.Sign

/-! Keys and their encodings: dstulib/key.c, dstulib/asn1.h and the ASN.1 method of engine/ameth.c.

Keys are values here: an `EC_KEY` with group, private and public key, and the S-box.  Memory is the
subject of `Verif.Model.KeyHeap`.  Allocation failures are not modelled. -/

namespace Dstu

open Spec

/-- dstulib/asn1.h:13-37 `DSTU_Polynomial` with `DSTU_Pentanomial`.  ASN.1 integers are integers. -/
inductive PolySpec where
  | trinomial (k : Int)
  | pentanomial (k j l : Int)
deriving DecidableEq

/-- dstulib/asn1.h:39-58 `DSTU_BinaryField`, `DSTU_CustomCurveSpec`. -/
structure CustomCurveSpec where
  m : Int
  poly : PolySpec
  a : Int
  b : List Byte
  n : Int
  bp : List Byte
deriving DecidableEq

/-- dstulib/asn1.h:60-75 `DSTU_CurveSpec`.  A named curve is given by the bytes of its identifier. -/
inductive CurveSpec where
  | named (oid : List Byte)
  | custom (spec : CustomCurveSpec)
deriving DecidableEq

/-- dstulib/asn1.h:77-81 `DSTU_AlgorithmParameters`. -/
structure AlgorithmParameters where
  curve : CurveSpec
  sbox : Option (List Byte)
deriving DecidableEq

/-- The contents of a DER object identifier: one or more subidentifiers, each a sequence of bytes of
which exactly the last is below 128 and the first is not 128. -/
def ValidOid (oid : List Byte) : Prop :=
  oid ≠ [] ∧ oid.length < 128 ∧ oid.head? ≠ some 0x80 ∧ (∀ b, oid.getLast? = some b → b < 0x80) ∧
    ∀ i b c, oid[i]? = some b → oid[i + 1]? = some c → b < 0x80 → c ≠ 0x80

/-- OpenSSL's table of object identifiers (`OBJ_nid2obj`, `OBJ_obj2nid`): it knows those of the ten
built-in curves. -/
structure ObjTable (nids : CurveNids) where
  nid2obj : Nat → List Byte
  obj2nid : List Byte → Nat
  inv : ∀ i, obj2nid (nid2obj (nids.uacurve i)) = nids.uacurve i
  valid : ∀ i, ValidOid (nid2obj (nids.uacurve i))

/-- `int x = ASN1_INTEGER_get(a)` (used at dstulib/key.c:231): `ASN1_INTEGER_get` returns -1 for a value
that does not fit into a `long` (64 bits), and the assignment keeps the low 32 bits. -/
def asn1_integer_get (v : Int) : Int :=
  if v < -2 ^ 63 ∨ 2 ^ 63 ≤ v then -1 else v.bmod (2 ^ 32)

/-- OpenSSL `BN_GF2m_poly2arr(p, poly, 6)` (used at dstulib/key.c:122): the exponents in descending
order, then -1 if there is room.  Entries past the end of the list are not written. -/
def poly2arr (p : Nat) : List Int :=
  (((List.range (p.log2 + 1)).filter p.testBit).reverse.map Int.ofNat ++ [-1]).take 6

/-- A `DSTU_KEY` (dstulib/key.h:14-18) with the contents of its `EC_KEY`: group, private key, public
key (by its coordinates, `none` for the point at infinity). -/
structure DstuKey where
  group : Option EcGroup
  sbox : Option (Bytes 64)
  priv : Option Nat
  pub : Option (Option (Nat × Nat))

/-- dstulib/key.c:19-35 `DSTU_KEY_new`. -/
def DSTU_KEY_new : DstuKey := ⟨none, none, none, none⟩

/-- The field part of `asn1_from_key`, dstulib/key.c:125-157: degree and polynomial.  `none`: `goto err`;
a comparison with an entry that was not written counts as unequal. -/
def fieldSpec (poly : List Int) : Option (Int × PolySpec) :=
  if poly[3]? = some (-1) ∧ poly[2]? = some 0 then
    some (poly.getD 0 0, .trinomial (poly.getD 1 0))
  else if poly[5]? = some (-1) ∧ poly[4]? = some 0 then
    some (poly.getD 0 0, .pentanomial (poly.getD 3 0) (poly.getD 2 0) (poly.getD 1 0))
  else none

/-- `if (is_little_endian) reverse_bytes(...)`, dstulib/key.c:177-178, 188-189. -/
def maybeReverse (le : Bool) (l : List Byte) : Option (List Byte) :=
  if le then reverse_bytes l l.length else some l

/-- The custom curve branch of `asn1_from_key`, dstulib/key.c:96-193. -/
noncomputable def custom_from_group (g : EcGroup) (le : Bool) : Option CustomCurveSpec :=
  match fieldSpec (poly2arr g.p) with
  | none => none
  | some (m, poly) =>
    let field_size := ((m + 7) / 8).toNat
    match bn_encode g.b field_size with
    | (0, _) => none
    | (_, none) => none
    | (_, some b) =>
      match maybeReverse le b with
      | none => none
      | some b =>
        match dstu_point_compress g (some (g.gx, g.gy)) field_size with
        | (false, _) => none
        | (true, none) => none
        | (true, some bp) =>
          match maybeReverse le bp with
          | none => none
          | some bp => some ⟨m, poly, g.a, b, g.n, bp⟩

/-- dstulib/key.c:82-93, in `asn1_from_key`: the S-box that is encoded, none for the default one. -/
def encodedSbox (s : Option (Bytes 64)) : Option (List Byte) :=
  match s with
  | none => none
  | some s => if is_default_sbox s then none else some s.toList

/-- dstulib/key.c:66-219 `asn1_from_key`. -/
noncomputable def asn1_from_key (nids : CurveNids) (objs : ObjTable nids) (key : DstuKey) (le : Bool) :
    Option AlgorithmParameters :=
  match key.group with
  | none => none
  | some g =>
    let sbox := encodedSbox key.sbox
    let curve_nid := curve_nid_from_group nids g
    if curve_nid = NID_undef then
      match custom_from_group g le with
      | none => none
      | some spec => some ⟨.custom spec, sbox⟩
    else some ⟨.named (objs.nid2obj curve_nid), sbox⟩

/-- dstulib/key.c:231-260: the array of exponents, `none` for a non-positive entry. -/
def polyArray (m : Int) (poly : PolySpec) : Option (List Int) :=
  let p0 := asn1_integer_get m
  if p0 ≤ 0 then none
  else
    match poly with
    | .trinomial k =>
      let p1 := asn1_integer_get k
      if p1 ≤ 0 then none else some [p0, p1, 0, -1]
    | .pentanomial k j l =>
      let p1 := asn1_integer_get l
      if p1 ≤ 0 then none
      else
        let p2 := asn1_integer_get j
        if p2 ≤ 0 then none
        else
          let p3 := asn1_integer_get k
          if p3 ≤ 0 then none else some [p0, p1, p2, p3, 0, -1]

/-- `if (is_little_endian)` copy reversed, else use as it is, dstulib/key.c:286-312, 326-352. -/
def maybeReverseCopy (le : Bool) (l : List Byte) : Option (List Byte) :=
  if le then (if l.length = 0 then none else reverse_bytes_copy l l.length) else some l

/-- OpenSSL `EC_GROUP_set_generator` (used at dstulib/key.c:354) checks the order: positive and at most
one bit longer than the field polynomial. -/
def set_generator_ok (p : Nat) (n : Int) : Prop := 0 < n ∧ numBits n.toNat ≤ numBits p + 1

instance (p : Nat) (n : Int) : Decidable (set_generator_ok p n) := inferInstanceAs (Decidable (_ ∧ _))

/-- dstulib/key.c:221-372 `group_from_asn1`. -/
noncomputable def group_from_asn1 (sq : QuadSolver) (spec : CustomCurveSpec) (le : Bool) : Option EcGroup :=
  match polyArray spec.m spec.poly with
  | none => none
  | some poly =>
    let p := arr2poly poly
    if spec.a ≠ 1 ∧ spec.a ≠ 0 then none
    else
      match maybeReverseCopy le spec.b with
      | none => none
      | some bb =>
        match new_curve_GF2m p spec.a.toNat (bin2bn bb) with
        | none => none
        | some (p, a, b) =>
          match maybeReverseCopy le spec.bp with
          | none => none
          | some bp =>
            match dstu_point_expand sq bp ⟨p, a, b, 0, 0, 0, 0⟩ with
            | none => none
            | some (x, y) =>
              if set_generator_ok p spec.n then some ⟨p, a, b, x, y, spec.n.toNat, 1⟩ else none

/-- A 64-byte string as an S-box. -/
def bytes64 (l : List Byte) : Option (Bytes 64) :=
  if h : l.length = 64 then some ⟨l.toArray, by simpa using h⟩ else none

/-- dstulib/key.c:399-417, in `key_from_asn1`: the group of a named or custom curve. -/
noncomputable def curveGroup (sq : QuadSolver) (nids : CurveNids) (objs : ObjTable nids) (curve : CurveSpec) (le : Bool) :
    Option EcGroup :=
  match curve with
  | .named oid => group_from_nid nids (objs.obj2nid oid)
  | .custom spec => group_from_asn1 sq spec le

/-- dstulib/key.c:374-438 `key_from_asn1`. -/
noncomputable def key_from_asn1 (sq : QuadSolver) (nids : CurveNids) (objs : ObjTable nids)
    (params : AlgorithmParameters) (le : Bool) : Option DstuKey :=
  let group := curveGroup sq nids objs params.curve le
  match params.sbox with
  | none =>
    match group with
    | none => none
    | some g => some { DSTU_KEY_new with group := some g }
  | some sbox =>
    match bytes64 sbox with
    | none => none
    | some s =>
      match group with
      | none => none
      | some g => some { DSTU_KEY_new with group := some g, sbox := if is_default_sbox s then none else some s }

/-- Parameters whose parts are not excessively large. -/
def AlgorithmParameters.Small (p : AlgorithmParameters) : Prop :=
  (match p.curve with
    | .named oid => ValidOid oid
    | .custom s => s.m.natAbs < 2 ^ 64 ∧
      (match s.poly with
        | .trinomial k => k.natAbs < 2 ^ 64
        | .pentanomial k j l => k.natAbs < 2 ^ 64 ∧ j.natAbs < 2 ^ 64 ∧ l.natAbs < 2 ^ 64) ∧
      s.a.natAbs < 2 ^ 64 ∧ s.b.length < 2 ^ 20 ∧ s.n.natAbs < 256 ^ 2 ^ 20 ∧ s.bp.length < 2 ^ 20) ∧
  ∀ s, p.sbox = some s → s.length < 2 ^ 20

/-- OpenSSL `i2d_DSTU_AlgorithmParameters` and `d2i_DSTU_AlgorithmParameters`, generated from the
templates in dstulib/asn1.c:9-60: any pair of functions such that decoding the encoding, whatever
follows it, gives the parameters back. `Verif.Lemmas.Asn1` shows that DER has this property. -/
structure ParamCodec where
  i2d : AlgorithmParameters → List Byte
  d2i : List Byte → Option AlgorithmParameters
  inv : ∀ p rest, p.Small → d2i (i2d p ++ rest) = some p

/-- An `EVP_PKEY` of this engine: its type and its key. -/
structure EvpPkey where
  type : KeyType
  key : Option DstuKey

/-- What the functions below are given from outside: OpenSSL's solver, identifiers, codecs, and what
`EC_POINT_mul` followed by `EC_POINT_invert` does for a group with invalid parameters. -/
structure Env where
  sq : QuadSolver
  nids : CurveNids
  objs : ObjTable nids
  codec : ParamCodec
  octet : OctetDecoder
  badGroup : EcGroup → Nat → Option (Option (Nat × Nat))

variable (env : Env)

/-- engine/ameth.c:28-66 `dstu_asn1_param_decode`: return value and the key afterwards. -/
noncomputable def dstu_asn1_param_decode (pkey : EvpPkey) (der : List Byte) : Bool × EvpPkey :=
  match env.codec.d2i der with
  | none => (false, pkey)
  | some params =>
    match key_from_asn1 env.sq env.nids env.objs params (pkey.type = .le) with
    | none => (false, pkey)
    | some key => (true, { pkey with key := some key })

/-- engine/ameth.c:68-89 `dstu_asn1_param_encode`: the encoding, `none` for the return value 0. -/
noncomputable def dstu_asn1_param_encode (pkey : EvpPkey) : Option (List Byte) :=
  match pkey.key with
  | none => none
  | some key =>
    match asn1_from_key env.nids env.objs key (pkey.type = .le) with
    | none => none
    | some params => some (env.codec.i2d params)

/-- engine/ameth.c:134-158 `dstu_asn1_param_cmp`.  `none`: undefined behaviour, a key without group is
dereferenced by `EC_GROUP_cmp`. -/
def dstu_asn1_param_cmp (a b : EvpPkey) : Option Int :=
  match a.key, b.key with
  | some first, some second =>
    let sboxes : Bool := match first.sbox, second.sbox with
      | none, none => true
      | some s, some t => s == t
      | _, _ => false
    if sboxes then
      match first.group, second.group with
      | some g, some h => if g = h then some 1 else some 0
      | _, _ => none
    else some 0
  | _, _ => some (-2)

open Classical in
/-- dstulib/params.c:537-567 `dstu_add_public_key` for the group and private key of a `DSTU_KEY`: the
public key.  For valid groups this is the function of `Verif.Model.Ec`. -/
noncomputable def add_public_key (g : EcGroup) (prk : Nat) : Option (Option (Nat × Nat)) :=
  if h : GoodGroup g then
    match @dstu_add_public_key g h ⟨some prk, none⟩ with
    | some ⟨_, some Q⟩ => some (@affine g Q)
    | _ => none
  else env.badGroup g prk

/-- The identifier of an algorithm: one of the two key types or something else. -/
abbrev AlgId := Option KeyType

/-- What is used of a `PKCS8_PRIV_KEY_INFO`: algorithm, parameters (`none` unless their type is
SEQUENCE) and the private key bytes. -/
structure Pkcs8 where
  alg : AlgId
  params : Option (List Byte)
  prk : List Byte

/-- engine/ameth.c:182-273 `dstu_asn1_priv_decode`.  OpenSSL `EVP_PKEY_set_type` drops any previous key. -/
noncomputable def dstu_asn1_priv_decode (pk : EvpPkey) (p8 : Pkcs8) : Bool × EvpPkey :=
  match p8.alg with
  | none => (false, pk)
  | some t =>
    let pk : EvpPkey := ⟨t, none⟩
    match p8.params with
    | none => (false, pk)
    | some params =>
      match dstu_asn1_param_decode env pk params with
      | (false, pk) => (false, pk)
      | (true, pk) =>
        if p8.prk.length = 0 then (false, pk)
        else
          match reverse_bytes_copy p8.prk p8.prk.length, pk.key with
          | some bn_bytes, some key =>
            let prk := bin2bn bn_bytes
            let key := { key with priv := some prk }
            match key.group with
            | none => (false, pk)
            | some g =>
              match add_public_key env g prk with
              | none => (false, { pk with key := some key })
              | some Q => (true, { pk with key := some { key with pub := some Q } })
          | _, _ => (false, pk)

/-- engine/ameth.c:275-356 `dstu_asn1_priv_encode`; `none` is the return value 0. -/
noncomputable def dstu_asn1_priv_encode (pk : EvpPkey) : Option Pkcs8 :=
  match dstu_asn1_param_encode env pk with
  | none => none
  | some params =>
    match pk.key with
    | none => none
    | some key =>
      match key.priv with
      | none => none
      | some d =>
        if numBytes d = 0 then none
        else
          match reverse_bytes (bn2bin d) (numBytes d) with
          | none => none
          | some prk => some ⟨some pk.type, some params, prk⟩

/-- What is used of an `X509_PUBKEY`: algorithm, parameters (`none` unless their type is SEQUENCE) and
the bytes of the bit string. -/
structure X509Pubkey where
  alg : AlgId
  params : Option (List Byte)
  pbk : List Byte

/-- engine/ameth.c:394-517 `dstu_asn1_pub_decode`. -/
noncomputable def dstu_asn1_pub_decode (pk : EvpPkey) (pub : X509Pubkey) : Bool × EvpPkey :=
  match pub.params with
  | none => (false, pk)
  | some params =>
    match pub.alg with
    | none => (false, pk)
    | some t =>
      let pk : EvpPkey := ⟨t, none⟩
      match dstu_asn1_param_decode env pk params with
      | (false, pk) => (false, pk)
      | (true, pk) =>
        match pk.key with
        | none => (false, pk)
        | some key =>
          match key.group with
          | none => (false, pk)
          | some g =>
            match env.octet.d2i pub.pbk with
            | none => (false, pk)
            | some public_key =>
              match maybeReverseCopy (t = .le) public_key with
              | none => (false, pk)
              | some compressed =>
                match dstu_point_expand env.sq compressed g with
                | none => (false, pk)
                | some xy => (true, { pk with key := some { key with pub := some (some xy) } })

/-- engine/ameth.c:519-629 `dstu_asn1_pub_encode`; `none` is the return value 0. -/
noncomputable def dstu_asn1_pub_encode (pk : EvpPkey) : Option X509Pubkey :=
  match dstu_asn1_param_encode env pk with
  | none => none
  | some params =>
    match pk.key with
    | none => none
    | some key =>
      match key.group with
      | none => none
      | some g =>
        let field_size := (g.degree + 7) / 8
        match key.pub with
        | none => none
        | some point =>
          match dstu_point_compress g point field_size with
          | (false, _) => none
          | (true, none) => none
          | (true, some compressed) =>
            match maybeReverse (pk.type = .le) compressed with
            | none => none
            | some compressed => some ⟨some pk.type, some params, i2d_octet compressed⟩

/-- engine/ameth.c:631-647 `dstu_asn1_pub_cmp` (OpenSSL calls it after `dstu_asn1_param_cmp` found the
parameters equal).  `none`: undefined behaviour, a missing group or public key is dereferenced. -/
def dstu_asn1_pub_cmp (a b : EvpPkey) : Option Int :=
  match a.key, b.key with
  | some first, some second =>
    match first.group, first.pub, second.pub with
    | some _, some P, some Q => if P = Q then some 1 else some 0
    | _, _, _ => none
  | _, _ => some (-2)

/-- engine/ameth.c:358-367 `dstu_asn1_pkey_bits`. -/
def dstu_asn1_pkey_bits (pk : EvpPkey) : Nat :=
  match pk.key with
  | none => 0
  | some key =>
    match key.group with
    | none => 0
    | some g => g.degree

end Dstu
