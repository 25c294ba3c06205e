import Verif.Model.Key
import Verif.Model.Pkcs12

/-! Model of keylib/utils.c: keys from a decoded PKCS#8 structure and from its attributes.  Memory allocation is assumed to
succeed. -/

namespace Dstu

/-- A value of an attribute, by its ASN.1 type: octet string, bit string, sequence (its encoding), anything else. -/
inductive AsnVal where
  | octet (b : List Byte)
  | bit (b : List Byte)
  | seq (der : List Byte)
  | other

/-- `X509_ATTRIBUTE`: the identifier (`none`: absent) and the values. -/
structure Attr where
  oid : Option (List Byte)
  values : List AsnVal

/-- keylib/utils.c:23 `dstu4145CurveOID`, 1.3.6.1.4.1.19398.1.1.2.2, encoded. -/
def dstu4145CurveOID : List Byte := [0x2B, 0x06, 0x01, 0x04, 0x01, 0x81, 0x97, 0x46, 0x01, 0x01, 0x02, 0x02]

/-- keylib/utils.c:24 `dstu4145KeyOID`, 1.3.6.1.4.1.19398.1.1.2.3, encoded. -/
def dstu4145KeyOID : List Byte := [0x2B, 0x06, 0x01, 0x04, 0x01, 0x81, 0x97, 0x46, 0x01, 0x01, 0x02, 0x03]

/-- keylib/utils.c:40-48: the first octet or bit string among the values. -/
def findString : List AsnVal → Option (List Byte)
  | [] => none
  | .octet b :: _ => some b
  | .bit b :: _ => some b
  | _ :: l => findString l

/-- keylib/utils.c:57-60: the bits of a byte in opposite order. -/
def swapBits (b : Byte) : Byte :=
  let b := (b &&& 0xF0) >>> 4 ||| (b &&& 0x0F) <<< 4
  let b := (b &&& 0xCC) >>> 2 ||| (b &&& 0x33) <<< 2
  (b &&& 0xAA) >>> 1 ||| (b &&& 0x55) <<< 1

/-- keylib/utils.c:54-63: the loop, `n` steps from `i`; `none`: outside a buffer. -/
def swapLoop (data : List Byte) : (n i : Nat) → List Byte → Option (List Byte)
  | 0, _, buf => some buf
  | n + 1, i, buf =>
    match data[i]? with
    | none => none
    | some b =>
      if data.length - i - 1 < buf.length then swapLoop data n (i + 1) (buf.set (data.length - i - 1) (swapBits b)) else none

/-- keylib/utils.c:26-70 `getPrivateKeyNum`: the number, if there is one (outer `none`: undefined behaviour). -/
def getPrivateKeyNum (attr : Attr) : Option (Option Nat) :=
  match findString attr.values with
  | none => some none
  | some data =>
    match swapLoop data data.length 0 (List.replicate data.length 0) with
    | none => none
    | some buf => some (some (bin2bn buf))

/-- The array at keylib/utils.c:75-92. -/
def polyExponents (m : Int) (poly : PolySpec) : List Int :=
  match poly with
  | .trinomial k => [asn1_integer_get m, asn1_integer_get k, 0, -1]
  | .pentanomial k j l => [asn1_integer_get m, asn1_integer_get k, asn1_integer_get j, asn1_integer_get l, 0, -1]

/-- keylib/utils.c:72-96 `makePoly`; `none` is NULL: `BN_GF2m_arr2poly` fails on a negative entry before the first -1. -/
def makePoly (m : Int) (poly : PolySpec) : Option Nat :=
  let arr := polyExponents m poly
  if (arr.takeWhile (· ≠ -1)).all fun k => decide (0 ≤ k) then some (arr2poly arr) else none

/-- keylib/utils.c:98-146 `makeECGROUPFromSpec` with `makePoint`.  Outer `none`: undefined behaviour, the polynomial is NULL
and dereferenced by `EC_GROUP_new_curve_GF2m`; inner `none` is NULL.  The check at 132 cannot fail: `dstu_point_expand` gives
points of the curve only. -/
noncomputable def makeECGROUPFromSpec (sq : QuadSolver) (spec : CustomCurveSpec) : Option (Option EcGroup) :=
  match makePoly spec.m spec.poly with
  | none => none
  | some p =>
    match new_curve_GF2m p spec.a.natAbs (bin2bn spec.b) with
    | none => some none
    | some (p, a, b) =>
      match dstu_point_expand sq spec.bp ⟨p, a, b, 0, 0, 0, 0⟩ with
      | none => some none
      | some (x, y) =>
        if set_generator_ok p spec.n then some (some ⟨p, a, b, x, y, spec.n.toNat, 1⟩) else some none

/-- What is given from outside: OpenSSL's decoders of PKCS#8 and of `DSTU_AttrCurveSpec` (only its `spec` is used), and
`EVP_PKCS82PKEY`. -/
structure P8Env extends Env where
  d2i_PKCS8 : List Byte → Option (List Byte × List (Option Attr))
  unpack_spec : List Byte → Option CustomCurveSpec
  pkcs82pkey : List Byte → Option EvpPkey

variable (env : P8Env)

/-- keylib/utils.c:158-163: the first value that is a curve. -/
def findSpec : List AsnVal → Option CustomCurveSpec
  | [] => none
  | .seq der :: l => match env.unpack_spec der with | some s => some s | none => findSpec l
  | _ :: l => findSpec l

/-- keylib/utils.c:148-171 `makeECGROUP`. -/
noncomputable def makeECGROUP (attr : Attr) : Option (Option EcGroup) :=
  match findSpec env attr.values with
  | none => some none
  | some spec => makeECGROUPFromSpec env.sq spec

/-- keylib/utils.c:173-226 `makePKey`: outer `none`: undefined behaviour; inner `none` is NULL. -/
noncomputable def makePKey (curveAttr keyAttr : Attr) : Option (Option EvpPkey) :=
  match getPrivateKeyNum keyAttr with
  | none => none
  | some pkNum =>
    match makeECGROUP env curveAttr with
    | none => none
    | some group =>
      match pkNum, group with
      | some d, some g =>
        match add_public_key env.toEnv g d with
        | none => some none
        | some Q => some (some ⟨.le, some ⟨some g, none, some d, some Q⟩⟩)
      | _, _ => some none

/-- keylib/utils.c:241-253: the loop over the attributes; later ones replace earlier ones. -/
def findAttrs : List (Option Attr) → Option Attr × Option Attr → Option Attr × Option Attr
  | [], r => r
  | none :: l, r => findAttrs l r
  | some attr :: l, (curveAttr, keyAttr) =>
    match attr.oid with
    | none => findAttrs l (curveAttr, keyAttr)
    | some oid =>
      if oid = dstu4145CurveOID then findAttrs l (some attr, keyAttr)
      else if oid = dstu4145KeyOID then findAttrs l (curveAttr, some attr)
      else findAttrs l (curveAttr, keyAttr)

/-- keylib/utils.c:228-263 `pkeyFromAttributes`. -/
noncomputable def pkeyFromAttributes (attributes : List (Option Attr)) : Option (Option EvpPkey) :=
  match findAttrs attributes (none, none) with
  | (some curveAttr, some keyAttr) => makePKey env curveAttr keyAttr
  | _ => some none

/-- keylib/utils.c:268-282, in `keysFromPKCS8`: the keys; outer `none`: undefined behaviour, inner `none`: failure. -/
noncomputable def pkcs8Keys (data : List Byte) : Option (Option (EvpPkey × Option EvpPkey)) :=
  match env.d2i_PKCS8 data with
  | none => some none
  | some (p8, attributes) =>
    match env.pkcs82pkey p8 with
    | none => some none
    | some pkey1 =>
      match pkeyFromAttributes env attributes with
      | none => none
      | some pkey2 => some (some (pkey1, pkey2))

/-- keylib/utils.c:265-296 `keysFromPKCS8`.  `keys` is the part that makes the keys, `pkcs8Keys`; it is a parameter so that the
readers of containers can be studied for any kind of key.  `ks` is what `*ks` was before; the result is the returned
value, `*ks` and the memory. -/
def keysFromPKCS8 {κ χ : Type} (keys : List Byte → Option (Option (κ × Option κ))) (data : List Byte) (ks : Option Nat) (m : ImpMem κ χ) :
    Option (Bool × Option Nat × ImpMem κ χ) :=
  match keys data with
  | none => none
  | some none => some (false, ks, m)
  | some (some (k1, none)) =>
    let a1 := m.ks.nextObj
    let m := m.newKey k1
    match KeyStoreNew 1 0 m.ks with
    | none => none
    | some (id, mem) =>
      match KeyStoreSet .keys id 0 (.ptr a1) mem with
      | none => none
      | some mem => some (true, some id, { m with ks := mem })
  | some (some (k1, some k2)) =>
    let a1 := m.ks.nextObj
    let m := m.newKey k1
    let a2 := m.ks.nextObj
    let m := m.newKey k2
    match KeyStoreNew 2 0 m.ks with
    | none => none
    | some (id, mem) =>
      match KeyStoreSet .keys id 0 (.ptr a1) mem with
      | none => none
      | some mem =>
        match KeyStoreSet .keys id 1 (.ptr a2) mem with
        | none => none
        | some mem => some (true, some id, { m with ks := mem })

end Dstu
