import Verif.Model.Key

/-! Printing of keys, engine/ameth.c:160-180 and 691-725.

The three functions wrap the `EC_KEY` of the key into a temporary `EVP_PKEY` and leave the printing to
OpenSSL.  Simplification: what is printed is a list of items; their layout as text (indentation, hex,
lines of fifteen bytes) is not modelled, and neither are failures of the output and of allocations. -/

namespace Dstu

/-- OpenSSL `ec_print_t`: what is asked for. -/
inductive PrintKind where
  | priv
  | pub
  | params
deriving DecidableEq

/-- The items OpenSSL prints for an elliptic curve key. -/
inductive PrintItem where
  /-- `Private-Key: (163 bit)`, `Public-Key: (163 bit)` or `ECDSA-Parameters: (163 bit)` -/
  | title (kind : PrintKind) (bits : Nat)
  /-- `priv:` and the bytes -/
  | priv (bytes : List Byte)
  /-- `pub:` and the bytes -/
  | pub (bytes : List Byte)
  /-- `Field Type:` to `Cofactor:`, the parameters in full -/
  | curve (g : EcGroup)
deriving DecidableEq

/-- OpenSSL `EC_KEY_key2buf` (`ec_GF2m_simple_point2oct` in uncompressed form, the default); `none`: error. -/
def key2buf (g : EcGroup) : Option (Nat × Nat) → Option (List Byte)
  | none => some [0]
  | some (x, y) =>
    let field_len := (g.degree + 7) / 8
    if field_len < numBytes x ∨ field_len < numBytes y then none
    else some (4 :: (bytesBE field_len x ++ bytesBE field_len y))

/-- OpenSSL `EC_KEY_priv2buf`: as many bytes as the order has; `none`: error (`BN_bn2binpad`). -/
def priv2buf (g : EcGroup) (d : Nat) : Option (List Byte) :=
  let buf_len := (numBits g.n + 7) / 8
  if buf_len = 0 ∨ buf_len < numBytes d then none else some (bytesBE buf_len d)

/-- OpenSSL `ECPKParameters_print` for a group without a curve name, as all groups of this engine are: nothing calls
`EC_GROUP_set_curve_name`.  `namedFlag`: what `EC_GROUP_new` sets `asn1_flag` to, `OPENSSL_EC_NAMED_CURVE` (true) since OpenSSL 1.1.0. -/
def printGroup (namedFlag : Bool) (g : EcGroup) : Bool × List PrintItem :=
  if namedFlag then (false, []) else (true, [.curve g])

/-- OpenSSL `do_EC_KEY_print` (crypto/ec/ec_ameth.c): return value and what was printed. -/
def do_EC_KEY_print (namedFlag : Bool) (key : DstuKey) (ktype : PrintKind) : Bool × List PrintItem :=
  match key.group with
  | none => (false, [])
  | some g =>
    let pub : Option (List PrintItem) :=
      match ktype, key.pub with
      | .params, _ => some []
      | _, none => some []
      | _, some Q => (key2buf g Q).map fun b => [.pub b]
    let priv : Option (List PrintItem) :=
      match ktype, key.priv with
      | .priv, some d => (priv2buf g d).map fun b => [.priv b]
      | _, _ => some []
    match pub, priv with
    | some pub, some priv =>
      let r := printGroup namedFlag g
      (r.1, .title ktype (numBits g.n) :: (priv ++ pub ++ r.2))
    | _, _ => (false, [])

/-- engine/ameth.c:160-180 `dstu_asn1_param_print`.  `none`: undefined behaviour, lines 163 and 170 dereference the missing key. -/
def dstu_asn1_param_print (namedFlag : Bool) (pkey : EvpPkey) : Option (Bool × List PrintItem) :=
  match pkey.key with
  | none => none
  | some key => some (do_EC_KEY_print namedFlag key .params)

/-- engine/ameth.c:691-707 `dstu_asn1_priv_print`.  `none` as above, lines 695 and 700. -/
def dstu_asn1_priv_print (namedFlag : Bool) (pkey : EvpPkey) : Option (Bool × List PrintItem) :=
  match pkey.key with
  | none => none
  | some key => some (do_EC_KEY_print namedFlag key .priv)

/-- engine/ameth.c:709-725 `dstu_asn1_pub_print`.  `none` as above, lines 713 and 718. -/
def dstu_asn1_pub_print (namedFlag : Bool) (pkey : EvpPkey) : Option (Bool × List PrintItem) :=
  match pkey.key with
  | none => none
  | some key => some (do_EC_KEY_print namedFlag key .pub)

end Dstu
