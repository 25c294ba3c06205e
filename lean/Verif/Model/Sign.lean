import Verif.Model.Ec

/-! Signatures: engine/sign.c, `dstu_pkey_sign` and `dstu_pkey_verify` of engine/pmeth.c and
`dstu_asn1_pkey_size` of engine/ameth.c. -/

namespace Dstu

open Spec

/-- engine/sign.c:15-25 `bn_truncate_bits`: clears the top bit while there are more than `bitsize`.
`none`: `BN_clear_bit` failed (the number is 0 and `bitsize` is negative).  The first argument bounds
the number of iterations; `bn_truncate_bits` supplies enough. -/
def truncLoop : Nat → Nat → Int → Option Nat
  | 0, bn, bitsize => if (numBits bn : Int) > bitsize then none else some bn
  | fuel + 1, bn, bitsize =>
    if (numBits bn : Int) > bitsize then
      if bn = 0 then none else truncLoop fuel (bn ^^^ 2 ^ (numBits bn - 1)) bitsize
    else some bn

/-- engine/sign.c:15-25 `bn_truncate_bits`. -/
def bn_truncate_bits (bn : Nat) (bitsize : Int) : Option Nat := truncLoop (numBits bn) bn bitsize

/-- engine/sign.c:27-49 `hash_to_field`.  For an empty digest `OPENSSL_malloc(0)` returns NULL, so the
function fails.  The length is an `int` in C; digests of 2^31 bytes or more are not modelled. -/
def hash_to_field (hash : List Byte) (fieldsize : Nat) : Option Nat :=
  if hash = [] then none
  else
    let fe := bin2bn hash.reverse
    let fe := if fe = 0 then 1 else fe
    bn_truncate_bits fe fieldsize

/-- engine/sign.c:51-54 `field_to_bn`. -/
def field_to_bn (fe order : Nat) : Option Nat := bn_truncate_bits fe ((numBits order : Int) - 1)

/-- OpenSSL `BN_mod_add_quick`: the sum of two numbers below `m`, reduced by one subtraction
(used at engine/sign.c:137). -/
def mod_add_quick (a b m : Nat) : Nat := if a + b ≥ m then a + b - m else a + b

/-- One pass through the nested loops of `dstu_do_sign`, engine/sign.c:114-140, for a nonce `e`:
failure, another draw wanted (`Fe`, `r` or `s` is zero), or the pair `(r, s)`. -/
noncomputable def signStep (g : EcGroup) [GoodGroup g] (d h e : Nat) : Drawn (Nat × Nat) :=
  match affine (ec_mul g e none) with
  | none => .failed
  | some (Fe, _) =>
    if Fe = 0 then .waiting
    else
      match field_to_bn (gf2m_mul g.p h Fe) g.n with
      | none => .failed
      | some r =>
        if r = 0 then .waiting
        else
          let s := mod_add_quick (d * r % g.n) e g.n
          if s = 0 then .waiting else .done (r, s)

/-- engine/sign.c:108-142, the three nested loops of `dstu_do_sign`: each of their conditions leads
back to the next draw.  A draw is the outcome of one call of `BN_rand_range`: failure or a number. -/
noncomputable def signLoop (g : EcGroup) [GoodGroup g] (d h : Nat) : List (Option Nat) → Drawn (Nat × Nat)
  | [] => .waiting
  | none :: _ => .failed
  | some e :: rest =>
    match signStep g d h e with
    | .waiting => signLoop g d h rest
    | .failed => .failed
    | .done rs => .done rs

/-- engine/sign.c:56-161 `dstu_do_sign`: the bytes written to `sig`.  Only binary fields are modelled,
so the check of the field type is left out. -/
noncomputable def dstu_do_sign (g : EcGroup) [GoodGroup g] (key : EcKey g) (tbs : List Byte)
    (draws : List (Option Nat)) : Drawn (List Byte) :=
  match key.priv with
  | none => .failed
  | some d =>
    let field_size := numBytes g.n
    match hash_to_field tbs g.degree with
    | none => .failed
    | some h =>
      match signLoop g d h draws with
      | .waiting => .waiting
      | .failed => .failed
      | .done (r, s) =>
        match bn_encode s field_size with
        | (0, _) => .failed
        | (_, none) => .failed
        | (_, some sb) =>
          match bn_encode r field_size with
          | (0, _) => .failed
          | (_, none) => .failed
          | (_, some rb) => .done (sb ++ rb)

/-- engine/sign.c:163-254 `dstu_do_verify`. -/
noncomputable def dstu_do_verify (g : EcGroup) [GoodGroup g] (key : EcKey g) (tbs : List Byte)
    (sig : List Byte) : Bool :=
  match key.pub with
  | none => false
  | some Q =>
    match hash_to_field tbs g.degree with
    | none => false
    | some h =>
      let s := bin2bn (sig.take (sig.length / 2))
      let r := bin2bn ((sig.drop (sig.length / 2)).take (sig.length / 2))
      if s = 0 ∨ r = 0 then false
      else if s ≥ g.n ∨ r ≥ g.n then false
      else
        match affine (ec_mul g s (some (Q, r))) with
        | none => false
        | some (Rx, _) =>
          match field_to_bn (gf2m_mul g.p h Rx) g.n with
          | none => false
          | some r1 => r = r1

/-- The two types of keys, `NID_dstu4145le` and `NID_dstu4145be`. -/
inductive KeyType where
  | le
  | be
deriving DecidableEq

/-- DER length octets. -/
def derLen (n : Nat) : List Byte :=
  if n < 128 then [BitVec.ofNat 8 n] else BitVec.ofNat 8 (128 + numBytes n) :: bn2bin n

/-- OpenSSL `i2d_ASN1_OCTET_STRING`: the DER encoding of an octet string (used at engine/pmeth.c:297). -/
def i2d_octet (c : List Byte) : List Byte := 0x04 :: (derLen c.length ++ c)

/-- OpenSSL `d2i_ASN1_OCTET_STRING` (used at engine/pmeth.c:360): any function that decodes the DER
encoding of an octet string at the start of the input, ignoring what follows, and that fails on input
that starts with another tag than OCTET STRING (primitive or constructed; 0x1f and 0x3f are the first bytes of
tags in the long form, which OpenSSL reads for small numbers too). -/
structure OctetDecoder where
  d2i : List Byte → Option (List Byte)
  der : ∀ c rest, c.length < 2 ^ 28 → d2i (i2d_octet c ++ rest) = some c
  tag : ∀ b rest, b ≠ 0x04 → b ≠ 0x24 → b ≠ 0x1f → b ≠ 0x3f → d2i (b :: rest) = none

/-- engine/ameth.c:369-384 `dstu_asn1_pkey_size`; `ASN1_object_size(0, length, V_ASN1_OCTET_STRING)` is
the size of the encoding with a content of `length` bytes. -/
def pkey_size (g : EcGroup) : Nat := 1 + (derLen (numBytes g.n * 2)).length + numBytes g.n * 2

/-- What `dstu_pkey_sign` does to the caller: return value, the value left in `*siglen`, and the bytes
written at the start of the buffer. -/
structure SignOut where
  ret : Bool
  siglen : Nat
  written : List Byte

/-- engine/pmeth.c:228-314 `dstu_pkey_sign`.  `sig` is NULL (`none`) or a buffer of the size passed in
`*siglen`.  A missing key or group is not modelled.  The DER encoding is written even if the buffer
were smaller; that this never happens is part of C25.  Access outside `sig_data` (undefined behaviour)
would be `failed`. -/
noncomputable def dstu_pkey_sign (type : KeyType) (g : EcGroup) [GoodGroup g] (key : EcKey g) (sig : Bool)
    (siglen : Nat) (tbs : List Byte) (draws : List (Option Nat)) : Drawn SignOut :=
  let encoded_sig_size := pkey_size g
  if sig ∧ encoded_sig_size > siglen then .done ⟨false, encoded_sig_size, []⟩
  else if sig then
    match dstu_do_sign g key tbs draws with
    | .waiting => .waiting
    | .failed => .done ⟨false, encoded_sig_size, []⟩
    | .done sig_data =>
      match (if type = .le then reverse_bytes sig_data (2 * numBytes g.n) else some sig_data) with
      | none => .failed
      | some sig_data =>
        let der := i2d_octet sig_data
        .done ⟨true, der.length, der⟩
  else .done ⟨true, encoded_sig_size, []⟩

/-- engine/pmeth.c:316-395 `dstu_pkey_verify`. -/
noncomputable def dstu_pkey_verify (dec : OctetDecoder) (type : KeyType) (g : EcGroup) [GoodGroup g]
    (key : EcKey g) (sig tbs : List Byte) : Bool :=
  let sig := (dec.d2i sig).getD sig
  if sig.length % 2 = 1 then false
  else if sig.length < 2 * numBytes g.n then false
  else
    match type with
    | .le =>
      match reverse_bytes_copy sig sig.length with
      | none => false
      | some sig_be => dstu_do_verify g key tbs sig_be
    | .be => dstu_do_verify g key tbs sig

end Dstu
