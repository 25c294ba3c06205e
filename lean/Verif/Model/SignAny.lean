import Verif.Model.Key

/-! Signing and verifying with any key object: parts may be missing, and the parameters of the group need not be valid, as they may come from an imported
certificate.  The functions are those of `Model/Sign`, with the checks of engine/pmeth.c for missing parts, and with OpenSSL's arithmetic as arbitrary functions. -/

namespace Dstu

open Spec

/-- OpenSSL's arithmetic in a group, about which nothing is assumed.  A point is given by its affine coordinates, `none` for the point at infinity. -/
structure EcLib where
  /-- `EC_POINT_mul(group, r, n, q, m)`, used at engine/sign.c:117, 224; `none`: failure -/
  mul : EcGroup → Nat → Option (Option (Nat × Nat) × Nat) → Option (Option (Nat × Nat))
  /-- `BN_GF2m_mod_mul(r, a, b, p)`, used at engine/sign.c:126, 233; `none`: failure -/
  gfMul : Nat → Nat → Nat → Option Nat

/-- engine/sign.c:114-140, one pass through the loops of `dstu_do_sign`, as `signStep`. -/
def signStepAny (lib : EcLib) (g : EcGroup) (d h e : Nat) : Drawn (Nat × Nat) :=
  match lib.mul g e none with
  | none => .failed
  | some none => .failed
  | some (some (Fe, _)) =>
    if Fe = 0 then .waiting
    else
      match lib.gfMul g.p h Fe with
      | none => .failed
      | some v =>
        match field_to_bn v g.n with
        | none => .failed
        | some r =>
          if r = 0 then .waiting
          else
            let s := mod_add_quick (d * r % g.n) e g.n
            if s = 0 then .waiting else .done (r, s)

/-- engine/sign.c:108-142, as `signLoop`. -/
def signLoopAny (lib : EcLib) (g : EcGroup) (d h : Nat) : List (Option Nat) → Drawn (Nat × Nat)
  | [] => .waiting
  | none :: _ => .failed
  | some e :: rest =>
    match signStepAny lib g d h e with
    | .waiting => signLoopAny lib g d h rest
    | .failed => .failed
    | .done rs => .done rs

/-- engine/sign.c:56-161 `dstu_do_sign`.  Only binary fields are modelled.  `EC_GROUP_get_order` (line 94) fails if the order is 0. -/
def dstu_do_sign_any (lib : EcLib) (key : DstuKey) (tbs : List Byte) (draws : List (Option Nat)) : Drawn (List Byte) :=
  match key.priv, key.group with
  | some d, some g =>
    if g.n = 0 then .failed
    else
      let field_size := numBytes g.n
      match hash_to_field tbs g.degree with
      | none => .failed
      | some h =>
        match signLoopAny lib g d h draws with
        | .waiting => .waiting
        | .failed => .failed
        | .done (r, s) =>
          match bn_encode s field_size with
          | (0, _) => .failed
          | (_, none) => .failed
          | (_, some sb) =>
            match bn_encode r field_size with
            | (0, _) => .failed
            | (_, none) => .failed
            | (_, some rb) => .done (sb ++ rb)
  | _, _ => .failed

/-- engine/sign.c:163-254 `dstu_do_verify`. -/
def dstu_do_verify_any (lib : EcLib) (key : DstuKey) (tbs sig : List Byte) : Bool :=
  match key.group, key.pub with
  | some g, some Q =>
    match hash_to_field tbs g.degree with
    | none => false
    | some h =>
      if g.n = 0 then false
      else
        let s := bin2bn (sig.take (sig.length / 2))
        let r := bin2bn ((sig.drop (sig.length / 2)).take (sig.length / 2))
        if s = 0 ∨ r = 0 then false
        else if s ≥ g.n ∨ r ≥ g.n then false
        else
          match lib.mul g s (some (Q, r)) with
          | none => false
          | some none => false
          | some (some (Rx, _)) =>
            match lib.gfMul g.p h Rx with
            | none => false
            | some v =>
              match field_to_bn v g.n with
              | none => false
              | some r1 => r = r1
  | _, _ => false

/-- engine/ameth.c:369-384 `dstu_asn1_pkey_size`. -/
def dstu_asn1_pkey_size (pk : EvpPkey) : Nat :=
  match pk.key with
  | none => 0
  | some key =>
    match key.group with
    | none => 0
    | some g => if g.n = 0 then 0 else pkey_size g

/-- engine/pmeth.c:228-314 `dstu_pkey_sign`.  `pk` is the key of the context, if it has one; `sig` tells whether there is a buffer, of the size passed in `*siglen`.
`EVP_PKEY_size` calls `dstu_asn1_pkey_size`.  `none`: undefined behaviour, access outside `sig_data` or more bytes written than there is room for. -/
def dstu_pkey_sign_any (lib : EcLib) (pk : Option EvpPkey) (sig : Bool) (siglen : Nat) (tbs : List Byte) (draws : List (Option Nat)) : Option (Drawn SignOut) :=
  match pk with
  | none => some (.done ⟨false, siglen, []⟩)
  | some pk =>
    match pk.key with
    | none => some (.done ⟨false, siglen, []⟩)
    | some key =>
      match key.group with
      | none => some (.done ⟨false, siglen, []⟩)
      | some g =>
        if g.n = 0 then some (.done ⟨false, siglen, []⟩)
        else
          let field_size := numBytes g.n
          let encoded_sig_size := dstu_asn1_pkey_size pk
          if sig ∧ encoded_sig_size > siglen then some (.done ⟨false, encoded_sig_size, []⟩)
          else if sig then
            match dstu_do_sign_any lib key tbs draws with
            | .waiting => some .waiting
            | .failed => some (.done ⟨false, encoded_sig_size, []⟩)
            | .done sig_data =>
              match (if pk.type = .le then reverse_bytes sig_data (2 * field_size) else some sig_data) with
              | none => none
              | some sig_data =>
                let der := i2d_octet (sig_data.take (2 * field_size))
                if siglen < der.length then none else some (.done ⟨true, der.length, der⟩)
          else some (.done ⟨true, encoded_sig_size, []⟩)

/-- engine/pmeth.c:316-395 `dstu_pkey_verify`.  `none`: undefined behaviour, access outside the signature. -/
def dstu_pkey_verify_any (lib : EcLib) (dec : OctetDecoder) (pk : Option EvpPkey) (sig tbs : List Byte) : Option Bool :=
  match pk with
  | none => some false
  | some pk =>
    match pk.key with
    | none => some false
    | some key =>
      match key.group with
      | none => some false
      | some g =>
        if g.n = 0 then some false
        else
          let sig := (dec.d2i sig).getD sig
          if sig.length % 2 = 1 then some false
          else if sig.length < 2 * numBytes g.n then some false
          else
            match pk.type with
            | .le =>
              match reverse_bytes_copy sig sig.length with
              | none => none
              | some sig_be => some (dstu_do_verify_any lib key tbs sig_be)
            | .be => some (dstu_do_verify_any lib key tbs sig)

end Dstu
