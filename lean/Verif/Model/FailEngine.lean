import Verif.Model.FailLib

/-! Failure paths of engine/sign.c, engine/ameth.c and engine/pmeth.c.  What is stored in an object of the caller (`EVP_PKEY`, `PKCS8_PRIV_KEY_INFO`,
`X509_PUBKEY`, `EVP_PKEY_CTX`) is part of the result here. -/

namespace Dstu

namespace Fail

open Res

/-! ### engine/sign.c -/

/-- engine/sign.c:27-49 `hash_to_field`; `zero`: the hash is zero, when the outcome of `BN_one` (line 46) is not checked; `k` is the number of bits that are cleared. -/
def hash_to_field (zero : Bool) (k : Nat) : Res Bool := do
  let h ← alloc .malloc
  if h = none then pure false
  else
    use h
    if ← calls 1 then
      free h
      if zero then
        let _ ← ask .call
        calls k
      else calls k
    else
      free h
      pure false

/-- engine/sign.c:82-148, in `dstu_do_sign`: success, and `eG` at `err`; `n` is the number of calls in the loops until they are left (lines 108-140) and of those of
`bn_encode`. -/
def signBody (zero : Bool) (k n : Nat) : Res (Bool × Option Nat) := do
  let e ← get true
  let Fe ← get e
  let h ← get Fe
  let n' ← get h
  let p ← get n'
  let r ← get p
  let s ← get r
  if !s then pure (false, none)
  else
    num n'
    num p
    if ← calls 2 then
      let eG ← alloc .object
      if eG = none then pure (false, none)
      else
        num h
        if ← hash_to_field zero k then
          num e
          num Fe
          num r
          use eG
          let ok ← calls n
          pure (ok, eG)
        else pure (false, eG)
    else pure (false, none)

/-- engine/sign.c:56-161 `dstu_do_sign`. -/
def dstu_do_sign (zero : Bool) (k n : Nat) : Res Bool := do
  if ← ask .data then pure false
  else
    let ctx ← alloc .object
    if ctx = none then pure false
    else
      let (ret, eG) ← signBody zero k n
      free eG
      free ctx
      pure ret

/-- engine/sign.c:189-240, in `dstu_do_verify`: the result, and `R` at `err`. -/
def verifyBody (zero : Bool) (k k' : Nat) : Res (Bool × Option Nat) := do
  let n ← get true
  let r1 ← get n
  let p ← get r1
  let Rx ← get p
  let r ← get Rx
  let s ← get r
  if !s then pure (false, none)
  else
    num r1
    if ← hash_to_field zero k then
      num n
      num p
      num r
      if ← calls 4 then
        if ← ask .data then pure (false, none)
        else
          let R ← alloc .object
          if R = none then pure (false, none)
          else
            use R
            if ← calls 1 then
              if ← ask .data then pure (false, R)
              else
                num Rx
                if ← calls (2 + k') then
                  let equal ← ask .data
                  pure (equal, R)
                else pure (false, R)
            else pure (false, R)
      else pure (false, none)
    else pure (false, none)

/-- engine/sign.c:163-254 `dstu_do_verify`; `k` and `k'` are the numbers of bits that are cleared. -/
def dstu_do_verify (zero : Bool) (k k' : Nat) : Res Bool := do
  if ← ask .data then pure false
  else
    let ctx ← alloc .object
    if ctx = none then pure false
    else
      let (ret, R) ← verifyBody zero k k'
      free R
      free ctx
      pure ret

/-! ### engine/ameth.c -/

/-- engine/ameth.c:28-66 `dstu_asn1_param_decode`: the key that `pkey` gets (OpenSSL `EVP_PKEY_assign` takes it on success). -/
def dstu_asn1_param_decode (little : Bool) (n : Nat) : Res (Option KeyPtr) := do
  let params ← alloc .object
  if params = none then pure none
  else
    match ← key_from_asn1 little n with
    | none =>
      free params
      pure none
    | some key =>
      if ← calls 1 then
        free params
        pure (some key)
      else
        free params
        DSTU_KEY_free (some key)
        pure none

/-- engine/ameth.c:68-89 `dstu_asn1_param_encode`, with `*pder` NULL: the length as 0, -1 (`i2d_..` failed) or 1 (a positive one), and the bytes. -/
def dstu_asn1_param_encode (m n : Nat) : Res (Int × Option Nat) := do
  if ← ask .data then pure (0, none)
  else
    let params ← asn1_from_key m n
    if params = none then pure (0, none)
    else
      let der ← alloc .malloc
      free params
      if der = none then pure (-1, none) else pure (1, der)

/-- engine/ameth.c:115-131, in `dstu_asn1_param_copy`. -/
def copyInto (key : KeyPtr) : Res (Bool × Option KeyPtr) := do
  use key.self
  use key.ec
  if ← calls 1 then
    if ← ask .data then
      let sbox ← copy_sbox
      if sbox = none then pure (false, some { key with sbox := none })
      else pure (true, some { key with sbox := sbox })
    else pure (true, some key)
  else pure (false, some key)

/-- engine/ameth.c:91-132 `dstu_asn1_param_copy`: the result and what `to` then has.  OpenSSL `EVP_PKEY_assign` fails for NULL. -/
def dstu_asn1_param_copy (to_key : Option KeyPtr) : Res (Bool × Option KeyPtr) := do
  if ← ask .data then pure (false, to_key)
  else
    match to_key with
    | some key => copyInto key
    | none =>
      match ← DSTU_KEY_new with
      | none => pure (false, none)
      | some key =>
        if ← calls 1 then copyInto key
        else
          DSTU_KEY_free (some key)
          pure (false, none)

/-- engine/ameth.c:160-180 `dstu_asn1_param_print`, 691-707 `dstu_asn1_priv_print` and 709-725 `dstu_asn1_pub_print`, which differ only in what is printed. -/
def dstu_asn1_print (key : Option KeyPtr) : Res Bool := do
  let pk ← alloc .object
  if pk = none then pure false
  else
    use (key.bind (·.self))
    if ← calls 1 then
      let ret ← calls 1
      free pk
      pure ret
    else pure false

/-- engine/ameth.c:233-272, in `dstu_asn1_priv_decode`: the parameters are decoded. -/
def privBody (key : KeyPtr) : Res Bool := do
  let bn_bytes ← alloc .malloc
  if bn_bytes = none then pure false
  else
    use bn_bytes
    let prk ← alloc .object
    if prk = none then
      free bn_bytes
      pure false
    else
      use key.self
      use key.ec
      if ← calls 1 then
        let res ← dstu_add_public_key
        free prk
        free bn_bytes
        pure res
      else
        free prk
        free bn_bytes
        pure false

/-- engine/ameth.c:182-273 `dstu_asn1_priv_decode`: the result and what `pk` then has. -/
def dstu_asn1_priv_decode (little : Bool) (n : Nat) : Res (Bool × Option KeyPtr) := do
  if ← calls 1 then
    if ← ask .data then pure (false, none)
    else
      if ← calls 1 then
        if ← ask .data then pure (false, none)
        else
          match ← dstu_asn1_param_decode little n with
          | none => pure (false, none)
          | some key =>
            let res ← privBody key
            pure (res, some key)
      else pure (false, none)
  else pure (false, none)

/-- engine/ameth.c:299-345, in `dstu_asn1_priv_encode`: success, `prk_encoded`, and `encoded_params` if it became the data of `params`.  `d`: there is a private
key; `zero`: it is zero, when `BN_bn2bin` returns 0. -/
def privEncodeBody (d zero : Bool) (m n : Nat) : Res (Bool × Option Nat × Option Nat) := do
  let (bytes, encoded_params) ← dstu_asn1_param_encode m n
  if bytes = 0 then pure (false, none, none)
  else if !d then pure (false, none, none)
  else
    let prk_encoded ← alloc .weak
    if prk_encoded = none then pure (false, none, none)
    else
      use prk_encoded
      if zero then pure (false, prk_encoded, none)
      else
        let ok ← calls 1
        pure (ok, prk_encoded, encoded_params)

/-- engine/ameth.c:275-356 `dstu_asn1_priv_encode`: the parameters, their data and the private key that `p8` gets (OpenSSL `PKCS8_pkey_set0` takes them on success).
`ASN1_STRING_free` (line 353) releases the data, too. -/
def dstu_asn1_priv_encode (d zero : Bool) (m n : Nat) : Res (Option (Option Nat × Option Nat × Option Nat)) := do
  if ← ask .data then pure none
  else
    let params ← alloc .object
    if params = none then pure none
    else
      let (ret, prk_encoded, data) ← privEncodeBody d zero m n
      if ret then pure (some (params, data, prk_encoded))
      else
        free prk_encoded
        free data
        free params
        pure none

/-- engine/ameth.c:369-384 `dstu_asn1_pkey_size`: whether the result is not 0; `group`: the key has a group.  Its callers do not see a failure as such. -/
def dstu_asn1_pkey_size (group : Bool) : Res Bool := do
  let n ← alloc .weak
  if n = none then pure false
  else
    use n
    if group then
      let res ← weakly (calls 1)
      free n
      pure res
    else
      free n
      pure false

/-- engine/ameth.c:466-506, in `dstu_asn1_pub_decode`: the result, and `public_key`. -/
def pubBody (key : KeyPtr) (point : Option Nat) (little : Bool) (n : Nat) : Res (Bool × Option Nat) := do
  let public_key ← alloc .object
  if public_key = none then pure (false, none)
  else
    use public_key
    use point
    if little then
      let compressed ← alloc .malloc
      if compressed = none then pure (false, public_key)
      else
        use compressed
        if ← dstu_point_expand n then
          free compressed
          use key.ec
          let ret ← calls 1
          pure (ret, public_key)
        else
          free compressed
          pure (false, public_key)
    else
      if ← dstu_point_expand n then
        use key.ec
        let ret ← calls 1
        pure (ret, public_key)
      else pure (false, public_key)

/-- engine/ameth.c:394-517 `dstu_asn1_pub_decode`: the result and what `pk` then has. -/
def dstu_asn1_pub_decode (little : Bool) (n : Nat) : Res (Bool × Option KeyPtr) := do
  if ← calls 1 then
    if ← ask .data then pure (false, none)
    else
      if ← calls 1 then
        if ← ask .data then pure (false, none)
        else
          match ← dstu_asn1_param_decode little n with
          | none => pure (false, none)
          | some key =>
            use key.self
            use key.ec
            let point ← alloc .object
            if point = none then pure (false, some key)
            else
              let (ret, public_key) ← pubBody key point little n
              free public_key
              free point
              pure (ret, some key)
      else pure (false, none)
  else pure (false, none)

/-- engine/ameth.c:542-612, in `dstu_asn1_pub_encode`: success, `pbk_encoded`, `public_key` with its data, and the data of `params`. -/
def pubEncodeBody (m n : Nat) : Res (Bool × Option Nat × Option Nat × Option Nat × Option Nat) := do
  let (length, data) ← dstu_asn1_param_encode m n
  if length ≤ 0 then pure (false, none, none, none, data)
  else
    if ← ask .data then pure (false, none, none, none, data)
    else
      let compressed ← alloc .malloc
      if compressed = none then pure (false, none, none, none, data)
      else
        use compressed
        if ← dstu_point_compress n then
          let public_key ← alloc .object
          if public_key = none then pure (false, none, none, compressed, data)
          else
            let pbk_encoded ← alloc .malloc
            if pbk_encoded = none then pure (false, none, public_key, compressed, data)
            else
              let ok ← calls 1
              pure (ok, pbk_encoded, public_key, compressed, data)
        else pure (false, none, none, compressed, data)

/-- engine/ameth.c:519-629 `dstu_asn1_pub_encode`: the parameters, their data and the public key that `pub` gets (OpenSSL `X509_PUBKEY_set0_param` takes them on
success).  `compressed` is released at line 623 or with `public_key`. -/
def dstu_asn1_pub_encode (m n : Nat) : Res (Option (Option Nat × Option Nat × Option Nat)) := do
  if ← ask .data then pure none
  else
    let params ← alloc .object
    if params = none then pure none
    else
      let (ret, pbk_encoded, public_key, compressed, data) ← pubEncodeBody m n
      if ret then
        free compressed
        free public_key
        pure (some (params, data, pbk_encoded))
      else
        free pbk_encoded
        free compressed
        free public_key
        free data
        free params
        pure none

/-! ### engine/pmeth.c -/

/-- engine/pmeth.c:27-37 `dstu_pkey_init`: the data of the context. -/
def dstu_pkey_init : Res (Option CtxPtr) := DSTU_KEY_CTX_new

/-- engine/pmeth.c:62-72 `dstu_pkey_cleanup`. -/
def dstu_pkey_cleanup (ctx : Option CtxPtr) : Res Unit := DSTU_KEY_CTX_free ctx

/-- engine/pmeth.c:98-113, in `dstu_pkey_keygen`: success and the S-box of the key. -/
def keygenBody (ctx : CtxPtr) (key : KeyPtr) (n : Nat) : Res (Bool × Option Nat) := do
  use key.self
  use key.ec
  use ctx.group
  if ← calls 1 then
    if ← dstu_generate_key n then
      if ctx.sbox = none then
        let ok ← calls 1
        pure (ok, none)
      else
        let sbox ← copy_sbox
        if sbox = none then pure (false, none)
        else
          let ok ← calls 1
          pure (ok, sbox)
    else pure (false, none)
  else pure (false, none)

/-- engine/pmeth.c:94-123, in `dstu_pkey_keygen`: there is a group. -/
def keygenKey (ctx : CtxPtr) (n : Nat) : Res (Option KeyPtr) := do
  match ← DSTU_KEY_new with
  | none => pure none
  | some key =>
    let (ok, sbox) ← keygenBody ctx key n
    if ok then pure (some { key with sbox := sbox })
    else
      DSTU_KEY_free (some { key with sbox := sbox })
      pure none

/-- engine/pmeth.c:74-124 `dstu_pkey_keygen`: the data of the context, and the key that `pkey` gets. -/
def dstu_pkey_keygen (ctx : CtxPtr) (n : Nat) : Res (CtxPtr × Option KeyPtr) := do
  use ctx.self
  if ctx.group = none then
    let group ← group_from_named_curve
    if group = none then pure (ctx, none)
    else
      let key ← keygenKey { ctx with group := group } n
      pure ({ ctx with group := group }, key)
  else
    let key ← keygenKey ctx n
    pure (ctx, key)

/-- engine/pmeth.c:140-148, in `dstu_pkey_ctrl`. -/
def ctrlSbox (ctx : CtxPtr) : Res (Bool × CtxPtr) := do
  if ← ask .data then pure (false, ctx)
  else
    let sbox ← copy_sbox
    if sbox = none then pure (false, ctx)
    else
      let ctx ← DSTU_KEY_CTX_set ctx none sbox
      pure (true, ctx)

/-- engine/pmeth.c:149-158, in `dstu_pkey_ctrl`. -/
def ctrlCurve (ctx : CtxPtr) : Res (Bool × CtxPtr) := do
  let group ← alloc .object
  if group = none then pure (false, ctx)
  else
    let ctx ← DSTU_KEY_CTX_set ctx group none
    pure (true, ctx)

/-- engine/pmeth.c:186-199, in `dstu_pkey_ctrl_str`. -/
def ctrlStrCurve (ctx : CtxPtr) : Res (Bool × CtxPtr) := do
  if ← ask .data then pure (false, ctx)
  else
    let group ← group_from_nid
    if group = none then pure (false, ctx)
    else
      use group
      let res ← ctrlCurve ctx
      free group
      pure res

/-- engine/pmeth.c:201-223, in `dstu_pkey_ctrl_str`. -/
def ctrlStrSbox (ctx : CtxPtr) : Res (Bool × CtxPtr) := do
  let tmp ← alloc .object
  if tmp = none then pure (false, ctx)
  else
    use tmp
    if ← calls 1 then
      if ← ask .data then
        free tmp
        pure (false, ctx)
      else
        if ← calls 1 then
          let res ← ctrlSbox ctx
          free tmp
          pure res
        else
          free tmp
          pure (false, ctx)
    else
      free tmp
      pure (false, ctx)

/-- engine/pmeth.c:278-298, in `dstu_pkey_sign`: success, `sig_data` (which may be the data of `dstu_sig`) and `dstu_sig`.  `size`: the size of a signature was known
when it was compared with the room there is; if not, there may be too little for what `i2d_ASN1_OCTET_STRING` writes (line 297). -/
def signInto (size zero : Bool) (k n : Nat) : Res (Bool × Option Nat × Option Nat) := do
  let dstu_sig ← alloc .object
  if dstu_sig = none then pure (false, none, none)
  else
    let sig_data ← alloc .malloc
    if sig_data = none then pure (false, none, dstu_sig)
    else
      use sig_data
      if ← dstu_do_sign zero k n then
        let fits ← ask .data
        if size = false ∧ fits = false then ub
        else pure (true, sig_data, dstu_sig)
      else pure (false, sig_data, dstu_sig)

/-- engine/pmeth.c:228-314 `dstu_pkey_sign`; `sig`: there is a buffer. -/
def dstu_pkey_sign (sig zero : Bool) (k n : Nat) : Res Bool := do
  if ← ask .data then pure false
  else
    let n' ← alloc .object
    if n' = none then pure false
    else
      use n'
      if ← calls 1 then
        let size ← dstu_asn1_pkey_size true
        if !sig then
          free n'
          pure true
        else
          let small ← ask .data
          if size = true ∧ small = true then
            free n'
            pure false
          else
            let (ret, sig_data, dstu_sig) ← signInto size zero k n
            free sig_data
            free dstu_sig
            free n'
            pure ret
      else
        free n'
        pure false

/-- engine/pmeth.c:366-384, in `dstu_pkey_verify`. -/
def verifyBytes (little zero : Bool) (k k' : Nat) : Res Bool := do
  if ← ask .data then pure false
  else
    if little then
      let sig_be ← alloc .malloc
      if sig_be = none then pure false
      else
        use sig_be
        let ret ← dstu_do_verify zero k k'
        free sig_be
        pure ret
    else dstu_do_verify zero k k'

/-- engine/pmeth.c:316-395 `dstu_pkey_verify`. -/
def dstu_pkey_verify (little zero : Bool) (k k' : Nat) : Res Bool := do
  if ← ask .data then pure false
  else
    let n ← alloc .object
    if n = none then pure false
    else
      use n
      if ← calls 1 then
        let dstu_sig ← alloc .object
        let ret ← verifyBytes little zero k k'
        free n
        free dstu_sig
        pure ret
      else
        free n
        pure false

/-- engine/pmeth.c:397-414 `dstu_pkey_copy`: the data of the new context. -/
def dstu_pkey_copy (src : CtxPtr) : Res (Option CtxPtr) := DSTU_KEY_CTX_copy src

end Fail

end Dstu
