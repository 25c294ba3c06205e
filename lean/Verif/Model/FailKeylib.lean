import Verif.Model.FailLib
import Verif.Model.Pkcs12

/-! Failure paths of keylib: keystore.c, utils.c, pkcs12.c, key6.c and jks.c.

What the input looks like is given by parameters where something depends on it in several places; otherwise it is a branch on data.  The entries of a store that are NULL
are not listed, and a key or certificate is set at the next free position: that these positions exist is C53.  A `KeyStore**` that is set is the result here. -/

namespace Dstu

namespace Fail

open Res

/-- A function of OpenSSL that decodes: no object if the data is not suitable, or if it cannot be made. -/
def decoded (suitable : Bool) : Res (Option Nat) := if suitable then alloc .object else pure none

/-- The same, when nothing else depends on the data. -/
def decode : Res (Option Nat) := do
  let suitable ← ask .data
  decoded suitable

/-! ### keylib/keystore.c -/

/-- An `EVP_PKEY`: itself, and if it was made by `makePKey` its `DSTU_KEY` and the `EC_KEY` of that.  A key made by OpenSSL is one object here. -/
structure PKeyPtr where
  self : Nat
  key : Option (Nat × Nat)

/-- A `KeyStore`: itself, and its arrays with the entries that are not NULL. -/
structure StorePtr where
  self : Nat
  keys : Option (Nat × List PKeyPtr)
  certs : Option (Nat × List Nat)

/-- keylib/keystore.c:23-24 and 35-36: an array of NULL pointers. -/
def newArray {α : Type} (n : Nat) : Res (Option (Nat × List α)) := do
  if n = 0 then pure none
  else
    match ← alloc .weak with
    | none => ub
    | some a => pure (some (a, []))

/-- keylib/keystore.c:15-45 `KeyStoreNew`; no allocation is checked. -/
def KeyStoreNew (keyNum certNum : Nat) : Res StorePtr := do
  match ← alloc .weak with
  | none => ub
  | some res =>
    let keys ← newArray keyNum
    let certs ← newArray certNum
    pure ⟨res, keys, certs⟩

/-- keylib/keystore.c:50-59 and 60-69: one of the arrays.  `OPENSSL_clear_realloc` with NULL is `OPENSSL_malloc`, otherwise the old array is released, on success. -/
def appendArray {α : Type} : Option (Nat × List α) → Option (Nat × List α) → Res (Option (Nat × List α) × Option (Nat × List α))
  | old, none => pure (old, none)
  | none, some (b, l) => do
    match ← alloc .weak with
    | none => ub
    | some a => pure (some (a, l), some (b, []))
  | some (o, old), some (b, l) => do
    match ← alloc .weak with
    | none => ub
    | some a =>
      free (some o)
      pure (some (a, old ++ l), some (b, []))

/-- keylib/keystore.c:47-70 `KeyStoreAppend`: both stores as they are after it. -/
def KeyStoreAppend (dst src : StorePtr) : Res (StorePtr × StorePtr) := do
  use (some dst.self)
  use (some src.self)
  let (dk, sk) ← appendArray dst.keys src.keys
  let (dc, sc) ← appendArray dst.certs src.certs
  pure (⟨dst.self, dk, dc⟩, ⟨src.self, sk, sc⟩)

/-- OpenSSL `EVP_PKEY_free` of the only reference. -/
def EVP_PKEY_free (k : PKeyPtr) : Res Unit := do
  match k.key with
  | none => pure ()
  | some (key, ec) => DSTU_KEY_free (some ⟨some key, some ec, none⟩)
  free (some k.self)

/-- keylib/keystore.c:77-78. -/
def freeKeys : List PKeyPtr → Res Unit
  | [] => pure ()
  | k :: l => do
    EVP_PKEY_free k
    freeKeys l

/-- keylib/keystore.c:83-84. -/
def freeCerts : List Nat → Res Unit
  | [] => pure ()
  | c :: l => do
    free (some c)
    freeCerts l

/-- keylib/keystore.c:75-80. -/
def freeKeyArray : Option (Nat × List PKeyPtr) → Res Unit
  | none => pure ()
  | some (a, l) => do
    freeKeys l
    free (some a)

/-- keylib/keystore.c:81-86. -/
def freeCertArray : Option (Nat × List Nat) → Res Unit
  | none => pure ()
  | some (a, l) => do
    freeCerts l
    free (some a)

/-- keylib/keystore.c:72-88 `KeyStoreFree`. -/
def KeyStoreFree (ks : StorePtr) : Res Unit := do
  freeKeyArray ks.keys
  freeCertArray ks.certs
  free (some ks.self)

/-- keylib/keystore.c:100-103 `KeyStoreSetKey`, at the next position. -/
def KeyStoreSetKey (ks : StorePtr) (key : PKeyPtr) : Res StorePtr :=
  match ks.keys with
  | none => ub
  | some (a, l) => do
    use (some a)
    pure { ks with keys := some (a, l ++ [key]) }

/-- keylib/keystore.c:105-108 `KeyStoreSetCert`, at the next position. -/
def KeyStoreSetCert (ks : StorePtr) (cert : Nat) : Res StorePtr :=
  match ks.certs with
  | none => ub
  | some (a, l) => do
    use (some a)
    pure { ks with certs := some (a, l ++ [cert]) }

/-! ### keylib/utils.c

Every `BN_CTX_get` has an outcome of its own here, so that there are more runs than in the code, where all fail after the first that does. -/

/-- OpenSSL `BN_bin2bn` and `ASN1_INTEGER_to_BN` into a number of the context, which fail only for lack of memory.  When there is none they make a new one, which the callers here do not release. -/
def intoNum (g : Bool) : Res Bool := do
  if g then ask .weak
  else
    let new ← alloc .weak
    pure (new ≠ none)

/-- keylib/utils.c:26-70 `getPrivateKeyNum`: whether there is a number.  `usable`: the attribute has an octet or bit string. -/
def getPrivateKeyNum (usable : Bool) : Res Bool := do
  if usable then
    if ← ask .data then
      let buf ← alloc .weak
      use buf
      let g ← ask .weak
      let ok ← intoNum g
      free buf
      pure ok
    else
      let g ← ask .weak
      intoNum g
  else pure false

/-- keylib/utils.c:72-96 `makePoly`: whether there is a polynomial.  `wf`: no exponent is negative; then `BN_GF2m_arr2poly` fails only for lack of memory. -/
def makePoly (wf : Bool) : Res Bool := do
  let res ← ask .weak
  num res
  if wf then ask .weak else pure false

/-- keylib/utils.c:98-108 `makePoint`.  The point is used by `dstu_point_expand`, in its last call. -/
def makePoint (n : Nat) : Res (Option Nat) := do
  let res ← alloc .weak
  if ← dstu_point_expand n then
    use res
    pure res
  else
    free res
    pure none

/-- keylib/utils.c:110-146 `makeECGROUPFromSpec`. -/
def makeECGROUPFromSpec (wf : Bool) (n : Nat) : Res (Option Nat) := do
  let poly ← makePoly wf
  let a ← ask .weak
  let gb ← ask .weak
  let b ← intoNum gb
  let order ← ask .weak
  let _ ← intoNum a
  num poly
  num a
  num b
  let res ← decode
  if res = none then pure none
  else
    let point ← makePoint n
    if point = none then
      free res
      pure none
    else if ← ask .data then
      let _ ← intoNum order
      use res
      use point
      if ← ask .call then
        free point
        pure res
      else
        free res
        free point
        pure none
    else
      free point
      free res
      pure none

/-- keylib/utils.c:158-163: the first of `values` values that can be decoded. -/
def firstSpec : (values : Nat) → Res (Option Nat)
  | 0 => pure none
  | values + 1 => do
    let spec ← decode
    if spec = none then firstSpec values else pure spec

/-- keylib/utils.c:148-171 `makeECGROUP`. -/
def makeECGROUP (wf : Bool) (values n : Nat) : Res (Option Nat) := do
  let spec ← firstSpec values
  if spec = none then pure none
  else
    let res ← makeECGROUPFromSpec wf n
    free spec
    pure res

/-- What a PKCS#8 structure looks like: whether it can be decoded, and the key in it; the number of its attributes; in the second key, whether there is a private number, the
number of values for the curve, whether the exponents of the first that can be decoded are not negative, and the number of rounds for its base point. -/
structure P8Shape where
  parses : Bool
  decodes : Bool
  attrs : Nat
  usable : Bool
  values : Nat
  wf : Bool
  rounds : Nat

/-- keylib/utils.c:199-225, in `makePKey`: from the key on.  It has a group and a private number when `dstu_add_public_key` is called. -/
def makePKeyWith (ctx group : Option Nat) (key : Nat × Nat) : Res (Option PKeyPtr) := do
  let res ← alloc .object
  let ok ← if res = none then pure false else weakly (calls 2)
  let ok ← if ok then weakly addPublic else pure false
  if !ok then
    DSTU_KEY_free (some ⟨some key.1, some key.2, none⟩)
    free group
    free ctx
    pure none
  else if ← calls 2 then
    free group
    free ctx
    match res with
    | none => ub
    | some res => pure (some ⟨res, some key⟩)
  else
    DSTU_KEY_free (some ⟨some key.1, some key.2, none⟩)
    free res
    free group
    free ctx
    pure none

/-- keylib/utils.c:173-226 `makePKey`. -/
def makePKey (p8 : P8Shape) : Res (Option PKeyPtr) := do
  let ctx ← alloc .weak
  use ctx
  let pkNum ← getPrivateKeyNum p8.usable
  let group ← makeECGROUP p8.wf p8.values p8.rounds
  if pkNum = false ∨ group = none then
    free ctx
    pure none
  else
    match ← DSTU_KEY_new with
    | some ⟨some key, some ec, none⟩ => makePKeyWith ctx group (key, ec)
    | _ =>
      free group
      free ctx
      pure none

/-- keylib/utils.c:241-252: the loop of `pkeyFromAttributes`; `OBJ_cmp` looks at both objects. -/
def findAttrs (curve key : Option Nat) : (attrs : Nat) → Res Unit
  | 0 => pure ()
  | attrs + 1 => do
    if ← ask .data then
      use curve
      if ← ask .data then pure ()
      else use key
    findAttrs curve key attrs

/-- keylib/utils.c:228-263 `pkeyFromAttributes`. -/
def pkeyFromAttributes (p8 : P8Shape) : Res (Option PKeyPtr) := do
  let curve ← alloc .weak
  let key ← alloc .weak
  findAttrs curve key p8.attrs
  free key
  free curve
  if p8.attrs = 0 then pure none
  else if ← ask .data then makePKey p8
  else pure none

/-- keylib/utils.c:265-296 `keysFromPKCS8`: the store, if the result is 1. -/
def keysFromPKCS8 (p8 : P8Shape) : Res (Option StorePtr) := do
  let pkcs8 ← decoded p8.parses
  if pkcs8 = none then pure none
  else
    match ← decoded p8.decodes with
    | none =>
      free pkcs8
      pure none
    | some pkey1 =>
      let pkey2 ← pkeyFromAttributes p8
      free pkcs8
      match pkey2 with
      | none =>
        let ks ← KeyStoreNew 1 0
        let ks ← KeyStoreSetKey ks ⟨pkey1, none⟩
        pure (some ks)
      | some pkey2 =>
        let ks ← KeyStoreNew 2 0
        let ks ← KeyStoreSetKey ks ⟨pkey1, none⟩
        let ks ← KeyStoreSetKey ks pkey2
        pure (some ks)

/-! ### keylib/pkcs12.c -/

/-- keylib/pkcs12.c:46-78 `countKeysCerts`; a safe is given by its bags, or none if it is skipped. -/
def countKeysCerts : List (Option (List Bag)) → Nat × Nat → Res (Option (Nat × Nat))
  | [], n => pure (some n)
  | none :: safes, n => countKeysCerts safes n
  | some l :: safes, n => do
    let bags ← decode
    if bags = none then pure none
    else
      use bags
      match countKeysCertsInBags l n with
      | (false, _) =>
        free bags
        pure none
      | (true, n) =>
        free bags
        countKeysCerts safes n

mutual
/-- keylib/pkcs12.c:80-119 `fromBag`; the store as it is after it. -/
def fromBag : Bag → StorePtr → Res (Bool × StorePtr)
  | .keyBag _, ks => do
    match ← decode with
    | none => pure (false, ks)
    | some pkey =>
      let ks ← KeyStoreSetKey ks ⟨pkey, none⟩
      pure (true, ks)
  | .shrouded _, ks => do
    let pkcs8 ← decode
    if pkcs8 = none then pure (false, ks)
    else
      match ← decode with
      | none =>
        free pkcs8
        pure (false, ks)
      | some pkey =>
        let ks ← KeyStoreSetKey ks ⟨pkey, none⟩
        free pkcs8
        pure (true, ks)
  | .certBag _, ks => do
    match ← decode with
    | none => pure (false, ks)
    | some x509 =>
      let ks ← KeyStoreSetCert ks x509
      pure (true, ks)
  | .safes bags, ks => fromBags bags ks
  | .other, ks => pure (true, ks)

/-- keylib/pkcs12.c:121-130 `fromBags`. -/
def fromBags : List Bag → StorePtr → Res (Bool × StorePtr)
  | [], ks => pure (true, ks)
  | b :: bags, ks => do
    match ← fromBag b ks with
    | (false, ks) => pure (false, ks)
    | (true, ks) => fromBags bags ks
end

/-- keylib/pkcs12.c:132-164 `fromSafes`. -/
def fromSafes : List (Option (List Bag)) → StorePtr → Res (Bool × StorePtr)
  | [], ks => pure (true, ks)
  | none :: safes, ks => fromSafes safes ks
  | some l :: safes, ks => do
    let bags ← decode
    if bags = none then pure (false, ks)
    else
      use bags
      match ← fromBags l ks with
      | (false, ks) =>
        free bags
        pure (false, ks)
      | (true, ks) =>
        free bags
        fromSafes safes ks

/-- keylib/pkcs12.c:166-215 `parsePKCS12`: the store, if the result is 1. -/
def parsePKCS12 (l : List (Option (List Bag))) : Res (Option StorePtr) := do
  let pkcs12 ← decode
  if pkcs12 = none then pure none
  else if ← ask .data then
    let safes ← decode
    if safes = none then
      free pkcs12
      pure none
    else
      use safes
      match ← countKeysCerts l (0, 0) with
      | none =>
        free safes
        free pkcs12
        pure none
      | some (numKeys, numCerts) =>
        if numKeys = 0 ∧ numCerts = 0 then
          free safes
          free pkcs12
          pure none
        else
          let ks ← KeyStoreNew numKeys numCerts
          match ← fromSafes l ks with
          | (false, ks) =>
            KeyStoreFree ks
            free safes
            free pkcs12
            pure none
          | (true, ks) =>
            free safes
            free pkcs12
            pure (some ks)
  else
    free pkcs12
    pure none

/-! ### keylib/key6.c -/

/-- keylib/key6.c:42-66 `decryptKey6`; `empty`: there is no data, when `OPENSSL_malloc` gives NULL for `source` and nothing is copied. -/
def decryptKey6 (empty : Bool) (p8 : P8Shape) : Res (Option StorePtr) := do
  let source ← if empty then pure none else alloc .weak
  let res ← alloc .weak
  if !empty then use source
  use res
  free source
  let r ← keysFromPKCS8 p8
  free res
  pure r

/-- keylib/key6.c:68-104 `parseKey6`. -/
def parseKey6 (empty : Bool) (p8 : P8Shape) : Res (Option StorePtr) := do
  let store ← decode
  if store = none then pure none
  else if ← ask .data then
    let correctType ← alloc .weak
    use correctType
    if ← ask .data then
      free correctType
      let res ← decryptKey6 empty p8
      free store
      pure res
    else
      free correctType
      free store
      pure none
  else
    free store
    pure none

/-! ### keylib/jks.c -/

/-- keylib/jks.c:72-73 and 91-92: `BIO_write`, the outcome is ignored. -/
def convWrite : Res Unit := do
  if ← ask .data then
    let _ ← ask .call
    pure ()
  else pure ()

/-- keylib/jks.c:67-85 and 86-104: the loops that convert, with `n` rounds in which the buffer is too small; success, and the buffer. -/
def convRounds : (n : Nat) → (buf : Option Nat) → Res (Bool × Option Nat)
  | 0, buf => do
    use buf
    convWrite
    let ok ← ask .data
    pure (ok, buf)
  | n + 1, buf => do
    use buf
    convWrite
    let new ← alloc .weak
    use new
    free buf
    convRounds n new

/-- A password: whether it is empty, and the rounds of the two loops otherwise. -/
structure PassShape where
  empty : Bool
  n : Nat
  m : Nat

/-- keylib/jks.c:86-116, in `toUTF16BE`: after the first loop. -/
def convEnd (res cd buf : Option Nat) (m : Nat) : Res (Option Nat) := do
  let (ok, buf) ← convRounds m buf
  if ok then
    free buf
    free cd
    let nothing ← ask .data
    if res = none ∨ nothing = true then
      free res
      pure none
    else
      let dest ← alloc .weak
      use dest
      free res
      pure dest
  else
    free cd
    free buf
    free res
    pure none

/-- keylib/jks.c:50-117 `toUTF16BE`.  `OPENSSL_free(res)` (line 64) is taken for `BIO_free`: with the former more is lost.  Writing to a `BIO` that is NULL fails, and its contents are
empty.  For an empty password the buffer is NULL and nothing is written. -/
def toUTF16BE (p : PassShape) : Res (Option Nat) := do
  let res ← alloc .object
  let buf ← if p.empty then pure none else alloc .weak
  let cd ← alloc .weak
  if cd = none then
    free res
    pure none
  else if p.empty then
    free cd
    free res
    pure none
  else
    let (ok, buf) ← convRounds p.n buf
    if ok then convEnd res cd buf p.m
    else
      free cd
      free buf
      free res
      pure none

/-- keylib/jks.c:119-129 `twoHash`. -/
def twoHash : Res Bool := do
  let ctx ← alloc .weak
  use ctx
  let ok ← calls 4
  free ctx
  pure ok

/-- keylib/jks.c:131-142 `whiteHash`. -/
def whiteHash : Res Bool := do
  let ctx ← alloc .weak
  use ctx
  let ok ← calls 5
  free ctx
  pure ok

/-- keylib/jks.c:144-166 `parseCert`; the store as it is after it. -/
def parseCert (ks : StorePtr) : Res (Bool × StorePtr) := do
  match ← decode with
  | none => pure (false, ks)
  | some x509 =>
    let tks ← KeyStoreNew 0 1
    let tks ← KeyStoreSetCert tks x509
    let (ks, tks) ← KeyStoreAppend ks tks
    KeyStoreFree tks
    pure (true, ks)

/-- keylib/jks.c:187-201: the rounds of the decryption. -/
def unprotect (decrypted : Option Nat) : (rounds : Nat) → Res Bool
  | 0 => pure true
  | rounds + 1 => do
    if ← twoHash then
      use decrypted
      unprotect decrypted rounds
    else pure false

/-- keylib/jks.c:216-231, in `fromKeyProtector`: from the call of `keysFromPKCS8` on.  If it fails `KeyStoreFree` gets NULL. -/
def storeProtected (decrypted : Option Nat) (p8 : P8Shape) (ks : StorePtr) : Res (Bool × StorePtr) := do
  match ← weakly (keysFromPKCS8 p8) with
  | none => ub
  | some tks =>
    let (ks, tks) ← KeyStoreAppend ks tks
    KeyStoreFree tks
    free decrypted
    pure (true, ks)

/-- keylib/jks.c:168-232 `fromKeyProtector`, for data of at least 40 bytes (see C56). -/
def fromKeyProtector (rounds : Nat) (p8 : P8Shape) (ks : StorePtr) : Res (Bool × StorePtr) := do
  let decrypted ← if rounds = 0 then pure none else alloc .weak
  if ← unprotect decrypted rounds then
    if ← twoHash then
      if ← ask .data then storeProtected decrypted p8 ks
      else
        free decrypted
        pure (false, ks)
    else
      free decrypted
      pure (false, ks)
  else
    free decrypted
    pure (false, ks)

/-- How a key is protected: by the protector of Sun, by that of JCE, or otherwise. -/
inductive Protection where
  | keyProtector (rounds : Nat) (p8 : P8Shape)
  | pbes1
  | other

/-- keylib/jks.c:269-296, in `decryptKey`: after the algorithm was found. -/
def decryptWith (keyProtector pbes1 : Option Nat) (p : Protection) (ks : StorePtr) : Res (Bool × StorePtr) := do
  use keyProtector
  match p with
  | .keyProtector rounds p8 => fromKeyProtector rounds p8 ks
  | .pbes1 =>
    use pbes1
    pure (false, ks)
  | .other =>
    use pbes1
    pure (true, ks)

/-- keylib/jks.c:246-302 `decryptKey`. -/
def decryptKey (pass : PassShape) (p : Protection) (ks : StorePtr) : Res (Bool × StorePtr) := do
  let pwd16 ← toUTF16BE pass
  if pwd16 = none then pure (false, ks)
  else
    let epkInfo ← decode
    if epkInfo = none then
      free pwd16
      pure (false, ks)
    else
      let keyProtector ← alloc .weak
      let pbes1 ← alloc .weak
      let r ← decryptWith keyProtector pbes1 p ks
      free pbes1
      free keyProtector
      free epkInfo
      free pwd16
      pure r

/-- keylib/jks.c:316-321: the certificates of a key. -/
def parseCerts : (certNum : Nat) → StorePtr → Res (Bool × StorePtr)
  | 0, ks => pure (true, ks)
  | certNum + 1, ks => do
    match ← parseCert ks with
    | (false, ks) => pure (false, ks)
    | (true, ks) => parseCerts certNum ks

/-- An entry: a key with the number of its certificates, a certificate, or neither. -/
inductive EntryShape where
  | key (p : Protection) (certNum : Nat)
  | cert
  | other

/-- keylib/jks.c:304-336 `parseKey` and `parseEntry`. -/
def parseEntry (pass : PassShape) : EntryShape → StorePtr → Res (Bool × StorePtr)
  | .key p certNum, ks => do
    match ← decryptKey pass p ks with
    | (false, ks) => pure (false, ks)
    | (true, ks) => parseCerts certNum ks
  | .cert, ks => parseCert ks
  | .other, ks => pure (false, ks)

/-- keylib/jks.c:365-370. -/
def parseEntries (pass : PassShape) : List EntryShape → StorePtr → Res (Bool × StorePtr)
  | [], ks => pure (true, ks)
  | e :: l, ks => do
    match ← parseEntry pass e ks with
    | (false, ks) => pure (false, ks)
    | (true, ks) => parseEntries pass l ks

/-- keylib/jks.c:338-396 `parseJKS`: the store, if the result is 1. -/
def parseJKS (storagePass keyPass : PassShape) (entries : List EntryShape) : Res (Option StorePtr) := do
  if ← ask .data then
    let pwd16 ← toUTF16BE storagePass
    if pwd16 = none then pure none
    else
      let ks ← KeyStoreNew 0 0
      match ← parseEntries keyPass entries ks with
      | (false, ks) =>
        KeyStoreFree ks
        pure none
      | (true, ks) =>
        if ← whiteHash then
          free pwd16
          if ← ask .data then pure (some ks)
          else
            KeyStoreFree ks
            pure none
        else
          KeyStoreFree ks
          free pwd16
          pure none
  else pure none

/-! ### Reading from a `BIO` or a file -/

/-- keylib/pkcs12.c:237-254, keylib/jks.c:418-435, keylib/key6.c:126-143: `n` more reads that give data; whether there is something to parse.  Writing to a `BIO` that is NULL fails. -/
def readRounds (mem : Option Nat) : (n : Nat) → (total : Bool) → Res Bool
  | 0, total => pure total
  | n + 1, _ => do
    if mem = none then pure false
    else if ← ask .call then readRounds mem n true
    else pure false

/-- keylib/pkcs12.c:228-264 `readPKCS12_bio`, keylib/jks.c:409-445 `readJKS_bio`, keylib/key6.c:117-153 `readKey6_bio`. -/
def readBio (n : Nat) (parse : Res (Option StorePtr)) : Res (Option StorePtr) := do
  let mem ← alloc .object
  if ← readRounds mem n false then
    let res ← parse
    free mem
    pure res
  else
    free mem
    pure none

/-- keylib/pkcs12.c:217-226 `readPKCS12`, keylib/jks.c:398-407 `readJKS`, keylib/key6.c:106-115 `readKey6`. -/
def readFile (n : Nat) (parse : Res (Option StorePtr)) : Res (Option StorePtr) := do
  let bio ← alloc .object
  if bio = none then pure none
  else
    let res ← readBio n parse
    free bio
    pure res

end Fail

end Dstu
