import Verif.Model.KeyHeap
import Verif.Model.Md

/-! Signing and verification of messages: the functions of the engine called by OpenSSL's `EVP_DigestSign..` and `EVP_DigestVerify..` (OpenSSL 1.1.1,
crypto/evp/m_sigver.c and digest.c), in their order.  What OpenSSL itself does with its objects is not modelled. -/

namespace Dstu

/-- `NID_undef`, and the algorithm identifiers of a signer info: the algorithm, with the parameter NULL. -/
structure SignerAlgs where
  digest : Option Nat
  signature : Option Nat

/-- Operations of `pkey_ctrl` of a key method, OpenSSL evp.h: `ASN1_PKEY_CTRL_PKCS7_SIGN`, `_CMS_SIGN` and `_DEFAULT_MD_NID`. -/
def ASN1_PKEY_CTRL_PKCS7_SIGN : Int := 1
def ASN1_PKEY_CTRL_DEFAULT_MD_NID : Int := 3
def ASN1_PKEY_CTRL_CMS_SIGN : Int := 5

/-- engine/ameth.c:649-689 `dstu_asn1_pkey_ctrl`: the result, the signer info, and the number behind `arg2`.  `baseId` is `EVP_PKEY_base_id`, `mdNid` is `NID_dstu34311`.
`X509_ALGOR_set0` and `OBJ_nid2obj` succeed. -/
def dstu_asn1_pkey_ctrl (mdNid baseId : Nat) (op arg1 : Int) (algs : SignerAlgs) (nid : Nat) : Int × SignerAlgs × Nat :=
  if op = ASN1_PKEY_CTRL_PKCS7_SIGN ∨ op = ASN1_PKEY_CTRL_CMS_SIGN then
    if arg1 = 0 then
      let algs := { algs with digest := some mdNid }
      if baseId = NID_undef then (-1, algs, nid) else (1, { algs with signature := some baseId }, nid)
    else (1, algs, nid)
  else if op = ASN1_PKEY_CTRL_DEFAULT_MD_NID then (2, algs, mdNid)
  else (0, algs, nid)

/-- A message is hashed for a key with S-box `sbox` (or none) in context `i`: engine/md.c:25-39, 41-44; then a copy `j` of the context is finished and released, 51-61, 46-49,
63-69. -/
def messageDigest (h : MdHeap) (i j : Nat) (sbox : Option (Bytes 64)) (chunks : List (List Byte)) : Option (Bytes 32 × MdHeap) := do
  let h ← h.run ([.new i, .init i sbox] ++ chunks.map (.update i) ++ [.new j, .copy j i])
  let (h, digest) ← dstu_md_final h j
  let h ← h.run [.cleanup j, .free j]
  return (digest, h)

/-- `EVP_DigestSignInit`, `EVP_DigestSignUpdate` for each of `chunks`, `EVP_DigestSignFinal` into a buffer of `siglen` bytes: the digest of the message is given to
`dstu_pkey_sign`. -/
noncomputable def digestSign (type : KeyType) (g : EcGroup) [GoodGroup g] (key : EcKey g) (sbox : Option (Bytes 64)) (h : MdHeap) (i j : Nat)
    (chunks : List (List Byte)) (siglen : Nat) (draws : List (Option Nat)) : Option (Drawn SignOut) := do
  let (digest, _) ← messageDigest h i j sbox chunks
  return dstu_pkey_sign type g key true siglen digest.toList draws

/-- `EVP_DigestVerifyInit`, `EVP_DigestVerifyUpdate` for each of `chunks`, `EVP_DigestVerifyFinal`: the digest of the message is given to `dstu_pkey_verify`. -/
noncomputable def digestVerify (dec : OctetDecoder) (type : KeyType) (g : EcGroup) [GoodGroup g] (key : EcKey g) (sbox : Option (Bytes 64)) (h : MdHeap) (i j : Nat)
    (chunks : List (List Byte)) (sig : List Byte) : Option Bool := do
  let (digest, _) ← messageDigest h i j sbox chunks
  return dstu_pkey_verify dec type g key sig digest.toList

end Dstu
