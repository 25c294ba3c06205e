import Verif.Model.Cipher

/-!
# How OpenSSL drives the cipher of the engine in messages

The order of the calls is that of OpenSSL 1.1.1.  `EVP_CipherInit_ex` reaches `dstu_cipher_init` on
every call, also without a key (`EVP_CIPH_ALWAYS_CALL_INIT`, /repo/engine/cipher.c:236), and leaves
the IV to it (`EVP_CIPH_CUSTOM_IV`).  The updates are `dstu_cipher_do_cipher`.
-/

namespace Dstu

/-- A context after `EVP_CIPHER_CTX_new` and the allocation of the cipher data in the first
`EVP_CipherInit_ex`: all bytes zero (`OPENSSL_zalloc`). -/
def freshCipher (encrypting : Bool) : CipherCtx :=
  ⟨⟨Vector.replicate 8 0, Vector.replicate 8 0, fun _ => 0, fun _ => 0, fun _ => 0, fun _ => 0⟩,
    zeros 8, zeros 8, zeros 8, 0, encrypting⟩

/-- Sending with CMS (`cms_EncryptedContent_init_bio`, encrypting): the cipher alone, then the content
key and the IV, then the parameters are exported with /repo/engine/cipher.c:176-207.  `r`: the
mask drawn for the key.  Gives the parameters and the context for the content. -/
def cmsSeal (r : Vector W32 8) (key : Bytes 32) (iv : Bytes 8) : List Byte × CipherCtx :=
  let ctx := dstu_cipher_init (freshCipher true) r none none
  let ctx := dstu_cipher_init ctx r (some key) (some iv)
  (dstu_cipher_set_asn1_parameters ctx, ctx)

/-- Sending with PKCS#7 (`PKCS7_dataInit`): cipher, key and IV in one call, then the parameters. -/
def pkcs7Seal (r : Vector W32 8) (key : Bytes 32) (iv : Bytes 8) : List Byte × CipherCtx :=
  let ctx := dstu_cipher_init (freshCipher true) r (some key) (some iv)
  (dstu_cipher_set_asn1_parameters ctx, ctx)

/-- The parameters first and the key after them: receiving with CMS (`cms_EncryptedContent_init_bio`,
decrypting) and PKCS#7 (`PKCS7_dataDecode`), and both directions of password based encryption
(`PKCS5_v2_PBE_keyivgen`).  `EVP_CIPHER_asn1_to_param` is /repo/engine/cipher.c:209-229.  Outer `none`:
undefined behaviour; inner `none`: the parameters are refused. -/
def paramsThenKey (encrypting : Bool) (r : Vector W32 8) (params : Asn1Type) (key : Bytes 32) :
    Option (Option CipherCtx) :=
  let ctx := dstu_cipher_init (freshCipher encrypting) r none none
  match dstu_cipher_get_asn1_parameters ctx params with
  | none => none
  | some (ret, ctx) =>
    if ret ≤ 0 then some none
    else some (some (dstu_cipher_init ctx r (some key) none))

/-- The parameters of password based encryption (`PKCS5_pbe2_set_iv`): the cipher with an IV and
without a key, then the export. -/
def pbeParams (r : Vector W32 8) (iv : Bytes 8) : List Byte :=
  dstu_cipher_set_asn1_parameters (dstu_cipher_init (freshCipher false) r none (some iv))

end Dstu
