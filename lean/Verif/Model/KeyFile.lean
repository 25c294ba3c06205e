import Verif.Model.KeyDer
import Verif.Model.Asn1Keylib
import Verif.Model.KeyUtils
import Verif.Model.Jks

/-! The attributes of a PKCS#8 file and the structure around an encrypted key, byte for byte: stand-ins for the decoders of OpenSSL 1.1.1 that keylib/utils.c and keylib/jks.c call. -/

namespace Dstu

open Spec

/-- keylib/utils.c:265-282 on bytes: `d2i_PKCS8_PRIV_KEY_INFO`, `PKCS8_pkey_get0_attrs`, `EVP_PKCS82PKEY` with engine/ameth.c:182-273, and `DSTU_AttrCurveSpec` of
keylib/attrcurvespec_asn1.c.  No attributes (NULL) are like an empty list: `sk_X509_ATTRIBUTE_num` gives -1. -/
noncomputable def fileEnv (env : Env) (ok : Nat → List Byte → Bool) : P8Env where
  toEnv := env
  d2i_PKCS8 l :=
    match pkcs8Ber ok l with
    | none => none
    | some ((_, _, as), _) => some (l, (as.getD []).map some)
  unpack_spec := ber_AttrCurveSpec
  pkcs82pkey := importPrivate env ok

/-- OpenSSL `d2i_X509_SIG`, at keylib/jks.c:261: SEQUENCE { algor X509_ALGOR, digest OCTET STRING }.  The identifier of the algorithm and the string. -/
def d2i_sig (ok : Nat → List Byte → Bool) (l : List Byte) : Option (List Byte × List Byte) :=
  (seqBer (fun inf l => do
    let (alg, l) ← field (d2i_algor ok) l
    let (d, l) ← field (primBer .octets) l
    let l ← seqEnd inf l
    return ((alg, d), l)) l).map fun x => (x.1.1.1, x.1.2)

end Dstu
