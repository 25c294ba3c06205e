import Verif.Model.Key

/-! Comparison of keys, engine/ameth.c:134-158 and 631-647, through OpenSSL's interface. -/

namespace Dstu

/-- OpenSSL `EVP_PKEY_cmp` (1.1.1): keys of different types are not compared; else `param_cmp` and, if that answers 1,
`pub_cmp`, which engine/ameth.c:738-745 sets to the two functions of the engine.  `none`: undefined behaviour. -/
def EVP_PKEY_cmp (a b : EvpPkey) : Option Int :=
  if a.type ≠ b.type then some (-1)
  else
    match dstu_asn1_param_cmp a b with
    | none => none
    | some r => if r ≤ 0 then some r else dstu_asn1_pub_cmp a b

/-- OpenSSL `EVP_PKEY_cmp_parameters` (1.1.1). -/
def EVP_PKEY_cmp_parameters (a b : EvpPkey) : Option Int := if a.type ≠ b.type then some (-1) else dstu_asn1_param_cmp a b

/-- OpenSSL `EVP_PKEY_missing_parameters` (1.1.1), for the keys of the engine: engine/ameth.c:739 sets no `param_missing`. -/
def EVP_PKEY_missing_parameters (_ : EvpPkey) : Bool := false

/-- OpenSSL `EVP_PKEY_copy_parameters` (1.1.1), when the types agree; `param_copy` is what engine/ameth.c:740 sets, here as a parameter. -/
def copyParametersSame (param_copy : EvpPkey → EvpPkey → Option (Int × EvpPkey)) (dst src : EvpPkey) : Option (Int × EvpPkey) :=
  if EVP_PKEY_missing_parameters src then some (0, dst)
  else if !EVP_PKEY_missing_parameters dst then
    match EVP_PKEY_cmp_parameters dst src with
    | none => none
    | some r => some (if r = 1 then 1 else 0, dst)
  else param_copy dst src

/-- OpenSSL `EVP_PKEY_copy_parameters` (1.1.1): the result and what the target then is; `dst` is `none` for one from `EVP_PKEY_new`, which has no type and gets the
type of `src` (`EVP_PKEY_set_type`).  Outer `none`: undefined behaviour. -/
def EVP_PKEY_copy_parameters (param_copy : EvpPkey → EvpPkey → Option (Int × EvpPkey)) (dst : Option EvpPkey) (src : EvpPkey) : Option (Int × EvpPkey) :=
  match dst with
  | none => copyParametersSame param_copy ⟨src.type, none⟩ src
  | some dst => if dst.type ≠ src.type then some (0, dst) else copyParametersSame param_copy dst src

end Dstu
