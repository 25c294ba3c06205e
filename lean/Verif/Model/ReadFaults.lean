import Verif.Model.ExportFaults
import Verif.Model.KeyUtils

/-! Keys read from a PKCS#8 structure when calls of the library fail, with the values: keylib/utils.c.  Simplification of the whole file: calls after whose
failure NULL is dereferenced (C78) succeed, and what is undefined without any failure (C64) is no result. -/

namespace Dstu

namespace Faulty

/-- keylib/utils.c:26-70 `getPrivateKeyNum`. -/
def getPrivateKeyNum (attr : Attr) : Faulty Nat := do
  let num ← value (Dstu.getPrivateKeyNum attr)
  let d ← value num
  check
  pure d

/-- OpenSSL `ASN1_INTEGER_to_BN` into a new number; the result is not looked at, and the number remains 0 when it fails. -/
def toBn (v : Int) : Faulty Int := do
  let ok ← ask
  pure (if ok then v else 0)

/-- keylib/utils.c:110-146 `makeECGROUPFromSpec` with `makePoint`.  `EC_POINT_is_on_curve` (line 132) does not return 0 when a call fails, and the point is on the
curve. -/
noncomputable def makeECGROUPFromSpec (sq : QuadSolver) (spec : CustomCurveSpec) : Faulty EcGroup := do
  let p ← value (makePoly spec.m spec.poly)
  let a ← toBn spec.a
  check
  let (p, a, b) ← value (new_curve_GF2m p a.natAbs (bin2bn spec.b))
  let (x, y) ← dstu_point_expand sq spec.bp ⟨p, a, b, 0, 0, 0, 0⟩
  let _ ← ask
  let n ← toBn spec.n
  check
  if set_generator_ok p n then pure ⟨p, a, b, x, y, n.toNat, 1⟩ else err

variable (env : P8Env)

/-- OpenSSL `ASN1_TYPE_unpack_sequence` of a sequence: NULL when a call fails, too. -/
def unpackSpec (der : List Byte) : Faulty (Option CustomCurveSpec) := do
  let ok ← ask
  pure (if ok then env.unpack_spec der else none)

/-- keylib/utils.c:158-163: the first value that is decoded. -/
def findSpec : List AsnVal → Faulty CustomCurveSpec
  | [] => err
  | .seq der :: l => do
    let spec ← unpackSpec env der
    match spec with
    | some s => pure s
    | none => findSpec l
  | .octet _ :: l => findSpec l
  | .bit _ :: l => findSpec l
  | .other :: l => findSpec l

/-- keylib/utils.c:173-226 `makePKey` with `makeECGROUP` (148-171); the order in which the number and the group are made makes no difference to the key. -/
noncomputable def makePKey (curveAttr keyAttr : Attr) : Faulty EvpPkey := do
  let d ← getPrivateKeyNum keyAttr
  let spec ← findSpec env curveAttr.values
  let g ← makeECGROUPFromSpec env.sq spec
  checks 9
  let Q ← value (add_public_key env.toEnv g d)
  checks 2
  pure ⟨.le, some ⟨some g, none, some d, some Q⟩⟩

/-- keylib/utils.c:228-263 `pkeyFromAttributes`. -/
noncomputable def pkeyFromAttributes (attributes : List (Option Attr)) : Faulty EvpPkey :=
  match findAttrs attributes (none, none) with
  | (some curveAttr, some keyAttr) => makePKey env curveAttr keyAttr
  | _ => err

/-- keylib/utils.c:265-282, in `keysFromPKCS8`: the keys of the store.  Simplification: what fails in the import of the first key, which C127 is about, makes
`EVP_PKCS82PKEY` return NULL. -/
noncomputable def pkcs8Keys (data : List Byte) : Faulty (EvpPkey × Option EvpPkey) := do
  check
  let (p8, attributes) ← value (env.d2i_PKCS8 data)
  check
  let pkey1 ← value (env.pkcs82pkey p8)
  let pkey2 ← attempt (pkeyFromAttributes env attributes)
  pure (pkey1, pkey2)

end Faulty

end Dstu
