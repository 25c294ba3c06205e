import Verif.Model.KeyFaults
import Verif.Model.Key

/-! Import of keys when calls of the library fail, with the values: `group_from_named_curve` and `group_from_nid` of dstulib/params.c, `group_from_asn1` and
`key_from_asn1` of dstulib/key.c, and the decoding functions of engine/ameth.c. -/

namespace Dstu

namespace Faulty

/-- dstulib/params.c:422-425, in `group_from_named_curve`: whether the coefficient became 1.  `BN_one` is not checked, and leaves a zero when it fails. -/
def setOne (first : Byte) : Faulty Bool := if first ≠ 0 then ask else pure false

/-- dstulib/params.c:394-475 `group_from_named_curve` (the table entry instead of its index). -/
noncomputable def groupOfEntry (c : NamedCurve) : Faulty EcGroup :=
  let bytesize := ((c.poly.headD 0).toNat + 7) / 8
  if 1 + 4 * bytesize ≤ c.data.length then do
    checks 8
    let p := arr2poly c.poly
    let one ← setOne (c.data.headD 0)
    let a := if one then 1 else 0
    let data := c.data.drop 1
    checks 2
    let b := bin2bn (data.take bytesize)
    let data := data.drop bytesize
    let (p, a, b) ← value (new_curve_GF2m p a b)
    checks 5
    let N := bin2bn (data.take bytesize)
    let data := data.drop bytesize
    let Px := bin2bn (data.take bytesize)
    let data := data.drop bytesize
    let Py := bin2bn (data.take bytesize)
    let (x, y) ← value (set_affine p a b Px Py)
    check
    pure ⟨p, a, b, x, y, N, 1⟩
  else err

/-- dstulib/params.c:477-488 `group_from_nid`. -/
noncomputable def group_from_nid (nids : CurveNids) (nid : Nat) : Faulty EcGroup := do
  let i ← value ((dstu_curves nids).findIdx? (fun c => nid = c.nid))
  let c ← value (dstu_curves nids)[i]?
  groupOfEntry c

/-- dstulib/key.c:221-372 `group_from_asn1`. -/
noncomputable def group_from_asn1 (sq : QuadSolver) (spec : CustomCurveSpec) (le : Bool) : Faulty EcGroup := do
  let poly ← value (polyArray spec.m spec.poly)
  checks 7
  let p := arr2poly poly
  if spec.a ≠ 1 ∧ spec.a ≠ 0 then err
  else
    checks (if le then 2 else 1)
    let bb ← value (maybeReverseCopy le spec.b)
    checks 2
    let (p, a, b) ← value (new_curve_GF2m p spec.a.toNat (bin2bn bb))
    checks (if le then 2 else 1)
    let bp ← value (maybeReverseCopy le spec.bp)
    let (x, y) ← dstu_point_expand sq bp ⟨p, a, b, 0, 0, 0, 0⟩
    check
    if set_generator_ok p spec.n then pure ⟨p, a, b, x, y, spec.n.toNat, 1⟩ else err

/-- dstulib/key.c:399-417, in `key_from_asn1`. -/
noncomputable def curveGroup (sq : QuadSolver) (nids : CurveNids) (objs : ObjTable nids) (curve : CurveSpec) (le : Bool) : Faulty EcGroup :=
  match curve with
  | .named oid => group_from_nid nids (objs.obj2nid oid)
  | .custom spec => group_from_asn1 sq spec le

/-- dstulib/key.c:386-397, in `key_from_asn1`: the S-box the key gets. -/
def keySbox (sbox : Option (List Byte)) : Faulty (Option (Bytes 64)) :=
  match sbox with
  | none => pure none
  | some l => do
    let s ← value (bytes64 l)
    if is_default_sbox s then pure none
    else
      check
      pure (some s)

/-- dstulib/key.c:374-438 `key_from_asn1`. -/
noncomputable def key_from_asn1 (sq : QuadSolver) (nids : CurveNids) (objs : ObjTable nids) (params : AlgorithmParameters) (le : Bool) : Faulty DstuKey := do
  checks 2
  let s ← keySbox params.sbox
  let g ← curveGroup sq nids objs params.curve le
  check
  pure { DSTU_KEY_new with group := some g, sbox := s }

variable (env : Env)

/-- engine/ameth.c:28-66 `dstu_asn1_param_decode`: the key that `pkey` gets. -/
noncomputable def dstu_asn1_param_decode (type : KeyType) (der : List Byte) : Faulty DstuKey := do
  check
  let params ← value (env.codec.d2i der)
  let key ← key_from_asn1 env.sq env.nids env.objs params (type = .le)
  check
  pure key

/-- engine/ameth.c:182-273 `dstu_asn1_priv_decode`: the key afterwards, with 1 returned.  Simplification: what `pk` holds after a failure is not in the
model (C75 and C77 are about that). -/
noncomputable def dstu_asn1_priv_decode (p8 : Pkcs8) : Faulty EvpPkey := do
  check
  let t ← value p8.alg
  check
  let params ← value p8.params
  let key ← dstu_asn1_param_decode env t params
  if p8.prk.length = 0 then err
  else
    checks 2
    let bn_bytes ← value (reverse_bytes_copy p8.prk p8.prk.length)
    let prk := bin2bn bn_bytes
    check
    let g ← value key.group
    checks 4
    let Q ← value (add_public_key env g prk)
    pure ⟨t, some { key with priv := some prk, pub := some Q }⟩

/-- engine/ameth.c:394-517 `dstu_asn1_pub_decode`: the key afterwards, with 1 returned.  Simplification as above. -/
noncomputable def dstu_asn1_pub_decode (pub : X509Pubkey) : Faulty EvpPkey := do
  check
  let params ← value pub.params
  let t ← value pub.alg
  check
  let key ← dstu_asn1_param_decode env t params
  let g ← value key.group
  checks 2
  let public_key ← value (env.octet.d2i pub.pbk)
  checks (if t = .le then 1 else 0)
  let compressed ← value (maybeReverseCopy (t = .le) public_key)
  let xy ← dstu_point_expand env.sq compressed g
  check
  pure ⟨t, some { key with pub := some (some xy) }⟩

end Faulty

end Dstu
