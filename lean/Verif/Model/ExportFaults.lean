import Verif.Model.ImportFaults

/-! Export of keys when calls of the library fail, with the values: `curve_nid_from_group` of dstulib/params.c, `asn1_from_key` of dstulib/key.c, and the
encoding functions of engine/ameth.c. -/

namespace Dstu

namespace Faulty

variable {α : Type}

/-- A call of a function of the code whose failure the caller sees, but does not return for. -/
def attempt (f : Faulty α) : Faulty (Option α) := fun w t =>
  match f w t with
  | (.done a, t) => (.done (some a), t)
  | (.failed, t) => (.done none, t)
  | (.waiting, t) => (.waiting, t)

/-- dstulib/params.c:300-307, in `curve_nid_from_group`: the comparison with the group of the table.  OpenSSL `EC_GROUP_cmp` returns a number that is not 0
when a call fails, too. -/
def sameNid (g : EcGroup) (nid : Nat) : Option EcGroup → Faulty Nat
  | none => pure NID_undef
  | some std => do
    let same ← ask
    pure (if same ∧ g = std then nid else NID_undef)

/-- dstulib/params.c:284-314 `curve_nid_from_group`. -/
noncomputable def curve_nid_from_group (nids : CurveNids) (g : EcGroup) : Faulty Nat :=
  match (dstu_curves nids).findIdx? (fun c => (g.degree : Int) = c.poly.headD 0) with
  | none => pure NID_undef
  | some i => do
    let c ← value (dstu_curves nids)[i]?
    let std ← attempt (groupOfEntry c)
    sameNid g c.nid std

/-- The number of calls for the polynomial, dstulib/key.c:125-155. -/
def polyCalls : PolySpec → Nat
  | .trinomial _ => 3
  | .pentanomial _ _ _ => 5

/-- dstulib/key.c:168-175, in `asn1_from_key`: the coefficient `b`. -/
def encodeB (b size : Nat) : Option (List Byte) :=
  match bn_encode b size with
  | (0, _) => none
  | (_, bytes) => bytes

/-- The custom curve branch of `asn1_from_key`, dstulib/key.c:98-193.  Simplification: `BN_CTX_new` (line 109), which is not checked, succeeds (otherwise
NULL is dereferenced, C75). -/
noncomputable def custom_from_group (g : EcGroup) (le : Bool) : Faulty CustomCurveSpec := do
  checks 4
  let (m, poly) ← value (fieldSpec (poly2arr g.p))
  checks (polyCalls poly)
  checks 3
  let field_size := ((m + 7) / 8).toNat
  let b ← value (encodeB g.b field_size)
  let b ← value (maybeReverse le b)
  check
  let bp ← dstu_point_compress g (some (g.gx, g.gy)) field_size
  let bp ← value (maybeReverse le bp)
  check
  pure ⟨m, poly, g.a, b, g.n, bp⟩

/-- dstulib/key.c:96-200, in `asn1_from_key`: the curve. -/
noncomputable def curveSpec (nids : CurveNids) (objs : ObjTable nids) (g : EcGroup) (le : Bool) (curve_nid : Nat) : Faulty CurveSpec :=
  if curve_nid = NID_undef then do
    let spec ← custom_from_group g le
    pure (.custom spec)
  else do
    check
    pure (.named (objs.nid2obj curve_nid))

/-- dstulib/key.c:66-219 `asn1_from_key`.  Simplification: `DSTU_AlgorithmParameters_new` (line 80), which is not checked, succeeds (otherwise NULL is
dereferenced, C75). -/
noncomputable def asn1_from_key (nids : CurveNids) (objs : ObjTable nids) (key : DstuKey) (le : Bool) : Faulty AlgorithmParameters := do
  let g ← value key.group
  checks (if (encodedSbox key.sbox).isSome then 2 else 0)
  let curve_nid ← curve_nid_from_group nids g
  let curve ← curveSpec nids objs g le curve_nid
  pure ⟨curve, encodedSbox key.sbox⟩

variable (env : Env)

/-- engine/ameth.c:68-89 `dstu_asn1_param_encode`: `failed` is the return value 0, `none` the return value -1 of `i2d_DSTU_AlgorithmParameters`, with `*pder`
left as it was. -/
noncomputable def dstu_asn1_param_encode (pkey : EvpPkey) : Faulty (Option (List Byte)) := do
  let key ← value pkey.key
  let params ← asn1_from_key env.nids env.objs key (pkey.type = .le)
  let encoded ← ask
  pure (if encoded then some (env.codec.i2d params) else none)

/-- engine/ameth.c:275-356 `dstu_asn1_priv_encode`: what `p8` gets.  The length of the parameters is compared with 0 only (line 300): `params` is `none`
when it is -1 and there are no bytes. -/
noncomputable def dstu_asn1_priv_encode (pk : EvpPkey) : Faulty Pkcs8 := do
  check
  let params ← dstu_asn1_param_encode env pk
  let key ← value pk.key
  let d ← value key.priv
  check
  if numBytes d = 0 then err
  else
    let prk ← value (reverse_bytes (bn2bin d) (numBytes d))
    check
    pure ⟨some pk.type, params, prk⟩

/-- engine/ameth.c:519-629 `dstu_asn1_pub_encode`: what `pub` gets. -/
noncomputable def dstu_asn1_pub_encode (pk : EvpPkey) : Faulty X509Pubkey := do
  check
  let params ← dstu_asn1_param_encode env pk
  let params ← value params
  let key ← value pk.key
  let g ← value key.group
  let point ← value key.pub
  check
  let compressed ← dstu_point_compress g point ((g.degree + 7) / 8)
  let compressed ← value (maybeReverse (pk.type = .le) compressed)
  checks 3
  pure ⟨some pk.type, some params, i2d_octet compressed⟩

end Faulty

end Dstu
