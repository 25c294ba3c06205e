import Verif.Model.Jks
import Verif.Model.Key
import Verif.Model.Rbg

/-! The places where the byte order of the machine and the size of its `long` matter when files and parameters are read. -/

namespace Dstu

open Spec

/-- How a machine keeps numbers in memory. -/
inductive ByteOrder where
  | little | big
  deriving DecidableEq

/-- The number in memory that consists of these bytes, as after the `memcpy` at keylib/jks.c:33. -/
def ByteOrder.value : ByteOrder → List Byte → Nat
  | .little => leValue
  | .big => beValue

/-- keylib/jks.c:36-41 `read16`. -/
def read16_on (o : ByteOrder) (data : List Byte) (pos : Nat) : Option Nat := (copyAt data pos 2).map o.value

/-- keylib/jks.c:43-48 `read32`. -/
def read32_on (o : ByteOrder) (data : List Byte) (pos : Nat) : Option Nat := (copyAt data pos 4).map o.value

/-- `ntohs` (used at keylib/jks.c:146, 306): nothing on big-endian machines. -/
def ntohs_on : ByteOrder → Nat → Nat
  | .little, n => ntohs n
  | .big, n => n

/-- `ntohl` (used at keylib/jks.c:147, 307, 308, 327, 342): nothing on big-endian machines. -/
def ntohl_on : ByteOrder → Nat → Nat
  | .little, n => ntohl n
  | .big, n => n

/-- keylib/jks.c:338-396 `parseJKS`.  All numbers of the entries are read by `ntohs(read16(..))` and `ntohl(read32(..))`, for which the byte order does not matter
(`C116_numbers_partial`), so the part that reads them is the one of `Verif.Model.Jks`. -/
def parseJKS_on {κ χ : Type} (o : ByteOrder) (lib : JksLib κ χ) (data storagePass keyPass : List Byte) (ks : Option Nat) (m : ImpMem κ χ) :
    Option (Bool × Option Nat × ImpMem κ χ) := do
  let magic ← read32_on o data 0
  let entries ← (read32_on o data 8).map (ntohl_on o)
  if magic ≠ 0xedfeedfe ∧ magic ≠ 0xcececece then some (false, ks, m)
  else if (← read32_on o data 4) ≠ 0x02000000 then some (false, ks, m)
  else
    match ← toUTF16BE storagePass with
    | none => some (false, ks, m)
    | some pwd16 => importEntries lib data pwd16 keyPass entries m

/-- `int x = ASN1_INTEGER_get(a)` (used at dstulib/key.c:231) where a `long` has `bits` bits: -1 for a value that does not fit into it, and the assignment keeps the low
32 bits. -/
def asn1_integer_get_on (bits : Nat) (v : Int) : Int :=
  if v < -2 ^ (bits - 1) ∨ 2 ^ (bits - 1) ≤ v then -1 else v.bmod (2 ^ 32)

/-- dstulib/key.c:231-260: the array of exponents, `none` for a non-positive entry. -/
def polyArray_on (bits : Nat) (m : Int) (poly : PolySpec) : Option (List Int) :=
  let p0 := asn1_integer_get_on bits m
  if p0 ≤ 0 then none
  else
    match poly with
    | .trinomial k =>
      let p1 := asn1_integer_get_on bits k
      if p1 ≤ 0 then none else some [p0, p1, 0, -1]
    | .pentanomial k j l =>
      let p1 := asn1_integer_get_on bits l
      if p1 ≤ 0 then none
      else
        let p2 := asn1_integer_get_on bits j
        if p2 ≤ 0 then none
        else
          let p3 := asn1_integer_get_on bits k
          if p3 ≤ 0 then none else some [p0, p1, p2, p3, 0, -1]

/-- dstulib/key.c:221-372 `group_from_asn1`. -/
noncomputable def group_from_asn1_on (bits : Nat) (sq : QuadSolver) (spec : CustomCurveSpec) (le : Bool) : Option EcGroup :=
  match polyArray_on bits spec.m spec.poly with
  | none => none
  | some poly =>
    let p := arr2poly poly
    if spec.a ≠ 1 ∧ spec.a ≠ 0 then none
    else
      match maybeReverseCopy le spec.b with
      | none => none
      | some bb =>
        match new_curve_GF2m p spec.a.toNat (bin2bn bb) with
        | none => none
        | some (p, a, b) =>
          match maybeReverseCopy le spec.bp with
          | none => none
          | some bp =>
            match dstu_point_expand sq bp ⟨p, a, b, 0, 0, 0, 0⟩ with
            | none => none
            | some (x, y) =>
              if set_generator_ok p spec.n then some ⟨p, a, b, x, y, spec.n.toNat, 1⟩ else none

/-- dstulib/key.c:399-417, in `key_from_asn1`: the group of a named or custom curve. -/
noncomputable def curveGroup_on (bits : Nat) (sq : QuadSolver) (nids : CurveNids) (objs : ObjTable nids) (curve : CurveSpec) (le : Bool) : Option EcGroup :=
  match curve with
  | .named oid => group_from_nid nids (objs.obj2nid oid)
  | .custom spec => group_from_asn1_on bits sq spec le

/-- dstulib/key.c:374-438 `key_from_asn1`. -/
noncomputable def key_from_asn1_on (bits : Nat) (sq : QuadSolver) (nids : CurveNids) (objs : ObjTable nids) (params : AlgorithmParameters) (le : Bool) : Option DstuKey :=
  let group := curveGroup_on bits sq nids objs params.curve le
  match params.sbox with
  | none =>
    match group with
    | none => none
    | some g => some { DSTU_KEY_new with group := some g }
  | some sbox =>
    match bytes64 sbox with
    | none => none
    | some s =>
      match group with
      | none => none
      | some g => some { DSTU_KEY_new with group := some g, sbox := if is_default_sbox s then none else some s }

/-- engine/ameth.c:28-66 `dstu_asn1_param_decode`. -/
noncomputable def param_decode_on (bits : Nat) (env : Env) (pkey : EvpPkey) (der : List Byte) : Bool × EvpPkey :=
  match env.codec.d2i der with
  | none => (false, pkey)
  | some params =>
    match key_from_asn1_on bits env.sq env.nids env.objs params (pkey.type = .le) with
    | none => (false, pkey)
    | some key => (true, { pkey with key := some key })

/-- The bytes of `u4 x[2]` as `(byte *) x`, engine/rbg.c:72, 86, 90. -/
def U4x2.bytes_on : ByteOrder → U4x2 → Bytes 8
  | .little, x => x.bytes
  | .big, x => #v[byteOf x.1 3, byteOf x.1 2, byteOf x.1 1, byteOf x.1 0, byteOf x.2 3, byteOf x.2 2, byteOf x.2 1, byteOf x.2 0]

/-- `u4 x[2]` whose bytes are given, engine/rbg.c:71-72, 86, 90. -/
def U4x2.ofBytes_on : ByteOrder → Bytes 8 → U4x2
  | .little, b => .ofBytes b
  | .big, b => (le32 b[3] b[2] b[1] b[0], le32 b[7] b[6] b[5] b[4])

/-- engine/rbg.c:54-77 `dstu_rbg_init`. -/
def rbg_init_on (o : ByteOrder) (e : RandEnv) (m : Rbg) : Bool × Rbg :=
  match e.seed with
  | none => (false, m)
  | some seed =>
    let sbox := unpack_sbox default_sbox
    let m := { m with cryptor := gost_init m.cryptor (some sbox) }
    let m := { m with cryptor := gost_key_nomask m.cryptor (seedKey seed) }
    let m := { m with s := .ofBytes_on o (seedTail seed) }
    let m := { m with I := .ofBytes_on o (gostcrypt m.cryptor e.curr) }
    (true, { m with initialized := true })

/-- engine/rbg.c:80-93 `dstu_rbg_get_bit`. -/
def rbg_get_bit_on (o : ByteOrder) (m : Rbg) : Byte × Rbg :=
  let x : U4x2 := (m.I.1 ^^^ m.s.1, m.I.2 ^^^ m.s.2)
  let x := U4x2.ofBytes_on o (gostcrypt m.cryptor (x.bytes_on o))
  let s : U4x2 := (x.1 ^^^ m.I.1, x.2 ^^^ m.I.2)
  let s := U4x2.ofBytes_on o (gostcrypt m.cryptor (s.bytes_on o))
  ((x.1 &&& 1).setWidth 8, { m with s := s })

/-- The calls of `dstu_rbg_get_bit` in the loops at engine/rbg.c:138-145: the first `k` bits. -/
def rbg_bits_on (o : ByteOrder) : Nat → Rbg → List Byte × Rbg
  | 0, m => ([], m)
  | k + 1, m =>
    let (b, m) := rbg_get_bit_on o m
    let (bs, m) := rbg_bits_on o k m
    (b :: bs, m)

end Dstu
