import Verif.Model.Key

/-! Key contexts and keys in memory: /repo/engine/pmeth.c, the memory management of /repo/dstulib/key.c and the
parameter functions of /repo/engine/ameth.c.

Memory is a finite set of live objects.  Using an address that is not live, or one of the wrong kind, is
undefined behaviour: the result is `none`.  Allocation never fails.  An `EC_KEY` is owned by one
`DSTU_KEY` and holds its own copy of the group (OpenSSL `EC_KEY_set_group`), so it is a part of the
`DSTU_KEY` object here. -/

namespace Dstu

open Spec

/-- dstulib/key.h:20-25 `DSTU_KEY_CTX`; pointers are addresses, `none` is null. -/
structure CtxObj where
  type : KeyType
  group : Option Nat
  sbox : Option Nat

/-- dstulib/key.h:14-18 `DSTU_KEY` with its `EC_KEY`. -/
structure KeyObj where
  group : Option EcGroup
  priv : Option Nat
  pub : Option (Option (Nat × Nat))
  sbox : Option Nat

/-- A live object. -/
inductive KObj where
  | sbox (s : Bytes 64)
  | group (g : EcGroup)
  | ctx (c : CtxObj)
  | key (k : KeyObj)

/-- Memory: what is live at each address, and an address from which on nothing was ever allocated. -/
structure KMem where
  cell : Nat → Option KObj
  next : Nat

namespace KMem

def put (m : KMem) (a : Nat) (o : Option KObj) : KMem := { m with cell := fun i => if i = a then o else m.cell i }

/-- `OPENSSL_malloc` and initialisation. -/
def alloc (m : KMem) (o : KObj) : Nat × KMem := (m.next, { m.put m.next (some o) with next := m.next + 1 })

/-- `OPENSSL_free`, `EC_GROUP_free`: undefined unless the address is live. -/
def free (m : KMem) (a : Nat) : Option KMem := if (m.cell a).isSome then some (m.put a none) else none

/-- `if (p) free(p)`. -/
def freeOpt (m : KMem) (p : Option Nat) : Option KMem :=
  match p with
  | none => some m
  | some a => m.free a

def sbox (m : KMem) (a : Nat) : Option (Bytes 64) :=
  match m.cell a with
  | some (.sbox s) => some s
  | _ => none

def group (m : KMem) (a : Nat) : Option EcGroup :=
  match m.cell a with
  | some (.group g) => some g
  | _ => none

def ctx (m : KMem) (a : Nat) : Option CtxObj :=
  match m.cell a with
  | some (.ctx c) => some c
  | _ => none

def key (m : KMem) (a : Nat) : Option KeyObj :=
  match m.cell a with
  | some (.key k) => some k
  | _ => none

end KMem

/-- dstulib/params.c:593-601 `copy_sbox` of an S-box in this memory. -/
def copy_sbox (m : KMem) (a : Nat) : Option (Nat × KMem) := do
  let s ← m.sbox a
  return m.alloc (.sbox s)

/-- OpenSSL `EC_GROUP_dup`. -/
def EC_GROUP_dup (m : KMem) (a : Nat) : Option (Nat × KMem) := do
  let g ← m.group a
  return m.alloc (.group g)

/-- dstulib/key.c:54-64 `DSTU_KEY_free` of a pointer that may be null. -/
def DSTU_KEY_free (m : KMem) (p : Option Nat) : Option KMem :=
  match p with
  | none => some m
  | some a => do
    let k ← m.key a
    let m ← m.freeOpt k.sbox
    m.free a

/-- dstulib/key.c:37-52 `DSTU_KEY_set(key, NULL, sbox)`. -/
def DSTU_KEY_set (m : KMem) (a : Nat) (sbox : Option Nat) : Option KMem :=
  match sbox with
  | none => some m
  | some s => do
    let k ← m.key a
    let m ← m.freeOpt k.sbox
    return m.put a (some (.key { k with sbox := some s }))

/-- dstulib/key.c:440-449 `DSTU_KEY_CTX_new`, and `type = nid` of engine/pmeth.c:34. -/
def DSTU_KEY_CTX_new (m : KMem) (type : KeyType) : Nat × KMem := m.alloc (.ctx ⟨type, none, none⟩)

/-- dstulib/key.c:451-466 `DSTU_KEY_CTX_set`, the group. -/
def CTX_set_group (m : KMem) (a : Nat) (group : Option Nat) : Option KMem :=
  match group with
  | none => some m
  | some g => do
    let c ← m.ctx a
    let m ← m.freeOpt c.group
    return m.put a (some (.ctx { c with group := some g }))

/-- dstulib/key.c:451-466 `DSTU_KEY_CTX_set`, the S-box. -/
def CTX_set_sbox (m : KMem) (a : Nat) (sbox : Option Nat) : Option KMem :=
  match sbox with
  | none => some m
  | some s => do
    let c ← m.ctx a
    let m ← m.freeOpt c.sbox
    return m.put a (some (.ctx { c with sbox := some s }))

/-- dstulib/key.c:451-466 `DSTU_KEY_CTX_set`. -/
def DSTU_KEY_CTX_set (m : KMem) (a : Nat) (group sbox : Option Nat) : Option KMem := do
  let m ← CTX_set_group m a group
  CTX_set_sbox m a sbox

/-- `copy->group = EC_GROUP_dup(ctx->group)` if not null, dstulib/key.c:477-485. -/
def copyGroup (m : KMem) (p : Option Nat) : Option (Option Nat × KMem) :=
  match p with
  | none => some (none, m)
  | some a => do
    let (b, m) ← EC_GROUP_dup m a
    return (some b, m)

/-- `copy->sbox = copy_sbox(ctx->sbox)` if not null, dstulib/key.c:487-495. -/
def copySbox (m : KMem) (p : Option Nat) : Option (Option Nat × KMem) :=
  match p with
  | none => some (none, m)
  | some a => do
    let (b, m) ← copy_sbox m a
    return (some b, m)

/-- dstulib/key.c:468-498 `DSTU_KEY_CTX_copy`. -/
def DSTU_KEY_CTX_copy (m : KMem) (a : Nat) : Option (Nat × KMem) := do
  let c ← m.ctx a
  let (copy, m) := DSTU_KEY_CTX_new m c.type
  let (g, m) ← copyGroup m c.group
  let (s, m) ← copySbox m c.sbox
  return (copy, m.put copy (some (.ctx ⟨c.type, g, s⟩)))

/-- dstulib/key.c:500-516 `DSTU_KEY_CTX_free` of a pointer that is not null. -/
def DSTU_KEY_CTX_free (m : KMem) (a : Nat) : Option KMem := do
  let c ← m.ctx a
  let m ← m.freeOpt c.group
  let m ← m.freeOpt c.sbox
  m.free a

/-- The whole state: memory, the data pointer of each `EVP_PKEY_CTX`, type and key pointer of each
`EVP_PKEY`. -/
structure KState where
  mem : KMem
  data : Nat → Option Nat
  pkey : Nat → KeyType × Option Nat

/-- Nothing allocated. -/
def KState.empty : KState := ⟨⟨fun _ => none, 0⟩, fun _ => none, fun _ => (.le, none)⟩

namespace KState

def setData (s : KState) (c : Nat) (p : Option Nat) : KState := { s with data := fun i => if i = c then p else s.data i }

def setPkey (s : KState) (p : Nat) (v : KeyType × Option Nat) : KState :=
  { s with pkey := fun i => if i = p then v else s.pkey i }

/-- The key an `EVP_PKEY` refers to; `none` if a pointer on the way is not live. -/
def keyValue (s : KState) (p : Nat) : Option EvpPkey :=
  match s.pkey p with
  | (t, none) => some ⟨t, none⟩
  | (t, some a) => do
    let k ← s.mem.key a
    match k.sbox with
    | none => return ⟨t, some ⟨k.group, none, k.priv, k.pub⟩⟩
    | some b => do
      let sb ← s.mem.sbox b
      return ⟨t, some ⟨k.group, some sb, k.priv, k.pub⟩⟩

/-- The number of live objects is not needed, only whether there is any: memory is clean if nothing is live. -/
def Clean (s : KState) : Prop := ∀ a, s.mem.cell a = none

end KState

/-- engine/pmeth.c:27-60 `dstu_pkey_init`, `dstu_pkey_init_le`, `dstu_pkey_init_be`. -/
def dstu_pkey_init (s : KState) (c : Nat) (type : KeyType) : Int × KState :=
  let (a, m) := DSTU_KEY_CTX_new s.mem type
  (1, { s with mem := m }.setData c (some a))

/-- engine/pmeth.c:62-72 `dstu_pkey_cleanup`. -/
def dstu_pkey_cleanup (s : KState) (c : Nat) : Option KState :=
  match s.data c with
  | none => some s
  | some a => do
    let m ← DSTU_KEY_CTX_free s.mem a
    return { s with mem := m }.setData c none

/-- engine/pmeth.c:397-414 `dstu_pkey_copy`. -/
def dstu_pkey_copy (s : KState) (dst src : Nat) : Option (Int × KState) :=
  match s.data src with
  | none => some (1, s)
  | some a => do
    let (b, m) ← DSTU_KEY_CTX_copy s.mem a
    return (1, { s with mem := m }.setData dst (some b))

/-- engine/ameth.c:386-392 `dstu_asn1_pkey_free`, called by `EVP_PKEY_free` and when another key is assigned. -/
def dstu_asn1_pkey_free (s : KState) (p : Nat) : Option KState := do
  let m ← DSTU_KEY_free s.mem (s.pkey p).2
  return { s with mem := m }.setPkey p ((s.pkey p).1, none)

/-- OpenSSL `EVP_PKEY_assign`: `EVP_PKEY_set_type` frees the key that was there. -/
def EVP_PKEY_assign (s : KState) (p : Nat) (type : KeyType) (a : Nat) : Option KState := do
  let s ← dstu_asn1_pkey_free s p
  return s.setPkey p (type, some a)

/-- What the pointer argument of a control command points to. -/
inductive CtrlArg where
  | null
  | bytes (l : List Byte)
  | group (g : EcGroup)
  | md (nid : Nat)

/-- engine/control.h:5 with OpenSSL's `EVP_MD_CTRL_ALG_CTRL` = 0x1000. -/
def CTRL_SBOX : Int := 0x1000 + 1

/-- engine/control.h:7 `DSTU_SET_CURVE` with OpenSSL's `EVP_PKEY_ALG_CTRL` = 0x1000. -/
def CTRL_CURVE : Int := 0x1000 + 2

/-- OpenSSL `EVP_PKEY_CTRL_MD`. -/
def CTRL_MD : Int := 1

/-- OpenSSL `EVP_PKEY_CTRL_PKCS7_ENCRYPT`, `_PKCS7_DECRYPT`, `_PKCS7_SIGN`, `_DIGESTINIT`, `_CMS_SIGN`. -/
def CTRL_PASSIVE : List Int := [3, 4, 5, 7, 11]

/-- The first 64 bytes of what is pointed to, if there are as many. -/
def first64 (l : List Byte) : Option (Bytes 64) :=
  if h : 64 ≤ l.length then some ⟨(l.take 64).toArray, by simp [h]⟩ else none

/-- engine/pmeth.c:126-176 `dstu_pkey_ctrl`; `mdNid` is `NID_dstu34311`.  `none`: undefined behaviour, in
particular if the argument is not of the kind the command asks for. -/
def dstu_pkey_ctrl (mdNid : Nat) (s : KState) (c : Nat) (type p1 : Int) (p2 : CtrlArg) : Option (Int × KState) :=
  match s.data c with
  | none => some (0, s)
  | some a =>
    if type = CTRL_SBOX then
      match p2 with
      | .null => some (0, s)
      | .bytes l =>
        if p1 ≠ 64 then some (0, s)
        else do
          let sb ← first64 l
          let (b, m) := s.mem.alloc (.sbox sb)
          let m ← DSTU_KEY_CTX_set m a none (some b)
          return (1, { s with mem := m })
      | _ => if p1 ≠ 64 then some (0, s) else none
    else if type = CTRL_CURVE then
      match p2 with
      | .null => some (0, s)
      | .group g => do
        let (b, m) := s.mem.alloc (.group g)
        let m ← DSTU_KEY_CTX_set m a (some b) none
        return (1, { s with mem := m })
      | _ => none
    else if type = CTRL_MD then
      match p2 with
      | .md nid => some (if mdNid ≠ nid then 0 else 1, s)
      | _ => none
    else if type ∈ CTRL_PASSIVE then some (1, s)
    else some (0, s)

/-- Value of a hexadecimal digit, OpenSSL `OPENSSL_hexchar2int`, `ossl_isxdigit`. -/
def hexDigit (c : Byte) : Option Nat :=
  let n := c.toNat
  if 48 ≤ n ∧ n ≤ 57 then some (n - 48)
  else if 97 ≤ n ∧ n ≤ 102 then some (n - 87)
  else if 65 ≤ n ∧ n ≤ 70 then some (n - 55)
  else none

/-- The longest prefix of hexadecimal digits. -/
def hexPrefix : List Byte → List Nat
  | [] => []
  | c :: l =>
    match hexDigit c with
    | none => []
    | some d => d :: hexPrefix l

/-- OpenSSL `BN_hex2bn`: the return value, which counts digits and sign, whether the number is
negative, and its absolute value.  Strings of more than 2^29 digits are not considered. -/
def BN_hex2bn (s : List Byte) : Nat × Bool × Nat :=
  let neg : Bool := match s with
    | c :: _ => c = 45
    | [] => false
  let digits := hexPrefix (if neg then s.drop 1 else s)
  if digits = [] then (0, false, 0)
  else
    let v := digits.foldl (fun v d => 16 * v + d) 0
    (digits.length + (if neg then 1 else 0), neg && (v ≠ 0), v)

/-- The strings "curve" and "sbox", engine/pmeth.c:24-25. -/
def CURVE_PARAM_STR : List Byte := [0x63, 0x75, 0x72, 0x76, 0x65]
def SBOX_PARAM_STR : List Byte := [0x73, 0x62, 0x6f, 0x78]

/-- engine/pmeth.c:178-226 `dstu_pkey_ctrl_str`; strings without their terminating zero.  `sn2nid` is
OpenSSL's `OBJ_sn2nid`. -/
noncomputable def dstu_pkey_ctrl_str (nids : CurveNids) (mdNid : Nat) (sn2nid : List Byte → Nat) (s : KState) (c : Nat)
    (type value : List Byte) : Option (Int × KState) :=
  if type = CURVE_PARAM_STR then
    let curve_nid := sn2nid value
    if curve_nid = NID_undef then some (0, s)
    else
      match group_from_nid nids curve_nid with
      | none => some (0, s)
      | some g => do
        let (b, m) := s.mem.alloc (.group g)
        let (res, s) ← dstu_pkey_ctrl mdNid { s with mem := m } c CTRL_CURVE 0 (.group g)
        let m ← s.mem.free b
        return (res, { s with mem := m })
  else if type = SBOX_PARAM_STR then
    let (n, neg, v) := BN_hex2bn value
    if 64 * 2 ≠ n then some (0, s)
    else if neg then some (0, s)
    else
      match bn_encode v 64 with
      | (0, _) => some (0, s)
      | (_, none) => none
      | (_, some sbox) => dstu_pkey_ctrl mdNid s c CTRL_SBOX 64 (.bytes sbox)
  else some (0, s)

/-- `if (!(dstu_ctx->group)) dstu_ctx->group = get_default_group()`, engine/pmeth.c:87-92: the group to be
used, if there is one, and memory. -/
noncomputable def ensureGroup (nids : CurveNids) (m : KMem) (a : Nat) : Option (Option EcGroup × KMem) := do
  let c ← m.ctx a
  match c.group with
  | some b => do
    let g ← m.group b
    return (some g, m)
  | none =>
    match get_default_group nids with
    | none => return (none, m)
    | some g => do
      let (b, m) := m.alloc (.group g)
      return (some g, m.put a (some (.ctx { c with group := some b })))

/-- dstulib/params.c:490-535 `dstu_generate_key` for the group of a `DSTU_KEY`: private and public key. -/
noncomputable def generatePair (env : Env) (g : EcGroup) (draws : List (Option Nat)) :
    Drawn (Nat × Option (Nat × Nat)) :=
  match genLoop draws with
  | .waiting => .waiting
  | .failed => .failed
  | .done d =>
    match add_public_key env g d with
    | none => .failed
    | some Q => .done (d, Q)

/-- engine/pmeth.c:74-124 `dstu_pkey_keygen`.  If the draws do not suffice the call does not return; the
state is then the one in which it is still drawing. -/
noncomputable def dstu_pkey_keygen (env : Env) (s : KState) (c p : Nat) (draws : List (Option Nat)) :
    Option (Drawn Int × KState) :=
  match s.data c with
  | none => some (.done 0, s)
  | some a => do
    let (g, m) ← ensureGroup env.nids s.mem a
    match g with
    | none => return (.done 0, { s with mem := m })
    | some g => do
      let (k, m) := m.alloc (.key ⟨some g, none, none, none⟩)
      match generatePair env g draws with
      | .waiting => return (.waiting, { s with mem := m })
      | .failed => do
        let m ← DSTU_KEY_free m (some k)
        return (.done 0, { s with mem := m })
      | .done (d, Q) => do
        let m := m.put k (some (.key ⟨some g, some d, some Q, none⟩))
        let ctx ← m.ctx a
        let (sb, m) ← copySbox m ctx.sbox
        let m ← DSTU_KEY_set m k sb
        let s ← EVP_PKEY_assign { s with mem := m } p ctx.type k
        return (.done 1, s)

/-- A key with given contents in memory, as `key_from_asn1` (dstulib/key.c:374-438) leaves it. -/
def newKey (m : KMem) (k : DstuKey) : Nat × KMem :=
  match k.sbox with
  | none => m.alloc (.key ⟨k.group, k.priv, k.pub, none⟩)
  | some sb =>
    let (b, m) := m.alloc (.sbox sb)
    m.alloc (.key ⟨k.group, k.priv, k.pub, some b⟩)

/-- A decoded key is assigned, engine/ameth.c:56-64 and the like. -/
def assignKey (s : KState) (p : Nat) (t : KeyType) (k : DstuKey) : Option KState :=
  let (a, m) := newKey s.mem k
  EVP_PKEY_assign { s with mem := m } p t a

/-- engine/ameth.c:105-114: the destination key, created if there is none. -/
def ensureKey (s : KState) (p : Nat) (t : KeyType) : Option (Nat × KState) :=
  match (s.pkey p).2 with
  | some b => some (b, s)
  | none => do
    let (b, m) := s.mem.alloc (.key ⟨none, none, none, none⟩)
    let s ← EVP_PKEY_assign { s with mem := m } p t b
    return (b, s)

/-- engine/ameth.c:91-132 `dstu_asn1_param_copy`.  `EC_KEY_set_group` frees the old group before it copies
the new one, so copying from a key to itself is undefined. -/
def dstu_asn1_param_copy (s : KState) (dst src : Nat) : Option (Int × KState) :=
  match (s.pkey src).2 with
  | none => some (0, s)
  | some f => do
    let fk ← s.mem.key f
    match fk.group with
    | none => return (0, s)
    | some g => do
      let (t, s) ← ensureKey s dst (s.pkey src).1
      if t = f then none
      else do
        let tk ← s.mem.key t
        let m := s.mem.put t (some (.key { tk with group := some g }))
        match fk.sbox with
        | none => return (1, { s with mem := m })
        | some fb => do
          let (b, m) ← copy_sbox m fb
          let tk ← m.key t
          return (1, { s with mem := m.put t (some (.key { tk with sbox := some b })) })

/-- Comparison of two S-box pointers, engine/ameth.c:142-151: `true` if they are the same pointer or
point to the same bytes. -/
def sameSbox (m : KMem) (p q : Option Nat) : Option Bool :=
  if p = q then some true
  else
    match p, q with
    | some a, some b => do
      let s ← m.sbox a
      let t ← m.sbox b
      return s == t
    | _, _ => some false

/-- engine/ameth.c:134-158 `dstu_asn1_param_cmp` in memory. -/
def param_cmp_mem (s : KState) (p q : Nat) : Option Int :=
  match (s.pkey p).2, (s.pkey q).2 with
  | some a, some b => do
    let k ← s.mem.key a
    let l ← s.mem.key b
    let same ← sameSbox s.mem k.sbox l.sbox
    if same then do
      let g ← k.group
      let h ← l.group
      return if g = h then 1 else 0
    else return 0
  | _, _ => some (-2)

end Dstu
