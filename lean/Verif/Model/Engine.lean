import Verif.Model.Err

/-! Model of engine/dstu.c: the methods of the engine, their lookup and their lifetime.  Memory
allocation is assumed to succeed. -/

namespace Dstu

/-- The identifiers, as numbered in the OpenSSL the engine is built with. -/
def NID_dstu28147_cfb : Int := 1154
def NID_dstu34311 : Int := 1157
def NID_dstu4145le : Int := 1158
def NID_dstu4145be : Int := 1159

/-- The kinds of methods. -/
inductive MethKind where
  | digest
  | cipher
  | pkey
  | asn1
deriving DecidableEq

/-- A method in memory: its kind and its identifier. -/
structure Meth where
  kind : MethKind
  nid : Int
deriving DecidableEq

/-- The static variables of engine/dstu.c:37-40, the memory (`none`: never allocated or freed), the methods OpenSSL
finds by name (`EVP_add_digest`, `EVP_add_cipher`) and the state of the error strings. -/
structure EngState where
  dstu_md : Option Nat
  dstu_cipher : Option Nat
  dstu_pkey_methods : Option Nat × Option Nat
  dstu_asn1_methods : Option Nat × Option Nat
  heap : Nat → Option Meth
  next : Nat
  namedDigest : Option Nat
  namedCipher : Option Nat
  err : ErrState

/-- Static storage at the start, engine/dstu.c:37-40. -/
def EngState.boot (g : ErrRegistry) : EngState := ⟨none, none, (none, none), (none, none), fun _ => none, 0, none, none, .boot g⟩

/-- A new method at a new address. -/
def EngState.alloc (s : EngState) (m : Meth) : Nat × EngState :=
  (s.next, { s with heap := fun a => if a = s.next then some m else s.heap a, next := s.next + 1 })

/-- `EVP_..._meth_free`: freeing `NULL` does nothing; `none`: the method is not in memory (undefined). -/
def EngState.free (s : EngState) : Option Nat → Option EngState
  | none => some s
  | some a => if (s.heap a).isSome then some { s with heap := fun b => if b = a then none else s.heap b } else none

/-- engine/md.c:89-109 `dstu_digest_new`. -/
def dstu_digest_new (s : EngState) : Nat × EngState := s.alloc ⟨.digest, NID_dstu34311⟩

/-- engine/cipher.c:231-250 `dstu_cipher_new`. -/
def dstu_cipher_new (s : EngState) : Nat × EngState := s.alloc ⟨.cipher, NID_dstu28147_cfb⟩

/-- engine/pmeth.c:416-443 `dstu_pkey_meth_new`. -/
def dstu_pkey_meth_new (nid : Int) (s : EngState) : Option Nat × EngState :=
  let (res, s) := s.alloc ⟨.pkey, nid⟩
  if nid = NID_dstu4145le then (some res, s)
  else if nid = NID_dstu4145be then (some res, s)
  else (none, (s.free (some res)).getD s)

/-- engine/ameth.c:727-750 `dstu_asn1_meth_new`. -/
def dstu_asn1_meth_new (nid : Int) (s : EngState) : Option Nat × EngState :=
  if nid = NID_dstu4145le then let (a, s) := s.alloc ⟨.asn1, NID_dstu4145le⟩; (some a, s)
  else if nid = NID_dstu4145be then let (a, s) := s.alloc ⟨.asn1, NID_dstu4145be⟩; (some a, s)
  else (none, s)

/-- engine/dstu.c:42-47 `dstu_md_get`. -/
def dstu_md_get (s : EngState) : Option Nat × EngState :=
  let s := if s.dstu_md = none then let (a, s) := dstu_digest_new s; { s with dstu_md := some a } else s
  (s.dstu_md, s)

/-- engine/dstu.c:49-54 `dstu_cipher_get`. -/
def dstu_cipher_get (s : EngState) : Option Nat × EngState :=
  let s := if s.dstu_cipher = none then let (a, s) := dstu_cipher_new s; { s with dstu_cipher := some a } else s
  (s.dstu_cipher, s)

/-- engine/dstu.c:56-70 `dstu_pkey_meth_get`; the loop over `dstu_nids` is unrolled. -/
def dstu_pkey_meth_get (nid : Int) (s : EngState) : Option Nat × EngState :=
  if nid = NID_dstu4145le then
    let s := if s.dstu_pkey_methods.1 = none then
        let (a, s) := dstu_pkey_meth_new nid s
        { s with dstu_pkey_methods := (a, s.dstu_pkey_methods.2) }
      else s
    (s.dstu_pkey_methods.1, s)
  else if nid = NID_dstu4145be then
    let s := if s.dstu_pkey_methods.2 = none then
        let (a, s) := dstu_pkey_meth_new nid s
        { s with dstu_pkey_methods := (s.dstu_pkey_methods.1, a) }
      else s
    (s.dstu_pkey_methods.2, s)
  else (none, s)

/-- engine/dstu.c:72-86 `dstu_asn1_meth_get`; the loop over `dstu_nids` is unrolled. -/
def dstu_asn1_meth_get (nid : Int) (s : EngState) : Option Nat × EngState :=
  if nid = NID_dstu4145le then
    let s := if s.dstu_asn1_methods.1 = none then
        let (a, s) := dstu_asn1_meth_new nid s
        { s with dstu_asn1_methods := (a, s.dstu_asn1_methods.2) }
      else s
    (s.dstu_asn1_methods.1, s)
  else if nid = NID_dstu4145be then
    let s := if s.dstu_asn1_methods.2 = none then
        let (a, s) := dstu_asn1_meth_new nid s
        { s with dstu_asn1_methods := (s.dstu_asn1_methods.1, a) }
      else s
    (s.dstu_asn1_methods.2, s)
  else (none, s)

/-- What a lookup callback does: its return value, what it wrote to `*method` and to `*nids` (`none`: nothing
written). -/
structure CbResult where
  ret : Int
  method : Option (Option Nat)
  nids : Option (List Int)

/-- engine/dstu.c:105-126 `dstu_digests`; `digest` and `nids` say whether the pointers are not null. -/
def dstu_digests (digest nids : Bool) (nid : Int) (s : EngState) : CbResult × EngState :=
  if digest && nid != 0 then
    if NID_dstu34311 = nid then
      let (m, s) := dstu_md_get s
      (⟨1, some m, none⟩, s)
    else (⟨0, none, none⟩, s)
  else
    if !nids then (⟨-1, none, none⟩, s)
    else (⟨1, none, some [NID_dstu34311]⟩, s)

/-- engine/dstu.c:128-149 `dstu_ciphers`. -/
def dstu_ciphers (cipher nids : Bool) (nid : Int) (s : EngState) : CbResult × EngState :=
  if cipher && nid != 0 then
    if NID_dstu28147_cfb = nid then
      let (m, s) := dstu_cipher_get s
      (⟨1, some m, none⟩, s)
    else (⟨0, none, none⟩, s)
  else
    if !nids then (⟨-1, none, none⟩, s)
    else (⟨1, none, some [NID_dstu28147_cfb]⟩, s)

/-- engine/dstu.c:151-166 `dstu_pkey_meths`; `*nids` is written when `pmeth` is null (OpenSSL then passes a
pointer). -/
def dstu_pkey_meths (pmeth : Bool) (nid : Int) (s : EngState) : CbResult × EngState :=
  if !pmeth then (⟨2, none, some [NID_dstu4145le, NID_dstu4145be]⟩, s)
  else
    let (m, s) := dstu_pkey_meth_get nid s
    if m ≠ none then (⟨1, some m, none⟩, s) else (⟨0, some m, none⟩, s)

/-- engine/dstu.c:168-183 `dstu_asn1_meths`. -/
def dstu_asn1_meths (ameth : Bool) (nid : Int) (s : EngState) : CbResult × EngState :=
  if !ameth then (⟨2, none, some [NID_dstu4145le, NID_dstu4145be]⟩, s)
  else
    let (m, s) := dstu_asn1_meth_get nid s
    if m ≠ none then (⟨1, some m, none⟩, s) else (⟨0, some m, none⟩, s)

/-- The callback the engine registers for a kind of methods, engine/dstu.c:194-198. -/
def EngState.callback (s : EngState) (k : MethKind) (method nids : Bool) (nid : Int) : CbResult × EngState :=
  match k with
  | .digest => dstu_digests method nids nid s
  | .cipher => dstu_ciphers method nids nid s
  | .pkey => dstu_pkey_meths method nid s
  | .asn1 => dstu_asn1_meths method nid s

/-- What a lookup through OpenSSL returns: a pointer, null, or the value of a variable nobody wrote. -/
inductive Found where
  | method (a : Nat)
  | null
  | garbage
deriving DecidableEq

/-- `ENGINE_get_digest`, `ENGINE_get_cipher`, `ENGINE_get_pkey_meth` and `ENGINE_get_pkey_asn1_meth` of OpenSSL:
`if (!fn(e, &ret, NULL, nid)) return NULL; return ret;`. -/
def EngState.get (s : EngState) (k : MethKind) (nid : Int) : Found × EngState :=
  let (r, s) := s.callback k true false nid
  if r.ret = 0 then (.null, s)
  else match r.method with
    | none => (.garbage, s)
    | some none => (.null, s)
    | some (some a) => (.method a, s)

/-- `fn(e, NULL, &nids, 0)`: the number of algorithms and the list. -/
def EngState.list (s : EngState) (k : MethKind) : Int × Option (List Int) :=
  let (r, _) := s.callback k false true 0
  (r.ret, r.nids)

/-- engine/dstu.c:88-92 `dstu_engine_init`. -/
def dstu_engine_init (s : EngState) : Bool × EngState := (true, s)

/-- engine/dstu.c:94-103 `dstu_engine_finish`; `none`: undefined behaviour. -/
def dstu_engine_finish (s : EngState) : Option EngState := do
  let s ← s.free s.dstu_cipher
  let s ← s.free s.dstu_md
  some { s with err := ERR_unload_DSTU_strings s.err }

/-- engine/dstu.c:185-215 `dstu_bind` with the right identifier; `ok` counts the steps of 190-206 that succeed: the
first fourteen only register callbacks, the next create and name the digest and the cipher, the last adds the
PRF. -/
def dstu_bind (ok : Nat) (s : EngState) : Bool × EngState :=
  let s := if 14 ≤ ok then let (m, s) := dstu_md_get s; if 15 ≤ ok then { s with namedDigest := m } else s else s
  let s := if 15 ≤ ok then let (m, s) := dstu_cipher_get s; if 16 ≤ ok then { s with namedCipher := m } else s else s
  if ok < 17 then (false, { s with err := ERR_DSTU_error 100 6 s.err })
  else (true, { s with err := ERR_load_DSTU_strings s.err })

/-- One step of OpenSSL's `engine_pkey_meths_free` and `engine_pkey_asn1_meths_free`: the method of an
identifier is looked up and freed. -/
def EngState.release (s : EngState) (k : MethKind) (nid : Int) : Option EngState :=
  match s.callback k true false nid with
  | (r, s) => if r.ret = 0 then some s else s.free (r.method.getD none)

/-- OpenSSL's `engine_free_util` when the last reference to the engine goes. -/
def EngState.destroy (s : EngState) : Option EngState := do
  let s ← s.release .pkey NID_dstu4145le
  let s ← s.release .pkey NID_dstu4145be
  let s ← s.release .asn1 NID_dstu4145le
  s.release .asn1 NID_dstu4145be

/-- What the application does with the engine. -/
inductive EngOp where
  | bind (ok : Nat)
  | init
  | get (k : MethKind) (nid : Int)
  | byName (k : MethKind)
  | finish
  | destroy

/-- One operation: what it hands out, and the new state; `none`: undefined behaviour in the engine. -/
def EngState.step (s : EngState) : EngOp → Option (Found × EngState)
  | .bind ok => some (.null, (dstu_bind ok s).2)
  | .init => some (.null, (dstu_engine_init s).2)
  | .get k nid => some (s.get k nid)
  | .byName .digest => some (s.namedDigest.elim .null .method, s)
  | .byName .cipher => some (s.namedCipher.elim .null .method, s)
  | .byName _ => some (.null, s)
  | .finish => (dstu_engine_finish s).map fun s => (.null, s)
  | .destroy => s.destroy.map fun s => (.null, s)

/-- A history; the list holds what each operation handed out. -/
def EngState.run : EngState → List EngOp → Option (List Found × EngState)
  | s, [] => some ([], s)
  | s, op :: ops => match s.step op with
    | none => none
    | some (f, s) => (run s ops).map fun (fs, s) => (f :: fs, s)

end Dstu
