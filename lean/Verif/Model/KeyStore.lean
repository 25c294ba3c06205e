import Verif.Model.Basic

/-! Model of keylib/keystore.c.  Memory allocation is assumed to succeed. -/

namespace Dstu

/-- Keys (`EVP_PKEY`) or certificates (`X509`). -/
inductive Side where
  | keys
  | certs
deriving DecidableEq

/-- A pointer in an array: never written, null, or the address of an object. -/
inductive Cell where
  | garbage
  | null
  | ptr (a : Nat)
deriving DecidableEq

/-- `keyNum` and `keys`, or `certNum` and `certs`, keylib/keystore.c:8-14; `none` is the null pointer, a list is the
allocated block. -/
structure Block where
  num : Nat
  cells : Option (List Cell)

/-- `struct KeyStore_st`, keylib/keystore.c:8-14. -/
abbrev KeyStore := Side → Block

/-- The memory: key stores, and keys and certificates (`none`: not allocated, or freed).  Simplification: every
key and certificate has one reference. -/
structure KsMem where
  stores : Nat → Option KeyStore
  nextStore : Nat
  objs : Nat → Option Side
  nextObj : Nat

/-- `p[i] = v`; `none`: outside the block. -/
def writeCell (p : Option (List Cell)) (i : Nat) (v : Cell) : Option (List Cell) :=
  match p with
  | none => none
  | some l => if i < l.length then some (l.set i v) else none

/-- `p[i]`; `none`: outside the block. -/
def readCell (p : Option (List Cell)) (i : Nat) : Option Cell :=
  match p with
  | none => none
  | some l => l[i]?

/-- `for (i = 0; i < num; ++i) p[i] = NULL`, keylib/keystore.c:24-25, 36-37. -/
def nullLoop : (n i : Nat) → List Cell → Option (List Cell)
  | 0, _, l => some l
  | n + 1, i, l => do
    let l ← writeCell (some l) i .null
    nullLoop n (i + 1) l

/-- keylib/keystore.c:20-31 (keys) and 32-43 (certificates). -/
def newBlock (num : Nat) : Option Block :=
  if num > 0 then do
    let l ← nullLoop num 0 (List.replicate num .garbage)
    some ⟨num, some l⟩
  else some ⟨0, none⟩

/-- Both blocks of a store. -/
def mkStore (k c : Block) : KeyStore := fun side => match side with | .keys => k | .certs => c

/-- keylib/keystore.c:16-45 `KeyStoreNew`. -/
def KeyStoreNew (keyNum certNum : Nat) (m : KsMem) : Option (Nat × KsMem) := do
  let k ← newBlock keyNum
  let c ← newBlock certNum
  some (m.nextStore, { m with stores := fun i => if i = m.nextStore then some (mkStore k c) else m.stores i, nextStore := m.nextStore + 1 })

/-- The store at an address is changed. -/
def KsMem.put (m : KsMem) (id : Nat) (side : Side) (b : Block) : KsMem :=
  { m with stores := fun i => if i = id then (m.stores i).map fun ks => fun x => if x = side then b else ks x else m.stores i }

/-- `OPENSSL_clear_realloc` to a size not smaller: the contents are copied, the rest is not written. -/
def clear_realloc (p : Option (List Cell)) (num : Nat) : Option (List Cell) :=
  match p with
  | none => some (List.replicate num .garbage)
  | some l => some (l.take num ++ List.replicate (num - l.length) .garbage)

/-- `ks->keys[pos] = v`, keylib/keystore.c:100-108. -/
def KsMem.write (m : KsMem) (id : Nat) (side : Side) (pos : Nat) (v : Cell) : Option KsMem := do
  let ks ← m.stores id
  let l ← writeCell (ks side).cells pos v
  some (m.put id side ⟨(ks side).num, some l⟩)

/-- keylib/keystore.c:53-57 and 63-67: the loop of `KeyStoreAppend`, `n` steps from `i`; `base` is `to->keyNum`. -/
def moveLoop (to_ from_ : Nat) (side : Side) (base : Nat) : (n i : Nat) → KsMem → Option KsMem
  | 0, _, m => some m
  | n + 1, i, m => do
    let f ← m.stores from_
    let c ← readCell (f side).cells i
    let m ← m.write to_ side (base + i) c
    let m ← m.write from_ side i .null
    moveLoop to_ from_ side base n (i + 1) m

/-- keylib/keystore.c:50-59 (keys) and 60-69 (certificates); the two stores may be the same. -/
def appendSide (to_ from_ : Nat) (side : Side) (m : KsMem) : Option KsMem := do
  let t ← m.stores to_
  let f ← m.stores from_
  if (f side).num > 0 then
    let m := m.put to_ side ⟨(t side).num, clear_realloc (t side).cells ((t side).num + (f side).num)⟩
    let m ← moveLoop to_ from_ side (t side).num (f side).num 0 m
    let t ← m.stores to_
    let f ← m.stores from_
    some (m.put to_ side ⟨(t side).num + (f side).num, (t side).cells⟩)
  else some m

/-- keylib/keystore.c:47-70 `KeyStoreAppend`. -/
def KeyStoreAppend (to_ from_ : Nat) (m : KsMem) : Option KsMem := do
  let m ← appendSide to_ from_ .keys m
  appendSide to_ from_ .certs m

/-- `EVP_PKEY_free` or `X509_free`; `none`: not such an object (undefined). -/
def KsMem.freeObj (m : KsMem) (side : Side) : Cell → Option KsMem
  | .garbage => none
  | .null => some m
  | .ptr a => if m.objs a = some side then some { m with objs := fun i => if i = a then none else m.objs i } else none

/-- keylib/keystore.c:77-78 and 83-84: the loop of `KeyStoreFree`. -/
def freeLoop (side : Side) (p : Option (List Cell)) : (n i : Nat) → KsMem → Option KsMem
  | 0, _, m => some m
  | n + 1, i, m => do
    let c ← readCell p i
    let m ← m.freeObj side c
    freeLoop side p n (i + 1) m

/-- keylib/keystore.c:75-80 and 81-86. -/
def freeSide (side : Side) (b : Block) (m : KsMem) : Option KsMem :=
  match b.cells with
  | none => some m
  | some l => freeLoop side (some l) b.num 0 m

/-- keylib/keystore.c:72-88 `KeyStoreFree`. -/
def KeyStoreFree (id : Nat) (m : KsMem) : Option KsMem := do
  let ks ← m.stores id
  let m ← freeSide .keys (ks .keys) m
  let m ← freeSide .certs (ks .certs) m
  some { m with stores := fun i => if i = id then none else m.stores i }

/-- keylib/keystore.c:90-98 `KeyStoreKeyNum`, `KeyStoreCertNum`. -/
def KeyStoreNum (side : Side) (id : Nat) (m : KsMem) : Option Nat := (m.stores id).map fun ks => (ks side).num

/-- keylib/keystore.c:100-108 `KeyStoreSetKey`, `KeyStoreSetCert`. -/
def KeyStoreSet (side : Side) (id pos : Nat) (v : Cell) (m : KsMem) : Option KsMem := m.write id side pos v

/-- keylib/keystore.c:110-122 `KeyStoreGetKey`, `KeyStoreGetCert`. -/
def KeyStoreGet (side : Side) (id pos : Nat) (m : KsMem) : Option Cell :=
  match m.stores id with
  | none => none
  | some ks => if pos < (ks side).num then readCell (ks side).cells pos else some .null

/-- The operations.  `make` is the creation of a key or certificate by OpenSSL. -/
inductive KsOp where
  | make (side : Side)
  | new (keyNum certNum : Nat)
  | set (side : Side) (id pos : Nat) (obj : Option Nat)
  | append (to_ from_ : Nat)
  | free (id : Nat)

/-- An address as a pointer. -/
def Cell.of : Option Nat → Cell
  | none => .null
  | some a => .ptr a

/-- One operation; `none`: undefined behaviour. -/
def KsMem.step (m : KsMem) : KsOp → Option KsMem
  | .make side => some { m with objs := fun i => if i = m.nextObj then some side else m.objs i, nextObj := m.nextObj + 1 }
  | .new k c => (KeyStoreNew k c m).map Prod.snd
  | .set side id pos obj => KeyStoreSet side id pos (.of obj) m
  | .append t f => KeyStoreAppend t f m
  | .free id => KeyStoreFree id m

/-- A sequence of operations. -/
def KsMem.run : KsMem → List KsOp → Option KsMem
  | m, [] => some m
  | m, op :: ops => match m.step op with
    | none => none
    | some m => run m ops

/-- The memory at the start. -/
def KsMem.boot : KsMem := ⟨fun _ => none, 0, fun _ => none, 0⟩

end Dstu
