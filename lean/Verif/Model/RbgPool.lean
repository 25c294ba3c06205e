import Verif.Model.Rbg

/-! Model of the part of engine/rbg.c that hands entropy on to OpenSSL's own generator, together with the rest of the generator. -/

namespace Dstu

/-- OpenSSL's own generator `RAND_OpenSSL()`, used in engine/rbg.c:46, 51, 62, 97: any functions on any state.  The number `entropy` of
`add`, a `double`, is a natural number here; nothing in the engine looks at it. -/
structure DefaultRng (σ : Type) where
  add : σ → List Byte → Nat → Bool × σ
  seed : σ → List Byte → Bool × σ
  status : σ → Bool × σ
  bytes40 : σ → Option (Bytes 40) × σ

/-- The state of OpenSSL's generator and that of engine/rbg.c. -/
structure PoolState (σ : Type) where
  pool : σ
  st : RbgState

/-- engine/rbg.c:44-47 `dstu_rbg_add`. -/
def dstu_rbg_add {σ : Type} (rng : DefaultRng σ) (s : PoolState σ) (buf : List Byte) (entropy : Nat) : Bool × PoolState σ :=
  let (rv, p) := rng.add s.pool buf entropy
  (rv, { s with pool := p })

/-- engine/rbg.c:49-52 `dstu_rbg_seed`. -/
def dstu_rbg_seed {σ : Type} (rng : DefaultRng σ) (s : PoolState σ) (buf : List Byte) : Bool × PoolState σ :=
  let (rv, p) := rng.seed s.pool buf
  (rv, { s with pool := p })

/-- What OpenSSL's generator answers to the calls of `dstu_rbg_status_nolock`, engine/rbg.c:62, 97. -/
def poolEnv {σ : Type} (rng : DefaultRng σ) (p : σ) (curr : Bytes 8) : RandEnv :=
  let (status, p) := rng.status p
  ⟨status, (rng.bytes40 p).1, curr⟩

/-- The state of OpenSSL's generator after `dstu_rbg_status_nolock`, engine/rbg.c:62, 97-101. -/
def poolAfter {σ : Type} (rng : DefaultRng σ) (p : σ) (initialized : Bool) : σ :=
  let (status, p) := rng.status p
  if status && !initialized then (rng.bytes40 p).2 else p

/-- The calls of `dstu_rand_meth`, engine/rbg.c:165-173; `curr` are the 8 bytes after `time()`. -/
inductive PoolCall where
  | add (buf : List Byte) (entropy : Nat)
  | seed (buf : List Byte)
  | bytes (curr : Bytes 8) (buf : List Byte) (num : Int)
  | status (curr : Bytes 8)
  | cleanup

/-- What a call gives back: for `add` and `seed` the returned value. -/
inductive PoolAnswer where
  | added (rv : Bool)
  | rbg (a : RbgAnswer)

/-- One call, engine/rbg.c:44-173. -/
def PoolState.call {σ : Type} (rng : DefaultRng σ) (lockNew : Bool) (s : PoolState σ) : PoolCall → Option (PoolAnswer × PoolState σ)
  | .add buf entropy =>
    let (rv, s) := dstu_rbg_add rng s buf entropy
    some (.added rv, s)
  | .seed buf =>
    let (rv, s) := dstu_rbg_seed rng s buf
    some (.added rv, s)
  | .bytes curr buf num =>
    (dstu_rbg_bytes lockNew (poolEnv rng s.pool curr) s.st buf num).map fun (rv, b, st) =>
      (.rbg (.bytes rv b), ⟨if s.st.rbg.initialized then s.pool else poolAfter rng s.pool false, st⟩)
  | .status curr =>
    (dstu_rbg_status lockNew (poolEnv rng s.pool curr) s.st).map fun (rv, st) =>
      (.rbg (.status rv), ⟨poolAfter rng s.pool s.st.rbg.initialized, st⟩)
  | .cleanup => (dstu_rbg_cleanup lockNew s.st).map fun st => (.rbg .nothing, ⟨s.pool, st⟩)

/-- A sequence of calls. -/
def PoolState.run {σ : Type} (rng : DefaultRng σ) (lockNew : Bool) (s : PoolState σ) : List PoolCall → Option (List PoolAnswer × PoolState σ)
  | [] => some ([], s)
  | c :: cs =>
    match s.call rng lockNew c with
    | none => none
    | some (a, s) => (s.run rng lockNew cs).map fun (as, s) => (a :: as, s)

end Dstu
