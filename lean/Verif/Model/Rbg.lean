import Verif.Model.Gost89
import Verif.Model.Sbox

/-! Model of engine/rbg.c: the random generator, called by one thread. -/

namespace Dstu

/-- `u4 x[2]`, engine/rbg.c:16-17, 82. -/
abbrev U4x2 := W32 × W32

/-- The bytes of `u4 x[2]` as `(byte *) x`, engine/rbg.c:72, 86, 90.  Simplification: the machine is
little-endian. -/
def U4x2.bytes (x : U4x2) : Bytes 8 :=
  #v[byteOf x.1 0, byteOf x.1 1, byteOf x.1 2, byteOf x.1 3, byteOf x.2 0, byteOf x.2 1, byteOf x.2 2, byteOf x.2 3]

/-- `u4 x[2]` whose bytes are given, engine/rbg.c:71-72, 86, 90.  Little-endian machine. -/
def U4x2.ofBytes (b : Bytes 8) : U4x2 := (le32 b[0] b[1] b[2] b[3], le32 b[4] b[5] b[6] b[7])

/-- The static variables `I`, `s`, `cryptor` and `initialized`, engine/rbg.c:16-19. -/
structure Rbg where
  I : U4x2
  s : U4x2
  cryptor : GostCtx
  initialized : Bool

/-- Static storage is zero at the start, engine/rbg.c:16-19. -/
def Rbg.boot : Rbg :=
  ⟨(0, 0), (0, 0), ⟨Vector.replicate 8 0, Vector.replicate 8 0, fun _ => 0, fun _ => 0, fun _ => 0, fun _ => 0⟩, false⟩

/-- What the rest of the world answers during one call: `RAND_OpenSSL()->status()`,
`RAND_OpenSSL()->bytes(seed, 40)` (`none`: failure) and the 8 bytes `curr` after `time()`,
engine/rbg.c:58-65, 97. -/
structure RandEnv where
  status : Bool
  seed : Option (Bytes 40)
  curr : Bytes 8

/-- The first 32 bytes of the seed, engine/rbg.c:70. -/
def seedKey (seed : Bytes 40) : Bytes 32 := Vector.ofFn fun i : Fin 32 => seed[i.val]

/-- `seed + 32`, engine/rbg.c:71. -/
def seedTail (seed : Bytes 40) : Bytes 8 := Vector.ofFn fun i : Fin 8 => seed[32 + i.val]

/-- engine/rbg.c:54-77 `dstu_rbg_init`. -/
def dstu_rbg_init (e : RandEnv) (m : Rbg) : Bool × Rbg :=
  match e.seed with
  | none => (false, m)
  | some seed =>
    let sbox := unpack_sbox default_sbox
    let m := { m with cryptor := gost_init m.cryptor (some sbox) }
    let m := { m with cryptor := gost_key_nomask m.cryptor (seedKey seed) }
    let m := { m with s := .ofBytes (seedTail seed) }
    let m := { m with I := .ofBytes (gostcrypt m.cryptor e.curr) }
    (true, { m with initialized := true })

/-- engine/rbg.c:80-93 `dstu_rbg_get_bit`. -/
def dstu_rbg_get_bit (m : Rbg) : Byte × Rbg :=
  let x : U4x2 := (m.I.1 ^^^ m.s.1, m.I.2 ^^^ m.s.2)
  let x := U4x2.ofBytes (gostcrypt m.cryptor x.bytes)
  let s : U4x2 := (x.1 ^^^ m.I.1, x.2 ^^^ m.I.2)
  let s := U4x2.ofBytes (gostcrypt m.cryptor s.bytes)
  ((x.1 &&& 1).setWidth 8, { m with s := s })

/-- engine/rbg.c:95-111 `dstu_rbg_status_nolock`. -/
def dstu_rbg_status_nolock (e : RandEnv) (m : Rbg) : Bool × Rbg :=
  if e.status && !m.initialized then
    match dstu_rbg_init e m with
    | (true, m) => (true, { m with initialized := true })
    | (false, m) => (false, m)
  else (e.status, m)

/-- The inner loop of `dstu_rbg_bytes`, engine/rbg.c:141-144, from bit `j` with `k` bits to go. -/
def rbgBits (b : Byte) (j : Nat) : Nat → Rbg → Byte × Rbg
  | 0, m => (b, m)
  | k + 1, m =>
    let (bit, m) := dstu_rbg_get_bit m
    rbgBits (b ||| bit <<< j) (j + 1) k m

/-- The outer loop of `dstu_rbg_bytes`, engine/rbg.c:138-145, with `n` bytes to go: the bytes written. -/
def rbgLoop : Nat → Rbg → List Byte × Rbg
  | 0, m => ([], m)
  | n + 1, m =>
    let (b, m) := rbgBits 0 0 8 m
    let (bs, m) := rbgLoop n m
    (b :: bs, m)

/-- `dstu_rand_lock` together with `rand_lock_init`, engine/rbg.c:20-21: the initialisation has not run; the
pointer is null because the lock could not be created; there is a lock; the lock was freed. -/
inductive RandLock where
  | unset | null | live | freed
  deriving DecidableEq

/-- engine/rbg.c:31-36 `dstu_lock` of a thread that is alone; `lockNew`: whether `CRYPTO_THREAD_lock_new`
succeeds.  `none`: the lock was freed. -/
def dstu_lock (lockNew : Bool) : RandLock → Option RandLock
  | .unset => if lockNew then some .live else some .null
  | .null => some .null
  | .live => some .live
  | .freed => none

/-- engine/rbg.c:38-41 `dstu_unlock`.  `none`: there is no lock. -/
def dstu_unlock : RandLock → Option RandLock
  | .live => some .live
  | _ => none

/-- All state of engine/rbg.c. -/
structure RbgState where
  rbg : Rbg
  lock : RandLock

/-- When the library is loaded, engine/rbg.c:16-21. -/
def RbgState.boot : RbgState := ⟨.boot, .unset⟩

/-- engine/rbg.c:113-122 `dstu_rbg_status`. -/
def dstu_rbg_status (lockNew : Bool) (e : RandEnv) (st : RbgState) : Option (Bool × RbgState) := do
  let l ← dstu_lock lockNew st.lock
  let (status, m) := dstu_rbg_status_nolock e st.rbg
  let l ← dstu_unlock l
  return (status, ⟨m, l⟩)

/-- `(unsigned) num` for an `int`, engine/rbg.c:138. -/
def asUnsigned (num : Int) : Nat := (num % 2 ^ 32).toNat

/-- engine/rbg.c:124-150 `dstu_rbg_bytes` into a buffer with the given contents.  `none`: a write outside
the buffer or use of a lock that does not exist. -/
def dstu_rbg_bytes (lockNew : Bool) (e : RandEnv) (st : RbgState) (buf : List Byte) (num : Int) :
    Option (Bool × List Byte × RbgState) := do
  let l ← dstu_lock lockNew st.lock
  let (rv, m) := if st.rbg.initialized then (true, st.rbg) else dstu_rbg_status_nolock e st.rbg
  if asUnsigned num ≤ buf.length then
    let (out, m) := rbgLoop (asUnsigned num) m
    let l ← dstu_unlock l
    return (rv, out ++ buf.drop (asUnsigned num), ⟨m, l⟩)
  else none

/-- engine/rbg.c:152-163 `dstu_rbg_cleanup`. -/
def dstu_rbg_cleanup (lockNew : Bool) (st : RbgState) : Option RbgState := do
  let l ← dstu_lock lockNew st.lock
  let l ← dstu_unlock l
  return ⟨.boot, if l = .live then .freed else l⟩

/-- The calls of `dstu_rand_meth`, engine/rbg.c:165-173, with what the rest of the world answers; seeding
and adding entropy (engine/rbg.c:44-52) only reach OpenSSL's own generator. -/
inductive RbgCall where
  | seed
  | bytes (e : RandEnv) (buf : List Byte) (num : Int)
  | status (e : RandEnv)
  | cleanup

/-- What a call gives back to the caller. -/
inductive RbgAnswer where
  | nothing
  | bytes (rv : Bool) (buf : List Byte)
  | status (rv : Bool)

/-- One call, engine/rbg.c:44-173. -/
def RbgState.call (lockNew : Bool) (st : RbgState) : RbgCall → Option (RbgAnswer × RbgState)
  | .seed => some (.nothing, st)
  | .bytes e buf num => (dstu_rbg_bytes lockNew e st buf num).map fun (rv, b, st) => (.bytes rv b, st)
  | .status e => (dstu_rbg_status lockNew e st).map fun (rv, st) => (.status rv, st)
  | .cleanup => (dstu_rbg_cleanup lockNew st).map fun st => (.nothing, st)

/-- A sequence of calls. -/
def RbgState.run (lockNew : Bool) (st : RbgState) : List RbgCall → Option (List RbgAnswer × RbgState)
  | [] => some ([], st)
  | c :: cs =>
    match st.call lockNew c with
    | none => none
    | some (a, st) => (st.run lockNew cs).map fun (as, st) => (a :: as, st)

end Dstu
