import Verif.Model.Rbg

/-! Model of engine/rbg.c called by many threads.  A thread does one statement, or one access to a shared
variable, at a time, and the threads are interleaved in any way.  The static variables `I`, `s`, `cryptor`
and `initialized` are shared, and so are the lock and the flag of the one-time initialisation.

Contracts assumed of OpenSSL: `CRYPTO_THREAD_run_once` runs the initialiser once and makes the others wait
(one step here), `CRYPTO_THREAD_write_lock` waits until the lock is free and takes it (one step), and
`CRYPTO_THREAD_lock_new` succeeds (otherwise see `dstu_unlock`). -/

namespace Dstu

/-- A request of a thread: bytes into a buffer with given contents (`num` is its length), or the status.
engine/rbg.c:113, 124. -/
inductive RandReq where
  | bytes (buf : List Byte)
  | status

/-- Where a thread is, engine/rbg.c. -/
inductive RandPc where
  /-- outside: between calls -/
  | out
  /-- 33 `CRYPTO_THREAD_run_once` -/
  | once
  /-- 35 `CRYPTO_THREAD_write_lock` -/
  | acquire
  /-- 132 `if (!initialized)` -/
  | test
  /-- 97 `status = RAND_OpenSSL()->status()` -/
  | askStatus
  /-- 99 `if (status && !initialized)` -/
  | testStatus
  /-- 62-65 `RAND_OpenSSL()->bytes`, `time` -/
  | askSeed
  /-- 68 `gost_init` -/
  | setTables
  /-- 70 `gost_key_nomask` -/
  | setKey
  /-- 71 `memcpy(s, seed + 32, 8)` -/
  | setS
  /-- 72 `gostcrypt(&cryptor, curr, I)` -/
  | setI
  /-- 73 `initialized = 1` -/
  | setFlag
  /-- 103-104 `initialized = 1; status = initialized` -/
  | setFlag2
  /-- 110, 134-135, 117: return of `dstu_rbg_status_nolock` -/
  | gotStatus
  /-- 138, 140 `i < (unsigned)num`, `*(buf + i) = 0` -/
  | loop
  /-- 141 `j < 8` -/
  | bitLoop
  /-- 84 `x[0] = I[0] ^ s[0]` -/
  | x0
  /-- 85 `x[1] = I[1] ^ s[1]` -/
  | x1
  /-- 86 `gostcrypt(&cryptor, x, x)` -/
  | encX
  /-- 88 `s[0] = x[0] ^ I[0]` -/
  | s0
  /-- 89 `s[1] = x[1] ^ I[1]` -/
  | s1
  /-- 90 `gostcrypt(&cryptor, s, s)` -/
  | encS
  /-- 92, 143 `*(buf + i) |= (x[0] & 1) << j`, `j++` -/
  | putBit
  /-- 119, 147 `dstu_unlock` -/
  | unlock
  /-- 121, 149 `return` -/
  | ret
  deriving DecidableEq

/-- The outcome of a request: what was asked, what was returned, and the buffer at that time. -/
structure RandDone where
  req : RandReq
  rv : Bool
  buf : List Byte

/-- The variables of a thread: the requests it is going to make, its place and locals in the current one
(`curr` is on the stack of `dstu_rbg_init`), and the outcomes of its earlier requests. -/
structure RandThread where
  todo : List RandReq
  pc : RandPc
  req : RandReq
  status : Bool
  seed : Bytes 40
  curr : Bytes 8
  rv : Bool
  buf : List Byte
  i : Nat
  j : Nat
  x : U4x2
  done : List RandDone

/-- A thread that has made no request yet. -/
def RandThread.start (todo : List RandReq) : RandThread :=
  ⟨todo, .out, .status, false, zeros 40, zeros 8, true, [], 0, 0, (0, 0), []⟩

/-- What the threads share, engine/rbg.c:16-21: the variables of the generator, whether the one-time
initialisation has run, and who holds the lock. -/
structure RandShared where
  rbg : Rbg
  onceDone : Bool
  holder : Option Nat

/-- One step of thread `me`.  `none`: it has nothing to do or must wait. -/
def RandThread.step (me : Nat) (e : RandEnv) (sh : RandShared) (t : RandThread) : Option (RandShared × RandThread) :=
  match t.pc with
  | .out =>
    match t.todo with
    | [] => none
    | .bytes buf :: todo => some (sh, { t with todo := todo, pc := .once, req := .bytes buf, buf := buf, rv := true })
    | .status :: todo => some (sh, { t with todo := todo, pc := .once, req := .status, buf := [], rv := true })
  | .once => some ({ sh with onceDone := true }, { t with pc := .acquire })
  | .acquire =>
    match sh.holder with
    | some _ => none
    | none => some ({ sh with holder := some me }, { t with pc := match t.req with | .bytes _ => .test | .status => .askStatus })
  | .test => some (sh, { t with pc := if sh.rbg.initialized then .loop else .askStatus, i := 0 })
  | .askStatus => some (sh, { t with pc := .testStatus, status := e.status })
  | .testStatus => some (sh, { t with pc := if t.status && !sh.rbg.initialized then .askSeed else .gotStatus })
  | .askSeed =>
    match e.seed with
    | none => some (sh, { t with pc := .gotStatus, status := false })
    | some seed => some (sh, { t with pc := .setTables, seed := seed, curr := e.curr })
  | .setTables =>
    some ({ sh with rbg := { sh.rbg with cryptor := gost_init sh.rbg.cryptor (some (unpack_sbox default_sbox)) } }, { t with pc := .setKey })
  | .setKey =>
    some ({ sh with rbg := { sh.rbg with cryptor := gost_key_nomask sh.rbg.cryptor (seedKey t.seed) } }, { t with pc := .setS })
  | .setS => some ({ sh with rbg := { sh.rbg with s := .ofBytes (seedTail t.seed) } }, { t with pc := .setI })
  | .setI => some ({ sh with rbg := { sh.rbg with I := .ofBytes (gostcrypt sh.rbg.cryptor t.curr) } }, { t with pc := .setFlag })
  | .setFlag => some ({ sh with rbg := { sh.rbg with initialized := true } }, { t with pc := .setFlag2 })
  | .setFlag2 => some ({ sh with rbg := { sh.rbg with initialized := true } }, { t with pc := .gotStatus, status := true })
  | .gotStatus =>
    match t.req with
    | .status => some (sh, { t with pc := .unlock, rv := t.status })
    | .bytes _ => some (sh, { t with pc := .loop, rv := t.status, i := 0 })
  | .loop =>
    if t.i < t.buf.length then some (sh, { t with pc := .bitLoop, j := 0, buf := t.buf.set t.i 0 })
    else some (sh, { t with pc := .unlock })
  | .bitLoop =>
    if t.j < 8 then some (sh, { t with pc := .x0 }) else some (sh, { t with pc := .loop, i := t.i + 1 })
  | .x0 => some (sh, { t with pc := .x1, x := (sh.rbg.I.1 ^^^ sh.rbg.s.1, t.x.2) })
  | .x1 => some (sh, { t with pc := .encX, x := (t.x.1, sh.rbg.I.2 ^^^ sh.rbg.s.2) })
  | .encX => some (sh, { t with pc := .s0, x := .ofBytes (gostcrypt sh.rbg.cryptor t.x.bytes) })
  | .s0 => some ({ sh with rbg := { sh.rbg with s := (t.x.1 ^^^ sh.rbg.I.1, sh.rbg.s.2) } }, { t with pc := .s1 })
  | .s1 => some ({ sh with rbg := { sh.rbg with s := (sh.rbg.s.1, t.x.2 ^^^ sh.rbg.I.2) } }, { t with pc := .encS })
  | .encS => some ({ sh with rbg := { sh.rbg with s := .ofBytes (gostcrypt sh.rbg.cryptor sh.rbg.s.bytes) } }, { t with pc := .putBit })
  | .putBit =>
    some (sh, { t with
      pc := .bitLoop
      j := t.j + 1
      buf := t.buf.set t.i (t.buf.getD t.i 0 ||| (t.x.1 &&& 1).setWidth 8 <<< t.j) })
  | .unlock => some ({ sh with holder := none }, { t with pc := .ret })
  | .ret => some (sh, { t with pc := .out, done := t.done ++ [⟨t.req, t.rv, t.buf⟩] })

/-- All threads and what they share. -/
structure RandSystem where
  shared : RandShared
  thread : Nat → RandThread

/-- At the start nothing has been called; thread `t` is going to make the requests `script t`. -/
def RandSystem.boot (script : Nat → List RandReq) : RandSystem :=
  ⟨⟨.boot, false, none⟩, fun t => .start (script t)⟩

/-- The scheduler picks thread `t`, and the world answers `e` if it is asked in this step.  A thread that
cannot go on does nothing. -/
def RandSystem.step (σ : RandSystem) (t : Nat) (e : RandEnv) : RandSystem :=
  match (σ.thread t).step t e σ.shared with
  | none => σ
  | some (sh, th) => ⟨sh, fun u => if u = t then th else σ.thread u⟩

/-- A whole schedule. -/
def RandSystem.run (σ : RandSystem) (schedule : List (Nat × RandEnv)) : RandSystem :=
  schedule.foldl (fun σ (t, e) => σ.step t e) σ

end Dstu
