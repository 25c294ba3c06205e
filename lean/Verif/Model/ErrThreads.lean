import Verif.Model.Err

/-! Model of `ERR_DSTU_error` of engine/err.c called by many threads.  Nothing in engine/err.c takes a lock.  A thread does one access to the shared variable, or one call of OpenSSL, at a
time, and the threads are interleaved in any way; the calls of OpenSSL are atomic (OpenSSL takes a lock) and its queue of errors is one per thread.  Simplification: the
accesses to the variable are taken to happen one after the other (C gives no meaning to a race on it). -/

namespace Dstu

/-- Where a thread is in engine/err.c:144-149. -/
inductive RaisePc where
  /-- outside: between errors -/
  | out
  /-- 146: `if (DSTU_lib_error_code == 0)` -/
  | test
  /-- 147: the call of `ERR_get_next_error_library` -/
  | ask
  /-- 147: the assignment -/
  | store
  /-- 148: `ERR_PUT_error`, the variable is read again -/
  | put
deriving DecidableEq

/-- A thread: the errors (function, reason) it is going to raise, its place and locals in the current call, and its queue of errors, newest last. -/
structure RaiseThread where
  todo : List (Nat × Nat)
  pc : RaisePc
  req : Nat × Nat
  new : Nat
  queue : List Nat

/-- A thread that has raised nothing yet. -/
def RaiseThread.start (todo : List (Nat × Nat)) : RaiseThread := ⟨todo, .out, (0, 0), 0, []⟩

/-- One step of a thread in engine/err.c:144-149.  `none`: it has nothing to do. -/
def RaiseThread.step (s : ErrState) (t : RaiseThread) : Option (ErrState × RaiseThread) :=
  match t.pc with
  | .out =>
    match t.todo with
    | [] => none
    | r :: todo => some (s, { t with todo := todo, pc := .test, req := r })
  | .test => some (s, { t with pc := if s.libCode = 0 then .ask else .put })
  | .ask => some ({ s with reg := (ERR_get_next_error_library s.reg).2 }, { t with pc := .store, new := (ERR_get_next_error_library s.reg).1 })
  | .store => some ({ s with libCode := t.new }, { t with pc := .put })
  | .put => some (s, { t with pc := .out, queue := t.queue ++ [ERR_PACK s.libCode t.req.1 t.req.2] })

/-- All threads and what they share. -/
structure RaiseSystem where
  err : ErrState
  thread : Nat → RaiseThread

/-- Threads that start in a state of the strings; thread `t` is going to raise the errors `script t`. -/
def RaiseSystem.start (s : ErrState) (script : Nat → List (Nat × Nat)) : RaiseSystem := ⟨s, fun t => .start (script t)⟩

/-- What the scheduler picks: a thread of the engine, or another library that asks for a number or inserts or deletes a string. -/
inductive RaiseEvent where
  | thread (t : Nat)
  | otherNumber
  | otherPut (code : Nat) (s : Option String)

/-- One event. -/
def RaiseSystem.step (σ : RaiseSystem) : RaiseEvent → RaiseSystem
  | .thread t =>
    match (σ.thread t).step σ.err with
    | none => σ
    | some (s, th) => ⟨s, fun u => if u = t then th else σ.thread u⟩
  | .otherNumber => ⟨σ.err.step .otherNumber, σ.thread⟩
  | .otherPut c x => ⟨σ.err.step (.otherPut c x), σ.thread⟩

/-- A whole schedule. -/
def RaiseSystem.run (σ : RaiseSystem) (schedule : List RaiseEvent) : RaiseSystem := schedule.foldl RaiseSystem.step σ

end Dstu
