import Mathlib.Data.Multiset.AddSub

/-! Programs that acquire and release resources, when any call may fail.

This is the language of the models of failure paths (`Model.Fail*`).  They follow the C code call by call, but keep of the data only
which objects are held: every call of a library function that may fail has its outcome taken from an oracle, `Fate`, and so have the branches that depend
on data.  A theorem about all fates is one about every combination of failures and data. -/

namespace Dstu

/-- What is decided from outside. -/
inductive Kind where
  /-- `OPENSSL_malloc` and `OPENSSL_realloc`. -/
  | malloc
  /-- Functions of OpenSSL that make a new object: `BN_CTX_new`, `EC_POINT_new`, `d2i_..`. -/
  | object
  /-- `BN_CTX_get`. -/
  | get
  /-- Calls that may fail and for which the code makes no provision: the outcome is not checked, or something is lost when it is a failure.  They are kept apart to
  state that all others may fail. -/
  | weak
  /-- Other functions that report success or failure. -/
  | call
  /-- Branches on data. -/
  | data
  deriving DecidableEq

/-- Outcome number `n` of each kind. -/
abbrev Fate := Kind → Nat → Bool

/-- The objects that exist; `faults` counts the calls that failed. -/
structure Cells where
  live : Multiset Nat
  next : Nat
  tick : Nat
  faults : Nat
  deriving DecidableEq

/-- A program; `none` is undefined behaviour. -/
def Res (α : Type) := Fate → Cells → Option (α × Cells)

namespace Res

variable {α β : Type}

protected def pure (a : α) : Res α := fun _ c => some (a, c)

protected def bind (f : Res α) (g : α → Res β) : Res β := fun w c =>
  match f w c with
  | none => none
  | some (a, c) => g a w c

instance : Monad Res where
  pure := Res.pure
  bind := Res.bind

/-- Undefined behaviour. -/
def ub : Res α := fun _ _ => none

/-- The outcome of a call, or a branch on data. -/
def ask (k : Kind) : Res Bool := fun w c => some (w k c.tick, { c with tick := c.tick + 1, faults := c.faults + if k ≠ .data ∧ w k c.tick = false then 1 else 0 })

/-- A call that gives a new object, or NULL. -/
def alloc (k : Kind) : Res (Option Nat) := fun w c =>
  if w k c.tick then some (some c.next, { c with live := {c.next} + c.live, next := c.next + 1, tick := c.tick + 1 })
  else some (none, { c with tick := c.tick + 1, faults := c.faults + 1 })

/-- Release of an object; nothing happens for NULL.  The object must be held. -/
def free : Option Nat → Res Unit
  | none => fun _ c => some ((), c)
  | some p => fun _ c => if p ∈ c.live then some ((), { c with live := c.live.erase p }) else none

/-- Access through a pointer: the object must exist. -/
def use : Option Nat → Res Unit
  | none => fun _ _ => none
  | some p => fun _ c => if p ∈ c.live then some ((), c) else none

/-- `BN_CTX_get` when the calls before in the same context succeeded, or not: after one failure all others fail. -/
def get (before : Bool) : Res Bool := if before then ask .get else Pure.pure false

/-- Access to a number from `BN_CTX_get`. -/
def num (ok : Bool) : Res Unit := if ok then Pure.pure () else ub

/-- The same program with all calls in it of the kind `weak`. -/
def weakly (f : Res α) : Res α := fun w c => f (fun k n => if k = .data then w .data n else w .weak n) c

/-- Calls one after the other, up to the first that fails. -/
def calls : Nat → Res Bool
  | 0 => Pure.pure true
  | n + 1 => do
    if ← ask .call then calls n else Pure.pure false

end Res

end Dstu
