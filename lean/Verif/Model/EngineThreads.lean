import Verif.Lemmas.Engine

/-! Model of the lookups of engine/dstu.c called by many threads.  OpenSSL calls the callbacks of an engine without holding a lock, and engine/dstu.c has
none.  A thread does one access to a shared variable, or one creation of a method, at a time, and the threads are interleaved in any way.  Simplification: the
accesses to a variable are taken to happen one after the other (C gives no meaning to a race on it). -/

namespace Dstu

/-- A lookup: kind and identifier. -/
structure LookupReq where
  kind : MethKind
  nid : Int

/-- Where a thread is in engine/dstu.c:42-86. -/
inductive LookupPc where
  /-- outside: between lookups -/
  | out
  /-- 44, 51, 63, 79: `if (.. == NULL)` -/
  | test
  /-- 45, 52, 64, 80: the call of `.._new` -/
  | create
  /-- 45, 52, 64, 80: the assignment -/
  | store
  /-- 46, 53, 65, 81: `return ..`, the variable is read again -/
  | load
deriving DecidableEq

/-- The variables of a thread: the lookups it is going to make, its place and locals in the current one (the variable looked at, what `.._new` returned), and the outcomes of its
earlier lookups. -/
structure LookupThread where
  todo : List LookupReq
  pc : LookupPc
  req : LookupReq
  slot : Slot
  new : Option Nat
  done : List (LookupReq × Found)

/-- A thread that has made no lookup yet. -/
def LookupThread.start (todo : List LookupReq) : LookupThread := ⟨todo, .out, ⟨.digest, 0⟩, .md, none, []⟩

/-- `ENGINE_get_..` of OpenSSL for an identifier the engine does not have, engine/dstu.c:105-183 (see `EngState.get`): no variable is accessed. -/
def foundUnknown (r : LookupReq) : Found := if (r.kind = .digest ∨ r.kind = .cipher) ∧ r.nid = 0 then .garbage else .null

/-- One step of a thread; `ok`: whether the creation of a method succeeds, if this is one (engine/md.c:89-109, engine/cipher.c:231-250, engine/pmeth.c:416-443, engine/ameth.c:727-750).
`none`: it has nothing to do. -/
def LookupThread.step (ok : Bool) (s : EngState) (t : LookupThread) : Option (EngState × LookupThread) :=
  match t.pc with
  | .out =>
    match t.todo with
    | [] => none
    | r :: todo =>
      match slotOf r.kind r.nid with
      | none => some (s, { t with todo := todo, done := t.done ++ [(r, foundUnknown r)] })
      | some sl => some (s, { t with todo := todo, pc := .test, req := r, slot := sl })
  | .test => some (s, { t with pc := if s.slot t.slot = none then .create else .load })
  | .create =>
    if ok then some ((s.alloc t.slot.meth).2, { t with pc := .store, new := some (s.alloc t.slot.meth).1 })
    else some (s, { t with pc := .store, new := none })
  | .store => some (s.setSlot t.slot t.new, { t with pc := .load })
  | .load => some (s, { t with pc := .out, done := t.done ++ [(t.req, (s.slot t.slot).elim .null .method)] })

/-- All threads and what they share. -/
structure LookupSystem where
  eng : EngState
  thread : Nat → LookupThread

/-- Threads that start in a state of the engine; thread `t` is going to make the lookups `script t`. -/
def LookupSystem.start (s : EngState) (script : Nat → List LookupReq) : LookupSystem := ⟨s, fun t => .start (script t)⟩

/-- The scheduler picks thread `t`; `ok`: whether a creation in this step succeeds. -/
def LookupSystem.step (σ : LookupSystem) (t : Nat) (ok : Bool) : LookupSystem :=
  match (σ.thread t).step ok σ.eng with
  | none => σ
  | some (s, th) => ⟨s, fun u => if u = t then th else σ.thread u⟩

/-- A whole schedule. -/
def LookupSystem.run (σ : LookupSystem) (schedule : List (Nat × Bool)) : LookupSystem := schedule.foldl (fun σ p => σ.step p.1 p.2) σ

end Dstu
