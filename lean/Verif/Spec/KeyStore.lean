import Verif.Model.KeyStore

/-! Key stores as lists of keys and lists of certificates. -/

namespace Dstu.Spec

/-- All key stores: each has a list of keys and a list of certificates, with empty places; and the objects still in the
hands of the caller. -/
structure Shelves where
  store : Nat → Option (Side → List (Option Nat))
  next : Nat
  hand : Nat → Option Side
  nextObj : Nat

/-- Nothing yet. -/
def Shelves.boot : Shelves := ⟨fun _ => none, 0, fun _ => none, 0⟩

/-- The lists of a store; a store that does not exist has none. -/
def Shelves.list (s : Shelves) (id : Nat) (side : Side) : List (Option Nat) :=
  match s.store id with | some v => v side | none => []

/-- What the operations should do.  Appending takes all objects out of the second store, leaving empty places, and
puts them behind those of the first. -/
def Shelves.step (s : Shelves) : KsOp → Shelves
  | .make side => { s with hand := fun a => if a = s.nextObj then some side else s.hand a, nextObj := s.nextObj + 1 }
  | .new k c => { s with
      store := fun i => if i = s.next then some fun side => match side with | .keys => List.replicate k none | .certs => List.replicate c none else s.store i,
      next := s.next + 1 }
  | .set side id pos obj => { s with
      store := fun i => if i = id then (s.store i).map fun v => fun x => if x = side then (v x).set pos obj else v x else s.store i,
      hand := fun a => if some a = obj then none else s.hand a }
  | .append t f => { s with
      store := fun i =>
        if i = t then (s.store i).map fun v => fun side => (if t = f then List.replicate (v side).length none else v side) ++ s.list f side
        else if i = f then (s.store i).map fun v => fun side => List.replicate (v side).length none
        else s.store i }
  | .free id => { s with store := fun i => if i = id then none else s.store i }

def Shelves.run (s : Shelves) (ops : List KsOp) : Shelves := ops.foldl Shelves.step s

/-- The caller uses stores that exist, places that exist, and objects it holds. -/
def Allowed (s : Shelves) : KsOp → Prop
  | .set side id pos obj => pos < (s.list id side).length ∧ ∀ a, obj = some a → s.hand a = some side
  | .append t f => (s.store t).isSome ∧ (s.store f).isSome
  | .free id => (s.store id).isSome
  | _ => True

/-- The caller also sets only empty places. -/
def Tidy (s : Shelves) (op : KsOp) : Prop :=
  Allowed s op ∧ match op with | .set side id pos _ => (s.list id side)[pos]? = some none | _ => True

/-- Every operation meets a condition when it comes. -/
def AllAlong (P : Shelves → KsOp → Prop) : Shelves → List KsOp → Prop
  | _, [] => True
  | s, op :: ops => P s op ∧ AllAlong P (s.step op) ops

/-- Where an object can be: with the caller, or in a place of a store. -/
inductive Place where
  | hand
  | cell (id : Nat) (side : Side) (pos : Nat)

/-- Object `a`, of kind `side`, is at a place. -/
def Shelves.At (s : Shelves) (a : Nat) (side : Side) : Place → Prop
  | .hand => s.hand a = some side
  | .cell id x pos => x = side ∧ (s.list id side)[pos]? = some (some a)

end Dstu.Spec
