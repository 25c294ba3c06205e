import Verif.Spec.FailLib
import Verif.Model.FailKeylib

/-! What belongs to a store. -/

namespace Dstu

namespace Fail

open Res

def pkeyOwn (k : PKeyPtr) : Multiset Nat :=
  match k.key with
  | none => {k.self}
  | some (key, ec) => {key} + ({ec} + {k.self})

def keysOwn : List PKeyPtr → Multiset Nat
  | [] => 0
  | k :: l => pkeyOwn k + keysOwn l

def certsOwn : List Nat → Multiset Nat
  | [] => 0
  | c :: l => {c} + certsOwn l

def keyArrOwn : Option (Nat × List PKeyPtr) → Multiset Nat
  | none => 0
  | some (a, l) => keysOwn l + {a}

def certArrOwn : Option (Nat × List Nat) → Multiset Nat
  | none => 0
  | some (a, l) => certsOwn l + {a}

/-- The store, its arrays, and all keys and certificates in them. -/
def storeOwn (s : StorePtr) : Multiset Nat := keyArrOwn s.keys + (certArrOwn s.certs + {s.self})

/-- The number of keys of a store. -/
def keyCount (s : StorePtr) : Nat :=
  match s.keys with
  | none => 0
  | some (_, l) => l.length

def optStoreOwn : Option StorePtr → Multiset Nat
  | none => 0
  | some s => storeOwn s

def optPKeyOwn : Option PKeyPtr → Multiset Nat
  | none => 0
  | some k => pkeyOwn k

/-- PKCS#8 structures without second key, or in which it is well formed: its number can be found, and no exponent of its curve is negative. -/
def P8Shape.Clean (p8 : P8Shape) : Prop := p8.attrs = 0 ∨ p8.wf = true ∧ p8.usable = true

/-- The same, and the structure and the first key can be decoded. -/
def P8Shape.Good (p8 : P8Shape) : Prop := p8.parses = true ∧ p8.decodes = true ∧ p8.Clean

def Protection.Good : Protection → Prop
  | .keyProtector _ p8 => p8.Good
  | _ => True

/-- An entry in which the key, if it is one, is good. -/
def EntryShape.Good : EntryShape → Prop
  | .key p _ => p.Good
  | _ => True

end Fail

end Dstu
