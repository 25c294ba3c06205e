import Verif.Spec.Gost28147
import Verif.Spec.Cfb
import Verif.Spec.Feed

/-! What a user of cipher contexts expects: an initialised context stands for a key, an S-box, an IV, a direction and the ciphertext that has passed through it so far, nothing else. -/

namespace Dstu.Spec

/-- The operations on cipher contexts.  Contexts are named by numbers. -/
inductive CipherOp where
  | new (i : Nat)
  /-- set the direction, the key and the IV, each if given; the key is masked with `rnd` -/
  | init (i : Nat) (enc : Option Bool) (key : Option (Vector (BitVec 8) 32)) (iv : Option (Vector (BitVec 8) 8)) (rnd : Vector (BitVec 32) 8)
  | update (i : Nat) (data : List (BitVec 8))
  | final (i : Nat)
  /-- the control that sets the S-box -/
  | sbox (i : Nat) (p : Vector (BitVec 8) 64)
  /-- load parameters with this IV and S-box -/
  | load (i : Nat) (iv : Vector (BitVec 8) 8) (p : Vector (BitVec 8) 64)
  /-- store the parameters -/
  | save (i : Nat)
  | copy (to src : Nat)
  | reset (i : Nat)

/-- What the user sees of an operation: success, refusal, or bytes. -/
inductive Seen where
  | ok
  | refused
  | bytes (l : List (BitVec 8))

/-- What a context stands for. -/
structure Stream where
  key : Vector (BitVec 8) 32
  sbox : Vector (BitVec 8) 64
  iv : Vector (BitVec 8) 8
  encrypting : Bool
  /-- number of bytes since the IV was set, modulo 8 -/
  pos : Nat
  /-- the ciphertext since the start of the message; `none`: key or S-box were changed without starting anew, nothing is claimed -/
  sent : Option (List (BitVec 8))

/-- The block cipher of the context. -/
def Stream.block (s : Stream) : Vector (BitVec 8) 8 → Vector (BitVec 8) 8 := encrypt (tableOf s.sbox) s.key

/-- A context that was never initialised: all zero. -/
def Stream.blank (dflt : Vector (BitVec 8) 64) : Stream := ⟨Vector.replicate 32 0, dflt, Vector.replicate 8 0, false, 0, none⟩

/-- Initialisation: the S-box is the default one again; a message starts if an IV is given and goes on if nothing else has changed. -/
def Stream.init (dflt : Vector (BitVec 8) 64) (s : Stream) (enc : Option Bool) (key : Option (Vector (BitVec 8) 32)) (iv : Option (Vector (BitVec 8) 8)) : Stream where
  key := key.getD s.key
  sbox := dflt
  iv := iv.getD s.iv
  encrypting := enc.getD s.encrypting
  pos := if iv.isSome then 0 else s.pos
  sent := if iv.isSome then some [] else if key.getD s.key = s.key ∧ s.sbox = dflt then s.sent else none

/-- The output for the next part of a message. -/
def Stream.output (s : Stream) (sent data : List (BitVec 8)) : List (BitVec 8) :=
  if s.encrypting then (cfbEncrypt s.block s.iv (cfbDecrypt s.block s.iv sent ++ data)).drop sent.length
  else (cfbDecrypt s.block s.iv (sent ++ data)).drop sent.length

/-- An update. -/
def Stream.update (s : Stream) (data : List (BitVec 8)) : Stream × Option Seen :=
  if data = [] then (s, some .refused)
  else match s.sent with
    | none => ({ s with pos := (s.pos + data.length) % 8 }, none)
    | some c => ({ s with pos := (s.pos + data.length) % 8, sent := some (c ++ if s.encrypting then s.output c data else data) }, some (.bytes (s.output c data)))

/-- A new S-box: at a block boundary, the message starts anew. -/
def Stream.setSbox (s : Stream) (p : Vector (BitVec 8) 64) : Stream := { s with sbox := p, sent := if s.pos = 0 then some [] else none }

/-- All contexts: `none` if there is none of this number, `some none` for one that was not initialised. -/
abbrev Streams := Nat → Option (Option Stream)

def Streams.put (d : Streams) (i : Nat) (v : Option Stream) : Streams := fun j => if j = i then some v else d j

/-- Effect of an operation and what is seen of it (`none`: nothing is claimed); `dflt` is the default S-box. -/
def Streams.step (dflt : Vector (BitVec 8) 64) (d : Streams) : CipherOp → Streams × Option Seen
  | .new i => (d.put i none, some .ok)
  | .init i enc key iv _ => match d i with
    | none => (d, none)
    | some s => (d.put i (some ((s.getD (Stream.blank dflt)).init dflt enc key iv)), some .ok)
  | .update i data => match d i with
    | some (some s) => (d.put i (some (s.update data).1), (s.update data).2)
    | _ => (d, none)
  | .final _ => (d, some (.bytes []))
  | .sbox i p => match d i with
    | some (some s) => (d.put i (some (s.setSbox p)), some .ok)
    | _ => (d, none)
  | .load i iv p => match d i with
    | some (some s) => (d.put i (some ({ s with iv := iv }.setSbox p)), some .ok)
    | _ => (d, none)
  | .save i => match d i with
    | some (some s) => (d, some (.bytes (cipherParams s.iv.toList s.sbox.toList)))
    | _ => (d, none)
  | .copy i j => match d j with
    | some (some s) => (d.put i (some s), some .ok)
    | _ => (d, none)
  | .reset i => (d.put i none, some .ok)

/-- An operation the interface allows: the contexts exist, and are initialised where a cipher is needed. -/
def Streams.Legal (d : Streams) : CipherOp → Prop
  | .new _ => True
  | .init i _ _ _ _ | .reset i => d i ≠ none
  | .update i _ | .final i | .sbox i _ | .load i _ _ | .save i => ∃ s, d i = some (some s)
  | .copy i j => d i ≠ none ∧ i ≠ j ∧ ∃ s, d j = some (some s)

def Streams.LegalRun (dflt : Vector (BitVec 8) 64) (d : Streams) : List CipherOp → Prop
  | [] => True
  | op :: ops => d.Legal op ∧ Streams.LegalRun dflt (d.step dflt op).1 ops

/-- The contexts after a history. -/
def Streams.run (dflt : Vector (BitVec 8) 64) (d : Streams) : List CipherOp → Streams
  | [] => d
  | op :: ops => Streams.run dflt (d.step dflt op).1 ops

/-- What is seen of a history. -/
def Streams.shown (dflt : Vector (BitVec 8) 64) (d : Streams) : List CipherOp → List (Option Seen)
  | [] => []
  | op :: ops => (d.step dflt op).2 :: Streams.shown dflt (d.step dflt op).1 ops

/-- The context an operation acts on. -/
def CipherOp.target : CipherOp → Nat
  | .new i | .init i _ _ _ _ | .update i _ | .final i | .sbox i _ | .load i _ _ | .save i | .copy i _ | .reset i => i

/-- The bytes an observer of context `i` collects from its updates. -/
def collected (i : Nat) : List CipherOp → List Seen → List (BitVec 8)
  | .update j _ :: ops, .bytes l :: seen => (if j = i then l else []) ++ collected i ops seen
  | _ :: ops, _ :: seen => collected i ops seen
  | _, _ => []

/-- The bytes given to context `i`. -/
def given (i : Nat) : List CipherOp → List (BitVec 8)
  | .update j data :: ops => (if j = i then data else []) ++ given i ops
  | _ :: ops => given i ops
  | [] => []

end Dstu.Spec
