import Verif.Spec.Dke1
import Verif.Model.Rbg

/-! The random bit generator of DSTU 4145-2002, Annex A, with the substitution table DKE No. 1. -/

namespace Dstu.Spec

/-- The secret of the generator: a key, an initial state and a date. -/
structure RbgSeed where
  key : Vector (BitVec 8) 32
  s : Vector (BitVec 8) 8
  date : Vector (BitVec 8) 8

def xor8 (a b : Vector (BitVec 8) 8) : Vector (BitVec 8) 8 := Vector.ofFn fun i => a[i] ^^^ b[i]

variable (g : RbgSeed)

/-- Encryption of a block under the key of the generator. -/
def RbgSeed.E : Vector (BitVec 8) 8 → Vector (BitVec 8) 8 := encrypt dke1 g.key

/-- `I` is the encrypted date. -/
def RbgSeed.I : Vector (BitVec 8) 8 := g.E g.date

/-- The state before bit `n`: `x = E(I ⊕ s)`, and the next state is `E(x ⊕ I)`. -/
def RbgSeed.state : Nat → Vector (BitVec 8) 8
  | 0 => g.s
  | n + 1 => g.E (xor8 (g.E (xor8 g.I (RbgSeed.state n))) g.I)

/-- Bit `n` is the least significant bit of `x = E(I ⊕ s)`. -/
def RbgSeed.bit (n : Nat) : Bool := (g.E (xor8 g.I (g.state n)))[0].getLsbD 0

/-- Byte `n` of the stream: bits `8n, ..., 8n + 7`, least significant first. -/
def RbgSeed.byte (n : Nat) : BitVec 8 :=
  BitVec.ofNat 8 ((List.range 8).map fun j => if g.bit (8 * n + j) then 2 ^ j else 0).sum

/-- The `n` bytes of the stream from byte `o` on. -/
def RbgSeed.segment (o n : Nat) : List (BitVec 8) := (List.range n).map fun i => g.byte (o + i)

/-- The secret made of 40 bytes of seed and the time. -/
def RbgSeed.ofSeed (seed : Vector (BitVec 8) 40) (date : Vector (BitVec 8) 8) : RbgSeed :=
  ⟨Vector.ofFn fun i => seed[i], Vector.ofFn fun i => seed[32 + i.val], date⟩

/-- The generator as its user sees it: not seeded, or a stream and the number of bytes already taken. -/
abbrev RbgView := Option (RbgSeed × Nat)

/-- A call seeds the generator if it was not seeded and the world gives a seed. -/
def RbgView.reseed (v : RbgView) (e : RandEnv) : RbgView :=
  match v with
  | some p => some p
  | none => if e.status then e.seed.map fun seed => (RbgSeed.ofSeed seed e.curr, 0) else none

/-- The answers a user may get from a sequence of calls (none of them cleanup).  A request fails if there
never was a seed, and otherwise is given the next bytes of the stream; the rest of the buffer is not changed. -/
def RbgView.Follows (v : RbgView) : List RbgCall → List RbgAnswer → Prop
  | [], [] => True
  | .seed :: cs, .nothing :: as => v.Follows cs as
  | .status e :: cs, .status rv :: as => rv = (e.status && (v.reseed e).isSome) ∧ (v.reseed e).Follows cs as
  | .bytes e buf num :: cs, .bytes rv b :: as =>
    match v.reseed e with
    | none => rv = false ∧ b.length = buf.length ∧ RbgView.Follows none cs as
    | some (g, pos) => rv = true ∧ b = g.segment pos num.toNat ++ buf.drop num.toNat ∧
        RbgView.Follows (some (g, pos + num.toNat)) cs as
  | _, _ => False

/-- The calls the interface allows as long as the generator is in use: no cleanup, and requests for a number
of bytes that fits the buffer. -/
def _root_.Dstu.RbgCall.Allowed : RbgCall → Prop
  | .cleanup => False
  | .bytes _ buf num => 0 ≤ num ∧ num < 2 ^ 31 ∧ num ≤ buf.length
  | _ => True

end Dstu.Spec
