import Verif.Spec.Hash

/-! What a user of digest contexts expects: each initialised context stands for an S-box and the
message fed to it so far, nothing else. -/

namespace Dstu.Spec

/-- The operations on digest contexts.  Contexts are named by numbers. -/
inductive DigestOp where
  /-- a new context gets its data -/
  | new (i : Nat)
  /-- start a message; with the S-box of a key, or without one -/
  | init (i : Nat) (sbox : Option (Vector (BitVec 8) 64))
  | update (i : Nat) (data : List (BitVec 8))
  | final (i : Nat)
  | copy (to src : Nat)
  | cleanup (i : Nat)
  /-- control `cmd` with the integer `p1` and a pointer `p2` to (at least) 64 bytes, or null -/
  | ctrl (i : Nat) (cmd p1 : Int) (p2 : Option (Vector (BitVec 8) 64))
  /-- the data of a context is released -/
  | free (i : Nat)

/-- The context an operation is applied to. -/
def DigestOp.target : DigestOp → Nat
  | new i | init i _ | update i _ | final i | copy i _ | cleanup i | ctrl i _ _ _ | free i => i

/-- What a context stands for. -/
inductive Digest where
  /-- not initialised: nothing is claimed -/
  | fresh
  /-- message `m` so far, with S-box `sbox` -/
  | active (sbox : Vector (BitVec 8) 64) (m : List (BitVec 8))
  /-- the S-box was changed in the middle of a message: nothing is claimed -/
  | mixed

abbrev Digests := Nat → Option Digest

def Digests.put (d : Digests) (i : Nat) (v : Option Digest) : Digests := fun j => if j = i then v else d j

/-- The number of the S-box control. -/
def sboxControl : Int := 0x1001

/-- Effect of an operation; `dflt` is the default S-box. -/
def Digests.step (dflt : Vector (BitVec 8) 64) (d : Digests) : DigestOp → Digests
  | .new i => d.put i (some .fresh)
  | .init i sb => match d i with
    | none => d
    | some _ => d.put i (some (.active (sb.getD dflt) []))
  | .update i data => match d i with
    | some (.active sb m) => d.put i (some (.active sb (m ++ data)))
    | _ => d
  | .final _ => d
  | .copy i j => match d i, d j with
    | some _, some x => d.put i (some x)
    | _, _ => d
  | .cleanup i => match d i with
    | some _ => d.put i (some .fresh)
    | none => d
  | .ctrl i cmd p1 p2 => match d i, p2 with
    | some (.active _ m), some sb =>
      if cmd = sboxControl ∧ p1 = 64 then
        d.put i (some (if m = [] then .active sb [] else .mixed))
      else d
    | _, _ => d
  | .free i => d.put i none

def Digests.run (dflt : Vector (BitVec 8) 64) (d : Digests) (ops : List DigestOp) : Digests :=
  ops.foldl (Digests.step dflt) d

/-- An operation the interface allows: data goes to initialised contexts only, fewer than `2^60` bytes
altogether, and only existing contexts are used. -/
def Digests.Legal (d : Digests) : DigestOp → Prop
  | .new _ => True
  | .init i _ | .ctrl i _ _ _ => d i ≠ none
  | .cleanup _ | .copy _ _ | .free _ => True
  | .update i data => ∃ sb m, d i = some (.active sb m) ∧ (m ++ data).length < 2 ^ 60
  | .final i => ∃ sb m, d i = some (.active sb m) ∧ m.length < 2 ^ 60

def Digests.LegalRun (dflt : Vector (BitVec 8) 64) (d : Digests) : List DigestOp → Prop
  | [] => True
  | op :: ops => d.Legal op ∧ (d.step dflt op).LegalRun dflt ops

end Dstu.Spec
