import Verif.Model.MdKey

/-! What the objects behind keys look like in memory. -/

namespace Dstu.Spec

/-- The eight bytes at `p` are the 64-bit number `v`, least significant first. -/
def WordAt (mem : Nat → Option (BitVec 8)) (p v : Nat) : Prop :=
  v < 2 ^ 64 ∧ ∀ k < 8, mem (p + k) = some (BitVec.ofNat 8 (v / 256 ^ k))

/-- The 64 bytes at `p`. -/
def TableAt (mem : Nat → Option (BitVec 8)) (p : Nat) (t : Vector (BitVec 8) 64) : Prop :=
  ∀ k (hk : k < 64), mem (p + k) = some t[k]

/-- A DSTU key at `p`: the address of its EC key, then null or the address of its S-box. -/
def DstuKeyAt (mem : Nat → Option (BitVec 8)) (p : Nat) (sbox : Option (Vector (BitVec 8) 64)) : Prop :=
  ∃ ec q, WordAt mem p ec ∧ WordAt mem (p + 8) q ∧
    match sbox with
    | none => q = 0
    | some t => q ≠ 0 ∧ TableAt mem q t

end Dstu.Spec
