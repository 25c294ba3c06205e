import Verif.Spec.Gost28147
import Verif.Spec.Blocks

/-! # Specification: GOST 28147-89 MAC (RFC 5830 section 8) with an initial value -/

namespace Dstu.Spec

/-- The blocks that are processed: the zero padded message, at least two blocks unless the message
is empty. -/
def macBlocks (msg : List (BitVec 8)) : List (Vector (BitVec 8) 8) :=
  let bs := blocks 8 (by decide) msg
  if bs.length = 1 then bs ++ [Vector.replicate 8 0] else bs

/-- The 64-bit chaining value after all blocks. -/
def macState (S : Fin 8 → BitVec 4 → BitVec 4) (k : Vector (BitVec 8) 32)
    (iv : Vector (BitVec 8) 8) (msg : List (BitVec 8)) : Vector (BitVec 8) 8 :=
  (macBlocks msg).foldl (fun st b => macCycle S k (Vector.zipWith (· ^^^ ·) st b)) iv

/-- The first `bits` bits of a block, least significant bit of each byte first; unused bits of the
last byte are zero. -/
def firstBits (st : Vector (BitVec 8) 8) (bits : Nat) : List (BitVec 8) :=
  (List.range ((bits + 7) / 8)).map fun i =>
    if 8 * i + 8 ≤ bits then (st[i]?).getD 0
    else ((st[i]?).getD 0) &&& BitVec.ofNat 8 (2 ^ (bits - 8 * i) - 1)

/-- The MAC of `bits` bits. -/
def mac (S : Fin 8 → BitVec 4 → BitVec 4) (k : Vector (BitVec 8) 32)
    (iv : Vector (BitVec 8) 8) (bits : Nat) (msg : List (BitVec 8)) : List (BitVec 8) :=
  firstBits (macState S k iv msg) bits

end Dstu.Spec
