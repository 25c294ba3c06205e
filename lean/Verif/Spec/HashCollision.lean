import Verif.Spec.Hash

/-! # Specification: collisions -/

namespace Dstu.Spec

/-- What a chain of steps of `f` from `h` is applied to: the value before each step and the block of the step. -/
def chain {H M : Type} (f : H → M → H) : H → List M → List (H × M)
  | _, [] => []
  | h, m :: ms => (h, m) :: chain f (f h m) ms

/-- The steps GOST 34.311-95 makes for a message: its blocks, its length in bits, the sum of the blocks. -/
def hashSteps (T : Fin 8 → BitVec 4 → BitVec 4) (m : List (BitVec 8)) : List (BitVec 256 × BitVec 256) :=
  chain (hStep T) 0 (hBlocks m ++ [BitVec.ofNat 256 (8 * m.length), (hBlocks m).foldl (· + ·) 0])

end Dstu.Spec
