/-! Specification helper: cutting a message into blocks. -/

namespace Dstu.Spec

/-- The message cut into blocks of `n` bytes, the last one filled up with zero bytes.  The empty
message has no blocks. -/
def blocks (n : Nat) (hn : 0 < n) (l : List (BitVec 8)) : List (Vector (BitVec 8) n) :=
  match l with
  | [] => []
  | b :: t =>
    (Vector.ofFn fun i : Fin n => ((b :: t)[i.val]?).getD 0) :: blocks n hn ((b :: t).drop n)
termination_by l.length
decreasing_by simp; omega

end Dstu.Spec
