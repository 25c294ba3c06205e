import Verif.Model.Basic

/-! Values of byte strings. -/

namespace Dstu.Spec

/-- The number whose base 256 digits are the bytes, least significant first. -/
def leValue : List (BitVec 8) → Nat
  | [] => 0
  | b :: l => b.toNat + 256 * leValue l

/-- The number whose base 256 digits are the bytes, most significant first. -/
def beValue (l : List (BitVec 8)) : Nat := leValue l.reverse

end Dstu.Spec
