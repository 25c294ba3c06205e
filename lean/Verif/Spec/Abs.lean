import Verif.Model.Sbox

/-! Abstraction relations used in the statements of the properties. -/

namespace Dstu

/-- The byte rows `b` hold the nibble tables `S`: row `k(r+1)` is `S r`. -/
structure SubstBlock.Holds (b : SubstBlock) (S : Fin 8 → BitVec 4 → BitVec 4) : Prop where
  k1 : ∀ n, b.k1 n = (S 0 n).setWidth 8
  k2 : ∀ n, b.k2 n = (S 1 n).setWidth 8
  k3 : ∀ n, b.k3 n = (S 2 n).setWidth 8
  k4 : ∀ n, b.k4 n = (S 3 n).setWidth 8
  k5 : ∀ n, b.k5 n = (S 4 n).setWidth 8
  k6 : ∀ n, b.k6 n = (S 5 n).setWidth 8
  k7 : ∀ n, b.k7 n = (S 6 n).setWidth 8
  k8 : ∀ n, b.k8 n = (S 7 n).setWidth 8

end Dstu
