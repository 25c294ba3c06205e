import Verif.Spec.Curve
import Verif.Spec.Bytes

/-! The signature scheme of DSTU 4145-2002 over a curve `y² + x y = x³ + a x² + b`. -/

namespace Dstu.Spec

open WeierstrassCurve

/-- The field element of a digest: its bytes as a little-endian number, the low `m` bits of it, and one
if they are all zero. -/
def digestElem (m : Nat) (digest : List (BitVec 8)) : Nat :=
  if leValue digest % 2 ^ m = 0 then 1 else leValue digest % 2 ^ m

/-- A field element as a number below the order `n`: its low `⌊log₂ n⌋` bits. -/
noncomputable def elemToInt {p : Nat} (n : Nat) (x : GF p) : Nat := GF.toNat x % 2 ^ n.log2

/-- The verification equation: `r` and `s` are in `1 … n - 1`, `s G + r Q` is a finite point and `r` is
`h` times its abscissa, converted to a number. -/
def Accepts {p : Nat} [Fact (Irreducible (bitPoly p))] {a b : GF p} (G Q : Affine.Point (binCurve a b))
    (n h r s : Nat) : Prop :=
  0 < r ∧ r < n ∧ 0 < s ∧ s < n ∧
    ∃ x y hxy, s • G + r • Q = Affine.Point.some x y hxy ∧ r = elemToInt n (GF.ofNat p h * x)

/-- The signature with nonce `e` and private key `d`: the abscissa of `e G` times `h` as a number, and
`s = e + d r`; defined only if neither the abscissa, `r` nor `s` is zero. -/
def Signs {p : Nat} [Fact (Irreducible (bitPoly p))] {a b : GF p} (G : Affine.Point (binCurve a b))
    (n d h e r s : Nat) : Prop :=
  (∃ x y hxy, e • G = Affine.Point.some x y hxy ∧ x ≠ 0 ∧ r = elemToInt n (GF.ofNat p h * x)) ∧
    s = (e + d * r) % n ∧ r ≠ 0 ∧ s ≠ 0

end Dstu.Spec
