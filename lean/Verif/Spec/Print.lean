import Verif.Model.Print
import Verif.Spec.Bytes

/-! Specification of what printing a key is expected to show. -/

namespace Dstu.Spec

open Dstu

/-- A fixed-width big-endian number. -/
def Number (width value : Nat) (bytes : List (BitVec 8)) : Prop := bytes.length = width ∧ beValue bytes = value

/-- A point in uncompressed form: the byte 4 and the two coordinates; one zero byte is the point at infinity. -/
def Uncompressed (width : Nat) : Option (Nat × Nat) → List (BitVec 8) → Prop
  | none, l => l = [0]
  | some (x, y), l => ∃ bx bY, Number width x bx ∧ Number width y bY ∧ l = 4 :: (bx ++ bY)

/-- Everything that is shown of a private key `d` with public point `Q` on the curve `g`, before the curve. -/
def ShowsPair (g : EcGroup) (d : Nat) (Q : Option (Nat × Nat)) (l : List PrintItem) : Prop :=
  ∃ p q, Number ((numBits g.n + 7) / 8) d p ∧ Uncompressed ((g.degree + 7) / 8) Q q ∧ l = [.title .priv (numBits g.n), .priv p, .pub q]

/-- The same for a public key. -/
def ShowsPublic (g : EcGroup) (Q : Option (Nat × Nat)) (l : List PrintItem) : Prop :=
  ∃ q, Uncompressed ((g.degree + 7) / 8) Q q ∧ l = [.title .pub (numBits g.n), .pub q]

end Dstu.Spec
