import Verif.Model.Basic

/-! Object identifiers: their arcs and the contents octets of X.690, 8.19. -/

namespace Dstu.Spec

/-- The base-128 digits of a number, most significant first, all but the last with the top bit set. -/
def base128 (n : Nat) : List Byte :=
  go n.log2 n []
where
  /-- `more` bounds the number of digits. -/
  go : Nat → Nat → List Byte → List Byte
    | 0, n, rest => BitVec.ofNat 8 (n % 128 + if rest = [] then 0 else 128) :: rest
    | more + 1, n, rest =>
      let rest := BitVec.ofNat 8 (n % 128 + if rest = [] then 0 else 128) :: rest
      if n < 128 then rest else go more (n / 128) rest

/-- The encoding of an object identifier. -/
def oid : List Nat → List Byte
  | a :: b :: arcs => base128 (40 * a + b) ++ arcs.flatMap base128
  | _ => []

/-- The protection algorithm of the keys in Java key stores, 1.3.6.1.4.1.42.2.17.1.1. -/
def oidKeyProtector : List Byte := oid [1, 3, 6, 1, 4, 1, 42, 2, 17, 1, 1]

/-- Its password-based relative of the Java cryptography extension, 1.3.6.1.4.1.42.2.19.1. -/
def oidPbes1 : List Byte := oid [1, 3, 6, 1, 4, 1, 42, 2, 19, 1]

/-- The type of a Key-6 container, 1.3.6.1.4.1.19398.1.1.1.2. -/
def oidIitStore : List Byte := oid [1, 3, 6, 1, 4, 1, 19398, 1, 1, 1, 2]

/-- The attributes with the curve and the number of a second key, 1.3.6.1.4.1.19398.1.1.2.2 and 1.3.6.1.4.1.19398.1.1.2.3. -/
def oidCurveAttr : List Byte := oid [1, 3, 6, 1, 4, 1, 19398, 1, 1, 2, 2]
def oidKeyAttr : List Byte := oid [1, 3, 6, 1, 4, 1, 19398, 1, 1, 2, 3]

end Dstu.Spec
