import Verif.Spec.Gost28147

/-! The substitution table DKE No. 1 for GOST 28147 in Ukraine, row by row. -/

namespace Dstu.Spec

/-- Row `r` lists the images of 0, 1, ..., 15 under the substitution for the `r`-th nibble, least significant nibble first. -/
def dke1Rows : List (List Nat) :=
  [[10, 9, 13, 6, 14, 11, 4, 5, 15, 1, 3, 12, 7, 0, 8, 2],
   [8, 0, 12, 4, 9, 6, 7, 11, 2, 3, 1, 15, 5, 14, 10, 13],
   [15, 6, 5, 8, 14, 11, 10, 4, 12, 0, 3, 7, 2, 9, 1, 13],
   [3, 8, 13, 9, 6, 11, 15, 0, 2, 5, 12, 10, 4, 14, 1, 7],
   [15, 8, 14, 9, 7, 2, 0, 13, 12, 6, 1, 5, 11, 4, 3, 10],
   [2, 8, 9, 7, 5, 15, 0, 11, 12, 1, 13, 14, 10, 3, 6, 4],
   [3, 8, 11, 5, 6, 4, 14, 10, 2, 12, 1, 7, 9, 15, 13, 0],
   [1, 2, 3, 14, 6, 13, 11, 8, 15, 10, 12, 5, 7, 9, 0, 4]]

/-- The table as a function: row and nibble to nibble. -/
def dke1 (r : Fin 8) (n : BitVec 4) : BitVec 4 := BitVec.ofNat 4 ((dke1Rows.getD r.val []).getD n.toNat 0)

end Dstu.Spec
