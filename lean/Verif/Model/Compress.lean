import Verif.Model.Curves

/-! Point compression, dstulib/compress.c.

Points are given by their affine coordinates (`none`: the point at infinity), as numbers; no validity of
the group is assumed. -/

namespace Dstu

open Spec

/-- dstulib/compress.c:25-31, the loop of `bn_trace`: `n` times `r ← r² + bn` (the addition is
not followed by a reduction). -/
noncomputable def traceLoop (p bn : Nat) : Nat → Nat → Nat
  | 0, r => r
  | n + 1, r => traceLoop p bn n (gf2m_sqr p r ^^^ bn)

/-- dstulib/compress.c:14-42 `bn_trace`. -/
noncomputable def bn_trace (bn p : Nat) : Int :=
  let r := traceLoop p bn (numBits p - 2) bn
  if r = 1 then 1 else if r = 0 then 0 else -1

/-- OpenSSL `BN_set_bit(x, 0)`. -/
def setBit0 (x : Nat) : Nat := x / 2 * 2 + 1

/-- OpenSSL `BN_clear_bit(x, 0)`, for `x` not zero. -/
def clearBit0 (x : Nat) : Nat := x / 2 * 2

/-- `(EC_GROUP_get_degree(group) + 7) / 8`, dstulib/compress.c:51. -/
def EcGroup.fieldSize (g : EcGroup) : Nat := (g.degree + 7) / 8

/-- dstulib/compress.c:44-113 `dstu_point_compress`: return value and the bytes written, if any. -/
noncomputable def dstu_point_compress (g : EcGroup) (point : Option (Nat × Nat)) (compressed_length : Nat) :
    Bool × Option (List Byte) :=
  if compressed_length < g.fieldSize then (false, none)
  else
    match point with
    | none => (false, none)
    | some (x, y) =>
      if x = 0 then (true, some (List.replicate g.fieldSize 0))
      else
        match gf2m_inv g.p x with
        | none => (false, none)
        | some x_inv =>
          let y := gf2m_mul g.p y x_inv
          let trace := bn_trace y g.p
          if trace = -1 then (false, none)
          else
            let x := if trace ≠ 0 then setBit0 x else clearBit0 x
            let (ret, written) := bn_encode x g.fieldSize
            (ret ≠ 0, written)

/-- OpenSSL `BN_GF2m_mod_solve_quad` (used at dstulib/compress.c:194): any function that, for a field of
odd degree, finds a solution of `z² + z = a` when there is one, and that returns nothing but reduced
solutions. -/
structure QuadSolver where
  solve : Nat → Nat → Option Nat
  sound : ∀ p a z, solve p a = some z → GF.ofNat p z ^ 2 + GF.ofNat p z = GF.ofNat p a ∧ z < 2 ^ fieldDegree p
  complete : ∀ p a, Irreducible (bitPoly p) → fieldDegree p % 2 = 1 →
    (∃ z : GF p, z ^ 2 + z = GF.ofNat p a) → (solve p a).isSome

/-- dstulib/compress.c:115-219 `dstu_point_expand`, given what the second call of `bn_trace` (line 197) returns: the affine coordinates
of the point, or failure. -/
noncomputable def expandWith (sq : QuadSolver) (second : Nat → Nat → Int) (compressed : List Byte) (g : EcGroup) :
    Option (Nat × Nat) :=
  if compressed.length < g.fieldSize then none
  else
    let x := bin2bn compressed
    if x = 0 then
      let y := gf2m_sqrt g.p g.b
      set_affine g.p g.a g.b x y
    else
      let k := x % 2
      let x := clearBit0 x
      let trace := bn_trace x g.p
      if trace = -1 then none
      else
        let x := if (trace ≠ 0 ∧ g.a = 0) ∨ (trace = 0 ∧ g.a = 1) then setBit0 x else x
        let x2 := gf2m_sqr g.p x
        let y := gf2m_mul g.p x2 x
        let y := if g.a = 1 then y ^^^ x2 else y
        let y := y ^^^ g.b
        match gf2m_inv g.p x2 with
        | none => none
        | some x2 =>
          let y := gf2m_mul g.p y x2
          match sq.solve g.p y with
          | none => none
          | some y =>
            let trace := second y g.p
            let y := if (k ≠ 0 ∧ trace = 0) ∨ (k = 0 ∧ trace ≠ 0) then y ^^^ 1 else y
            let y := gf2m_mul g.p y x
            set_affine g.p g.a g.b x y

/-- dstulib/compress.c:115-219 `dstu_point_expand`. -/
noncomputable def dstu_point_expand (sq : QuadSolver) (compressed : List Byte) (g : EcGroup) : Option (Nat × Nat) := expandWith sq bn_trace compressed g

end Dstu
