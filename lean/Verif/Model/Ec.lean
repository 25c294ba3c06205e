import Verif.Model.Curves
import Verif.Lemmas.Curve

/-! OpenSSL's arithmetic on the points of a group, for groups whose parameters are valid.

The points of a group are the points of Mathlib's Weierstrass curve; `EC_POINT_mul` and
`EC_POINT_invert` are its group operations.  OpenSSL itself is not modelled: these definitions state
what its functions compute on a valid group. -/

namespace Dstu

open Spec WeierstrassCurve

/-- The parameters of the group are valid. -/
class GoodGroup (g : EcGroup) : Prop where
  valid : ValidCurve g.p g.a g.b g.gx g.gy g.n

instance (g : EcGroup) [h : GoodGroup g] : Fact (Irreducible (bitPoly g.p)) := ⟨h.valid.irreducible⟩

/-- The curve of a group. -/
noncomputable abbrev EcGroup.curve (g : EcGroup) : WeierstrassCurve.Affine (GF g.p) :=
  binCurve (GF.ofNat g.p g.a) (GF.ofNat g.p g.b)

/-- The points of a group. -/
abbrev EcGroup.Point (g : EcGroup) : Type := Affine.Point g.curve

theorem goodGroup_p (g : EcGroup) [h : GoodGroup g] : 1 < g.p := irreducible_pos _ h.valid.irreducible

theorem goodGroup_b (g : EcGroup) [h : GoodGroup g] : GF.ofNat g.p g.b ≠ 0 := by
  intro h0
  have hp := goodGroup_p g
  have := GF.toNat_ofNat g.p (by omega) g.b h.valid.b_lt
  rw [h0, GF.toNat_zero g.p (by omega)] at this
  exact h.valid.b_ne this.symm

/-- The generator of a group (`EC_GROUP_get0_generator`). -/
noncomputable def EcGroup.gen (g : EcGroup) [h : GoodGroup g] : g.Point :=
  .some (GF.ofNat g.p g.gx) (GF.ofNat g.p g.gy) (binCurve_nonsingular (goodGroup_b g) h.valid.onCurve)

/-- OpenSSL `EC_POINT_get_affine_coordinates_GF2m`; fails on the point at infinity
(used at engine/sign.c:120, 230, dstulib/compress.c:71). -/
noncomputable def affine {g : EcGroup} : g.Point → Option (Nat × Nat)
  | .zero => none
  | .some x y _ => some (GF.toNat x, GF.toNat y)

/-- OpenSSL `EC_POINT_mul(group, r, n, q, m)`: `n G + m q` (used at engine/sign.c:117, 224). -/
noncomputable def ec_mul (g : EcGroup) [GoodGroup g] (n : Nat) (qm : Option (g.Point × Nat)) : g.Point :=
  match qm with
  | none => n • g.gen
  | some (q, m) => n • g.gen + m • q

/-- The parts of an `EC_KEY` besides its group: private and public key, each possibly absent. -/
structure EcKey (g : EcGroup) where
  priv : Option Nat
  pub : Option g.Point

/-- dstulib/params.c:537-567 `dstu_add_public_key`; `none` is failure (no private key). -/
noncomputable def dstu_add_public_key (g : EcGroup) [GoodGroup g] (key : EcKey g) : Option (EcKey g) := do
  let prk ← key.priv
  let pbk := ec_mul g prk none
  let pbk := -pbk
  return { key with pub := some pbk }

/-- Outcome of a loop that draws random numbers. -/
inductive Drawn (α : Type) where
  /-- the supplied draws were used up and the loop wants more -/
  | waiting
  /-- the function returned 0 -/
  | failed
  /-- the function returned a value -/
  | done (a : α)

/-- dstulib/params.c:514-519, the loop of `dstu_generate_key`.  A draw is the outcome of one call of
`BN_rand_range`: failure or a number. -/
def genLoop : List (Option Nat) → Drawn Nat
  | [] => .waiting
  | none :: _ => .failed
  | some prk :: rest => if prk = 0 then genLoop rest else .done prk

/-- dstulib/params.c:490-535 `dstu_generate_key`. -/
noncomputable def dstu_generate_key (g : EcGroup) [GoodGroup g] (key : EcKey g) (draws : List (Option Nat)) :
    Drawn (EcKey g) :=
  match genLoop draws with
  | .waiting => .waiting
  | .failed => .failed
  | .done prk =>
    match dstu_add_public_key g { key with priv := some prk } with
    | none => .failed
    | some k => .done k

end Dstu
