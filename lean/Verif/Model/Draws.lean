import Verif.Model.Rbg
import Verif.Model.Sign

/-! Random numbers drawn from the generator of the engine: `BN_rand_range` of OpenSSL 1.1.1 as called at engine/sign.c:114 and dstulib/params.c:517, when the generator of
engine/rbg.c:165-173 is the default one of the program (engine/dstu.c:196). -/

namespace Dstu

/-- OpenSSL `bnrand` (with `BN_RAND_TOP_ANY`, `BN_RAND_BOTTOM_ANY`), called by `BN_rand_range` (used at engine/sign.c:114, dstulib/params.c:517): a request to the generator for as many bytes
as hold `bits` bits (engine/rbg.c:124-150); the excess bits of the first byte are cleared.  `none` inside: the request fails.  `none` outside: undefined behaviour of the request.
The buffer, whose contents are arbitrary before the request, is zero here; it is overwritten as a whole. -/
def bnRand (lockNew : Bool) (e : RandEnv) (bits : Nat) (st : RbgState) : Option (Option Nat × RbgState) :=
  match dstu_rbg_bytes lockNew e st (List.replicate ((bits + 7) / 8) 0) ((bits + 7) / 8 : Nat) with
  | none => none
  | some (false, _, st) => some (none, st)
  | some (true, buf, st) => some (some (bin2bn buf % 2 ^ bits), st)

/-- Whether the order starts with the bits `100`, the test of `BN_rand_range` (used at engine/sign.c:114, dstulib/params.c:517). -/
def startsLow (n : Nat) : Bool := !n.testBit (numBits n - 2) && !(decide (3 ≤ numBits n) && n.testBit (numBits n - 3))

/-- The number of bits `BN_rand_range` asks for (used at engine/sign.c:114, dstulib/params.c:517). -/
def rangeBits (n : Nat) : Nat := if startsLow n then numBits n + 1 else numBits n

/-- What `BN_rand_range` makes of a number of that many bits: one or two subtractions of the order, if it starts with `100` (used at engine/sign.c:114, dstulib/params.c:517). -/
def rangeReduce (n r : Nat) : Nat :=
  if startsLow n then
    if r ≥ n then
      let r := r - n
      if r ≥ n then r - n else r
    else r
  else r

/-- The loop of `BN_rand_range` with `count` rounds to go (used at engine/sign.c:114, dstulib/params.c:517): the last round fails whatever it draws. -/
def rangeLoop (lockNew : Bool) (e : RandEnv) (n : Nat) : Nat → RbgState → Option (Option Nat × RbgState)
  | 0, st => some (none, st)
  | count + 1, st =>
    match bnRand lockNew e (rangeBits n) st with
    | none => none
    | some (none, st) => some (none, st)
    | some (some r, st) =>
      if count = 0 then some (none, st)
      else if rangeReduce n r ≥ n then rangeLoop lockNew e n count st
      else some (some (rangeReduce n r), st)

/-- OpenSSL `BN_rand_range` (used at engine/sign.c:114, dstulib/params.c:517) with the generator of engine/rbg.c.  Simplification: the rest of the world answers all requests of a call alike. -/
def BN_rand_range (lockNew : Bool) (e : RandEnv) (n : Nat) (st : RbgState) : Option (Option Nat × RbgState) :=
  if n = 0 then some (none, st)
  else if numBits n = 1 then some (some 0, st)
  else rangeLoop lockNew e n 100 st

/-- The outcomes of the first `k` draws of the loops at engine/sign.c:108-142 and dstulib/params.c:514-519, and the generator after them. -/
def draws (lockNew : Bool) (e : RandEnv) (n : Nat) : Nat → RbgState → Option (List (Option Nat) × RbgState)
  | 0, st => some ([], st)
  | k + 1, st =>
    match BN_rand_range lockNew e n st with
    | none => none
    | some (r, st) => (draws lockNew e n k st).map fun (rs, st) => (r :: rs, st)

/-- engine/sign.c:56-161 `dstu_do_sign` with the generator of engine/rbg.c, up to `k` draws. -/
noncomputable def signDrawing (lockNew : Bool) (e : RandEnv) (g : EcGroup) [GoodGroup g] (key : EcKey g) (tbs : List Byte) (k : Nat) (st : RbgState) :
    Option (Drawn (List Byte)) :=
  (draws lockNew e g.n k st).map fun (rs, _) => dstu_do_sign g key tbs rs

/-- dstulib/params.c:490-535 `dstu_generate_key` with the generator of engine/rbg.c, up to `k` draws. -/
noncomputable def generateDrawing (lockNew : Bool) (e : RandEnv) (g : EcGroup) [GoodGroup g] (key : EcKey g) (k : Nat) (st : RbgState) :
    Option (Drawn (EcKey g)) :=
  (draws lockNew e g.n k st).map fun (rs, _) => dstu_generate_key g key rs

end Dstu
