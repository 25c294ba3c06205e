import Verif.Model.SignFaults
import Verif.Model.Compress

/-! Generation of keys and compression of points when calls of the library fail, with their values: dstulib/params.c, dstulib/compress.c and
`dstu_pkey_keygen` of engine/pmeth.c. -/

namespace Dstu

namespace Faulty

/-- Several calls of which the first that fails is the last. -/
def asks : Nat → Faulty Bool
  | 0 => pure true
  | k + 1 => do
    if ← ask then asks k else pure false

/-- dstulib/params.c:537-567 `dstu_add_public_key`: the value returned and the key then.  OpenSSL's `EC_KEY_set_public_key` drops the old public key
before it makes a copy of the new one. -/
noncomputable def dstu_add_public_key (g : EcGroup) [GoodGroup g] (key : EcKey g) : Faulty (Bool × EcKey g) :=
  match key.priv with
  | none => pure (false, key)
  | some prk => do
    if ← asks 3 then
      if ← ask then pure (true, { key with pub := some (-(ec_mul g prk none)) }) else pure (false, { key with pub := none })
    else pure (false, key)

/-- dstulib/params.c:490-535 `dstu_generate_key`: the value returned and the key then.  OpenSSL's `EC_KEY_set_private_key` drops the old private key
before it makes a copy of the new one. -/
noncomputable def dstu_generate_key (g : EcGroup) [GoodGroup g] (key : EcKey g) (draws : List (Option Nat)) : Faulty (Bool × EcKey g) := do
  if ← asks 4 then
    match genLoop draws with
    | .waiting => fun _ t => (.waiting, t)
    | .failed => pure (false, key)
    | .done prk =>
      if ← ask then dstu_add_public_key g { key with priv := some prk } else pure (false, { key with priv := none })
  else pure (false, key)

/-- engine/pmeth.c:74-124 `dstu_pkey_keygen`, with a group in the context: the key that `pkey` gets.  `sbox`: whether the context has an S-box.
`failed`: 0 is returned, the key released and `pkey` left as it was. -/
noncomputable def dstu_pkey_keygen (g : EcGroup) [GoodGroup g] (sbox : Bool) (draws : List (Option Nat)) : Faulty (EcKey g) := do
  checks 3
  let (ret, key) ← dstu_generate_key g ⟨none, none⟩ draws
  if ret then
    checks (if sbox then 2 else 1)
    pure key
  else err

/-- dstulib/compress.c:25-31, the loop of `bn_trace`; `none`: a call failed. -/
noncomputable def traceLoop (p bn : Nat) : Nat → Nat → Faulty (Option Nat)
  | 0, r => pure (some r)
  | n + 1, r => do
    if ← asks 2 then traceLoop p bn n (gf2m_sqr p r ^^^ bn) else pure none

/-- dstulib/compress.c:14-42 `bn_trace`: -1 when a call fails.  Simplification: `BN_CTX_get` (line 21) gives a number (otherwise NULL is dereferenced,
C75). -/
noncomputable def bn_trace (bn p : Nat) : Faulty Int := do
  if ← ask then
    match ← traceLoop p bn (numBits p - 2) bn with
    | none => pure (-1)
    | some r => pure (if r = 1 then 1 else if r = 0 then 0 else -1)
  else pure (-1)

/-- dstulib/compress.c:44-113 `dstu_point_compress`: the bytes written, with 1 returned. -/
noncomputable def dstu_point_compress (g : EcGroup) (point : Option (Nat × Nat)) (compressed_length : Nat) : Faulty (List Byte) :=
  if compressed_length < g.fieldSize then err
  else do
    checks 7
    match point with
    | none => err
    | some (x, y) =>
      if x = 0 then pure (List.replicate g.fieldSize 0)
      else
        check
        match gf2m_inv g.p x with
        | none => err
        | some x_inv =>
          check
          let y := gf2m_mul g.p y x_inv
          let trace ← bn_trace y g.p
          if trace = -1 then err
          else
            check
            let x := if trace ≠ 0 then setBit0 x else clearBit0 x
            let (ret, written) := bn_encode x g.fieldSize
            if ret ≠ 0 then value written else err

/-- dstulib/compress.c:186-211, in `dstu_point_expand`: from the inverse of the square of the abscissa on; the second trace is not checked. -/
noncomputable def expandEnd (sq : QuadSolver) (g : EcGroup) (k x x2 y : Nat) : Faulty (Nat × Nat) := do
  check
  match gf2m_inv g.p x2 with
  | none => err
  | some x2 =>
    check
    let y := gf2m_mul g.p y x2
    check
    match sq.solve g.p y with
    | none => err
    | some y =>
      let trace ← bn_trace y g.p
      checks (if (k ≠ 0 ∧ trace = 0) ∨ (k = 0 ∧ trace ≠ 0) then 1 else 0)
      let y := if (k ≠ 0 ∧ trace = 0) ∨ (k = 0 ∧ trace ≠ 0) then y ^^^ 1 else y
      check
      let y := gf2m_mul g.p y x
      check
      value (set_affine g.p g.a g.b x y)

/-- dstulib/compress.c:115-219 `dstu_point_expand`: the affine coordinates of the point, with 1 returned. -/
noncomputable def dstu_point_expand (sq : QuadSolver) (compressed : List Byte) (g : EcGroup) : Faulty (Nat × Nat) :=
  if compressed.length < g.fieldSize then err
  else do
    checks 9
    let x := bin2bn compressed
    if x = 0 then
      check
      let y := gf2m_sqrt g.p g.b
      check
      value (set_affine g.p g.a g.b x y)
    else
      let k := x % 2
      let x := clearBit0 x
      check
      let trace ← bn_trace x g.p
      if trace = -1 then err
      else
        checks (if (trace ≠ 0 ∧ g.a = 0) ∨ (trace = 0 ∧ g.a = 1) then 1 else 0)
        let x := if (trace ≠ 0 ∧ g.a = 0) ∨ (trace = 0 ∧ g.a = 1) then setBit0 x else x
        check
        let x2 := gf2m_sqr g.p x
        check
        let y := gf2m_mul g.p x2 x
        checks (if g.a = 1 then 1 else 0)
        let y := if g.a = 1 then y ^^^ x2 else y
        check
        let y := y ^^^ g.b
        expandEnd sq g k x x2 y

end Faulty

end Dstu
