import Verif.Model.Res

/-! Failure paths of dstulib/params.c, dstulib/compress.c and dstulib/key.c.  What is freed at the label `err` is freed here by the function around a `..Body`, which returns
the local pointers as they are when `err` is reached. -/

namespace Dstu

namespace Fail

open Res

/-- dstulib/params.c:593-601 `copy_sbox`. -/
def copy_sbox : Res (Option Nat) := alloc .malloc

/-- dstulib/compress.c:25-31: the loop of `bn_trace`. -/
def traceRounds : (n : Nat) → Res Bool
  | 0 => pure true
  | n + 1 => do
    if ← calls 2 then traceRounds n else pure false

/-- dstulib/compress.c:22: `BN_CTX_get` in `bn_trace`; it fails when one before failed. -/
def getTrace (before : Bool) : Res Bool := if before then ask .weak else pure false

/-- dstulib/compress.c:14-42 `bn_trace`: the result, -1, 0 or 1.  `before`: no `BN_CTX_get` failed in the context so far; `n` is the number of rounds of
the loop.  The result of `BN_CTX_get` is not checked. -/
def bn_trace (before : Bool) (n : Nat) : Res Int := do
  let r ← getTrace before
  num r
  if ← calls 1 then
    if ← traceRounds n then
      if ← ask .data then pure 1
      else if ← ask .data then pure 0
      else pure (-1)
    else pure (-1)
  else pure (-1)

/-- dstulib/compress.c:60-103, in `dstu_point_compress`: between `BN_CTX_start` and `err`. -/
def compressBody (n : Nat) : Res Bool := do
  let p ← get true
  let x_inv ← get p
  let x ← get x_inv
  let y ← get x
  if !y then pure false
  else
    num p
    num x
    if ← calls 2 then
      if ← ask .data then pure true
      else
        num x_inv
        if ← calls 2 then
          let trace ← bn_trace y n
          if trace = -1 then pure false else calls 2
        else pure false
    else pure false

/-- dstulib/compress.c:44-113 `dstu_point_compress`. -/
def dstu_point_compress (n : Nat) : Res Bool := do
  if ← ask .data then pure false
  else
    let ctx ← alloc .object
    if ctx = none then pure false
    else
      let res ← compressBody n
      free ctx
      pure res

/-- dstulib/compress.c:148-209, in `dstu_point_expand`: after the case of a zero. `aOne`: the coefficient is one. -/
def expandNonzero (y x2 : Bool) (n : Nat) : Res Bool := do
  let k ← ask .data
  if ← calls 1 then
    let trace ← bn_trace y n
    if trace = -1 then pure false
    else
      let aOne ← ask .data
      if ← calls (if trace ≠ 0 ∧ aOne = false ∨ trace = 0 ∧ aOne = true then 1 else 0) then
        num x2
        if ← calls (if aOne then 7 else 6) then
          let trace ← bn_trace y n
          calls (if k = true ∧ trace = 0 ∨ k = false ∧ trace ≠ 0 then 3 else 2)
        else pure false
      else pure false
  else pure false

/-- dstulib/compress.c:131-209, in `dstu_point_expand`: between `BN_CTX_start` and `err`. -/
def expandBody (n : Nat) : Res Bool := do
  let p ← get true
  let a ← get p
  let b ← get a
  let x2 ← get b
  let x ← get x2
  let y ← get x
  if !y then pure false
  else
    num p
    num a
    num b
    num x
    if ← calls 2 then
      if ← ask .data then calls 2 else expandNonzero y x2 n
    else pure false

/-- dstulib/compress.c:115-219 `dstu_point_expand`. -/
def dstu_point_expand (n : Nat) : Res Bool := do
  if ← ask .data then pure false
  else
    let ctx ← alloc .object
    if ctx = none then pure false
    else
      let res ← expandBody n
      free ctx
      pure res

/-- dstulib/params.c:409-459, in `group_from_named_curve`: the group that is returned, and `P` and `group` as they are at `err`. -/
def namedBody : Res (Option Nat × Option Nat × Option Nat) := do
  let p ← get true
  let a ← get p
  let b ← get a
  let N ← get b
  let Px ← get N
  let Py ← get Px
  if !Py then pure (none, none, none)
  else
    num p
    num a
    num b
    if ← calls 2 then
      let group ← alloc .object
      if group = none then pure (none, none, none)
      else
        num N
        if ← calls 1 then
          use group
          let P ← alloc .object
          if P = none then pure (none, none, group)
          else
            num Px
            if ← calls 2 then
              use P
              if ← calls 2 then pure (group, P, none) else pure (none, P, group)
            else pure (none, P, group)
        else pure (none, none, group)
    else pure (none, none, none)

/-- dstulib/params.c:394-475 `group_from_named_curve`. -/
def group_from_named_curve : Res (Option Nat) := do
  let ctx ← alloc .object
  if ctx = none then pure none
  else
    let (ret, P, group) ← namedBody
    free P
    free group
    free ctx
    pure ret

/-- dstulib/params.c:284-314 `curve_nid_from_group`: whether a curve was found. -/
def curve_nid_from_group : Res Bool := do
  if ← ask .data then
    let std_group ← group_from_named_curve
    let nid ← if std_group = none then pure false else ask .data
    free std_group
    pure nid
  else pure false

/-- dstulib/params.c:477-488 `group_from_nid`. -/
def group_from_nid : Res (Option Nat) := do
  if ← ask .data then group_from_named_curve else pure none

/-- dstulib/params.c:547-566, in `dstu_add_public_key`: with a group and a private number. -/
def addPublic : Res Bool := do
  let pbk ← alloc .object
  if pbk = none then pure false
  else
    use pbk
    let ret ← calls 3
    free pbk
    pure ret

/-- dstulib/params.c:537-567 `dstu_add_public_key`. -/
def dstu_add_public_key : Res Bool := do
  if ← ask .data then pure false
  else addPublic

/-- dstulib/params.c:517-522: the loop of `dstu_generate_key`, which is left after `n` rounds. -/
def randRounds : (n : Nat) → Res Bool := calls

/-- dstulib/params.c:506-525, in `dstu_generate_key`. -/
def generateBody (n : Nat) : Res Bool := do
  let order ← get true
  let prk ← get order
  if !prk then pure false
  else
    num order
    if ← calls 1 then
      if ← randRounds n then
        if ← calls 1 then dstu_add_public_key else pure false
      else pure false
    else pure false

/-- dstulib/params.c:490-535 `dstu_generate_key`, when a number that is not zero comes in round `n`. -/
def dstu_generate_key (n : Nat) : Res Bool := do
  if ← ask .data then pure false
  else
    let ctx ← alloc .object
    if ctx = none then pure false
    else
      let ret ← generateBody n
      free ctx
      pure ret

/-- A `DSTU_KEY`: the structure itself and what its fields point to. -/
structure KeyPtr where
  self : Option Nat
  ec : Option Nat
  sbox : Option Nat

/-- dstulib/key.c:19-35 `DSTU_KEY_new`. -/
def DSTU_KEY_new : Res (Option KeyPtr) := do
  let key ← alloc .malloc
  if key = none then pure none
  else
    use key
    let ec ← alloc .object
    if ec = none then
      free key
      pure none
    else pure (some ⟨key, ec, none⟩)

/-- dstulib/key.c:45-51, in `DSTU_KEY_set`: the S-box. -/
def keySetSbox (key : KeyPtr) (sbox : Option Nat) : Res KeyPtr :=
  if sbox = none then pure key
  else do
    free key.sbox
    pure { key with sbox := sbox }

/-- dstulib/key.c:37-52 `DSTU_KEY_set`. -/
def DSTU_KEY_set (key : KeyPtr) (ec sbox : Option Nat) : Res KeyPtr := do
  use key.self
  if ec = none then keySetSbox key sbox
  else
    free key.ec
    keySetSbox { key with ec := ec } sbox

/-- dstulib/key.c:54-64 `DSTU_KEY_free`. -/
def DSTU_KEY_free : Option KeyPtr → Res Unit
  | none => pure ()
  | some key => do
    use key.self
    free key.sbox
    free key.ec
    free key.self

/-- dstulib/key.c:121-188, in `asn1_from_key`: a custom curve, after `BN_CTX_start`; the result and `compressed`.  `spec` is owned by `params`, and so is
what is made for it (lines 139, 150). -/
def customBody (m n : Nat) : Res (Bool × Option Nat) := do
  let p ← get true
  let a ← get p
  let b ← get a
  let N ← get b
  if !N then pure (false, none)
  else
    num p
    num a
    num b
    if ← calls 4 then
      if ← ask .data then
        if ← calls m then
          let compressed ← alloc .malloc
          if compressed = none then pure (false, none)
          else
            use compressed
            if ← calls 2 then
              if ← dstu_point_compress n then
                let ok ← calls 1
                pure (ok, compressed)
              else pure (false, compressed)
            else pure (false, compressed)
        else pure (false, none)
      else pure (false, none)
    else pure (false, none)

/-- dstulib/key.c:80-202, in `asn1_from_key`: success, `compressed` and `ctx`.  The results of `DSTU_AlgorithmParameters_new` (line 80) and `BN_CTX_new` (line 109)
are not checked. -/
def asn1Body (params : Option Nat) (m n : Nat) : Res (Bool × Option Nat × Option Nat) := do
  let sbox ← ask .data
  if sbox then use params else pure ()
  if ← calls (if sbox then 2 else 0) then
    if ← curve_nid_from_group then
      use params
      let ok ← calls 1
      pure (ok, none, none)
    else
      use params
      if ← calls 2 then
        let ctx ← alloc .weak
        use ctx
        let (ok, compressed) ← customBody m n
        pure (ok, compressed, ctx)
      else pure (false, none, none)
  else pure (false, none, none)

/-- dstulib/key.c:66-219 `asn1_from_key`. -/
def asn1_from_key (m n : Nat) : Res (Option Nat) := do
  if ← ask .data then pure none
  else
    let params ← alloc .weak
    let (ok, compressed, ctx) ← asn1Body params m n
    free compressed
    free ctx
    if ok then pure params
    else
      free params
      pure none

/-- dstulib/key.c:283-306 and 319-345, in `group_from_asn1`: bytes are decoded, for the little-endian form through a reversed copy. -/
def decodeBytes (little : Bool) (f : Res Bool) : Res Bool := do
  if little then
    let reverse_buffer ← alloc .malloc
    if reverse_buffer = none then pure false
    else
      use reverse_buffer
      if ← f then
        free reverse_buffer
        pure true
      else
        free reverse_buffer
        pure false
  else f

/-- dstulib/key.c:267-355, in `group_from_asn1`: the group that is returned, and `g` and `group` as they are at `err`. -/
def groupBody (little : Bool) (n : Nat) : Res (Option Nat × Option Nat × Option Nat) := do
  let p ← get true
  let a ← get p
  let b ← get a
  let N ← get b
  if !N then pure (none, none, none)
  else
    num p
    num a
    if ← calls 2 then
      if ← ask .data then
        num b
        if ← decodeBytes little (calls 1) then
          if ← calls 1 then
            let group ← alloc .object
            if group = none then pure (none, none, none)
            else
              use group
              let g ← alloc .object
              if g = none then pure (none, none, group)
              else
                if ← decodeBytes little (dstu_point_expand n) then
                  use g
                  if ← calls 1 then pure (group, g, none) else pure (none, g, group)
                else pure (none, g, group)
          else pure (none, none, none)
        else pure (none, none, none)
      else pure (none, none, none)
    else pure (none, none, none)

/-- dstulib/key.c:221-372 `group_from_asn1`. -/
def group_from_asn1 (little : Bool) (n : Nat) : Res (Option Nat) := do
  if ← ask .data then pure none
  else
    let ctx ← alloc .object
    if ctx = none then pure none
    else
      let (ret, g, group) ← groupBody little n
      free ctx
      free g
      free group
      pure ret

/-- dstulib/key.c:382-418, in `key_from_asn1`: success, the field `sbox` of the key and the group. -/
def keyBody (key : KeyPtr) (little : Bool) (n : Nat) : Res (Bool × Option Nat × Option Nat) := do
  use key.self
  if ← ask .data then pure (false, key.sbox, none)
  else
    let needs ← ask .data
    let sbox ← if needs then copy_sbox else pure none
    if needs = true ∧ sbox = none then pure (false, none, none)
    else
      let group ← if ← ask .data then group_from_nid else group_from_asn1 little n
      if group = none then pure (false, sbox, none)
      else
        use group
        use key.ec
        let ok ← calls 1
        pure (ok, sbox, group)

/-- dstulib/key.c:374-438 `key_from_asn1`; `g` and `ctx` are always NULL. -/
def key_from_asn1 (little : Bool) (n : Nat) : Res (Option KeyPtr) := do
  match ← DSTU_KEY_new with
  | none => pure none
  | some key =>
    let (ok, sbox, group) ← keyBody key little n
    free group
    if ok then pure (some { key with sbox := sbox })
    else
      DSTU_KEY_free (some { key with sbox := sbox })
      pure none

/-- A `DSTU_KEY_CTX`: the structure itself and what its fields point to. -/
structure CtxPtr where
  self : Option Nat
  group : Option Nat
  sbox : Option Nat

/-- dstulib/key.c:440-449 `DSTU_KEY_CTX_new`. -/
def DSTU_KEY_CTX_new : Res (Option CtxPtr) := do
  let ctx ← alloc .malloc
  if ctx = none then pure none
  else
    use ctx
    pure (some ⟨ctx, none, none⟩)

/-- dstulib/key.c:500-516 `DSTU_KEY_CTX_free`. -/
def DSTU_KEY_CTX_free : Option CtxPtr → Res Unit
  | none => pure ()
  | some ctx => do
    use ctx.self
    free ctx.group
    free ctx.sbox
    free ctx.self

/-- dstulib/key.c:451-466 `DSTU_KEY_CTX_set`. -/
def DSTU_KEY_CTX_set (ctx : CtxPtr) (group sbox : Option Nat) : Res CtxPtr := do
  use ctx.self
  if group = none then pure () else free ctx.group
  if sbox = none then pure () else free ctx.sbox
  pure { ctx with group := if group = none then ctx.group else group, sbox := if sbox = none then ctx.sbox else sbox }

/-- dstulib/key.c:468-498 `DSTU_KEY_CTX_copy`; `ctx` has a group and an S-box, or not. -/
def DSTU_KEY_CTX_copy (ctx : CtxPtr) : Res (Option CtxPtr) := do
  match ← DSTU_KEY_CTX_new with
  | none => pure none
  | some copy =>
    use ctx.self
    let group ← if ctx.group = none then pure none else alloc .object
    if ctx.group ≠ none ∧ group = none then
      DSTU_KEY_CTX_free (some copy)
      pure none
    else
      let sbox ← if ctx.sbox = none then pure none else copy_sbox
      if ctx.sbox ≠ none ∧ sbox = none then
        DSTU_KEY_CTX_free (some { copy with group := group })
        pure none
      else pure (some { copy with group := group, sbox := sbox })

end Fail

end Dstu
