import Verif.Model.Sign

/-! Signatures when calls of the library fail: engine/sign.c, `dstu_pkey_sign` and `dstu_pkey_verify` of engine/pmeth.c with their values, where every
call that may fail does so as an oracle says. -/

namespace Dstu

/-- The number of calls made that may fail, and how many of them failed. -/
structure Ticks where
  tick : Nat
  faults : Nat

/-- A program with values in which calls fail: the oracle says of each call, by its number, whether it succeeds.  `failed`: the function returned 0. -/
def Faulty (α : Type) := (Nat → Bool) → Ticks → Drawn α × Ticks

namespace Faulty

variable {α β : Type}

protected def pure (a : α) : Faulty α := fun _ t => (.done a, t)

protected def bind (f : Faulty α) (k : α → Faulty β) : Faulty β := fun w t =>
  match f w t with
  | (.done a, t) => k a w t
  | (.failed, t) => (.failed, t)
  | (.waiting, t) => (.waiting, t)

instance : Monad Faulty where
  pure := Faulty.pure
  bind := Faulty.bind

/-- The function returns 0. -/
def err : Faulty α := fun _ t => (.failed, t)

/-- A call whose outcome is not looked at, or does not end the function. -/
def ask : Faulty Bool := fun w t => (.done (w t.tick), ⟨t.tick + 1, if w t.tick then t.faults else t.faults + 1⟩)

/-- A call after whose failure the function returns 0. -/
def check : Faulty Unit := fun w t => (if w t.tick then .done () else .failed, ⟨t.tick + 1, if w t.tick then t.faults else t.faults + 1⟩)

/-- Several such calls. -/
def checks : Nat → Faulty Unit
  | 0 => Pure.pure ()
  | k + 1 => do
    check
    checks k

/-- A value, or the function returns 0. -/
def value : Option α → Faulty α
  | none => err
  | some a => Pure.pure a

/-- engine/sign.c:27-49 `hash_to_field`; `BN_one` (line 46) is not checked, and leaves a zero when it fails. -/
def hash_to_field (hash : List Byte) (fieldsize : Nat) : Faulty Nat := do
  if hash = [] then err
  else
    checks 2
    let fe := bin2bn hash.reverse
    if fe = 0 then
      let one ← ask
      value (bn_truncate_bits (if one then 1 else 0) fieldsize)
    else value (bn_truncate_bits fe fieldsize)

/-- engine/sign.c:108-142, the three nested loops of `dstu_do_sign`. -/
noncomputable def signLoop (g : EcGroup) [GoodGroup g] (d h : Nat) : List (Option Nat) → Faulty (Nat × Nat)
  | [] => fun _ t => (.waiting, t)
  | none :: _ => err
  | some e :: rest => do
    checks 2
    match affine (ec_mul g e none) with
    | none => err
    | some (Fe, _) =>
      if Fe = 0 then signLoop g d h rest
      else
        check
        match field_to_bn (gf2m_mul g.p h Fe) g.n with
        | none => err
        | some r =>
          if r = 0 then signLoop g d h rest
          else
            checks 2
            if mod_add_quick (d * r % g.n) e g.n = 0 then signLoop g d h rest else pure (r, mod_add_quick (d * r % g.n) e g.n)

/-- The end of `dstu_do_sign`, engine/sign.c:144-148. -/
def encodeSig (n r s : Nat) : Option (List Byte) :=
  match bn_encode s (numBytes n) with
  | (0, _) => none
  | (_, none) => none
  | (_, some sb) =>
    match bn_encode r (numBytes n) with
    | (0, _) => none
    | (_, none) => none
    | (_, some rb) => some (sb ++ rb)

/-- engine/sign.c:56-161 `dstu_do_sign`: `BN_CTX_new`, seven `BN_CTX_get` (of which the last one tells whether all succeeded), order, polynomial and
`EC_POINT_new`, the digest, the loops. -/
noncomputable def dstu_do_sign (g : EcGroup) [GoodGroup g] (key : EcKey g) (tbs : List Byte) (draws : List (Option Nat)) : Faulty (List Byte) :=
  match key.priv with
  | none => err
  | some d => do
    checks 11
    let h ← hash_to_field tbs g.degree
    let (r, s) ← signLoop g d h draws
    value (encodeSig g.n r s)

/-- engine/sign.c:163-254 `dstu_do_verify`; 0 is returned in case of `failed` and of `done false`. -/
noncomputable def dstu_do_verify (g : EcGroup) [GoodGroup g] (key : EcKey g) (tbs : List Byte) (sig : List Byte) : Faulty Bool :=
  match key.pub with
  | none => err
  | some Q => do
    checks 7
    let h ← hash_to_field tbs g.degree
    checks 4
    let s := bin2bn (sig.take (sig.length / 2))
    let r := bin2bn ((sig.drop (sig.length / 2)).take (sig.length / 2))
    if s = 0 ∨ r = 0 then err
    else if s ≥ g.n ∨ r ≥ g.n then err
    else
      checks 2
      match affine (ec_mul g s (some (Q, r))) with
      | none => err
      | some (Rx, _) =>
        checks 2
        match field_to_bn (gf2m_mul g.p h Rx) g.n with
        | none => err
        | some r1 => pure (decide (r = r1))

/-- engine/ameth.c:369-384 `dstu_asn1_pkey_size`: 0 when a call fails. -/
def pkey_size (g : EcGroup) : Faulty Nat := do
  if ← ask then
    if ← ask then pure (Dstu.pkey_size g) else pure 0
  else pure 0

/-- engine/pmeth.c:228-314 `dstu_pkey_sign`, with a key and a group.  `failed`: 0 is returned (what `*siglen` is then is not followed).  Simplification:
the signature is written even if the buffer is smaller (that this happens is C77). -/
noncomputable def dstu_pkey_sign (type : KeyType) (g : EcGroup) [GoodGroup g] (key : EcKey g) (sig : Bool) (siglen : Nat) (tbs : List Byte)
    (draws : List (Option Nat)) : Faulty SignOut := do
  checks 2
  let encoded_sig_size ← pkey_size g
  if sig ∧ encoded_sig_size > siglen then err
  else if sig then
    checks 2
    let sig_data ← dstu_do_sign g key tbs draws
    let sig_data ← value (if type = .le then reverse_bytes sig_data (2 * numBytes g.n) else some sig_data)
    pure ⟨true, (i2d_octet sig_data).length, i2d_octet sig_data⟩
  else pure ⟨true, encoded_sig_size, []⟩

/-- engine/pmeth.c:316-395 `dstu_pkey_verify`, with a key and a group. -/
noncomputable def dstu_pkey_verify (dec : OctetDecoder) (type : KeyType) (g : EcGroup) [GoodGroup g] (key : EcKey g) (sig tbs : List Byte) : Faulty Bool := do
  checks 2
  let decoded ← ask
  let sig := (if decoded then dec.d2i sig else none).getD sig
  if sig.length % 2 = 1 then err
  else if sig.length < 2 * numBytes g.n then err
  else
    match type with
    | .le =>
      check
      let sig_be ← value (reverse_bytes_copy sig sig.length)
      dstu_do_verify g key tbs sig_be
    | .be => dstu_do_verify g key tbs sig

end Faulty

end Dstu
