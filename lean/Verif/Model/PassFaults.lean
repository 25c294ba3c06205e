import Verif.Model.StoreFaults
import Verif.Model.Jks

/-! Conversion of passwords of JKS files when calls fail, with the values: keylib/jks.c.  Simplification of the whole file: `BIO_new`, `OPENSSL_malloc` and
`OPENSSL_realloc`, after whose failure NULL is used (C81), succeed. -/

namespace Dstu

open Spec

namespace Faulty

/-- keylib/jks.c:72-73: `BIO_write`, if something was converted.  Its result is not looked at; when it fails, nothing is written. -/
def writeOut (out o : List Byte) : Faulty (List Byte) :=
  if o = [] then pure out
  else do
    let ok ← ask
    pure (if ok then out ++ o else out)

/-- keylib/jks.c:67-85: the loop, as in `convLoop`. -/
def convLoop (s : List Byte) (bufSize cap : Nat) (out : List Byte) : Faulty (Option (Option (List Byte × Nat × Nat))) :=
  if s = [] then pure (some (some (out, bufSize, cap)))
  else if cap < bufSize ∨ bufSize = 0 then pure none
  else
    match h : iconv s bufSize with
    | (.ok, _, o) => do
      let out ← writeOut out o
      pure (some (some (out, bufSize, cap)))
    | (.bad, _, o) => do
      let _ ← writeOut out o
      pure (some none)
    | (.e2big, rest, o) => do
      let out ← writeOut out o
      convLoop rest (bufSize * 2) (bufSize * 2) out
termination_by (s.length, 4 - bufSize)
decreasing_by
  rcases iconv_progress s bufSize with h' | ⟨h1, h2⟩
  · rw [h] at h'
    exact Prod.Lex.left _ _ h'
  · rw [h] at h1 h2
    simp only at h1
    rw [h1]
    have := h2 rfl
    exact Prod.Lex.right _ (by omega)

/-- keylib/jks.c:105-112: the end of `toUTF16BE`. -/
def convEnd : Option (Option (List Byte × Nat × Nat)) → Option (Option (List Byte))
  | none => none
  | some none => some none
  | some (some (res, bufSize, cap)) =>
    if cap < bufSize then none
    else if res.length = 0 then some none
    else some (some res)

/-- keylib/jks.c:50-117 `toUTF16BE`; the call that can fail first is `iconv_open`. -/
def toUTF16BE (source : List Byte) : Faulty (Option (Option (List Byte))) := do
  let cd ← ask
  if cd = false then pure (some none)
  else do
    let r ← convLoop source source.length (source.length * 2) []
    pure (convEnd r)

/-- keylib/jks.c:338-396 `parseJKS`.  Simplification: only calls made while the password of the store is converted fail. -/
def parseJKS {κ χ : Type} (lib : JksLib κ χ) (data storagePass keyPass : List Byte) (ks : Option Nat) (m : ImpMem κ χ) :
    Faulty (Option (Bool × Option Nat × ImpMem κ χ)) :=
  match read32 data 0, be32 data 8 with
  | some magic, some entries =>
    if magic ≠ 0xedfeedfe ∧ magic ≠ 0xcececece then pure (some (false, ks, m))
    else
      match read32 data 4 with
      | none => pure none
      | some version =>
        if version ≠ 0x02000000 then pure (some (false, ks, m))
        else do
          let pwd16 ← toUTF16BE storagePass
          match pwd16 with
          | none => pure none
          | some none => pure (some (false, ks, m))
          | some (some pwd16) => pure (importEntries lib data pwd16 keyPass entries m)
  | _, _ => pure none

/-- keylib/jks.c:246-302 `decryptKey`.  Simplification: only calls made while the password of the key is converted fail. -/
def decryptKey {κ χ : Type} (lib : JksLib κ χ) (data password : List Byte) (ks : Nat) (m : ImpMem κ χ) : Faulty (Option (Bool × ImpMem κ χ)) := do
  let pwd16 ← toUTF16BE password
  match pwd16 with
  | none => pure none
  | some none => pure (some (false, m))
  | some (some pwd16) =>
    match lib.d2i_X509_SIG data with
    | none => pure (some (false, m))
    | some (oid, keyData) =>
      if oid = keyProtectorOID then pure (fromKeyProtector lib keyData pwd16 ks m)
      else if oid = pbes1OID then pure (some (false, m))
      else pure (some (true, m))

end Faulty

end Dstu
