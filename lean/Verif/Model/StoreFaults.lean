import Verif.Model.ReadFaults
import Verif.Model.Key6

/-! Import of PKCS#12 files when calls of the library fail, with the values and the memory: keylib/pkcs12.c.  Simplification of the whole file: calls after whose
failure NULL is dereferenced (C81), those of `KeyStoreNew`, succeed. -/

namespace Dstu

namespace Faulty

/-- A function of OpenSSL that returns NULL when it fails. -/
def call {α : Type} (o : Option α) : Faulty (Option α) := do
  let ok ← ask
  pure (if ok then o else none)

/-- keylib/pkcs12.c:56-66 and 142-152: one safe, as in `P12Lib.unpack`. -/
def unpack {D κ χ : Type} (lib : P12Lib D κ χ) (pass : List Byte) : Option P7 → Faulty (Option (Option (List Bag)))
  | none => pure none
  | some p7 =>
    match p7.type with
    | .data => do
      let bags ← call (lib.unpack_p7data p7.content)
      pure (some bags)
    | .encrypted => do
      let bags ← call (lib.unpack_p7encdata p7.content pass)
      pure (some bags)
    | .other => pure none

/-- keylib/pkcs12.c:46-78 `countKeysCerts`. -/
def countKeysCerts {D κ χ : Type} (lib : P12Lib D κ χ) (pass : List Byte) : List (Option P7) → Nat × Nat → Faulty (Bool × (Nat × Nat))
  | [], n => pure (true, n)
  | p7 :: safes, n => do
    let bags ← unpack lib pass p7
    match bags with
    | none => countKeysCerts lib pass safes n
    | some none => pure (false, n)
    | some (some bags) =>
      match countKeysCertsInBags bags n with
      | (false, n) => pure (false, n)
      | (true, n) => countKeysCerts lib pass safes n

mutual
/-- keylib/pkcs12.c:80-119 `fromBag`. -/
def fromBag {D κ χ : Type} (lib : P12Lib D κ χ) (pass : List Byte) (ks : Nat) : Bag → ImpSt κ χ → Faulty (Option (Bool × ImpSt κ χ))
  | .keyBag p8, st => do
    let pkey ← call (lib.EVP_PKCS82PKEY p8)
    pure (st.takeKey ks pkey)
  | .shrouded enc, st => do
    let p8 ← call (lib.decrypt_skey enc pass)
    match p8 with
    | none => pure (some (false, st))
    | some p8 => do
      let pkey ← call (lib.EVP_PKCS82PKEY p8)
      pure (st.takeKey ks pkey)
  | .certBag cert, st => do
    let x509 ← call (lib.get1_cert cert)
    pure (st.takeCert ks x509)
  | .safes bags, st => fromBags lib pass ks bags st
  | .other, st => pure (some (true, st))

/-- keylib/pkcs12.c:121-130 `fromBags`. -/
def fromBags {D κ χ : Type} (lib : P12Lib D κ χ) (pass : List Byte) (ks : Nat) : List Bag → ImpSt κ χ → Faulty (Option (Bool × ImpSt κ χ))
  | [], st => pure (some (true, st))
  | b :: bags, st => do
    let r ← fromBag lib pass ks b st
    match r with
    | none => pure none
    | some (false, st) => pure (some (false, st))
    | some (true, st) => fromBags lib pass ks bags st
end

/-- keylib/pkcs12.c:132-164 `fromSafes`. -/
def fromSafes {D κ χ : Type} (lib : P12Lib D κ χ) (pass : List Byte) (ks : Nat) : List (Option P7) → ImpSt κ χ → Faulty (Option (Bool × ImpSt κ χ))
  | [], st => pure (some (true, st))
  | p7 :: safes, st => do
    let bags ← unpack lib pass p7
    match bags with
    | none => fromSafes lib pass ks safes st
    | some none => pure (some (false, st))
    | some (some bags) => do
      let r ← fromBags lib pass ks bags st
      match r with
      | none => pure none
      | some (false, st) => pure (some (false, st))
      | some (true, st) => fromSafes lib pass ks safes st

/-- keylib/pkcs12.c:201-214: the end of `parsePKCS12`. -/
def finishSafes {κ χ : Type} (id : Nat) : Option (Bool × ImpSt κ χ) → Option (Bool × Option Nat × ImpMem κ χ)
  | none => none
  | some (true, st) => some (true, some id, st.mem)
  | some (false, st) =>
    match KeyStoreFree id st.mem.ks with
    | none => none
    | some mem => some (false, some id, { st.mem with ks := mem })

/-- keylib/pkcs12.c:190-214: the store is created and filled. -/
def importSafes {D κ χ : Type} (lib : P12Lib D κ χ) (pass : List Byte) (safes : List (Option P7)) (ks : Option Nat) (m : ImpMem κ χ) :
    Faulty (Option (Bool × Option Nat × ImpMem κ χ)) := do
  let n ← countKeysCerts lib pass safes (0, 0)
  match n with
  | (false, _) => pure (some (false, ks, m))
  | (true, (numKeys, numCerts)) =>
    if numKeys = 0 ∧ numCerts = 0 then pure (some (false, ks, m))
    else
      match KeyStoreNew numKeys numCerts m.ks with
      | none => pure none
      | some (id, mem) => do
        let r ← fromSafes lib pass id safes ⟨{ m with ks := mem }, 0, 0⟩
        pure (finishSafes id r)

/-- keylib/pkcs12.c:166-215 `parsePKCS12`.  `PKCS12_verify_mac` returns 0 when a call in it fails. -/
def parsePKCS12 {D κ χ : Type} (lib : P12Lib D κ χ) (data pass : List Byte) (ks : Option Nat) (m : ImpMem κ χ) :
    Faulty (Option (Bool × Option Nat × ImpMem κ χ)) := do
  let pkcs12 ← call (lib.d2i_PKCS12 data)
  match pkcs12 with
  | none => pure (some (false, ks, m))
  | some p12 => do
    let ok ← ask
    if (ok && lib.verify_mac p12 pass) = false then pure (some (false, ks, m))
    else do
      let safes ← call (lib.unpack_authsafes p12)
      match safes with
      | none => pure (some (false, ks, m))
      | some safes => importSafes lib pass safes ks m

/-- keylib/pkcs12.c:235-254: the loop of `readPKCS12_bio`.  `chunks` is what the calls of `BIO_read_ex` give when they do not fail; the call after the last one gives 0,
as at the end of a file. -/
def bioLoop : (chunks : List (List Byte)) → (mem : List Byte) → Faulty (Option (List Byte))
  | [], mem => pure (if mem.length > 0 then some mem else none)
  | chunk :: chunks, mem => do
    let read ← ask
    if read = false then pure (if mem.length > 0 then some mem else none)
    else if chunk.length = 0 then pure (some mem)
    else do
      let written ← ask
      if written = false then pure none
      else bioLoop chunks (mem ++ chunk)

/-- keylib/pkcs12.c:228-264 `readPKCS12_bio`.  Without `mem`, `BIO_write_ex` and `BIO_get_mem_data` fail, and all paths return 0; simplification: at once. -/
def readPKCS12_bio {D κ χ : Type} (lib : P12Lib D κ χ) (chunks : List (List Byte)) (password : List Byte) (ks : Option Nat) (m : ImpMem κ χ) :
    Faulty (Option (Bool × Option Nat × ImpMem κ χ)) := do
  let mem ← ask
  if mem = false then pure (some (false, ks, m))
  else do
    let data ← bioLoop chunks []
    match data with
    | none => pure (some (false, ks, m))
    | some data => if data.length = 0 then pure (some (false, ks, m)) else parsePKCS12 lib data password ks m

/-- keylib/pkcs12.c:217-226 `readPKCS12`. -/
def readPKCS12 {D κ χ : Type} (lib : P12Lib D κ χ) (chunks : List (List Byte)) (password : List Byte) (ks : Option Nat) (m : ImpMem κ χ) :
    Faulty (Option (Bool × Option Nat × ImpMem κ χ)) := do
  let bio ← ask
  if bio = false then pure (some (false, ks, m)) else readPKCS12_bio lib chunks password ks m

end Faulty

end Dstu
