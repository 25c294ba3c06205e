import Verif.Model.KeyStore

/-! Model of keylib/pkcs12.c.  OpenSSL's decoders and ciphers are functions: they are parameters of the model
(`P12Lib`).  Temporary objects (stacks, decoded structures) and their release are not modelled. -/

namespace Dstu

/-- The memory with the values of the keys and certificates in it. -/
structure ImpMem (κ χ : Type) where
  ks : KsMem
  key : Nat → Option κ
  cert : Nat → Option χ

/-- OpenSSL creates a key. -/
def ImpMem.newKey {κ χ : Type} (m : ImpMem κ χ) (k : κ) : ImpMem κ χ :=
  ⟨{ m.ks with objs := fun i => if i = m.ks.nextObj then some .keys else m.ks.objs i, nextObj := m.ks.nextObj + 1 },
    fun i => if i = m.ks.nextObj then some k else m.key i, m.cert⟩

/-- OpenSSL creates a certificate. -/
def ImpMem.newCert {κ χ : Type} (m : ImpMem κ χ) (c : χ) : ImpMem κ χ :=
  ⟨{ m.ks with objs := fun i => if i = m.ks.nextObj then some .certs else m.ks.objs i, nextObj := m.ks.nextObj + 1 },
    m.key, fun i => if i = m.ks.nextObj then some c else m.cert i⟩

/-- `PKCS12_SAFEBAG` by its NID, as in the switches at keylib/pkcs12.c:18-31 and 87-117; contents undecoded. -/
inductive Bag where
  | keyBag (p8 : List Byte)
  | shrouded (enc : List Byte)
  | certBag (cert : List Byte)
  | safes (bags : List Bag)
  | other

/-- The types of `PKCS7` distinguished at keylib/pkcs12.c:59-64. -/
inductive P7Type where
  | data
  | encrypted
  | other
deriving DecidableEq

/-- `PKCS7`: type and contents. -/
structure P7 where
  type : P7Type
  content : List Byte

/-- The functions of OpenSSL that are used; `D` is a decoded `PKCS12`, `κ` a key, `χ` a certificate. -/
structure P12Lib (D κ χ : Type) where
  d2i_PKCS12 : List Byte → Option D
  verify_mac : D → List Byte → Bool
  unpack_authsafes : D → Option (List (Option P7))
  unpack_p7data : List Byte → Option (List Bag)
  unpack_p7encdata : List Byte → List Byte → Option (List Bag)
  EVP_PKCS82PKEY : List Byte → Option κ
  decrypt_skey : List Byte → List Byte → Option (List Byte)
  get1_cert : List Byte → Option χ

mutual
/-- keylib/pkcs12.c:16-33 `countKeysCertsInBag`; the counters are returned with the result. -/
def countKeysCertsInBag : Bag → Nat × Nat → Bool × (Nat × Nat)
  | .keyBag _, (k, c) => (true, (k + 1, c))
  | .shrouded _, (k, c) => (true, (k + 1, c))
  | .certBag _, (k, c) => (true, (k, c + 1))
  | .safes bags, n => countKeysCertsInBags bags n
  | .other, n => (true, n)

/-- keylib/pkcs12.c:35-44 `countKeysCertsInBags`. -/
def countKeysCertsInBags : List Bag → Nat × Nat → Bool × (Nat × Nat)
  | [], n => (true, n)
  | b :: bags, n =>
    match countKeysCertsInBag b n with
    | (false, n) => (false, n)
    | (true, n) => countKeysCertsInBags bags n
end

/-- keylib/pkcs12.c:56-66 and 142-152: one safe; `none` (outer): skipped, `none` (inner): cannot be read. -/
def P12Lib.unpack {D κ χ : Type} (lib : P12Lib D κ χ) (pass : List Byte) : Option P7 → Option (Option (List Bag))
  | none => none
  | some p7 =>
    match p7.type with
    | .data => some (lib.unpack_p7data p7.content)
    | .encrypted => some (lib.unpack_p7encdata p7.content pass)
    | .other => none

/-- keylib/pkcs12.c:46-78 `countKeysCerts`. -/
def countKeysCerts {D κ χ : Type} (lib : P12Lib D κ χ) (pass : List Byte) : List (Option P7) → Nat × Nat → Bool × (Nat × Nat)
  | [], n => (true, n)
  | p7 :: safes, n =>
    match lib.unpack pass p7 with
    | none => countKeysCerts lib pass safes n
    | some none => (false, n)
    | some (some bags) =>
      match countKeysCertsInBags bags n with
      | (false, n) => (false, n)
      | (true, n) => countKeysCerts lib pass safes n

/-- Memory and the two positions. -/
structure ImpSt (κ χ : Type) where
  mem : ImpMem κ χ
  keyPos : Nat
  certPos : Nat

/-- keylib/pkcs12.c:91-95 and 100-108: the key, if there is one, is created and stored at the next position; `none`:
undefined behaviour. -/
def ImpSt.takeKey {κ χ : Type} (ks : Nat) (k : Option κ) (st : ImpSt κ χ) : Option (Bool × ImpSt κ χ) :=
  match k with
  | none => some (false, st)
  | some k =>
    match KeyStoreSet .keys ks st.keyPos (.ptr st.mem.ks.nextObj) (st.mem.newKey k).ks with
    | none => none
    | some m => some (true, ⟨{ st.mem.newKey k with ks := m }, st.keyPos + 1, st.certPos⟩)

/-- keylib/pkcs12.c:110-114. -/
def ImpSt.takeCert {κ χ : Type} (ks : Nat) (c : Option χ) (st : ImpSt κ χ) : Option (Bool × ImpSt κ χ) :=
  match c with
  | none => some (false, st)
  | some c =>
    match KeyStoreSet .certs ks st.certPos (.ptr st.mem.ks.nextObj) (st.mem.newCert c).ks with
    | none => none
    | some m => some (true, ⟨{ st.mem.newCert c with ks := m }, st.keyPos, st.certPos + 1⟩)

mutual
/-- keylib/pkcs12.c:80-119 `fromBag`. -/
def fromBag {D κ χ : Type} (lib : P12Lib D κ χ) (pass : List Byte) (ks : Nat) : Bag → ImpSt κ χ → Option (Bool × ImpSt κ χ)
  | .keyBag p8, st => st.takeKey ks (lib.EVP_PKCS82PKEY p8)
  | .shrouded enc, st =>
    match lib.decrypt_skey enc pass with
    | none => some (false, st)
    | some p8 => st.takeKey ks (lib.EVP_PKCS82PKEY p8)
  | .certBag cert, st => st.takeCert ks (lib.get1_cert cert)
  | .safes bags, st => fromBags lib pass ks bags st
  | .other, st => some (true, st)

/-- keylib/pkcs12.c:121-130 `fromBags`. -/
def fromBags {D κ χ : Type} (lib : P12Lib D κ χ) (pass : List Byte) (ks : Nat) : List Bag → ImpSt κ χ → Option (Bool × ImpSt κ χ)
  | [], st => some (true, st)
  | b :: bags, st =>
    match fromBag lib pass ks b st with
    | none => none
    | some (false, st) => some (false, st)
    | some (true, st) => fromBags lib pass ks bags st
end

/-- keylib/pkcs12.c:132-164 `fromSafes`. -/
def fromSafes {D κ χ : Type} (lib : P12Lib D κ χ) (pass : List Byte) (ks : Nat) : List (Option P7) → ImpSt κ χ → Option (Bool × ImpSt κ χ)
  | [], st => some (true, st)
  | p7 :: safes, st =>
    match lib.unpack pass p7 with
    | none => fromSafes lib pass ks safes st
    | some none => some (false, st)
    | some (some bags) =>
      match fromBags lib pass ks bags st with
      | none => none
      | some (false, st) => some (false, st)
      | some (true, st) => fromSafes lib pass ks safes st

/-- keylib/pkcs12.c:193-214: the store is created and filled.  `ks` is what `*ks` was before; the result is the
returned value, `*ks` and the memory. -/
def importSafes {D κ χ : Type} (lib : P12Lib D κ χ) (pass : List Byte) (safes : List (Option P7)) (ks : Option Nat) (m : ImpMem κ χ) :
    Option (Bool × Option Nat × ImpMem κ χ) :=
  match countKeysCerts lib pass safes (0, 0) with
  | (false, _) => some (false, ks, m)
  | (true, (numKeys, numCerts)) =>
    if numKeys = 0 ∧ numCerts = 0 then some (false, ks, m)
    else
      match KeyStoreNew numKeys numCerts m.ks with
      | none => none
      | some (id, mem) =>
        match fromSafes lib pass id safes ⟨{ m with ks := mem }, 0, 0⟩ with
        | none => none
        | some (true, st) => some (true, some id, st.mem)
        | some (false, st) =>
          match KeyStoreFree id st.mem.ks with
          | none => none
          | some mem => some (false, some id, { st.mem with ks := mem })

/-- keylib/pkcs12.c:166-215 `parsePKCS12`. -/
def parsePKCS12 {D κ χ : Type} (lib : P12Lib D κ χ) (data pass : List Byte) (ks : Option Nat) (m : ImpMem κ χ) :
    Option (Bool × Option Nat × ImpMem κ χ) :=
  match lib.d2i_PKCS12 data with
  | none => some (false, ks, m)
  | some p12 =>
    if lib.verify_mac p12 pass = false then some (false, ks, m)
    else
      match lib.unpack_authsafes p12 with
      | none => some (false, ks, m)
      | some safes => importSafes lib pass safes ks m

end Dstu
