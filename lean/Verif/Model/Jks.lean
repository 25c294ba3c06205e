import Verif.Model.Utf16
import Verif.Model.KeyUtils
import Verif.Spec.Bytes

/-! Model of keylib/jks.c.  The input is a list of bytes, pointers into it are positions; every access outside it is
undefined behaviour (`none`).  The machine is little-endian, with 64-bit `size_t` and `long`; memory allocation and SHA-1 succeed.
The counters `keyPos` and `certPos` are not modelled, nobody reads them. -/

namespace Dstu

open Spec

/-- What is given from outside: SHA-1, OpenSSL's decoders of certificates and of `X509_SIG` (its algorithm and its data), and
`pkcs8Keys` (keylib/utils.c). -/
structure JksLib (κ χ : Type) where
  sha1 : List Byte → List Byte
  sha1_length : ∀ d, (sha1 d).length = 20
  d2i_X509 : List Byte → Option χ
  d2i_X509_SIG : List Byte → Option (List Byte × List Byte)
  keys : List Byte → Option (Option (κ × Option κ))

/-- keylib/jks.c:20 `pbes1OID`, 1.3.6.1.4.1.42.2.19.1, encoded. -/
def pbes1OID : List Byte := [0x2B, 0x06, 0x01, 0x04, 0x01, 0x2A, 0x02, 0x13, 0x01]

/-- keylib/jks.c:21 `keyProtectorOID`, 1.3.6.1.4.1.42.2.17.1.1, encoded. -/
def keyProtectorOID : List Byte := [0x2B, 0x06, 0x01, 0x04, 0x01, 0x2A, 0x02, 0x11, 0x01, 0x01]

/-- keylib/jks.c:26-34 `ptrAt` and `copyAt`: `size` bytes at a position. -/
def copyAt (data : List Byte) (pos size : Nat) : Option (List Byte) :=
  if pos + size ≤ data.length then some ((data.drop pos).take size) else none

/-- keylib/jks.c:36-41 `read16`. -/
def read16 (data : List Byte) (pos : Nat) : Option Nat := (copyAt data pos 2).map leValue

/-- keylib/jks.c:43-48 `read32`. -/
def read32 (data : List Byte) (pos : Nat) : Option Nat := (copyAt data pos 4).map leValue

/-- `ntohs`. -/
def ntohs (n : Nat) : Nat := n % 256 * 256 + n / 256 % 256

/-- `ntohl`. -/
def ntohl (n : Nat) : Nat := n % 256 * 2 ^ 24 + n / 2 ^ 8 % 256 * 2 ^ 16 + n / 2 ^ 16 % 256 * 2 ^ 8 + n / 2 ^ 24 % 256

/-- `ntohs(read16(..))`, as in keylib/jks.c:146. -/
def be16 (data : List Byte) (pos : Nat) : Option Nat := (read16 data pos).map ntohs

/-- `ntohl(read32(..))`, as in keylib/jks.c:147. -/
def be32 (data : List Byte) (pos : Nat) : Option Nat := (read32 data pos).map ntohl

variable {κ χ : Type} (lib : JksLib κ χ)

/-- keylib/jks.c:119-129 `twoHash`. -/
def twoHash (d1 d2 : List Byte) : List Byte := lib.sha1 (d1 ++ d2)

/-- The bytes of "Mighty Aphrodite", keylib/jks.c:137. -/
def mightyAphrodite : List Byte := [0x4D, 0x69, 0x67, 0x68, 0x74, 0x79, 0x20, 0x41, 0x70, 0x68, 0x72, 0x6F, 0x64, 0x69, 0x74, 0x65]

/-- keylib/jks.c:131-142 `whiteHash`. -/
def whiteHash (d1 d2 : List Byte) : List Byte := lib.sha1 (d1 ++ mightyAphrodite ++ d2)

/-- keylib/jks.c:146-148 and 165, in `parseCert`: the bytes given to `d2i_X509`, and the next position.  Simplification: `d2i_X509` may read
all the `dataLength` bytes. -/
def certHeader (data : List Byte) (pos : Nat) : Option (List Byte × Nat) :=
  match be16 data pos with
  | none => none
  | some typeLength =>
    match be32 data (pos + (2 + typeLength)) with
    | none => none
    | some dataLength =>
      match copyAt data (pos + (2 + typeLength + 4)) dataLength with
      | none => none
      | some der => some (der, pos + (2 + typeLength + 4 + dataLength))

/-- keylib/jks.c:144-166 `parseCert`, at a position; `ks` is the store.  The result is the next position (`none` is NULL) and the
memory. -/
def parseCert (data : List Byte) (pos ks : Nat) (m : ImpMem κ χ) : Option (Option Nat × ImpMem κ χ) := do
  let (der, next) ← certHeader data pos
  match lib.d2i_X509 der with
  | none => some (none, m)
  | some c =>
    let x509 := m.ks.nextObj
    let m := m.newCert c
    let (tks, mem) ← KeyStoreNew 0 1 m.ks
    let mem ← KeyStoreSet .certs tks 0 (.ptr x509) mem
    let mem ← KeyStoreAppend ks tks mem
    let mem ← KeyStoreFree tks mem
    some (some next, { m with ks := mem })

/-- keylib/jks.c:193-199: the inner loop, `n` steps from `j`; `out` is what is written to `decrypted`, so `pos` is its
length. -/
def protXorLoop (encrypted digest : List Byte) : (n j : Nat) → List Byte → Option (List Byte)
  | 0, _, out => some out
  | n + 1, j, out => do
    let e ← encrypted[out.length]?
    let d ← digest[j]?
    let out := out ++ [e ^^^ d]
    if out.length = encrypted.length then some out else protXorLoop encrypted digest n (j + 1) out

/-- keylib/jks.c:186-200: the outer loop. -/
def roundLoop (pwd16 encrypted : List Byte) : (n : Nat) → (digest out : List Byte) → Option (List Byte)
  | 0, _, out => some out
  | n + 1, digest, out => do
    let digest := twoHash lib pwd16 digest
    let out ← protXorLoop encrypted digest 20 0 out
    roundLoop pwd16 encrypted n digest out

/-- keylib/jks.c:208-213 and 388-393: comparison of digests, `n` bytes from `j`. -/
def sameBytes (digest check : List Byte) : (n j : Nat) → Option Bool
  | 0, _ => some true
  | n + 1, j => do
    let a ← digest[j]?
    let b ← check[j]?
    if a ≠ b then some false else sameBytes digest check n (j + 1)

/-- keylib/jks.c:168-213, in `fromKeyProtector`: what is decrypted (inner `none`: failure).  With less than 40 bytes
`encryptedLength` is a number near 2^64, and the loop writes outside of what can be allocated. -/
def unprotect (data pwd16 : List Byte) : Option (Option (List Byte)) :=
  if data.length < 40 then none
  else do
    let encryptedLength := data.length - 20 - 20
    let rounds := if encryptedLength % 20 > 0 then 1 + encryptedLength / 20 else encryptedLength / 20
    let encrypted ← copyAt data 20 encryptedLength
    let check ← copyAt data (20 + encryptedLength) 20
    let digest ← copyAt data 0 20
    let decrypted ← roundLoop lib pwd16 encrypted rounds digest []
    if decrypted.length ≠ encryptedLength then none
    else
      let digest := twoHash lib pwd16 decrypted
      match ← sameBytes digest check 20 0 with
      | false => some none
      | true => some (some decrypted)

/-- keylib/jks.c:168-232 `fromKeyProtector`.  If `keysFromPKCS8` fails, `tks` is NULL and `KeyStoreFree` reads through it. -/
def fromKeyProtector (data pwd16 : List Byte) (ks : Nat) (m : ImpMem κ χ) : Option (Bool × ImpMem κ χ) := do
  match ← unprotect lib data pwd16 with
  | none => some (false, m)
  | some decrypted =>
    match ← keysFromPKCS8 lib.keys decrypted none m with
    | (true, some tks, m) =>
      let mem ← KeyStoreAppend ks tks m.ks
      let mem ← KeyStoreFree tks mem
      some (true, { m with ks := mem })
    | _ => none

/-- keylib/jks.c:246-302 `decryptKey` (with 234-244 `fromPBES1`, which returns 0). -/
def decryptKey (data password : List Byte) (ks : Nat) (m : ImpMem κ χ) : Option (Bool × ImpMem κ χ) := do
  match ← toUTF16BE password with
  | none => some (false, m)
  | some pwd16 =>
    match lib.d2i_X509_SIG data with
    | none => some (false, m)
    | some (oid, keyData) =>
      if oid = keyProtectorOID then fromKeyProtector lib keyData pwd16 ks m
      else if oid = pbes1OID then some (false, m)
      else some (true, m)

/-- keylib/jks.c:316-321: the certificates of a key, `n` of them. -/
def certLoop (data : List Byte) (ks : Nat) : (n : Nat) → (certPtr : Nat) → ImpMem κ χ → Option (Option Nat × ImpMem κ χ)
  | 0, certPtr, m => some (some certPtr, m)
  | n + 1, certPtr, m => do
    match ← parseCert lib data certPtr ks m with
    | (none, m) => some (none, m)
    | (some certPtr, m) => certLoop data ks n certPtr m

/-- keylib/jks.c:306-310, in `parseKey`: the bytes given to `decryptKey`, the number of certificates, and where they are. -/
def keyHeader (data : List Byte) (pos : Nat) : Option (List Byte × Nat × Nat) :=
  match be16 data pos with
  | none => none
  | some nameLength =>
    match be32 data (pos + (2 + nameLength + 8)) with
    | none => none
    | some dataLength =>
      match be32 data (pos + (2 + nameLength + 8 + 4 + dataLength)) with
      | none => none
      | some certNum =>
        match copyAt data (pos + (2 + nameLength + 8 + 4)) dataLength with
        | none => none
        | some der => some (der, certNum, pos + (2 + nameLength + 8 + 4 + dataLength + 4))

/-- keylib/jks.c:304-323 `parseKey`. -/
def parseKey (data : List Byte) (pos : Nat) (keyPass : List Byte) (ks : Nat) (m : ImpMem κ χ) : Option (Option Nat × ImpMem κ χ) := do
  let (der, certNum, certPtr) ← keyHeader data pos
  match ← decryptKey lib der keyPass ks m with
  | (false, m) => some (none, m)
  | (true, m) => certLoop lib data ks certNum certPtr m

/-- keylib/jks.c:325-336 `parseEntry`. -/
def parseEntry (data : List Byte) (pos : Nat) (keyPass : List Byte) (ks : Nat) (m : ImpMem κ χ) : Option (Option Nat × ImpMem κ χ) := do
  let tag ← be32 data pos
  if tag = 1 then parseKey lib data (pos + 4) keyPass ks m
  else if tag = 2 then parseCert lib data (pos + 4) ks m
  else some (none, m)

/-- keylib/jks.c:366-371: the entries, `n` of them. -/
def entryLoop (data keyPass : List Byte) (ks : Nat) : (n : Nat) → (entryPtr : Nat) → ImpMem κ χ → Option (Option Nat × ImpMem κ χ)
  | 0, entryPtr, m => some (some entryPtr, m)
  | n + 1, entryPtr, m => do
    match ← parseEntry lib data entryPtr keyPass ks m with
    | (none, m) => some (none, m)
    | (some entryPtr, m) => entryLoop data keyPass ks n entryPtr m

/-- keylib/jks.c:364-395, the part of `parseJKS` that works with the store. -/
def importEntries (data pwd16 keyPass : List Byte) (entries : Nat) (m : ImpMem κ χ) : Option (Bool × Option Nat × ImpMem κ χ) := do
  let (id, mem) ← KeyStoreNew 0 0 m.ks
  match ← entryLoop lib data keyPass id entries 12 { m with ks := mem } with
  | (none, m) =>
    let mem ← KeyStoreFree id m.ks
    some (false, some id, { m with ks := mem })
  | (some entryPtr, m) =>
    let digest := whiteHash lib pwd16 (← copyAt data 0 entryPtr)
    match ← sameBytes digest (data.drop entryPtr) 20 0 with
    | true => some (true, some id, m)
    | false =>
      let mem ← KeyStoreFree id m.ks
      some (false, some id, { m with ks := mem })

/-- keylib/jks.c:338-396 `parseJKS`: the returned value, `*ks` (it was `ks` before) and the memory. -/
def parseJKS (data storagePass keyPass : List Byte) (ks : Option Nat) (m : ImpMem κ χ) : Option (Bool × Option Nat × ImpMem κ χ) := do
  let magic ← read32 data 0
  let entries ← be32 data 8
  if magic ≠ 0xedfeedfe ∧ magic ≠ 0xcececece then some (false, ks, m)
  else if (← read32 data 4) ≠ 0x02000000 then some (false, ks, m)
  else
    match ← toUTF16BE storagePass with
    | none => some (false, ks, m)
    | some pwd16 => importEntries lib data pwd16 keyPass entries m

end Dstu
