import Verif.Spec.Oid
import Verif.Model.Jks
import Verif.Spec.Pkcs12

/-! Java key stores, as they are written. -/

namespace Dstu.Spec

/-- Big-endian numbers of two and four bytes. -/
def u16 (n : Nat) : List Byte := [BitVec.ofNat 8 (n / 256), BitVec.ofNat 8 n]
def u32 (n : Nat) : List Byte := [BitVec.ofNat 8 (n / 2 ^ 24), BitVec.ofNat 8 (n / 2 ^ 16), BitVec.ofNat 8 (n / 2 ^ 8), BitVec.ofNat 8 n]

/-- A string with its length in two or four bytes. -/
def str16 (s : List Byte) : List Byte := u16 s.length ++ s
def str32 (s : List Byte) : List Byte := u32 s.length ++ s

/-- A certificate in a file: the name of its type and its encoding. -/
structure JksCert where
  type : List Byte
  der : List Byte

def JksCert.bytes (c : JksCert) : List Byte := str16 c.type ++ str32 c.der

/-- An entry: its name, its time, and a protected key (encoded `X509_SIG`) with its certificates, or a trusted certificate. -/
inductive JksEntry where
  | key (name time prot : List Byte) (chain : List JksCert)
  | cert (name time : List Byte) (c : JksCert)

def JksEntry.bytes : JksEntry → List Byte
  | .key name time prot chain => u32 1 ++ str16 name ++ time ++ str32 prot ++ u32 chain.length ++ chain.flatMap JksCert.bytes
  | .cert name time c => u32 2 ++ str16 name ++ time ++ c.bytes

/-- The lengths fit. -/
def JksCert.Fits (c : JksCert) : Prop := c.type.length < 2 ^ 16 ∧ c.der.length < 2 ^ 32
def JksEntry.Fits : JksEntry → Prop
  | .key name time prot chain => name.length < 2 ^ 16 ∧ time.length = 8 ∧ prot.length < 2 ^ 32 ∧ chain.length < 2 ^ 32 ∧ ∀ c ∈ chain, c.Fits
  | .cert name time c => name.length < 2 ^ 16 ∧ time.length = 8 ∧ c.Fits

/-- The two magic numbers: JKS and JCEKS. -/
inductive JksKind where
  | jks
  | jceks

def JksKind.magic : JksKind → List Byte
  | .jks => [0xFE, 0xED, 0xFE, 0xED]
  | .jceks => [0xCE, 0xCE, 0xCE, 0xCE]

/-- A file without its digest, version 2. -/
def jksBody (kind : JksKind) (entries : List JksEntry) : List Byte :=
  kind.magic ++ u32 2 ++ u32 entries.length ++ entries.flatMap JksEntry.bytes

/-- The text that is hashed into the digest, and the digest. -/
def aphrodite : List Byte := "Mighty Aphrodite".toUTF8.data.toList.map UInt8.toBitVec
def jksDigest (sha1 : List Byte → List Byte) (pass : List Char) (body : List Byte) : List Byte := sha1 (utf16 pass ++ aphrodite ++ body)

/-- A file as it is written with a password. -/
def jksFile (sha1 : List Byte → List Byte) (kind : JksKind) (pass : List Char) (entries : List JksEntry) : List Byte :=
  jksBody kind entries ++ jksDigest sha1 pass (jksBody kind entries)

/-- The key stream of the key protector: each block is the hash of the password and the block before, the first comes after the
salt. -/
def blockAfter (sha1 : List Byte → List Byte) (pass16 salt : List Byte) : Nat → List Byte
  | 0 => salt
  | n + 1 => sha1 (pass16 ++ blockAfter sha1 pass16 salt n)

/-- Byte `i` of the key stream. -/
def streamByte (sha1 : List Byte → List Byte) (pass16 salt : List Byte) (i : Nat) : Byte :=
  (blockAfter sha1 pass16 salt (i / 20 + 1)).getD (i % 20) 0

/-- A key as the key protector writes it: salt, encrypted key, hash of password and key. -/
def protect (sha1 : List Byte → List Byte) (pass16 salt key : List Byte) : List Byte :=
  salt ++ key.mapIdx (fun i b => b ^^^ streamByte sha1 pass16 salt i) ++ sha1 (pass16 ++ key)

/-- `d` is a key protected with a password. -/
def Protected (sha1 : List Byte → List Byte) (pass16 d key : List Byte) : Prop :=
  ∃ salt, salt.length = 20 ∧ d = protect sha1 pass16 salt key

variable {κ χ : Type}

/-- An entry holds these keys and certificates for a key password. -/
def JksEntry.Gives (lib : JksLib κ χ) (keyPass : List Char) (e : JksEntry) (ks : List κ) (cs : List χ) : Prop :=
  match e with
  | .key _ _ prot chain => ∃ d key k1 k2, lib.d2i_X509_SIG prot = some (oidKeyProtector, d) ∧ Protected lib.sha1 (utf16 keyPass) d key ∧
      lib.keys key = some (some (k1, k2)) ∧ ks = k1 :: k2.toList ∧ chain.map (fun c => lib.d2i_X509 c.der) = cs.map some
  | .cert _ _ c => ks = [] ∧ ∃ x, lib.d2i_X509 c.der = some x ∧ cs = [x]

/-- All entries together, in order. -/
inductive AllGive (lib : JksLib κ χ) (keyPass : List Char) : List JksEntry → List κ → List χ → Prop where
  | nil : AllGive lib keyPass [] [] []
  | cons {e es ks cs ks' cs'} : e.Gives lib keyPass ks cs → AllGive lib keyPass es ks' cs' → AllGive lib keyPass (e :: es) (ks ++ ks') (cs ++ cs')

/-- The algorithm of the entry's key, if it can be read, is one of the two that are known. -/
def KnownAlg (lib : JksLib κ χ) (e : JksEntry) : Prop :=
  match e with
  | .key _ _ prot _ => ∀ oid d, lib.d2i_X509_SIG prot = some (oid, d) → oid = oidKeyProtector ∨ oid = oidPbes1
  | .cert _ _ _ => True

/-- A private key entry. -/
def JksEntry.IsKey : JksEntry → Prop
  | .key _ _ _ _ => True
  | .cert _ _ _ => False

end Dstu.Spec
