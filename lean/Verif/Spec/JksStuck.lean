import Verif.Spec.JksAccept

/-! Java key stores that end too early, or that hold a key the reader cannot handle. -/

namespace Dstu.Spec

variable {κ χ : Type}

/-- `x` is the beginning of `y`, and something is missing. -/
def CutShort (x y : List Byte) : Prop := x <+: y ∧ x.length < y.length

/-- The beginning of a certificate. -/
def CutCert (x : List Byte) : Prop := ∃ c : JksCert, c.Fits ∧ CutShort x c.bytes

/-- A key entry up to its certificates: name, time, protected key, number of certificates. -/
structure KeyHead where
  name : List Byte
  time : List Byte
  prot : List Byte
  num : Nat

def KeyHead.bytes (k : KeyHead) : List Byte := str16 k.name ++ k.time ++ str32 k.prot ++ u32 k.num
def KeyHead.Fits (k : KeyHead) : Prop := k.name.length < 2 ^ 16 ∧ k.time.length = 8 ∧ k.prot.length < 2 ^ 32 ∧ k.num < 2 ^ 32

/-- A protected key that is passed: it can be decrypted with the password and decoded, or its algorithm is unknown. -/
def PassedKey (lib : JksLib κ χ) (keyPass prot : List Byte) : Prop :=
  ∃ kp : List Char, kp ≠ [] ∧ keyPass = utf8 kp ∧
    ((∃ d key k, lib.d2i_X509_SIG prot = some (oidKeyProtector, d) ∧ Protected lib.sha1 (utf16 kp) d key ∧ lib.keys key = some (some k)) ∨
      ∃ oid d, lib.d2i_X509_SIG prot = some (oid, d) ∧ oid ≠ oidKeyProtector ∧ oid ≠ oidPbes1)

/-- A protected key that breaks the reader: too short to hold salt and check, or a key that can be decrypted but not decoded. -/
def BadKey (lib : JksLib κ χ) (keyPass prot : List Byte) : Prop :=
  ∃ (kp : List Char) (d : List Byte), kp ≠ [] ∧ keyPass = utf8 kp ∧ lib.d2i_X509_SIG prot = some (oidKeyProtector, d) ∧
    (d.length < 40 ∨ ∃ key, Protected lib.sha1 (utf16 kp) d key ∧ ∀ k, lib.keys key ≠ some (some k))

/-- What remains of a file begins with an entry that cannot be read to its end. -/
inductive Stuck (lib : JksLib κ χ) (keyPass : List Byte) : List Byte → Prop where
  | tag {x} : x.length < 4 → Stuck lib keyPass x
  | cert {x} : CutCert x → Stuck lib keyPass (u32 2 ++ x)
  | head {x} (k : KeyHead) : k.Fits → CutShort x k.bytes → Stuck lib keyPass (u32 1 ++ x)
  | bad {x} (k : KeyHead) : k.Fits → BadKey lib keyPass k.prot → Stuck lib keyPass (u32 1 ++ k.bytes ++ x)
  | chain {x} (k : KeyHead) (chain : List JksCert) : k.Fits → PassedKey lib keyPass k.prot → chain.length < k.num →
      (∀ c ∈ chain, c.Fits ∧ ∃ y, lib.d2i_X509 c.der = some y) → CutCert x →
      Stuck lib keyPass (u32 1 ++ k.bytes ++ chain.flatMap JksCert.bytes ++ x)

/-- The entries are laid out as they are accepted, and can be read with the key password. -/
def ReadableEntries (lib : JksLib κ χ) (keyPass : List Byte) (es : List TakenEntry) (keys : List κ) (certs : List χ) : Prop :=
  (∀ e ∈ es, e.Fits) ∧ ∃ kp : List Char, kp ≠ [] ∧ ((∃ e ∈ es, TakenEntry.IsKey e) → keyPass = utf8 kp) ∧ AllAdd lib kp es keys certs

/-- The beginning of a file that announces `n` entries. -/
def jksHead (kind : JksKind) (n : Nat) : List Byte := kind.magic ++ u32 2 ++ u32 n

end Dstu.Spec
