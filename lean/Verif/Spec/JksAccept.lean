import Verif.Spec.Jks

/-! Java key stores as they are accepted.  Files with key entries only are as in `Spec.Jks`; a trusted certificate is accepted without
the name and the time that the format puts before it. -/

namespace Dstu.Spec

/-- An entry as it is accepted. -/
inductive TakenEntry where
  | key (name time prot : List Byte) (chain : List JksCert)
  | bare (c : JksCert)

def TakenEntry.bytes : TakenEntry → List Byte
  | .key name time prot chain => (JksEntry.key name time prot chain).bytes
  | .bare c => u32 2 ++ c.bytes

def TakenEntry.Fits : TakenEntry → Prop
  | .key name time prot chain => (JksEntry.key name time prot chain).Fits
  | .bare c => c.Fits

/-- A file without its digest, as it is accepted. -/
def takenBody (kind : JksKind) (entries : List TakenEntry) : List Byte :=
  kind.magic ++ u32 2 ++ u32 entries.length ++ entries.flatMap TakenEntry.bytes

variable {κ χ : Type}

/-- What an accepted entry adds to the store: a key entry with the key protector the keys and certificates it holds, a key entry with
an unknown algorithm its certificates only. -/
def TakenEntry.Adds (lib : JksLib κ χ) (keyPass : List Char) (e : TakenEntry) (ks : List κ) (cs : List χ) : Prop :=
  match e with
  | .key name time prot chain => (JksEntry.key name time prot chain).Gives lib keyPass ks cs ∨
      (∃ oid d, lib.d2i_X509_SIG prot = some (oid, d) ∧ oid ≠ oidKeyProtector ∧ oid ≠ oidPbes1) ∧ ks = [] ∧
        chain.map (fun c => lib.d2i_X509 c.der) = cs.map some
  | .bare c => ks = [] ∧ ∃ x, lib.d2i_X509 c.der = some x ∧ cs = [x]

/-- A private key entry. -/
def TakenEntry.IsKey : TakenEntry → Prop
  | .key _ _ _ _ => True
  | .bare _ => False

def TakenEntry.isKey : TakenEntry → Bool
  | .key _ _ _ _ => true
  | .bare _ => false

/-- All entries together, in order. -/
inductive AllAdd (lib : JksLib κ χ) (keyPass : List Char) : List TakenEntry → List κ → List χ → Prop where
  | nil : AllAdd lib keyPass [] [] []
  | cons {e es ks cs ks' cs'} : e.Adds lib keyPass ks cs → AllAdd lib keyPass es ks' cs' → AllAdd lib keyPass (e :: es) (ks ++ ks') (cs ++ cs')

end Dstu.Spec
