import Verif.Spec.KeyDer
import Verif.Spec.KeyUtils
import Verif.Spec.Jks
import Verif.Model.KeyDer

/-! The structure around an encrypted private key:

    EncryptedPrivateKeyInfo ::= SEQUENCE { encryptionAlgorithm AlgorithmIdentifier, encryptedData OCTET STRING }

`ok` tells which contents a value of a type not used here may have. -/

namespace Dstu.Spec

/-- An encrypted private key: the algorithm, with parameters or without, and the encrypted bytes. -/
def BerEncryptedKey (ok : Nat → List (BitVec 8) → Bool) (oid data e : List (BitVec 8)) : Prop :=
  ∃ eo ep ea ed, BerObject oid eo ∧ (ep = [] ∨ ∃ v, BerValue ok v ep) ∧ BerSequence [eo, ep] ea ∧ BerOctets data ed ∧ BerSequence [ea, ed] e

/-- A file with a private key, and anything after it: what C100 tells about the key, and the attributes. -/
def PrivateFile (env : Env) (ok : Nat → List Byte → Bool) (l : List Byte) (pk : EvpPkey) (as : List Attr) : Prop :=
  ∃ t a p ep kb e rest key g Q, BerPrivateKeyInfo ok (keyOid t) ep kb a e ∧ l = e ++ rest ∧ as = a.getD [] ∧
    BerParams p ep ∧ kb ≠ [] ∧ key_from_asn1 env.sq env.nids env.objs p (t = .le) = some key ∧ key.group = some g ∧ add_public_key env g (leValue kb) = some Q ∧
    pk = ⟨t, some ⟨some g, key.sbox, some (leValue kb), some Q⟩⟩

/-- Among the attributes there is one for keys, and the first curve in the last attribute for curves has a negative exponent. -/
def NegativeCurveIn (as : List Attr) : Prop :=
  ∃ curveAttr keyAttr pre der post spec, LastAttr oidCurveAttr (as.map some) curveAttr ∧ LastAttr oidKeyAttr (as.map some) keyAttr ∧
    curveAttr.values = pre ++ .seq der :: post ∧ (∃ dke dke1 e, BerCurveAttr spec dke dke1 e ∧ e <+: der) ∧
    (∀ x, .seq x ∈ pre → ∀ s' dke dke1 e, BerCurveAttr s' dke dke1 e → ¬ e <+: x) ∧ NegativeField spec

/-- Among the attributes there is a second key: the last attribute for keys has a bit or octet string, the number with its first bit as the lowest one, the last attribute for
curves has a curve, the first in it, and there is a public key for the number. -/
def SecondKeyIn (env : Env) (as : List Attr) (k : EvpPkey) : Prop :=
  ∃ curveAttr keyAttr s pre der post spec g d Q, LastAttr oidCurveAttr (as.map some) curveAttr ∧ LastAttr oidKeyAttr (as.map some) keyAttr ∧
    FirstString keyAttr.values s ∧ (∀ i, Nat.testBit d i = bitAt s i) ∧
    curveAttr.values = pre ++ .seq der :: post ∧ (∃ dke dke1 e, BerCurveAttr spec dke dke1 e ∧ e <+: der) ∧
    (∀ x, .seq x ∈ pre → ∀ s' dke dke1 e, BerCurveAttr s' dke dke1 e → ¬ e <+: x) ∧
    makeECGROUPFromSpec env.sq spec = some (some g) ∧ add_public_key env g d = some Q ∧ k = ⟨.le, some ⟨some g, none, some d, some Q⟩⟩

/-- The keys of a file: the private key, and the second one if there is one; the curve of the second key has no negative exponent. -/
def FileKeys (env : Env) (ok : Nat → List Byte → Bool) (l : List Byte) (keys : List EvpPkey) : Prop :=
  ∃ pk as, PrivateFile env ok l pk as ∧ ¬ NegativeCurveIn as ∧ ((∃ k2, SecondKeyIn env as k2 ∧ keys = [pk, k2]) ∨ ((¬ ∃ k2, SecondKeyIn env as k2) ∧ keys = [pk]))

/-- An entry of a Java key store with a file of private keys that is protected by a password, and certificates: their contents. -/
def KeyEntry {χ : Type} (env : Env) (ok : Nat → List Byte → Bool) (sha1 : List Byte → List Byte) (d2i_X509 : List Byte → Option χ) (keyPass : List Char)
    (entry : JksEntry) (held : List EvpPkey × List χ) : Prop :=
  ∃ name time chain d l f rest, BerEncryptedKey ok oidKeyProtector d f ∧ entry = .key name time (f ++ rest) chain ∧ Protected sha1 (utf16 keyPass) d l ∧
    FileKeys env ok l held.1 ∧ chain.map (fun c => d2i_X509 c.der) = held.2.map some

end Dstu.Spec
