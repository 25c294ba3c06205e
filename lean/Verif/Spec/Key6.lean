import Verif.Spec.Oid
import Verif.Model.Key6
import Verif.Spec.Hash
import Verif.Spec.Dke1
import Verif.Spec.Pkcs12

/-! Key-6 containers and byte streams, described without the code. -/

namespace Dstu.Spec

/-- The `n`-fold hash of a message. -/
def hashTimes (T : Fin 8 → BitVec 4 → BitVec 4) : Nat → List Byte → List Byte
  | 0, m => m
  | n + 1, m => hashTimes T n (gost34311 T m).toList

/-- The blocks encrypted one by one. -/
def ecb (S : Fin 8 → BitVec 4 → BitVec 4) (key : Bytes 32) (blocks : List (Bytes 8)) : List Byte := blocks.flatMap fun b => (encrypt S key b).toList

/-- `key` is the key for a password: the 10000-fold hash. -/
def Key6Key (S : Fin 8 → BitVec 4 → BitVec 4) (password : List Byte) (key : Bytes 32) : Prop := key.toList = hashTimes S 10000 password

/-- `st` is a Key-6 container with this message, encrypted with the password, and this MAC.  The end of the ciphertext can be kept in `pad`. -/
def Key6Container (password : List Byte) (blocks : List (Bytes 8)) (mac : List Byte) (st : IITStore) : Prop :=
  ∃ key data pad, Key6Key dke1 password key ∧ st = ⟨some ⟨some oidIitStore, some ⟨mac, pad⟩⟩, some data⟩ ∧
    data ++ pad.getD [] = ecb dke1 key blocks

/-- `BIO_read_ex` with a buffer of 1024 bytes: a successful call gives 1 to 1024 bytes. -/
def Reads (chunks : List (List Byte)) : Prop := ∀ c ∈ chunks, c ≠ [] ∧ c.length ≤ 1024

end Dstu.Spec
