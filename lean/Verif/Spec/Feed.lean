import Verif.Model.Cipher

/-! How a user drives the cipher: a sequence of updates. -/

namespace Dstu.Spec

open Dstu

/-- Give the chunks to the context one after the other, require every call to report as many bytes
as it was given, and collect the output.  `none`: some call failed or had undefined behaviour. -/
def feed (ctx : CipherCtx) : List (List Byte) → Option (List Byte × CipherCtx)
  | [] => some ([], ctx)
  | c :: cs =>
    match dstu_cipher_do_cipher ctx (.buf c) with
    | none => none
    | some r =>
      if r.ret = c.length ∧ r.out.length = c.length then
        match feed r.ctx cs with
        | none => none
        | some (o, ctx') => some (r.out ++ o, ctx')
      else none

/-- A chunking of a message: non-empty pieces that together are the message. -/
def Cuts (chunks : List (List Byte)) (m : List Byte) : Prop :=
  (∀ c ∈ chunks, c ≠ []) ∧ chunks.flatten = m

/-- Content octets preceded by their DER length. -/
def derLength (n : Nat) : List Byte :=
  if n < 128 then [BitVec.ofNat 8 n]
  else if n < 256 then [0x81, BitVec.ofNat 8 n]
  else [0x82, BitVec.ofNat 8 (n / 256), BitVec.ofNat 8 n]

/-- DER tag-length-value with a one-byte tag (contents shorter than 65536 bytes). -/
def der (tag : Byte) (body : List Byte) : List Byte := tag :: derLength body.length ++ body

/-- The DER encoding of the cipher parameters: a SEQUENCE of the 8-byte IV and the 64-byte S-box. -/
def cipherParams (iv sbox : List Byte) : List Byte := der 0x30 (der 4 iv ++ der 4 sbox)

end Dstu.Spec
