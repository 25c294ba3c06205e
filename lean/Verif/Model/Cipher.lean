import Verif.Model.Sbox

/-!
# Model of /repo/engine/cipher.c

The `EVP_CIPHER_CTX` accessors (`iv`, `original_iv`, `buf`, `num`, `encrypting`, cipher data) are the
fields of `CipherCtx`.  `EVP_CIPHER_CTX_buf_noconst` is a 32-byte array of which the code uses the
first eight bytes.
-/

namespace Dstu

structure CipherCtx where
  /-- `EVP_CIPHER_CTX_get_cipher_data` -/
  g : GostCtx
  /-- `EVP_CIPHER_CTX_original_iv` -/
  oiv : Bytes 8
  /-- `EVP_CIPHER_CTX_iv` -/
  iv : Bytes 8
  /-- `EVP_CIPHER_CTX_buf_noconst`, first eight bytes -/
  buf : Bytes 8
  /-- `EVP_CIPHER_CTX_num` -/
  num : Nat
  /-- `EVP_CIPHER_CTX_encrypting` -/
  encrypting : Bool

/-- `dstu_cipher_init`  /repo/engine/cipher.c:26-48.  `key` and `iv` are `none` when the caller
passes a null pointer; `rnd` is the mask drawn by `gost_key`. -/
def dstu_cipher_init (ctx : CipherCtx) (rnd : Vector W32 8) (key : Option (Bytes 32))
    (iv : Option (Bytes 8)) : CipherCtx :=
  let g := gost_init ctx.g (some (unpack_sbox default_sbox))
  let g := match key with
    | some k => gost_key g rnd k
    | none => g
  match iv with
  | some v => { ctx with g := g, oiv := v, iv := v, buf := gostcrypt g v, num := 0 }
  | none => { ctx with g := g }

/-- The byte loops /repo/engine/cipher.c:70-84 and 123-137: position `k` of `buf` and `iv` is used
for the first byte, `k + 1` for the second and so on.  `none`: index outside the 8-byte array. -/
def xorLoop (enc : Bool) (buf : Bytes 8) (iv : Bytes 8) (k : Nat) :
    List Byte → Option (Bytes 8 × List Byte)
  | [] => some (iv, [])
  | b :: rest =>
    if h : k < 8 then
      let o := b ^^^ buf[k]
      let iv := iv.set k (if enc then o else b)
      (xorLoop enc buf iv (k + 1) rest).map fun r => (r.1, o :: r.2)
    else none

/-- The pair `(in, inl)` given to the cipher: a null pointer with a length, or a buffer of exactly
`inl` bytes. -/
inductive CipherIn where
  | null (inl : Nat)
  | buf (data : List Byte)

/-- Result of a call: return value, bytes written at `out`, new context. -/
structure CipherRes where
  ret : Int
  out : List Byte
  ctx : CipherCtx

/-- Lines 66-92 of /repo/engine/cipher.c: use up the rest of the current key stream block.
Returns the context, the output and the unprocessed input. -/
def dcHead (ctx : CipherCtx) (l : List Byte) : Option (CipherCtx × List Byte × List Byte) :=
  if ctx.num ≠ 0 then
    if ctx.num ≤ 8 then do
      let toUse := if ctx.num < l.length then ctx.num else l.length
      let (iv, out) ← xorLoop ctx.encrypting ctx.buf ctx.iv (8 - ctx.num) (l.take toUse)
      let num := ctx.num - toUse
      let ctx := { ctx with iv := iv, num := num }
      let ctx := if num = 0 then { ctx with buf := gostcrypt ctx.g ctx.iv } else ctx
      return (ctx, out, l.drop toUse)
    else none
  else some (ctx, [], l)

/-- Lines 94-119 of /repo/engine/cipher.c: whole blocks. -/
def dcBlocks (ctx : CipherCtx) (l : List Byte) : Option (CipherCtx × List Byte × List Byte) :=
  let blocks := l.length >>> 3
  if blocks ≠ 0 then
    if ctx.encrypting then do
      let out ← gost_enc_cfb ctx.g ctx.iv l blocks
      if h : (blocks * 8 - 8) + 8 ≤ out.length then
        let iv := sub out (blocks * 8 - 8) 8 h
        let ctx := { ctx with iv := iv, buf := gostcrypt ctx.g iv }
        return (ctx, out, l.drop (blocks * 8))
      else none
    else do
      let tmpiv := ctx.iv
      if h : (blocks * 8 - 8) + 8 ≤ l.length then
        let iv := sub l (blocks * 8 - 8) 8 h
        let out ← gost_dec_cfb ctx.g tmpiv l blocks
        let ctx := { ctx with iv := iv, buf := gostcrypt ctx.g iv }
        return (ctx, out, l.drop (blocks * 8))
      else none
  else some (ctx, [], l)

/-- Lines 121-140 of /repo/engine/cipher.c: the last, incomplete block. -/
def dcTail (ctx : CipherCtx) (l : List Byte) : Option (CipherCtx × List Byte) :=
  if l ≠ [] then do
    let (iv, out) ← xorLoop ctx.encrypting ctx.buf ctx.iv 0 l
    return ({ ctx with iv := iv, num := 8 - l.length }, out)
  else some (ctx, [])

/-- `dstu_cipher_do_cipher`  /repo/engine/cipher.c:50-143, on disjoint input and output buffers
(see `Model/CipherMem.lean` for the memory version).  `none` is undefined behaviour.  Simplification:
the conversions of `blocks` and of the return value to `int` are not modelled; `EVP_CipherUpdate`
passes a length below 2^31, for which they are exact. -/
def dstu_cipher_do_cipher (ctx : CipherCtx) : CipherIn → Option CipherRes
  | .null 0 => some ⟨0, [], ctx⟩
  | .null (_ + 1) => some ⟨-1, [], ctx⟩
  | .buf [] => some ⟨-1, [], ctx⟩
  | .buf l => do
    let (ctx, out1, l) ← dcHead ctx l
    let (ctx, out2, l) ← dcBlocks ctx l
    let (ctx, out3) ← dcTail ctx l
    let out := out1 ++ out2 ++ out3
    return ⟨out.length, out, ctx⟩

/-- The commands of `dstu_cipher_ctrl`: `DSTU_SET_CUSTOM_SBOX` with `p1` and `p2`,
`EVP_CTRL_PBE_PRF_NID` with `p2` null or not, and any other command. -/
inductive CipherCmd where
  | setSbox (p1 : Int) (p2 : Option (List Byte))
  | prfNid (p2NonNull : Bool)
  | other (cmd : Int)

/-- `dstu_cipher_ctrl`  /repo/engine/cipher.c:151-174.  `none` is undefined behaviour: `p2` points
to fewer than 64 bytes although `p1` is 64. -/
def dstu_cipher_ctrl (ctx : CipherCtx) : CipherCmd → Option (Int × CipherCtx)
  | .setSbox _ none => some (0, ctx)
  | .setSbox p1 (some p2) =>
    if p1 ≠ 64 then some (0, ctx)
    else if h : 0 + 64 ≤ p2.length then
      let g := gost_init ctx.g (some (unpack_sbox (sub p2 0 64 h)))
      some (1, { ctx with g := g, iv := ctx.oiv, buf := gostcrypt g ctx.oiv })
    else none
  | .prfNid p2NonNull => some (if p2NonNull then 1 else 0, ctx)
  | .other _ => some (0, ctx)

/-- `dstu_cipher_set_asn1_parameters`  /repo/engine/cipher.c:176-207: the DER bytes put into the
`ASN1_TYPE` (`V_ASN1_SEQUENCE | V_ASN1_CONSTRUCTED` is `0x30`, `V_ASN1_OCTET_STRING` is 4).
Allocation failure in `ASN1_TYPE_set1` is not modelled. -/
def dstu_cipher_set_asn1_parameters (ctx : CipherCtx) : List Byte :=
  [0x30, 2 + 8 + 2 + 64, 4, 8] ++ ctx.oiv.toList ++ [4, 64] ++
    (pack_sbox (dstu_get_sbox ctx.g)).toList

/-- An `ASN1_TYPE`: the type tag and, for a sequence, its DER bytes. -/
structure Asn1Type where
  type : Int
  data : List Byte

/-- `dstu_cipher_get_asn1_parameters`  /repo/engine/cipher.c:209-229 (`V_ASN1_SEQUENCE` is 16).
`none` is undefined behaviour. -/
def dstu_cipher_get_asn1_parameters (ctx : CipherCtx) (t : Asn1Type) : Option (Int × CipherCtx) :=
  if t.type ≠ 16 then some (-1, ctx)
  else if h : t.data.length ≠ 78 then some (-1, ctx)
  else
    have h : t.data.length = 78 := by simpa using h
    if t.data[2] ≠ 4 || t.data[3] ≠ 8 then some (-1, ctx)
    else if t.data[12] ≠ 4 || t.data[13] ≠ 64 then some (-1, ctx)
    else
      let ctx := { ctx with oiv := sub t.data 4 8 (by omega) }
      match dstu_cipher_ctrl ctx (.setSbox 64 (some (t.data.drop 14))) with
      | none => none
      | some (r, ctx) => if r ≠ 0 then some (1, ctx) else some (-1, ctx)

end Dstu
