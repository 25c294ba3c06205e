import Verif.Model.Md

/-! Model of HMAC and PBKDF2 with the digest of the engine.  The engine offers its digest for these: it registers
`hmacWithDstu34311` as a function for PBKDF2 (/repo/engine/dstu.c:206) and its cipher asks for it
(/repo/engine/cipher.c:166-170).  The functions of OpenSSL 1.1.1 (crypto/hmac/hmac.c, crypto/evp/digest.c,
crypto/evp/p5_crpt2.c) are modelled by the calls they make to the digest method, in their order; the calls are those of
`Model/Md`.  Allocations succeed.  `none` is undefined behaviour. -/

namespace Dstu

/-- `EVP_DigestInit_ex` without a key: data is allocated unless the context has some from this digest, then /repo/engine/md.c:25-39. -/
def evpDigestInit (h : MdHeap) (i : Nat) : Option MdHeap :=
  match h i with
  | none => dstu_md_init (h.put i (some MdData.zero)) i none
  | some _ => dstu_md_init h i none

/-- `EVP_DigestFinal_ex`: /repo/engine/md.c:46-49, then the data is cleaned, 63-69. -/
def evpDigestFinal (h : MdHeap) (i : Nat) : Option (MdHeap × Bytes 32) :=
  match dstu_md_final h i with
  | none => none
  | some (h, out) => some (dstu_md_cleanup h i, out)

/-- `EVP_MD_CTX_copy_ex`: the data of `to` is cleaned and used again, or allocated, then /repo/engine/md.c:51-61. -/
def evpDigestCopy (h : MdHeap) (to src : Nat) : MdHeap :=
  match h to with
  | none => dstu_md_copy (h.put to (some MdData.zero)) to src
  | some _ => dstu_md_copy (dstu_md_cleanup h to) to src

/-- `EVP_MD_CTX_reset`: the data is cleaned and released. -/
def evpDigestReset (h : MdHeap) (i : Nat) : MdHeap := (dstu_md_cleanup h i).put i none

/-- `HMAC_CTX`: the numbers of its three digest contexts. -/
structure HmacCtx where
  md : Nat
  i : Nat
  o : Nat

/-- `HMAC_MAX_MD_CBLOCK_SIZE`: the size of `keytmp` and `pad`. -/
def hmacBuf : Nat := 144

/-- The size of a block given by /repo/engine/md.c:95 `EVP_MD_meth_set_input_blocksize(res, 32)`. -/
def mdBlock : Nat := 32

/-- `pad[i] = x ^ keytmp[i]`, of which the first block is used. -/
def hmacPad (x : Byte) (keytmp : List Byte) : List Byte := (keytmp.map (x ^^^ ·)).take mdBlock

/-- In `HMAC_Init_ex`: a key that is longer than a block is hashed. -/
def hmacShortKey (h : MdHeap) (c : HmacCtx) (key : List Byte) : Option (MdHeap × List Byte) :=
  if mdBlock < key.length then do
    let h ← evpDigestInit h c.md
    let h ← dstu_md_update h c.md key
    let (h, out) ← evpDigestFinal h c.md
    return (h, out.toList)
  else some (h, key)

/-- `HMAC_Init_ex` with a key. -/
def hmacInit (h : MdHeap) (c : HmacCtx) (key : List Byte) : Option MdHeap := do
  let (h, key) ← hmacShortKey h c key
  let keytmp := key ++ List.replicate (hmacBuf - key.length) 0
  let h ← evpDigestInit h c.i
  let h ← dstu_md_update h c.i (hmacPad 0x36 keytmp)
  let h ← evpDigestInit h c.o
  let h ← dstu_md_update h c.o (hmacPad 0x5c keytmp)
  return evpDigestCopy h c.md c.i

/-- `HMAC_Init_ex` without a key: again with the key of before. -/
def hmacRestart (h : MdHeap) (c : HmacCtx) : MdHeap := evpDigestCopy h c.md c.i

/-- `HMAC_Update`, any number of times. -/
def hmacUpdates (h : MdHeap) (c : HmacCtx) : List (List Byte) → Option MdHeap
  | [] => some h
  | x :: xs => (dstu_md_update h c.md x).bind fun h => hmacUpdates h c xs

/-- `HMAC_Final`. -/
def hmacFinal (h : MdHeap) (c : HmacCtx) : Option (MdHeap × Bytes 32) := do
  let (h, buf) ← evpDigestFinal h c.md
  let h := evpDigestCopy h c.md c.o
  let h ← dstu_md_update h c.md buf.toList
  evpDigestFinal h c.md

/-- `HMAC_CTX_copy`. -/
def hmacCopy (h : MdHeap) (d s : HmacCtx) : MdHeap := evpDigestCopy (evpDigestCopy (evpDigestCopy h d.i s.i) d.o s.o) d.md s.md

/-- `HMAC_CTX_reset`. -/
def hmacReset (h : MdHeap) (c : HmacCtx) : MdHeap := evpDigestReset (evpDigestReset (evpDigestReset h c.i) c.o) c.md

/-- One application of the function in `PKCS5_PBKDF2_HMAC`: the prepared context `t` is copied to `w`, which is given the data, finished and reset. -/
def pbkdf2Prf (h : MdHeap) (t w : HmacCtx) (data : List (List Byte)) : Option (MdHeap × Bytes 32) := do
  let h ← hmacUpdates (hmacCopy h w t) w data
  let (h, out) ← hmacFinal h w
  return (hmacReset h w, out)

/-- `for (j = 1; j < iter; j++)`: `n` is the number of rounds left, `p` the bytes of the key being made, `digtmp` the last output. -/
def pbkdf2Rounds (t w : HmacCtx) : (n : Nat) → (h : MdHeap) → (digtmp : Bytes 32) → (p : List Byte) → Option (MdHeap × List Byte)
  | 0, h, _, p => some (h, p)
  | n + 1, h, digtmp, p => do
    let (h, digtmp) ← pbkdf2Prf h t w [digtmp.toList]
    pbkdf2Rounds t w n h digtmp (List.zipWith (· ^^^ ·) p digtmp.toList)

/-- `itmp`: the number of the block in four bytes, highest first. -/
def pbkdf2Count (i : Nat) : List Byte := [24, 16, 8, 0].map fun s => BitVec.ofNat 8 (i >>> s)

/-- `while (tkeylen)`: block `i` and the following ones. -/
def pbkdf2Loop (h : MdHeap) (t w : HmacCtx) (salt : List Byte) (iter tkeylen i : Nat) : Option (MdHeap × List Byte) :=
  if h0 : tkeylen = 0 then some (h, [])
  else do
    let cplen := if tkeylen > 32 then 32 else tkeylen
    let (h, digtmp) ← pbkdf2Prf h t w [salt, pbkdf2Count i]
    let (h, p) ← pbkdf2Rounds t w (iter - 1) h digtmp (digtmp.toList.take cplen)
    let (h, rest) ← pbkdf2Loop h t w salt iter (tkeylen - cplen) (i + 1)
    return (h, p ++ rest)
termination_by tkeylen
decreasing_by split <;> omega

/-- `PKCS5_PBKDF2_HMAC` with this digest, for `iter` at least 1 and new contexts `t` and `w`, which are reset at the end. -/
def pbkdf2 (h : MdHeap) (t w : HmacCtx) (pass salt : List Byte) (iter keylen : Nat) : Option (MdHeap × List Byte) := do
  let h ← hmacInit h t pass
  let (h, out) ← pbkdf2Loop h t w salt iter keylen 1
  return (hmacReset (hmacReset h w) t, out)

end Dstu
