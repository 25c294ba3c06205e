import Verif.Model.Cipher
import Verif.Model.Md
import Verif.Model.Rbg

/-! The steps of the cipher, the digest and the random generator that a processor shows through its caches and its timing: the outcomes of the conditions and the entries of the
tables that are read.  Each function is the one of the same name in `Verif.Model.Gost89`, `Verif.Model.Cipher`, `Verif.Model.Hash` and `Verif.Model.Rbg`, with its steps
written down; that the results are the same is proved in `Verif.Lemmas.Steps`.  Simplification: loops with a constant number of iterations show no conditions, and of the memory
that is read only the tables `k87`, `k65`, `k43` and `k21` are shown, since every other address in these functions is a constant or counts iterations. -/

namespace Dstu

/-- The tables of `gost_ctx`  /repo/dstulib/gost/gost89.h:34-39. -/
inductive Table where
  | k87 | k65 | k43 | k21
  deriving DecidableEq

/-- A condition with its outcome, or an entry of a table that is read. -/
inductive CpuStep where
  | test (b : Bool)
  | look (t : Table) (i : Byte)
  deriving DecidableEq

/-- A computation with its steps; `none` is undefined behaviour. -/
def Tr (α : Type) : Type := Option (α × List CpuStep)

namespace Tr

def pure {α : Type} (a : α) : Tr α := some (a, [])

def bind {α β : Type} (x : Tr α) (f : α → Tr β) : Tr β :=
  match x with
  | none => none
  | some (a, t) =>
    match f a with
    | none => none
    | some (b, u) => some (b, t ++ u)

instance : Monad Tr where
  pure := pure
  bind := bind

/-- Undefined behaviour. -/
def undefined {α : Type} : Tr α := none

/-- A condition. -/
def test (b : Bool) : Tr Unit := some ((), [.test b])

/-- Steps. -/
def steps {α : Type} (x : α × List CpuStep) : Tr α := some x

/-- Something without steps. -/
def lift {α : Type} (x : Option α) : Tr α :=
  match x with
  | none => none
  | some a => some (a, [])

end Tr

open Tr

/-- `f`  /repo/dstulib/gost/gost89.c:269-275: the entries that are read. -/
def fLooks (x : W32) : List CpuStep :=
  [.look .k87 ((x >>> 24).setWidth 8), .look .k65 ((x >>> 16).setWidth 8), .look .k43 ((x >>> 8).setWidth 8), .look .k21 (x.setWidth 8)]

/-- Two lines as in `lines2`, /repo/dstulib/gost/gost89.c:285-286. -/
def lines2_steps (c : GostCtx) (s : W32 × W32) (ij : Fin 8 × Fin 8) : (W32 × W32) × List CpuStep :=
  let n1 := s.1
  let x := n1 + c.key[ij.1] + c.mask[ij.1]
  let n2 := s.2 ^^^ f c x
  let y := n2 + c.key[ij.2] + c.mask[ij.2]
  let n1 := n1 ^^^ f c y
  ((n1, n2), fLooks x ++ fLooks y)

/-- The lines of /repo/dstulib/gost/gost89.c:285-319 or 338-372. -/
def rounds_steps (c : GostCtx) : List (Fin 8 × Fin 8) → W32 × W32 → (W32 × W32) × List CpuStep
  | [], s => (s, [])
  | ij :: o, s =>
    let r := lines2_steps c s ij
    let r' := rounds_steps c o r.1
    (r'.1, r.2 ++ r'.2)

/-- `gostcrypt`  /repo/dstulib/gost/gost89.c:278-329. -/
def gostcrypt_steps (c : GostCtx) (inp : Bytes 8) : Bytes 8 × List CpuStep :=
  let r := rounds_steps c encOrder (loadBlock inp)
  (storeBlock r.1.2 r.1.1, r.2)

/-- `gostdecrypt`  /repo/dstulib/gost/gost89.c:332-382. -/
def gostdecrypt_steps (c : GostCtx) (inp : Bytes 8) : Bytes 8 × List CpuStep :=
  let r := rounds_steps c decOrder (loadBlock inp)
  (storeBlock r.1.2 r.1.1, r.2)

/-- `gost_enc_with_key`  /repo/dstulib/gost/gost89.c:444-449. -/
def gost_enc_with_key_steps (c : GostCtx) (key : Bytes 32) (inblock : Bytes 8) : (GostCtx × Bytes 8) × List CpuStep :=
  let c := gost_key_nomask c key
  let r := gostcrypt_steps c inblock
  ((c, r.1), r.2)

/-- `gost_enc_cfb`  /repo/dstulib/gost/gost89.c:408-423. -/
def gost_enc_cfb_steps (c : GostCtx) (iv : Bytes 8) (clear : List Byte) : (blocks : Nat) → Tr (List Byte)
  | 0 => do
    test false
    return []
  | n + 1 => do
    test true
    if h : 0 + 8 ≤ clear.length then
      let gamma ← steps (gostcrypt_steps c iv)
      let cur := xorV (sub clear 0 8 h) gamma
      let r ← gost_enc_cfb_steps c cur (clear.drop 8) n
      return cur.toList ++ r
    else undefined

/-- `gost_dec_cfb`  /repo/dstulib/gost/gost89.c:426-441. -/
def gost_dec_cfb_steps (c : GostCtx) (iv : Bytes 8) (cipher : List Byte) : (blocks : Nat) → Tr (List Byte)
  | 0 => do
    test false
    return []
  | n + 1 => do
    test true
    if h : 0 + 8 ≤ cipher.length then
      let gamma ← steps (gostcrypt_steps c iv)
      let cur := sub cipher 0 8 h
      let r ← gost_dec_cfb_steps c cur (cipher.drop 8) n
      return (xorV cur gamma).toList ++ r
    else undefined

/-- `dstu_cipher_init`  /repo/engine/cipher.c:26-48. -/
def dstu_cipher_init_steps (ctx : CipherCtx) (rnd : Vector W32 8) (key : Option (Bytes 32)) (iv : Option (Bytes 8)) : Tr CipherCtx := do
  let g := gost_init ctx.g (some (unpack_sbox default_sbox))
  test key.isSome
  let g := match key with
    | some k => gost_key g rnd k
    | none => g
  test iv.isSome
  match iv with
  | some v => do
    let buf ← steps (gostcrypt_steps g v)
    return { ctx with g := g, oiv := v, iv := v, buf := buf, num := 0 }
  | none => return { ctx with g := g }

/-- The byte loops /repo/engine/cipher.c:70-84 and 123-137. -/
def xorLoop_steps (enc : Bool) (buf : Bytes 8) (iv : Bytes 8) (k : Nat) : List Byte → Tr (Bytes 8 × List Byte)
  | [] => do
    test false
    return (iv, [])
  | b :: rest => do
    test true
    test enc
    if h : k < 8 then
      let o := b ^^^ buf[k]
      let iv := iv.set k (if enc then o else b)
      let r ← xorLoop_steps enc buf iv (k + 1) rest
      return (r.1, o :: r.2)
    else undefined

/-- Lines 66-92 of /repo/engine/cipher.c. -/
def dcHead_steps (ctx : CipherCtx) (l : List Byte) : Tr (CipherCtx × List Byte × List Byte) := do
  test (ctx.num ≠ 0)
  if ctx.num ≠ 0 then
    if ctx.num ≤ 8 then
      test (ctx.num < l.length)
      let toUse := if ctx.num < l.length then ctx.num else l.length
      let r ← xorLoop_steps ctx.encrypting ctx.buf ctx.iv (8 - ctx.num) (l.take toUse)
      let num := ctx.num - toUse
      let ctx := { ctx with iv := r.1, num := num }
      test (num = 0)
      if num = 0 then
        let buf ← steps (gostcrypt_steps ctx.g ctx.iv)
        return ({ ctx with buf := buf }, r.2, l.drop toUse)
      else return (ctx, r.2, l.drop toUse)
    else undefined
  else return (ctx, [], l)

/-- Lines 98-118 of /repo/engine/cipher.c. -/
def dcWhole_steps (ctx : CipherCtx) (l : List Byte) (blocks : Nat) : Tr (CipherCtx × List Byte × List Byte) := do
  test ctx.encrypting
  if ctx.encrypting then
    let out ← gost_enc_cfb_steps ctx.g ctx.iv l blocks
    if h : (blocks * 8 - 8) + 8 ≤ out.length then
      let iv := sub out (blocks * 8 - 8) 8 h
      let buf ← steps (gostcrypt_steps ctx.g iv)
      return ({ ctx with iv := iv, buf := buf }, out, l.drop (blocks * 8))
    else undefined
  else
    let tmpiv := ctx.iv
    if h : (blocks * 8 - 8) + 8 ≤ l.length then
      let iv := sub l (blocks * 8 - 8) 8 h
      let out ← gost_dec_cfb_steps ctx.g tmpiv l blocks
      let buf ← steps (gostcrypt_steps ctx.g iv)
      return ({ ctx with iv := iv, buf := buf }, out, l.drop (blocks * 8))
    else undefined

/-- Lines 94-119 of /repo/engine/cipher.c. -/
def dcBlocks_steps (ctx : CipherCtx) (l : List Byte) : Tr (CipherCtx × List Byte × List Byte) := do
  test (l ≠ [])
  if l ≠ [] then
    let blocks := l.length >>> 3
    test (blocks ≠ 0)
    if blocks ≠ 0 then dcWhole_steps ctx l blocks
    else return (ctx, [], l)
  else return (ctx, [], l)

/-- Lines 121-140 of /repo/engine/cipher.c. -/
def dcTail_steps (ctx : CipherCtx) (l : List Byte) : Tr (CipherCtx × List Byte) := do
  test (l ≠ [])
  if l ≠ [] then
    let r ← xorLoop_steps ctx.encrypting ctx.buf ctx.iv 0 l
    return ({ ctx with iv := r.1, num := 8 - l.length }, r.2)
  else return (ctx, [])

/-- `dstu_cipher_do_cipher`  /repo/engine/cipher.c:50-143, for a buffer. -/
def dstu_cipher_do_cipher_steps (ctx : CipherCtx) (l : List Byte) : Tr CipherRes := do
  test (l = [])
  if l = [] then
    test false
    test true
    return ⟨-1, [], ctx⟩
  else
    test false
    test false
    let r1 ← dcHead_steps ctx l
    let r2 ← dcBlocks_steps r1.1 r1.2.2
    let r3 ← dcTail_steps r2.1 r2.2.2
    let out := r1.2.1 ++ r2.2.1 ++ r3.2
    return ⟨out.length, out, r3.1⟩

/-- Successive calls of `dstu_cipher_do_cipher` for one context; the output of all of them. -/
def updates_steps (ctx : CipherCtx) : List (List Byte) → Tr (List Byte × CipherCtx)
  | [] => return ([], ctx)
  | c :: cs => do
    let r ← dstu_cipher_do_cipher_steps ctx c
    let r' ← updates_steps r.ctx cs
    return (r.out ++ r'.1, r'.2)

/-- A key and an initialisation vector, /repo/engine/cipher.c:26-48, and then all pieces of a message, /repo/engine/cipher.c:50-143. -/
def cipher_session_steps (ctx : CipherCtx) (rnd : Vector W32 8) (key : Bytes 32) (iv : Bytes 8) (pieces : List (List Byte)) : Tr (List Byte) := do
  let ctx ← dstu_cipher_init_steps ctx rnd (some key) (some iv)
  let r ← updates_steps ctx pieces
  return r.1

/-- `hash_step`  /repo/dstulib/gost/gosthash.c:89-147. -/
def hash_step_steps (c : GostCtx) (H M : Bytes 32) : (GostCtx × Bytes 32) × List CpuStep :=
  let W := xorV H M
  let Key := swap_bytes W
  let r0 := gost_enc_with_key_steps c Key (octets H 0)
  let U := circle_xor8 H
  let V := circle_xor8 M
  let V := circle_xor8 V
  let W := xorV U V
  let Key := swap_bytes W
  let r1 := gost_enc_with_key_steps r0.1.1 Key (octets H 1)
  let U := circle_xor8 U
  let U := complementU U
  let V := circle_xor8 V
  let V := circle_xor8 V
  let W := xorV U V
  let Key := swap_bytes W
  let r2 := gost_enc_with_key_steps r1.1.1 Key (octets H 2)
  let U := circle_xor8 U
  let V := circle_xor8 V
  let V := circle_xor8 V
  let W := xorV U V
  let Key := swap_bytes W
  let r3 := gost_enc_with_key_steps r2.1.1 Key (octets H 3)
  let S := join4 r0.1.2 r1.1.2 r2.1.2 r3.1.2
  let S := transformN 12 S
  let S := xorV S M
  let S := transform_3 S
  let S := xorV S H
  let S := transformN 61 S
  ((r3.1.1, S), r0.2 ++ (r1.2 ++ (r2.2 ++ r3.2)))

/-- /repo/dstulib/gost/gosthash.c:216-218 and 222-225. -/
def hashOne_steps (c : GostCtx) (h : HashCtx) (M : Bytes 32) : Tr (GostCtx × HashCtx) := do
  let r ← steps (hash_step_steps c h.H M)
  let len ← lift (addLen h.len 32)
  return (r.1, { h with H := r.2, S := add_blocks h.S M, len := len })

/-- The loop /repo/dstulib/gost/gosthash.c:221-228. -/
def hashLoop_steps (c : GostCtx) (h : HashCtx) (block : List Byte) : (n : Nat) → Tr (GostCtx × HashCtx × List Byte)
  | 0 => do
    test false
    return (c, h, block)
  | n + 1 => do
    test true
    if hl : 0 + 32 ≤ block.length then
      let r ← hashOne_steps c h (sub block 0 32 hl)
      hashLoop_steps r.1 r.2 (block.drop 32) n
    else undefined

/-- /repo/dstulib/gost/gosthash.c:221-232. -/
def hashRest_steps (c : GostCtx) (h : HashCtx) (block : List Byte) : Tr (GostCtx × HashCtx) := do
  let r ← hashLoop_steps c h block (block.length / 32)
  test (r.2.2.length ≠ 0)
  if r.2.2.length ≠ 0 then
    let rem ← lift (memcpyAt r.2.1.remainder 0 r.2.2)
    return (r.1, { r.2.1 with remainder := rem, left := r.2.2.length })
  else return (r.1, r.2.1)

/-- `hash_block`  /repo/dstulib/gost/gosthash.c:199-233. -/
def hash_block_steps (c : GostCtx) (h : HashCtx) (block : List Byte) : Tr (GostCtx × HashCtx) := do
  test (h.left ≠ 0)
  if h.left ≠ 0 then
    if h.left ≤ 32 then
      test (32 - h.left > block.length)
      let add := if 32 - h.left > block.length then block.length else 32 - h.left
      let rem ← lift (memcpyAt h.remainder h.left (block.take add))
      let h := { h with remainder := rem, left := h.left + add }
      test (h.left < 32)
      if h.left < 32 then return (c, h)
      else
        let r ← hashOne_steps c h h.remainder
        hashRest_steps r.1 { r.2 with left := 0 } (block.drop add)
    else undefined
  else hashRest_steps c h block

/-- /repo/dstulib/gost/gosthash.c:245-255. -/
def finishPartial_steps (c : GostCtx) (h : HashCtx) : Tr (GostCtx × Bytes 32 × Bytes 32 × Nat) := do
  test (h.left ≠ 0)
  if h.left ≠ 0 then
    if h.left ≤ 32 then
      let buf ← lift (memcpyAt (zeros 32) 0 (h.remainder.toList.take h.left))
      let r ← steps (hash_step_steps c h.H buf)
      let finLen ← lift (addLen h.len h.left)
      return (r.1, r.2, add_blocks h.S buf, finLen)
    else undefined
  else return (c, h.H, h.S, h.len)

/-- The loop /repo/dstulib/gost/gosthash.c:261-264. -/
def lenBytes_steps : (fuel : Nat) → Nat → List Byte × List CpuStep
  | 0, _ => ([], [])
  | f + 1, n =>
    if n = 0 then ([], [.test false])
    else
      let r := lenBytes_steps f (n >>> 8)
      (BitVec.ofNat 8 (n &&& 0xff) :: r.1, .test true :: r.2)

/-- `finish_hash`  /repo/dstulib/gost/gosthash.c:240-269. -/
def finish_hash_steps (c : GostCtx) (h : HashCtx) : Tr (GostCtx × Bytes 32) := do
  let p ← finishPartial_steps c h
  test (p.2.2.2 = 0)
  let q ← steps (if p.2.2.2 = 0 then hash_step_steps p.1 p.2.1 (zeros 32) else ((p.1, p.2.1), []))
  if p.2.2.2 * 8 < 2 ^ 63 then
    let lb ← steps (lenBytes_steps 64 (p.2.2.2 * 8))
    let buf ← lift (memcpyAt (zeros 32) 0 lb)
    let r ← steps (hash_step_steps q.1 q.2 buf)
    let r ← steps (hash_step_steps r.1 r.2 p.2.2.1)
    return r
  else undefined

/-- Successive calls of `hash_block`, /repo/engine/md.c:41-44, and `finish_hash`, /repo/engine/md.c:46-49. -/
def blocks_steps (c : GostCtx) (h : HashCtx) : List (List Byte) → Tr (Bytes 32)
  | [] => do
    let r ← finish_hash_steps c h
    return r.2
  | b :: bs => do
    let r ← hash_block_steps c h b
    blocks_steps r.1 r.2 bs

/-- A digest: `dstu_md_init`, /repo/engine/md.c:25-39, with the S-box given, `dstu_md_update` for each piece, and `dstu_md_final`.  What is unpacked from the S-box and the
initialisation of the tables show no steps: all their loops are constant. -/
def digest_steps (sbox : Bytes 64) (pieces : List (List Byte)) : Tr (Bytes 32) :=
  blocks_steps (gost_init MdData.zero.cctx (some (unpack_sbox sbox))) HashCtx.zero pieces

/-- `dstu_rbg_init`  /repo/engine/rbg.c:54-77, after the seed was obtained. -/
def rbg_init_steps (seed : Bytes 40) (curr : Bytes 8) (m : Rbg) : Rbg × List CpuStep :=
  let m := { m with cryptor := gost_init m.cryptor (some (unpack_sbox default_sbox)) }
  let m := { m with cryptor := gost_key_nomask m.cryptor (seedKey seed) }
  let m := { m with s := .ofBytes (seedTail seed) }
  let r := gostcrypt_steps m.cryptor curr
  ({ m with I := .ofBytes r.1, initialized := true }, r.2)

/-- `dstu_rbg_get_bit`  /repo/engine/rbg.c:80-93. -/
def rbg_get_bit_steps (m : Rbg) : (Byte × Rbg) × List CpuStep :=
  let x : U4x2 := (m.I.1 ^^^ m.s.1, m.I.2 ^^^ m.s.2)
  let r := gostcrypt_steps m.cryptor x.bytes
  let x := U4x2.ofBytes r.1
  let s : U4x2 := (x.1 ^^^ m.I.1, x.2 ^^^ m.I.2)
  let r' := gostcrypt_steps m.cryptor s.bytes
  (((x.1 &&& 1).setWidth 8, { m with s := U4x2.ofBytes r'.1 }), r.2 ++ r'.2)

/-- The bits of a request, /repo/engine/rbg.c:138-145: `n` bits. -/
def rbg_bits_steps : Nat → Rbg → (List Byte × Rbg) × List CpuStep
  | 0, m => (([], m), [])
  | n + 1, m =>
    let r := rbg_get_bit_steps m
    let r' := rbg_bits_steps n r.1.2
    ((r.1.1 :: r'.1.1, r'.1.2), r.2 ++ r'.2)

end Dstu
