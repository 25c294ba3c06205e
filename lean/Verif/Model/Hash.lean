import Verif.Model.Basic
import Verif.Model.Gost89

/-!
# Model of /repo/dstulib/gost/gosthash.c

The cipher context, which the hash context refers to by pointer, is passed separately; the pointer
is modelled in `Model/Md.lean`.
-/

namespace Dstu

/-- `swap_bytes`  /repo/dstulib/gost/gosthash.c:32-39: `k[i + 4 * j] = w[8 * i + j]` -/
def swap_bytes (w : Bytes 32) : Bytes 32 :=
  Vector.ofFn fun n : Fin 32 => w[8 * (n.val % 4) + n.val / 4]

/-- `circle_xor8`  /repo/dstulib/gost/gosthash.c:42-50.  The result is the same when `k` is `w`. -/
def circle_xor8 (w : Bytes 32) : Bytes 32 :=
  Vector.ofFn fun i : Fin 32 => if h : i.val < 24 then w[i.val + 8] else w[i.val - 24] ^^^ w[i.val - 24 + 8]

/-- `transform_3`  /repo/dstulib/gost/gosthash.c:53-61 -/
def transform_3 (d : Bytes 32) : Bytes 32 :=
  Vector.ofFn fun i : Fin 32 =>
    if h : i.val < 30 then d[i.val + 2]
    else if i.val = 30 then d[0] ^^^ d[2] ^^^ d[4] ^^^ d[6] ^^^ d[24] ^^^ d[30]
    else d[1] ^^^ d[3] ^^^ d[5] ^^^ d[7] ^^^ d[25] ^^^ d[31]

/-- The loop of `add_blocks`  /repo/dstulib/gost/gosthash.c:64-74: bytes in ascending order with a
carry; returns the sum and the last carry. -/
def addLoop : List Byte → List Byte → Nat → List Byte × Nat
  | a :: as, b :: bs, carry =>
    let sum := a.toNat + b.toNat + carry
    let r := addLoop as bs (sum >>> 8)
    (BitVec.ofNat 8 (sum &&& 0xff) :: r.1, r.2)
  | _, _, carry => ([], carry)

theorem addLoop_length (a b : List Byte) (h : a.length = b.length) (c : Nat) :
    (addLoop a b c).1.length = a.length := by
  induction a generalizing b c with
  | nil => cases b <;> rfl
  | cons x a ih =>
    cases b with
    | nil => simp at h
    | cons y b => simp [addLoop, ih b (by simpa using h)]

/-- `add_blocks`  /repo/dstulib/gost/gosthash.c:64-74 with `n = 32`; its result is not used by the callers -/
def add_blocks (left right : Bytes 32) : Bytes 32 :=
  ⟨(addLoop left.toList right.toList 0).1.toArray, by simp [addLoop_length]⟩

/-- The indices of the bytes of `U` complemented in `hash_step`  /repo/dstulib/gost/gosthash.c:108-123 -/
def complemented : List Nat := [31, 29, 28, 24, 23, 20, 18, 17, 14, 12, 10, 8, 7, 5, 3, 1]

/-- /repo/dstulib/gost/gosthash.c:108-123 -/
def complementU (u : Bytes 32) : Bytes 32 :=
  Vector.ofFn fun i : Fin 32 => if complemented.contains i.val then ~~~ u[i] else u[i]

/-- `for (i = 0; i < n; i++) transform_3(S);` -/
def transformN : Nat → Bytes 32 → Bytes 32
  | 0, s => s
  | n + 1, s => transformN n (transform_3 s)

/-- Bytes `8 i .. 8 i + 7` of `H`. -/
def octets (h : Bytes 32) (i : Fin 4) : Bytes 8 := Vector.ofFn fun j : Fin 8 => h[8 * i.val + j.val]

/-- `S[0..7], S[8..15], S[16..23], S[24..31]` put together. -/
def join4 (a b c d : Bytes 8) : Bytes 32 :=
  Vector.ofFn fun i : Fin 32 =>
    if h : i.val < 8 then a[i.val]
    else if h : i.val < 16 then b[i.val - 8]
    else if h : i.val < 24 then c[i.val - 16]
    else d[i.val - 24]

/-- `hash_step`  /repo/dstulib/gost/gosthash.c:89-147.  Returns the cipher context, which keeps the
last key, and the new `H`. -/
def hash_step (c : GostCtx) (H M : Bytes 32) : GostCtx × Bytes 32 :=
  let W := xorV H M
  let Key := swap_bytes W
  let (c, S0) := gost_enc_with_key c Key (octets H 0)
  let U := circle_xor8 H
  let V := circle_xor8 M
  let V := circle_xor8 V
  let W := xorV U V
  let Key := swap_bytes W
  let (c, S1) := gost_enc_with_key c Key (octets H 1)
  let U := circle_xor8 U
  let U := complementU U
  let V := circle_xor8 V
  let V := circle_xor8 V
  let W := xorV U V
  let Key := swap_bytes W
  let (c, S2) := gost_enc_with_key c Key (octets H 2)
  let U := circle_xor8 U
  let V := circle_xor8 V
  let V := circle_xor8 V
  let W := xorV U V
  let Key := swap_bytes W
  let (c, S3) := gost_enc_with_key c Key (octets H 3)
  let S := join4 S0 S1 S2 S3
  let S := transformN 12 S
  let S := xorV S M
  let S := transform_3 S
  let S := xorV S H
  let S := transformN 61 S
  (c, S)

/-- `struct gost_hash_ctx`  /repo/dstulib/gost/gosthash.h:22-29 without the cipher context pointer.
`len` is a signed 64-bit integer, never negative. -/
structure HashCtx where
  len : Nat
  left : Nat
  H : Bytes 32
  S : Bytes 32
  remainder : Bytes 32

/-- All fields zero (`memset`). -/
def HashCtx.zero : HashCtx := ⟨0, 0, zeros 32, zeros 32, zeros 32⟩

/-- `start_hash`  /repo/dstulib/gost/gosthash.c:183-192 with a non-null cipher context -/
def start_hash (h : HashCtx) : HashCtx := { h with H := zeros 32, S := zeros 32, len := 0, left := 0 }

/-- Signed 64-bit addition on non-negative values; `none` is undefined behaviour (overflow). -/
def addLen (a b : Nat) : Option Nat := if a + b < 2 ^ 63 then some (a + b) else none

/-- One block: `hash_step(...); add_blocks(32, ctx->S, block); ctx->len += 32`
/repo/dstulib/gost/gosthash.c:216-218 and 222-225 -/
def hashOne (c : GostCtx) (h : HashCtx) (M : Bytes 32) : Option (GostCtx × HashCtx) := do
  let (c, H) := hash_step c h.H M
  let len ← addLen h.len 32
  return (c, { h with H := H, S := add_blocks h.S M, len := len })

/-- The loop /repo/dstulib/gost/gosthash.c:221-228; `n` is the number of iterations, `length / 32`.
Returns the unprocessed rest of the input too. -/
def hashLoop (c : GostCtx) (h : HashCtx) (block : List Byte) :
    (n : Nat) → Option (GostCtx × HashCtx × List Byte)
  | 0 => some (c, h, block)
  | n + 1 =>
    if hl : 0 + 32 ≤ block.length then do
      let (c, h) ← hashOne c h (sub block 0 32 hl)
      hashLoop c h (block.drop 32) n
    else none

/-- /repo/dstulib/gost/gosthash.c:221-232 -/
def hashRest (c : GostCtx) (h : HashCtx) (block : List Byte) : Option (GostCtx × HashCtx) := do
  let (c, h, block) ← hashLoop c h block (block.length / 32)
  if block.length ≠ 0 then
    let rem ← memcpyAt h.remainder 0 block
    return (c, { h with remainder := rem, left := block.length })
  else return (c, h)

/-- `hash_block`  /repo/dstulib/gost/gosthash.c:199-233.  `none` is undefined behaviour: overflow of the
length counter or a write outside `remainder`. -/
def hash_block (c : GostCtx) (h : HashCtx) (block : List Byte) : Option (GostCtx × HashCtx) :=
  if h.left ≠ 0 then
    if h.left ≤ 32 then do
      let add := if 32 - h.left > block.length then block.length else 32 - h.left
      let rem ← memcpyAt h.remainder h.left (block.take add)
      let h := { h with remainder := rem, left := h.left + add }
      if h.left < 32 then return (c, h)
      else
        let (c, h) ← hashOne c h h.remainder
        let h := { h with left := 0 }
        hashRest c h (block.drop add)
    else none
  else hashRest c h block

/-- The loop /repo/dstulib/gost/gosthash.c:261-264: the bytes written to `buf`.  The counter has fewer
than 64 bits, so 64 iterations are never exceeded. -/
def lenBytes : (fuel : Nat) → Nat → List Byte
  | 0, _ => []
  | f + 1, n => if n = 0 then [] else BitVec.ofNat 8 (n &&& 0xff) :: lenBytes f (n >>> 8)

/-- The last, partial block  /repo/dstulib/gost/gosthash.c:245-255: the cipher context, `H`, `S` and
`fin_len` after it. -/
def finishPartial (c : GostCtx) (h : HashCtx) : Option (GostCtx × Bytes 32 × Bytes 32 × Nat) :=
  if h.left ≠ 0 then
    if h.left ≤ 32 then do
      let buf ← memcpyAt (zeros 32) 0 (h.remainder.toList.take h.left)
      let (c, H) := hash_step c h.H buf
      let finLen ← addLen h.len h.left
      some (c, H, add_blocks h.S buf, finLen)
    else none
  else some (c, h.H, h.S, h.len)

/-- `finish_hash`  /repo/dstulib/gost/gosthash.c:240-269.  Works on local copies of `H` and `S`: the hash
context is not changed, only the cipher context is.  `none` is undefined behaviour: signed overflow
in `fin_len <<= 3`, or a read or write outside an array. -/
def finish_hash (c : GostCtx) (h : HashCtx) : Option (GostCtx × Bytes 32) := do
  let (c, H, S, finLen) ← finishPartial c h
  let (c, H) := if finLen = 0 then hash_step c H (zeros 32) else (c, H)
  if finLen * 8 < 2 ^ 63 then
    let buf ← memcpyAt (zeros 32) 0 (lenBytes 64 (finLen * 8))
    let (c, H) := hash_step c H buf
    let (c, H) := hash_step c H S
    some (c, H)
  else none

end Dstu
