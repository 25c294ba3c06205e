import Verif.Model.Basic

/-!
# Model of /repo/dstulib/gost/gost89.c

The tables of `gost_ctx` are arrays of 256 words that are only ever indexed by an expression masked
with `& 255`; they are modelled as functions from bytes.  The substitution rows are arrays of 16
bytes that are only indexed by `i >> 4` or `i & 15` with `i < 256`; they are modelled as functions
from 4-bit values.  The entries of a row are bytes, as in C, not nibbles.
-/

namespace Dstu

/-- `gost_subst_block`  /repo/dstulib/gost/gost89.h:22-31 -/
structure SubstBlock where
  k8 : BitVec 4 → Byte
  k7 : BitVec 4 → Byte
  k6 : BitVec 4 → Byte
  k5 : BitVec 4 → Byte
  k4 : BitVec 4 → Byte
  k3 : BitVec 4 → Byte
  k2 : BitVec 4 → Byte
  k1 : BitVec 4 → Byte

/-- `gost_ctx`  /repo/dstulib/gost/gost89.h:34-39 -/
structure GostCtx where
  key : Vector W32 8
  mask : Vector W32 8
  k87 : Byte → W32
  k65 : Byte → W32
  k43 : Byte → W32
  k21 : Byte → W32

/-- `i >> 4` for `0 <= i < 256`, as a row index. -/
def hiNib (i : Byte) : BitVec 4 := (i >>> 4).setWidth 4

/-- `i & 15`, as a row index. -/
def loNib (i : Byte) : BitVec 4 := (i &&& 15#8).setWidth 4

/-- The C expression `(a << 4 | b)` after promotion of the bytes to `int`. -/
def pair (a b : Byte) : W32 := a.setWidth 32 <<< 4 ||| b.setWidth 32

/-- `kboxinit`  /repo/dstulib/gost/gost89.c:255-266.  The loop writes entry `i` of each table once,
so each table is given as the function of the index `i`. -/
def kboxinit (c : GostCtx) (b : SubstBlock) : GostCtx :=
  { c with
    k87 := fun i => pair (b.k8 (hiNib i)) (b.k7 (loNib i)) <<< 24
    k65 := fun i => pair (b.k6 (hiNib i)) (b.k5 (loNib i)) <<< 16
    k43 := fun i => pair (b.k4 (hiNib i)) (b.k3 (loNib i)) <<< 8
    k21 := fun i => pair (b.k2 (hiNib i)) (b.k1 (loNib i)) }

/-- `f`  /repo/dstulib/gost/gost89.c:269-275 -/
def f (c : GostCtx) (x : W32) : W32 :=
  let y := c.k87 ((x >>> 24).setWidth 8) ||| c.k65 ((x >>> 16).setWidth 8) |||
    c.k43 ((x >>> 8).setWidth 8) ||| c.k21 (x.setWidth 8)
  y <<< 11 ||| y >>> (32 - 11)

/-- Two consecutive source lines of the unrolled loops,
`n2 ^= f(c, n1 + c->key[i] + c->mask[i]); n1 ^= f(c, n2 + c->key[j] + c->mask[j]);`
(for example /repo/dstulib/gost/gost89.c:285-286). The state is `(n1, n2)`. -/
def lines2 (c : GostCtx) (s : W32 × W32) (ij : Fin 8 × Fin 8) : W32 × W32 :=
  let n1 := s.1
  let n2 := s.2 ^^^ f c (n1 + c.key[ij.1] + c.mask[ij.1])
  let n1 := n1 ^^^ f c (n2 + c.key[ij.2] + c.mask[ij.2])
  (n1, n2)

/-- Key indices of the 32 lines of `gostcrypt` in source order, two lines per entry.
/repo/dstulib/gost/gost89.c:285-319 -/
def encOrder : List (Fin 8 × Fin 8) :=
  [(0, 1), (2, 3), (4, 5), (6, 7),
   (0, 1), (2, 3), (4, 5), (6, 7),
   (0, 1), (2, 3), (4, 5), (6, 7),
   (7, 6), (5, 4), (3, 2), (1, 0)]

/-- Key indices of the 32 lines of `gostdecrypt` in source order, two lines per entry.
/repo/dstulib/gost/gost89.c:338-372 -/
def decOrder : List (Fin 8 × Fin 8) :=
  [(0, 1), (2, 3), (4, 5), (6, 7),
   (7, 6), (5, 4), (3, 2), (1, 0),
   (7, 6), (5, 4), (3, 2), (1, 0),
   (7, 6), (5, 4), (3, 2), (1, 0)]

/-- Key indices of the 16 lines of `mac_block` in source order, two lines per entry.
/repo/dstulib/gost/gost89.c:545-561 -/
def macOrder : List (Fin 8 × Fin 8) :=
  [(0, 1), (2, 3), (4, 5), (6, 7),
   (0, 1), (2, 3), (4, 5), (6, 7)]

/-- The two loads at the start of `gostcrypt`, `gostdecrypt` and `mac_block`, giving `(n1, n2)`.
/repo/dstulib/gost/gost89.c:281-282, 335-336, 540-543 -/
def loadBlock (b : Bytes 8) : W32 × W32 :=
  (le32 b[0] b[1] b[2] b[3], le32 b[4] b[5] b[6] b[7])

/-- The eight stores at the end, first word `u` then word `v`, low byte first.
/repo/dstulib/gost/gost89.c:321-328 -/
def storeBlock (u v : W32) : Bytes 8 :=
  #v[byteOf u 0, byteOf u 1, byteOf u 2, byteOf u 3,
     byteOf v 0, byteOf v 1, byteOf v 2, byteOf v 3]

/-- `gostcrypt`  /repo/dstulib/gost/gost89.c:278-329.  All eight input bytes are read before the
first output byte is written, so the result does not depend on `in == out`. -/
def gostcrypt (c : GostCtx) (inp : Bytes 8) : Bytes 8 :=
  let s := encOrder.foldl (lines2 c) (loadBlock inp)
  storeBlock s.2 s.1

/-- `gostdecrypt`  /repo/dstulib/gost/gost89.c:332-382 -/
def gostdecrypt (c : GostCtx) (inp : Bytes 8) : Bytes 8 :=
  let s := decOrder.foldl (lines2 c) (loadBlock inp)
  storeBlock s.2 s.1

/-- `gost_enc`  /repo/dstulib/gost/gost89.c:386-394.  `none` is an out-of-bounds read: fewer than
`8 * blocks` input bytes. -/
def gost_enc (c : GostCtx) (clear : List Byte) : (blocks : Nat) → Option (List Byte)
  | 0 => some []
  | n + 1 =>
    if h : 0 + 8 ≤ clear.length then
      (gost_enc c (clear.drop 8) n).map ((gostcrypt c (sub clear 0 8 h)).toList ++ ·)
    else none

/-- `gost_dec`  /repo/dstulib/gost/gost89.c:397-405 -/
def gost_dec (c : GostCtx) (cipher : List Byte) : (blocks : Nat) → Option (List Byte)
  | 0 => some []
  | n + 1 =>
    if h : 0 + 8 ≤ cipher.length then
      (gost_dec c (cipher.drop 8) n).map ((gostdecrypt c (sub cipher 0 8 h)).toList ++ ·)
    else none

/-- `gost_enc_cfb`  /repo/dstulib/gost/gost89.c:408-423.  `none` is an out-of-bounds read. -/
def gost_enc_cfb (c : GostCtx) (iv : Bytes 8) (clear : List Byte) :
    (blocks : Nat) → Option (List Byte)
  | 0 => some []
  | n + 1 =>
    if h : 0 + 8 ≤ clear.length then
      let gamma := gostcrypt c iv
      let cur := xorV (sub clear 0 8 h) gamma
      (gost_enc_cfb c cur (clear.drop 8) n).map (cur.toList ++ ·)
    else none

/-- `gost_dec_cfb`  /repo/dstulib/gost/gost89.c:426-441.  `none` is an out-of-bounds read. -/
def gost_dec_cfb (c : GostCtx) (iv : Bytes 8) (cipher : List Byte) :
    (blocks : Nat) → Option (List Byte)
  | 0 => some []
  | n + 1 =>
    if h : 0 + 8 ≤ cipher.length then
      let gamma := gostcrypt c iv
      let cur := sub cipher 0 8 h
      (gost_dec_cfb c cur (cipher.drop 8) n).map ((xorV cur gamma).toList ++ ·)
    else none

/-- `gost_key_impl`  /repo/dstulib/gost/gost89.c:451-459 -/
def gost_key_impl (c : GostCtx) (k : Bytes 32) : GostCtx :=
  { c with
    key := Vector.ofFn fun i : Fin 8 =>
      le32 k[4 * i.val] k[4 * i.val + 1] k[4 * i.val + 2] k[4 * i.val + 3] - c.mask[i] }

/-- `gost_key`  /repo/dstulib/gost/gost89.c:462-466.  `rnd` is what `RAND_priv_bytes` leaves in
`c->mask`; its return value is ignored by the code, so on failure `rnd` may be the old contents or
anything else. -/
def gost_key (c : GostCtx) (rnd : Vector W32 8) (k : Bytes 32) : GostCtx :=
  gost_key_impl { c with mask := rnd } k

/-- `gost_key_nomask`  /repo/dstulib/gost/gost89.c:469-473 -/
def gost_key_nomask (c : GostCtx) (k : Bytes 32) : GostCtx :=
  gost_key_impl { c with mask := Vector.replicate 8 0 } k

/-- `magma_key`  /repo/dstulib/gost/gost89.c:476-485 -/
def magma_key (c : GostCtx) (rnd : Vector W32 8) (k : Bytes 32) : GostCtx :=
  { c with
    mask := rnd
    key := Vector.ofFn fun i : Fin 8 =>
      le32 k[4 * i.val + 3] k[4 * i.val + 2] k[4 * i.val + 1] k[4 * i.val] - rnd[i] }

/-- `gost_get_key`  /repo/dstulib/gost/gost89.c:488-497.  Byte `4*i + b` of the result is byte `b`
of `key[i] + mask[i]`. -/
def gost_get_key (c : GostCtx) : Bytes 32 :=
  Vector.ofFn fun q : Fin 32 => byteOf (c.key[q.val / 4] + c.mask[q.val / 4]) (q.val % 4)

/-- `magma_get_key`  /repo/dstulib/gost/gost89.c:500-509 -/
def magma_get_key (c : GostCtx) : Bytes 32 :=
  Vector.ofFn fun q : Fin 32 => byteOf (c.key[q.val / 4] + c.mask[q.val / 4]) (3 - q.val % 4)

/-- `GostR3411_94_TestParamSet`  /repo/dstulib/gost/gost89.c:25-50 -/
def GostR3411_94_TestParamSet : SubstBlock :=
  let row (v : Vector Byte 16) (i : BitVec 4) : Byte := v[i.toNat]'i.isLt
  { k8 := row #v[0x1, 0xF, 0xD, 0x0, 0x5, 0x7, 0xA, 0x4, 0x9, 0x2, 0x3, 0xE, 0x6, 0xB, 0x8, 0xC]
    k7 := row #v[0xD, 0xB, 0x4, 0x1, 0x3, 0xF, 0x5, 0x9, 0x0, 0xA, 0xE, 0x7, 0x6, 0x8, 0x2, 0xC]
    k6 := row #v[0x4, 0xB, 0xA, 0x0, 0x7, 0x2, 0x1, 0xD, 0x3, 0x6, 0x8, 0x5, 0x9, 0xC, 0xF, 0xE]
    k5 := row #v[0x6, 0xC, 0x7, 0x1, 0x5, 0xF, 0xD, 0x8, 0x4, 0xA, 0x9, 0xE, 0x0, 0x3, 0xB, 0x2]
    k4 := row #v[0x7, 0xD, 0xA, 0x1, 0x0, 0x8, 0x9, 0xF, 0xE, 0x4, 0x6, 0xC, 0xB, 0x2, 0x5, 0x3]
    k3 := row #v[0x5, 0x8, 0x1, 0xD, 0xA, 0x3, 0x4, 0x2, 0xE, 0xF, 0xC, 0x7, 0x6, 0x0, 0x9, 0xB]
    k2 := row #v[0xE, 0xB, 0x4, 0xC, 0x6, 0xD, 0xF, 0xA, 0x2, 0x3, 0x8, 0x1, 0x0, 0x7, 0x5, 0x9]
    k1 := row #v[0x4, 0xA, 0x9, 0x2, 0xD, 0x8, 0x0, 0xE, 0x6, 0xB, 0x1, 0xC, 0x7, 0xF, 0x5, 0x3] }

/-- `gost_init`  /repo/dstulib/gost/gost89.c:512-518.  `none` is the null pointer. -/
def gost_init (c : GostCtx) (b : Option SubstBlock) : GostCtx :=
  kboxinit c (b.getD GostR3411_94_TestParamSet)

/-- `gost_destroy`  /repo/dstulib/gost/gost89.c:521-525 -/
def gost_destroy (c : GostCtx) : GostCtx :=
  { c with key := Vector.replicate 8 0, mask := Vector.replicate 8 0 }

/-- `gost_enc_with_key`  /repo/dstulib/gost/gost89.c:444-449.  Returns the context too: the key
stays loaded. -/
def gost_enc_with_key (c : GostCtx) (key : Bytes 32) (inblock : Bytes 8) : GostCtx × Bytes 8 :=
  let c := gost_key_nomask c key
  (c, gostcrypt c inblock)

/-- `mac_block`  /repo/dstulib/gost/gost89.c:532-571 -/
def mac_block (c : GostCtx) (buffer block : Bytes 8) : Bytes 8 :=
  let s := macOrder.foldl (lines2 c) (loadBlock (xorV buffer block))
  storeBlock s.1 s.2

/-- `get_mac`  /repo/dstulib/gost/gost89.c:574-584, for `0 <= nbits`.  `none` is an out-of-bounds
read of the 8-byte buffer.  The mask is computed with `1 < rembits` (a comparison), as in the
source; converted to `byte` by the `&` with a byte operand. -/
def get_mac (buffer : Bytes 8) (nbits : Nat) : Option (List Byte) :=
  let nbytes := nbits >>> 3
  let rembits := nbits &&& 7
  let mask : BitVec 32 := if rembits ≠ 0 then (if 1 < rembits then 1 else 0) - 1 else 0
  if rembits ≠ 0 then
    if h : nbytes < 8 then
      some (buffer.toList.take nbytes ++ [buffer[nbytes] &&& mask.setWidth 8])
    else none
  else if nbytes ≤ 8 then some (buffer.toList.take nbytes) else none

/-- The loop `for (i = 0; i + 8 <= data_len; i += 8) mac_block(ctx, buffer, data + i);` shared by
`gost_mac` and `gost_mac_iv`.  /repo/dstulib/gost/gost89.c:596-597, 621-622.  `i` and `data_len`
are `unsigned int`, so `i + 8` is computed modulo `2^32`.  Returns the final buffer and `i`;
`none` is an out-of-bounds read of `data`. -/
def macLoop (c : GostCtx) (data : List Byte) (buffer : Bytes 8) (i : Nat) :
    Option (Bytes 8 × Nat) :=
  if (i + 8) % 2 ^ 32 ≤ data.length then
    if h : i + 8 ≤ data.length then
      macLoop c data (mac_block c buffer (sub data i 8 h)) (i + 8)
    else none
  else some (buffer, i)
termination_by data.length - i

/-- `gost_mac_iv`  /repo/dstulib/gost/gost89.c:613-636, for `data.length < 2^32` (`data_len` is an
`unsigned int`).  `none` is undefined behaviour. -/
def gost_mac_iv (c : GostCtx) (mac_len : Nat) (iv : Bytes 8) (data : List Byte) :
    Option (List Byte) := do
  let (buffer, i) ← macLoop c data iv 0
  let (buffer, i) ←
    if i < data.length then
      (memcpyAt (zeros 8) 0 (data.drop i)).map fun buf2 => (mac_block c buffer buf2, i + 8)
    else some (buffer, i)
  let buffer := if i = 8 then mac_block c buffer (zeros 8) else buffer
  get_mac buffer mac_len

/-- `gost_mac`  /repo/dstulib/gost/gost89.c:590-610.  The body is the one of `gost_mac_iv` with
`byte buffer[8] = { 0, 0, 0, 0, 0, 0, 0, 0 }` instead of `memcpy(buffer, iv, 8)`. -/
def gost_mac (c : GostCtx) (mac_len : Nat) (data : List Byte) : Option (List Byte) :=
  gost_mac_iv c mac_len (zeros 8) data

/-- `CryptoProKeyMeshingKey`  /repo/dstulib/gost/gost89.c:240-245 -/
def CryptoProKeyMeshingKey : Bytes 32 :=
  #v[0x69, 0x00, 0x72, 0x22, 0x64, 0xC9, 0x04, 0x23,
     0x8D, 0x3A, 0xDB, 0x96, 0x46, 0xE9, 0x2A, 0xC4,
     0x18, 0xFE, 0xAC, 0x94, 0x00, 0xED, 0x07, 0x12,
     0xC0, 0x86, 0xDC, 0xC2, 0xEF, 0x4C, 0xA9, 0x2B]

/-- The four blocks `gost_dec(ctx, CryptoProKeyMeshingKey, newkey, 4)` writes, as one array. -/
def meshedKey (c : GostCtx) : Bytes 32 :=
  Vector.ofFn fun q : Fin 32 =>
    (gostdecrypt c (Vector.ofFn fun j : Fin 8 => CryptoProKeyMeshingKey[8 * (q.val / 8) + j.val]))[q.val % 8]

/-- `cryptopro_key_meshing`  /repo/dstulib/gost/gost89.c:638-654.  `rnd` as in `gost_key`. -/
def cryptopro_key_meshing (c : GostCtx) (rnd : Vector W32 8) (iv : Option (Bytes 8)) :
    GostCtx × Option (Bytes 8) :=
  let c := gost_key c rnd (meshedKey c)
  (c, iv.map (gostcrypt c))

/-- `ACPKM_D_const`  /repo/dstulib/gost/gost89.c:247-252 -/
def ACPKM_D_const : Bytes 32 :=
  #v[0x80, 0x81, 0x82, 0x83, 0x84, 0x85, 0x86, 0x87,
     0x88, 0x89, 0x8A, 0x8B, 0x8C, 0x8D, 0x8E, 0x8F,
     0x90, 0x91, 0x92, 0x93, 0x94, 0x95, 0x96, 0x97,
     0x98, 0x99, 0x9A, 0x9B, 0x9C, 0x9D, 0x9E, 0x9F]

/-- `acpkm_magma_key_meshing`  /repo/dstulib/gost/gost89.c:656-675.  Byte `q` of the new key comes
from block `q / 8`: the reversed constant block is encrypted and its two halves are exchanged. -/
def acpkm_magma_key_meshing (c : GostCtx) (rnd : Vector W32 8) : GostCtx :=
  let newkey : Bytes 32 := Vector.ofFn fun q : Fin 32 =>
    let keybuf := gostcrypt c (Vector.ofFn fun j : Fin 8 => ACPKM_D_const[8 * (q.val / 8) + 7 - j.val])
    keybuf[(q.val + 4) % 8]
  gost_key c rnd newkey

end Dstu
