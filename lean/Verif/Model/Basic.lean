/-!
# Basic types of the model

`byte` (`unsigned char`) is `BitVec 8`, `word32`/`u4` is `BitVec 32`.  A C array of fixed
size is a `Vector`, a buffer whose length is only known at run time is a `List`.
-/

namespace Dstu

/-- `typedef unsigned char byte;`  /repo/dstulib/gost/gost89.h:18 -/
abbrev Byte := BitVec 8

/-- `typedef unsigned int u4; / word32`  /repo/dstulib/gost/gost89.h:16-24 -/
abbrev W32 := BitVec 32

/-- A fixed-size C byte array. -/
abbrev Bytes (n : Nat) := Vector Byte n

/-- The C idiom `k[j] | (k[j+1] << 8) | (k[j+2] << 16) | ((word32) k[j+3] << 24)`
(for example /repo/dstulib/gost/gost89.c:281-282 and 455-457). -/
def le32 (b0 b1 b2 b3 : Byte) : W32 :=
  b0.setWidth 32 ||| (b1.setWidth 32 <<< 8) ||| (b2.setWidth 32 <<< 16) ||| (b3.setWidth 32 <<< 24)

/-- The C idiom `(byte) ((n >> 8*i) & 0xff)` (for example /repo/dstulib/gost/gost89.c:321-328). -/
def byteOf (n : W32) (i : Nat) : Byte := (n >>> (8 * i)).setWidth 8

/-- `for (i...) r[i] = a[i] ^ b[i]` on arrays of equal size. -/
def xorV {n : Nat} (a b : Bytes n) : Bytes n := Vector.zipWith (· ^^^ ·) a b

/-- The array all of whose bytes are zero (`memset(p, 0, n)`). -/
def zeros (n : Nat) : Bytes n := Vector.replicate n 0

/-- A fixed-size view of the `n` bytes of a buffer starting at `off`; the caller supplies the proof
that they exist. -/
def sub (l : List Byte) (off n : Nat) (h : off + n ≤ l.length) : Bytes n :=
  ⟨((l.drop off).take n).toArray, by simp; omega⟩

/-- `memcpy(dst + off, src, |src|)` into an array of `n` bytes.  `none` is undefined behaviour:
the copy would write outside the array. -/
def memcpyAt {n : Nat} (dst : Bytes n) (off : Nat) (src : List Byte) : Option (Bytes n) :=
  if off + src.length ≤ n then
    some (Vector.ofFn fun i : Fin n =>
      if off ≤ i.val then (src[i.val - off]?).getD dst[i] else dst[i])
  else none

end Dstu
