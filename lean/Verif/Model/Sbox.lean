import Verif.Model.Gost89

/-!
# Model of the S-box functions of /repo/dstulib/params.c
-/

namespace Dstu

/-- One row of `unpack_sbox`: entry `2*i` is `0x0f & (packed[i + base] >> 4)`, entry `2*i + 1` is
`0x0f & packed[i + base]`.  /repo/dstulib/params.c:338-363 -/
def unpackRow (p : Bytes 64) (base : Fin 8) (j : BitVec 4) : Byte :=
  let i := j.toNat / 2
  have hj : j.toNat < 16 := j.isLt
  have : i + 8 * base.val < 64 := by omega
  if j.toNat % 2 = 0 then 0x0f#8 &&& (p[i + 8 * base.val] >>> 4)
  else 0x0f#8 &&& p[i + 8 * base.val]

/-- `unpack_sbox`  /repo/dstulib/params.c:335-364.  The loop writes every entry of every row once. -/
def unpack_sbox (p : Bytes 64) : SubstBlock where
  k1 := unpackRow p 0
  k2 := unpackRow p 1
  k3 := unpackRow p 2
  k4 := unpackRow p 3
  k5 := unpackRow p 4
  k6 := unpackRow p 5
  k7 := unpackRow p 6
  k8 := unpackRow p 7

/-- `((row[2 * i] << 4) & 0xf0) | (row[(2 * i) + 1] & 0x0f)`  /repo/dstulib/params.c:371-378 -/
def packByte (row : BitVec 4 → Byte) (i : Nat) : Byte :=
  ((row (BitVec.ofNat 4 (2 * i)) <<< 4) &&& 0xf0#8) ||| (row (BitVec.ofNat 4 (2 * i + 1)) &&& 0x0f#8)

/-- The row of a substitution block stored at byte offset `8 * r` of the packed form. -/
def SubstBlock.row (b : SubstBlock) (r : Nat) : BitVec 4 → Byte :=
  match r with
  | 0 => b.k1 | 1 => b.k2 | 2 => b.k3 | 3 => b.k4 | 4 => b.k5 | 5 => b.k6 | 6 => b.k7 | _ => b.k8

/-- `pack_sbox`  /repo/dstulib/params.c:366-380.  Byte `i + 8 * r`, `i < 8`, comes from row
`k(r+1)`. -/
def pack_sbox (b : SubstBlock) : Bytes 64 :=
  Vector.ofFn fun q : Fin 64 => packByte (b.row (q.val / 8)) (q.val % 8)

/-- `dstu_get_sbox`  /repo/dstulib/params.c:314-333.  The loop over `i` writes `k8[i >> 4]` sixteen
times, the last time at `i = 16 * n + 15`, and `k7[i & 15]` sixteen times, the last time at
`i = 240 + n`; the model keeps the last write of each entry. -/
def dstu_get_sbox (c : GostCtx) : SubstBlock where
  k8 n := ((c.k87 (n ++ 15#4) >>> 28) &&& 0xf#32).setWidth 8
  k7 n := ((c.k87 (15#4 ++ n) >>> 24) &&& 0xf#32).setWidth 8
  k6 n := ((c.k65 (n ++ 15#4) >>> 20) &&& 0xf#32).setWidth 8
  k5 n := ((c.k65 (15#4 ++ n) >>> 16) &&& 0xf#32).setWidth 8
  k4 n := ((c.k43 (n ++ 15#4) >>> 12) &&& 0xf#32).setWidth 8
  k3 n := ((c.k43 (15#4 ++ n) >>> 8) &&& 0xf#32).setWidth 8
  k2 n := ((c.k21 (n ++ 15#4) >>> 4) &&& 0xf#32).setWidth 8
  k1 n := (c.k21 (15#4 ++ n) &&& 0xf#32).setWidth 8

/-- `default_sbox`  /repo/dstulib/params.c:382-392 -/
def default_sbox : Bytes 64 :=
  #v[0xa9, 0xd6, 0xeb, 0x45, 0xf1, 0x3c, 0x70, 0x82,
     0x80, 0xc4, 0x96, 0x7b, 0x23, 0x1f, 0x5e, 0xad,
     0xf6, 0x58, 0xeb, 0xa4, 0xc0, 0x37, 0x29, 0x1d,
     0x38, 0xd9, 0x6b, 0xf0, 0x25, 0xca, 0x4e, 0x17,
     0xf8, 0xe9, 0x72, 0x0d, 0xc6, 0x15, 0xb4, 0x3a,
     0x28, 0x97, 0x5f, 0x0b, 0xc1, 0xde, 0xa3, 0x64,
     0x38, 0xb5, 0x64, 0xea, 0x2c, 0x17, 0x9f, 0xd0,
     0x12, 0x3e, 0x6d, 0xb8, 0xfa, 0xc5, 0x79, 0x04]

/-- `is_default_sbox`  /repo/dstulib/params.c:603-606 -/
def is_default_sbox (s : Bytes 64) : Bool := default_sbox == s

end Dstu
