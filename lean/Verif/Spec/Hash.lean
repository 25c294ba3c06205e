import Verif.Spec.Gost28147
import Verif.Spec.Blocks

/-!
# Specification: GOST 34.311-95 = GOST R 34.11-94 (RFC 5831)

256-bit values are `BitVec 256`; the first byte of a string is the least significant one.
-/

namespace Dstu.Spec

/-- The number whose base-256 digits, least significant first, are the given bytes. -/
def leNat : List (BitVec 8) → Nat
  | [] => 0
  | b :: l => b.toNat + 256 * leNat l

/-- 32 bytes as a 256-bit value. -/
def ofBytes (v : Vector (BitVec 8) 32) : BitVec 256 := BitVec.ofNat 256 (leNat v.toList)

/-- A 256-bit value as 32 bytes. -/
def toBytes (x : BitVec 256) : Vector (BitVec 8) 32 :=
  Vector.ofFn fun i : Fin 32 => x.extractLsb' (8 * i.val) 8

/-- `y4 || y3 || y2 || y1`: the 64-bit part number `i` (0 for `y1`). -/
def part64 (y : BitVec 256) (i : Nat) : BitVec 64 := y.extractLsb' (64 * i) 64

/-- `A(y4 || y3 || y2 || y1) = (y1 xor y2) || y4 || y3 || y2`. -/
def hA (y : BitVec 256) : BitVec 256 :=
  (part64 y 0 ^^^ part64 y 1) ++ part64 y 3 ++ part64 y 2 ++ part64 y 1

/-- `P`: output byte `i + 4 k` is input byte `8 i + k`, for `i < 4`, `k < 8`. -/
def hP (y : BitVec 256) : Vector (BitVec 8) 32 :=
  Vector.ofFn fun n : Fin 32 => y.extractLsb' (8 * (8 * (n.val % 4) + n.val / 4)) 8

/-- The constant `C3 = 1^8 0^8 1^16 0^24 1^16 0^8 (0^8 1^8)^2 1^8 0^8 (0^8 1^8)^4 (1^8 0^8)^4`. -/
def hC3 : BitVec 256 := 0xff00ffff000000ffff0000ff00ffff0000ff00ff00ff00ffff00ff00ff00ff00#256

/-- The four keys for `H` and `M`. -/
def hKeys (h m : BitVec 256) : Vector (Vector (BitVec 8) 32) 4 :=
  let u1 := h
  let v1 := m
  let u2 := hA u1
  let v2 := hA (hA v1)
  let u3 := hA u2 ^^^ hC3
  let v3 := hA (hA v2)
  let u4 := hA u3
  let v4 := hA (hA v3)
  #v[hP (u1 ^^^ v1), hP (u2 ^^^ v2), hP (u3 ^^^ v3), hP (u4 ^^^ v4)]

/-- A 64-bit value as the 8-byte block given to the cipher, and back. -/
def block64 (x : BitVec 64) : Vector (BitVec 8) 8 :=
  Vector.ofFn fun i : Fin 8 => x.extractLsb' (8 * i.val) 8

def ofBlock64 (b : Vector (BitVec 8) 8) : BitVec 64 :=
  b[7] ++ b[6] ++ b[5] ++ b[4] ++ b[3] ++ b[2] ++ b[1] ++ b[0]

/-- The enciphering transformation: part `i` of `H` under key `i`. -/
def hEncipher (T : Fin 8 → BitVec 4 → BitVec 4) (h m : BitVec 256) : BitVec 256 :=
  let k := hKeys h m
  let s (i : Nat) (hi : i < 4 := by omega) : BitVec 64 := ofBlock64 (encrypt T k[i] (block64 (part64 h i)))
  s 3 ++ s 2 ++ s 1 ++ s 0

/-- The 16-bit part number `i` (0 for `y1`) of `y16 || ... || y1`. -/
def part16 (y : BitVec 256) (i : Nat) : BitVec 16 := y.extractLsb' (16 * i) 16

/-- `psi(y16 || ... || y1) = (y1 xor y2 xor y3 xor y4 xor y13 xor y16) || y16 || ... || y2`. -/
def hPsi (y : BitVec 256) : BitVec 256 :=
  (part16 y 0 ^^^ part16 y 1 ^^^ part16 y 2 ^^^ part16 y 3 ^^^ part16 y 12 ^^^ part16 y 15) ++
    y.extractLsb' 16 240

/-- `f` applied `n` times. -/
def iter {α : Type} (f : α → α) : Nat → α → α
  | 0, x => x
  | n + 1, x => iter f n (f x)

/-- The step function `chi(M, H) = psi^61 (H xor psi (M xor psi^12 (S)))`. -/
def hStep (T : Fin 8 → BitVec 4 → BitVec 4) (h m : BitVec 256) : BitVec 256 :=
  iter hPsi 61 (h ^^^ hPsi (m ^^^ iter hPsi 12 (hEncipher T h m)))

/-- The 256-bit blocks of a message, the last one padded with zeros; the empty message has one zero
block. -/
def hBlocks (m : List (BitVec 8)) : List (BitVec 256) :=
  if m = [] then [0] else (blocks 32 (by omega) m).map ofBytes

/-- The hash of a message, with substitution tables `T` and the zero start vector: all blocks, then
the length in bits, then the sum of the blocks modulo 2^256. -/
def gost34311 (T : Fin 8 → BitVec 4 → BitVec 4) (m : List (BitVec 8)) : Vector (BitVec 8) 32 :=
  let bs := hBlocks m
  let h := bs.foldl (hStep T) 0
  let h := hStep T h (BitVec.ofNat 256 (8 * m.length))
  toBytes (hStep T h (bs.foldl (· + ·) 0))

end Dstu.Spec
