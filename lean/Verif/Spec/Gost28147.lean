/-!
# Specification: GOST 28147-89 (RFC 5830)

Written from the standard, independently of the model.  A substitution table is a function
`S : Fin 8 → BitVec 4 → BitVec 4`; `S 0` acts on the least significant nibble.
-/

namespace Dstu.Spec

/-- Four bytes, least significant first, as a 32-bit number. -/
def word (b0 b1 b2 b3 : BitVec 8) : BitVec 32 := b3 ++ b2 ++ b1 ++ b0

/-- Nibble `i` of a 32-bit number, `i = 0` least significant. -/
def nibble (x : BitVec 32) (i : Nat) : BitVec 4 := x.extractLsb' (4 * i) 4

/-- The eight substitutions applied to the eight nibbles. -/
def substitute (S : Fin 8 → BitVec 4 → BitVec 4) (x : BitVec 32) : BitVec 32 :=
  S 7 (nibble x 7) ++ S 6 (nibble x 6) ++ S 5 (nibble x 5) ++ S 4 (nibble x 4) ++
  S 3 (nibble x 3) ++ S 2 (nibble x 2) ++ S 1 (nibble x 1) ++ S 0 (nibble x 0)

/-- The round function: add the subkey modulo 2^32, substitute, rotate left by 11. -/
def roundFn (S : Fin 8 → BitVec 4 → BitVec 4) (n k : BitVec 32) : BitVec 32 :=
  (substitute S (n + k)).rotateLeft 11

/-- One Feistel round on the accumulators `(N1, N2)`. -/
def round (S : Fin 8 → BitVec 4 → BitVec 4) (n : BitVec 32 × BitVec 32) (k : BitVec 32) :
    BitVec 32 × BitVec 32 :=
  (n.2 ^^^ roundFn S n.1 k, n.1)

/-- The subkeys `K1..K8` of a 256-bit key. -/
def subkeys (k : Vector (BitVec 8) 32) : List (BitVec 32) :=
  [word k[0] k[1] k[2] k[3], word k[4] k[5] k[6] k[7], word k[8] k[9] k[10] k[11],
   word k[12] k[13] k[14] k[15], word k[16] k[17] k[18] k[19], word k[20] k[21] k[22] k[23],
   word k[24] k[25] k[26] k[27], word k[28] k[29] k[30] k[31]]

/-- Subkeys of the 32 encryption rounds: three times ascending, once descending. -/
def encSchedule (ks : List (BitVec 32)) : List (BitVec 32) := ks ++ ks ++ ks ++ ks.reverse

/-- Subkeys of the 32 decryption rounds: the encryption schedule backwards. -/
def decSchedule (ks : List (BitVec 32)) : List (BitVec 32) := (encSchedule ks).reverse

/-- The accumulators loaded from an 8-byte block. -/
def load (b : Vector (BitVec 8) 8) : BitVec 32 × BitVec 32 :=
  (word b[0] b[1] b[2] b[3], word b[4] b[5] b[6] b[7])

/-- Byte `i` of a word. -/
def octet (x : BitVec 32) (i : Nat) : BitVec 8 := x.extractLsb' (8 * i) 8

/-- The 8-byte block holding the accumulators. -/
def store (n : BitVec 32 × BitVec 32) : Vector (BitVec 8) 8 :=
  #v[octet n.1 0, octet n.1 1, octet n.1 2, octet n.1 3,
     octet n.2 0, octet n.2 1, octet n.2 2, octet n.2 3]

/-- All rounds; there is no exchange of the accumulators after the last one. -/
def cycle (S : Fin 8 → BitVec 4 → BitVec 4) (ks : List (BitVec 32)) (b : Vector (BitVec 8) 8) :
    Vector (BitVec 8) 8 :=
  store ((ks.foldl (round S) (load b)).swap)

/-- GOST 28147-89 encryption of a block. -/
def encrypt (S : Fin 8 → BitVec 4 → BitVec 4) (k : Vector (BitVec 8) 32) :
    Vector (BitVec 8) 8 → Vector (BitVec 8) 8 :=
  cycle S (encSchedule (subkeys k))

/-- GOST 28147-89 decryption of a block. -/
def decrypt (S : Fin 8 → BitVec 4 → BitVec 4) (k : Vector (BitVec 8) 32) :
    Vector (BitVec 8) 8 → Vector (BitVec 8) 8 :=
  cycle S (decSchedule (subkeys k))

/-- The 16-round transformation of the MAC mode: subkeys twice ascending, with the exchange after
the last round. -/
def macCycle (S : Fin 8 → BitVec 4 → BitVec 4) (k : Vector (BitVec 8) 32)
    (b : Vector (BitVec 8) 8) : Vector (BitVec 8) 8 :=
  store ((subkeys k ++ subkeys k).foldl (round S) (load b))

/-- The substitution table written as 64 bytes, i.e. 128 hexadecimal digits: the sixteen digits of
row `r` are the values of `S r` at `0, 1, ..., 15`. -/
def tableOf (p : Vector (BitVec 8) 64) (r : Fin 8) (n : BitVec 4) : BitVec 4 :=
  have hn : n.toNat < 16 := n.isLt
  if n.toNat % 2 = 0 then (p[8 * r.val + n.toNat / 2]).extractLsb' 4 4
  else (p[8 * r.val + n.toNat / 2]).extractLsb' 0 4

end Dstu.Spec
