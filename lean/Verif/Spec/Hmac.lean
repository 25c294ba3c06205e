import Verif.Spec.Hash

/-! # Specification: HMAC (RFC 2104) with the hash GOST 34.311-95 and blocks of 32 bytes, and PBKDF2 (RFC 8018, 5.2) -/

namespace Dstu.Spec

/-- The key made up to a block: long keys are hashed, then zeros are added. -/
def hmacKey (T : Fin 8 → BitVec 4 → BitVec 4) (key : List (BitVec 8)) : List (BitVec 8) :=
  let k := if key.length ≤ 32 then key else (gost34311 T key).toList
  k ++ List.replicate (32 - k.length) 0

/-- `H (K xor opad || H (K xor ipad || text))`. -/
def hmac (T : Fin 8 → BitVec 4 → BitVec 4) (key text : List (BitVec 8)) : Vector (BitVec 8) 32 :=
  gost34311 T ((hmacKey T key).map (0x5c ^^^ ·) ++ (gost34311 T ((hmacKey T key).map (0x36 ^^^ ·) ++ text)).toList)

/-- `U_1 = PRF (P, S || INT (i))`, `U_(c+1) = PRF (P, U_c)`; here `c` counts from 0. -/
def pbkdf2U (T : Fin 8 → BitVec 4 → BitVec 4) (P S : List (BitVec 8)) (i : Nat) : Nat → Vector (BitVec 8) 32
  | 0 => hmac T P (S ++ [BitVec.ofNat 8 (i / 2 ^ 24), BitVec.ofNat 8 (i / 2 ^ 16), BitVec.ofNat 8 (i / 2 ^ 8), BitVec.ofNat 8 i])
  | c + 1 => hmac T P (pbkdf2U T P S i c).toList

/-- `F (P, S, c + 1, i) = U_1 xor ... xor U_(c+1)`. -/
def pbkdf2F (T : Fin 8 → BitVec 4 → BitVec 4) (P S : List (BitVec 8)) (i : Nat) : Nat → Vector (BitVec 8) 32
  | 0 => pbkdf2U T P S i 0
  | c + 1 => Vector.zipWith (· ^^^ ·) (pbkdf2F T P S i c) (pbkdf2U T P S i (c + 1))

/-- The first `len` bytes of `T_1 || T_2 || ...`, with `iter` iterations. -/
def pbkdf2 (T : Fin 8 → BitVec 4 → BitVec 4) (P S : List (BitVec 8)) (iter len : Nat) : List (BitVec 8) :=
  ((List.range ((len + 31) / 32)).flatMap fun k => (pbkdf2F T P S (k + 1) (iter - 1)).toList).take len

end Dstu.Spec
