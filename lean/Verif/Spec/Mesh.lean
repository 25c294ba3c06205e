import Verif.Spec.Gost28147

/-! # Specification: change of keys during encryption

CryptoPro key meshing (RFC 4357, 2.3.2) and ACPKM for the Magma cipher (RFC 8645, 6.2.2; RFC 8891). -/

namespace Dstu.Spec

/-- Block `i` of a 256-bit string. -/
def block (k : Vector (BitVec 8) 32) (i : Fin 4) : Vector (BitVec 8) 8 := Vector.ofFn fun j : Fin 8 => k[8 * i.val + j.val]

/-- Four blocks one after the other. -/
def joined (b : Fin 4 → Vector (BitVec 8) 8) : Vector (BitVec 8) 32 :=
  Vector.ofFn fun q : Fin 32 => (b ⟨q.val / 8, by omega⟩)[q.val % 8]

/-- The constant `C` of RFC 4357, 2.3.2. -/
def meshC : Vector (BitVec 8) 32 :=
  #v[0x69, 0x00, 0x72, 0x22, 0x64, 0xC9, 0x04, 0x23, 0x8D, 0x3A, 0xDB, 0x96, 0x46, 0xE9, 0x2A, 0xC4,
     0x18, 0xFE, 0xAC, 0x94, 0x00, 0xED, 0x07, 0x12, 0xC0, 0x86, 0xDC, 0xC2, 0xEF, 0x4C, 0xA9, 0x2B]

/-- The next key: the constant decrypted in ECB mode under the present key. -/
def cryptoProKey (S : Fin 8 → BitVec 4 → BitVec 4) (k : Vector (BitVec 8) 32) : Vector (BitVec 8) 32 :=
  joined fun i => decrypt S k (block meshC i)

/-- Next key and next IV: the IV is encrypted under the next key. -/
def cryptoProMesh (S : Fin 8 → BitVec 4 → BitVec 4) (s : Vector (BitVec 8) 32 × Vector (BitVec 8) 8) :
    Vector (BitVec 8) 32 × Vector (BitVec 8) 8 :=
  (cryptoProKey S s.1, encrypt S (cryptoProKey S s.1) s.2)

/-- A key written with the most significant byte of each subkey first is the GOST 28147-89 key with the bytes of each
subkey in opposite order. -/
def magmaToGost (k : Vector (BitVec 8) 32) : Vector (BitVec 8) 32 :=
  Vector.ofFn fun q : Fin 32 => k[4 * (q.val / 4) + (3 - q.val % 4)]

/-- Magma (RFC 8891): GOST 28147-89 with blocks and subkeys written most significant byte first. -/
def magmaEncrypt (S : Fin 8 → BitVec 4 → BitVec 4) (k : Vector (BitVec 8) 32) (b : Vector (BitVec 8) 8) : Vector (BitVec 8) 8 :=
  (encrypt S (magmaToGost k) b.reverse).reverse

/-- The constant `D` of RFC 8645: the bytes 0x80, 0x81, ... -/
def acpkmD : Vector (BitVec 8) 32 := Vector.ofFn fun i => BitVec.ofNat 8 (0x80 + i.val)

/-- The next key: the blocks of `D` encrypted under the present key. -/
def acpkmKey (S : Fin 8 → BitVec 4 → BitVec 4) (k : Vector (BitVec 8) 32) : Vector (BitVec 8) 32 :=
  joined fun i => magmaEncrypt S k (block acpkmD i)

end Dstu.Spec
