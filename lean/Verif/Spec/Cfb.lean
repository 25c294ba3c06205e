/-!
# Specification: 64-bit cipher feedback mode

`E` is the block encryption.  Every key stream block is the encryption of the previous ciphertext
block, the first one of the initial value; a last incomplete block uses the beginning of its key
stream block.
-/

namespace Dstu.Spec

/-- CFB encryption of a message of any length. -/
def cfbEncrypt (E : Vector (BitVec 8) 8 → Vector (BitVec 8) 8) (iv : Vector (BitVec 8) 8)
    (m : List (BitVec 8)) : List (BitVec 8) :=
  if h : 8 < m.length then
    let c : Vector (BitVec 8) 8 := Vector.ofFn fun i => m[i.val] ^^^ (E iv)[i]
    c.toList ++ cfbEncrypt E c (m.drop 8)
  else List.zipWith (· ^^^ ·) m (E iv).toList
termination_by m.length
decreasing_by simp; omega

/-- CFB decryption of a ciphertext of any length. -/
def cfbDecrypt (E : Vector (BitVec 8) 8 → Vector (BitVec 8) 8) (iv : Vector (BitVec 8) 8)
    (c : List (BitVec 8)) : List (BitVec 8) :=
  if h : 8 < c.length then
    let blk : Vector (BitVec 8) 8 := Vector.ofFn fun i => c[i.val]
    List.zipWith (· ^^^ ·) blk.toList (E iv).toList ++ cfbDecrypt E blk (c.drop 8)
  else List.zipWith (· ^^^ ·) c (E iv).toList
termination_by c.length
decreasing_by simp; omega

/-- CFB encryption whose first key stream block is `b`, whatever it comes from; all later key stream
blocks are the encryption of the ciphertext block before them. -/
def cfbEncryptFrom (E : Vector (BitVec 8) 8 → Vector (BitVec 8) 8) (b : Vector (BitVec 8) 8)
    (m : List (BitVec 8)) : List (BitVec 8) :=
  if h : 8 < m.length then
    let c : Vector (BitVec 8) 8 := Vector.ofFn fun i => m[i.val] ^^^ b[i]
    c.toList ++ cfbEncrypt E c (m.drop 8)
  else List.zipWith (· ^^^ ·) m b.toList

/-- CFB decryption whose first key stream block is `b`. -/
def cfbDecryptFrom (E : Vector (BitVec 8) 8 → Vector (BitVec 8) 8) (b : Vector (BitVec 8) 8)
    (c : List (BitVec 8)) : List (BitVec 8) :=
  if h : 8 < c.length then
    let blk : Vector (BitVec 8) 8 := Vector.ofFn fun i => c[i.val]
    List.zipWith (· ^^^ ·) blk.toList b.toList ++ cfbDecrypt E blk (c.drop 8)
  else List.zipWith (· ^^^ ·) c b.toList

end Dstu.Spec
