import Verif.Model.Basic
import Verif.Spec.GF2

/-! OpenSSL big numbers, as far as the engine uses them, and the helpers of params.c around them.

`BIGNUM`s are natural numbers (the engine never makes a negative one).  Allocation failures are not
modelled.  The functions of OpenSSL are not part of the repository: the definitions here state what
they are documented to compute. -/

namespace Dstu

open Spec

/-- OpenSSL `BN_bin2bn`: big-endian bytes to number (used at dstulib/params.c:429-449). -/
def bin2bn (l : List Byte) : Nat := l.foldl (fun acc b => 256 * acc + b.toNat) 0

/-- OpenSSL `BN_num_bits` (used at engine/sign.c:17, dstulib/compress.c:25). -/
def numBits (n : Nat) : Nat := if n = 0 then 0 else n.log2 + 1

/-- OpenSSL `BN_num_bytes`: `(BN_num_bits(a) + 7) / 8` (used at dstulib/params.c:610). -/
def numBytes (n : Nat) : Nat := (numBits n + 7) / 8

/-- The `size` low-order bytes of a number, most significant first. -/
def bytesBE : Nat → Nat → List Byte
  | 0, _ => []
  | size + 1, n => BitVec.ofNat 8 (n / 256 ^ size) :: bytesBE size n

/-- OpenSSL `BN_bn2bin`: the bytes without leading zeros; the C function returns their number
(used at dstulib/params.c:615). -/
def bn2bin (n : Nat) : List Byte := bytesBE (numBytes n) n

/-- dstulib/params.c:608-616 `bn_encode`.  The result is the return value and, if the buffer was
written, its contents.  The return value is that of `BN_bn2bin`, so it is 0 for the number 0 although
the buffer has been filled with zeros.  `length` is an `int`; the engine never passes a negative one. -/
def bn_encode (bn length : Nat) : Nat × Option (List Byte) :=
  let bn_size := numBytes bn
  if length < bn_size then (0, none)
  else (bn_size, some (List.replicate (length - bn_size) 0 ++ bn2bin bn))

/-- One step of the loop of `reverse_bytes`, dstulib/params.c:577-579: exchange bytes `i` and
`size - 1 - i`.  `none`: access outside the array. -/
def swapStep (l : List Byte) (i size : Nat) : Option (List Byte) :=
  match l[i]?, l[size - 1 - i]? with
  | some x, some y => some ((l.set i y).set (size - 1 - i) x)
  | _, _ => none

/-- dstulib/params.c:569-581 `reverse_bytes` on the first `size` bytes of a memory block. -/
def reverse_bytes (mem : List Byte) (size : Nat) : Option (List Byte) :=
  (List.range (size / 2)).foldlM (fun m i => swapStep m i size) mem

/-- dstulib/params.c:583-591 `reverse_bytes_copy`: the `size` bytes written to `dst`. -/
def reverse_bytes_copy (src : List Byte) (size : Nat) : Option (List Byte) :=
  (List.range size).mapM fun i => src[size - 1 - i]?

/-- OpenSSL `BN_GF2m_mod`: reduction of a polynomial modulo `p`
(inside `EC_GROUP_new_curve_GF2m`, dstulib/params.c:433). -/
noncomputable def gf2m_mod (p a : Nat) : Nat := GF.toNat (GF.ofNat p a)

/-- OpenSSL `BN_GF2m_mod_mul` (used at engine/sign.c:126, dstulib/compress.c:84). -/
noncomputable def gf2m_mul (p a b : Nat) : Nat := GF.toNat (GF.ofNat p a * GF.ofNat p b)

/-- OpenSSL `BN_GF2m_mod_sqr` (used at dstulib/compress.c:27). -/
noncomputable def gf2m_sqr (p a : Nat) : Nat := GF.toNat (GF.ofNat p a * GF.ofNat p a)

open Classical in
/-- OpenSSL `BN_GF2m_mod_inv`; `none` is failure: the element has no inverse
(used at dstulib/compress.c:81). -/
noncomputable def gf2m_inv (p a : Nat) : Option Nat :=
  if h : ∃ x : GF p, GF.ofNat p a * x = 1 then some (GF.toNat h.choose) else none

/-- OpenSSL `BN_GF2m_mod_sqrt`: the power `2^(m-1)`, `m` the degree of `p`
(used at dstulib/compress.c:149). -/
noncomputable def gf2m_sqrt (p a : Nat) : Nat := GF.toNat (GF.ofNat p a ^ 2 ^ (p.log2 - 1))

end Dstu
