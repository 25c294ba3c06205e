import Verif.Model.Asn1
import Verif.Lemmas.Bytes

/-! A decoder of octet strings with the behaviour `OctetDecoder` asks for. -/

namespace Dstu

open Spec

/-- Primitive octet string at the start of the input. -/
def parseOctet : List Byte → Option (List Byte)
  | [] => none
  | b :: l =>
    if b ≠ 0x04 then none
    else
      match parseLen l with
      | none => none
      | some (n, r) => if r.length < n then none else some (r.take n)

theorem numBytes_small (n : Nat) (h : n < 2 ^ 28) : numBytes n ≤ 4 :=
  (numBytes_le n 4).mpr (lt_trans h (by norm_num))

theorem parseLen_derLen (n : Nat) (hn : n < 2 ^ 28) (r : List Byte) : parseLen (derLen n ++ r) = some (n, r) := by
  unfold derLen
  split
  · rename_i h
    have e : (BitVec.ofNat 8 n).toNat = n := by simp; omega
    simp only [List.singleton_append, parseLen, e, h, if_true]
  · rename_i h
    have h4 := numBytes_small n hn
    have h1 : 0 < numBytes n := (numBytes_pos n).mpr (by omega)
    have e : (BitVec.ofNat 8 (128 + numBytes n)).toNat = 128 + numBytes n := by simp; omega
    have e2 : 128 + numBytes n - 128 = numBytes n := by omega
    simp only [List.cons_append, parseLen, e, e2]
    rw [if_neg (by omega), if_neg (by simp [bn2bin_length]; omega),
      List.take_left' (bn2bin_length n), List.drop_left' (bn2bin_length n), bin2bn_eq, beValue_bn2bin]

/-- The decoder. -/
def octetDecoder : OctetDecoder where
  d2i := parseOctet
  der c rest hc := by
    simp only [i2d_octet, List.cons_append, List.append_assoc, parseOctet, ne_eq, not_true, if_false,
      parseLen_derLen _ hc]
    rw [if_neg (by simp), List.take_left' rfl]
  tag b rest h1 _ _ _ := by
    simp only [parseOctet]
    rw [if_pos h1]

end Dstu
