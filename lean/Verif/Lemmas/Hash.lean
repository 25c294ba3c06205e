import Verif.Lemmas.Mac
import Verif.Model.Hash
import Verif.Spec.Hash
import Mathlib.Tactic.IntervalCases

namespace Dstu

/-! ### 256-bit values as bytes -/

theorem leNat_lt (l : List Byte) : Spec.leNat l < 256 ^ l.length := by
  induction l with
  | nil => simp [Spec.leNat]
  | cons b l ih =>
    simp only [Spec.leNat, List.length_cons, Nat.pow_succ]
    have := b.isLt
    omega

theorem leNat_digit (l : List Byte) (i : Nat) :
    (Spec.leNat l / 256 ^ i) % 256 = ((l[i]?).getD 0).toNat := by
  induction l generalizing i with
  | nil => simp [Spec.leNat]
  | cons b l ih =>
    have hb := b.isLt
    cases i with
    | zero => simp [Spec.leNat]; omega
    | succ i =>
      simp only [Spec.leNat, Nat.pow_succ, List.getElem?_cons_succ]
      rw [Nat.mul_comm (256 ^ i), ← Nat.div_div_eq_div_mul]
      rw [show (b.toNat + 256 * Spec.leNat l) / 256 = Spec.leNat l by omega]
      exact ih i

theorem leNat_inj (a b : List Byte) (h : a.length = b.length) (e : Spec.leNat a = Spec.leNat b) :
    a = b := by
  apply List.ext_getElem h
  intro i h1 h2
  have ha := leNat_digit a i
  have hb := leNat_digit b i
  rw [e, hb] at ha
  simp only [List.getElem?_eq_getElem h1, List.getElem?_eq_getElem h2, Option.getD_some] at ha
  exact (BitVec.eq_of_toNat_eq ha).symm

theorem toBytes_getElem (x : BitVec 256) (i : Nat) (hi : i < 32) :
    (Spec.toBytes x)[i] = x.extractLsb' (8 * i) 8 := by
  simp [Spec.toBytes]

theorem toBytes_ofBytes (v : Bytes 32) : Spec.toBytes (Spec.ofBytes v) = v := by
  apply Vector.ext
  intro i hi
  rw [toBytes_getElem]
  apply BitVec.eq_of_toNat_eq
  simp only [Spec.ofBytes, BitVec.extractLsb'_toNat, BitVec.toNat_ofNat]
  have hlt := leNat_lt v.toList
  simp only [Vector.length_toList] at hlt
  have h256 : (256 : Nat) ^ 32 = 2 ^ 256 := by norm_num
  rw [h256] at hlt
  rw [Nat.mod_eq_of_lt hlt, Nat.shiftRight_eq_div_pow, Nat.pow_mul]
  have := leNat_digit v.toList i
  simpa [hi] using this

theorem toBytes_inj {x y : BitVec 256} (h : Spec.toBytes x = Spec.toBytes y) : x = y := by
  apply BitVec.eq_of_getLsbD_eq
  intro i hi
  have hb : (Spec.toBytes x)[i / 8]'(by omega) = (Spec.toBytes y)[i / 8]'(by omega) := by rw [h]
  rw [toBytes_getElem, toBytes_getElem] at hb
  have := congrArg (fun b => b.getLsbD (i % 8)) hb
  simp only [BitVec.getLsbD_extractLsb'] at this
  rw [show 8 * (i / 8) + i % 8 = i by omega] at this
  have h8 : i % 8 < 8 := by omega
  simpa [h8] using this

theorem ofBytes_toBytes (x : BitVec 256) : Spec.ofBytes (Spec.toBytes x) = x :=
  toBytes_inj (toBytes_ofBytes _)

theorem toBytes_xor (x y : BitVec 256) :
    Spec.toBytes (x ^^^ y) = xorV (Spec.toBytes x) (Spec.toBytes y) := by
  apply Vector.ext
  intro i hi
  simp only [xorV, Vector.getElem_zipWith, toBytes_getElem]
  apply BitVec.eq_of_getLsbD_eq
  intro j hj
  simp [hj]

theorem toBytes_hA (y : BitVec 256) : Spec.toBytes (Spec.hA y) = circle_xor8 (Spec.toBytes y) := by
  apply Vector.ext
  intro i hi
  rw [toBytes_getElem]
  simp only [circle_xor8, Vector.getElem_ofFn, toBytes_getElem]
  apply BitVec.eq_of_getLsbD_eq
  intro j hj
  interval_cases i <;>
    simp [Spec.hA, Spec.part64, hj] <;> grind

theorem hP_eq (y : BitVec 256) : Spec.hP y = swap_bytes (Spec.toBytes y) := by
  apply Vector.ext
  intro i hi
  simp [Spec.hP, swap_bytes, Spec.toBytes]

theorem toBytes_hC3 (u : BitVec 256) :
    Spec.toBytes (u ^^^ Spec.hC3) = complementU (Spec.toBytes u) := by
  have hc : ∀ i : Fin 32, (Spec.toBytes Spec.hC3)[i] =
      if complemented.contains i.val then 0xff#8 else 0#8 := by decide
  rw [toBytes_xor]
  apply Vector.ext
  intro i hi
  have := hc ⟨i, hi⟩
  simp only [Fin.getElem_fin] at this
  simp only [xorV, Vector.getElem_zipWith, this, complementU, Vector.getElem_ofFn, Fin.getElem_fin]
  split
  · generalize (Spec.toBytes u)[i] = b
    apply BitVec.eq_of_getLsbD_eq
    intro j hj
    interval_cases j <;> simp
  · simp

theorem block64_eq (h : BitVec 256) (i : Fin 4) :
    Spec.block64 (Spec.part64 h i.val) = octets (Spec.toBytes h) i := by
  apply Vector.ext
  intro j hj
  simp only [Spec.block64, Spec.part64, octets, Vector.getElem_ofFn, toBytes_getElem]
  apply BitVec.eq_of_getLsbD_eq
  intro k hk
  simp [hk]
  have : 8 * j + k < 64 := by omega
  simp [this]
  congr 1
  omega

theorem ofBlock64_ext (b : Bytes 8) (i : Nat) (hi : i < 8) :
    (Spec.ofBlock64 b).extractLsb' (8 * i) 8 = b[i] := by
  apply BitVec.eq_of_getLsbD_eq
  intro j hj
  simp only [Spec.ofBlock64, BitVec.getLsbD_extractLsb', hj, decide_true, Bool.true_and,
    BitVec.getLsbD_append]
  interval_cases i <;> interval_cases j <;> simp

theorem ext4 (A B C D : BitVec 64) (i : Nat) (hi : i < 32) :
    (D ++ C ++ B ++ A : BitVec 256).extractLsb' (8 * i) 8 =
      if i < 8 then A.extractLsb' (8 * i) 8 else if i < 16 then B.extractLsb' (8 * (i - 8)) 8
      else if i < 24 then C.extractLsb' (8 * (i - 16)) 8 else D.extractLsb' (8 * (i - 24)) 8 := by
  apply BitVec.eq_of_getLsbD_eq
  intro j hj
  interval_cases i <;> simp [hj] <;> grind

theorem toBytes_join (a b c d : Bytes 8) :
    Spec.toBytes (Spec.ofBlock64 d ++ Spec.ofBlock64 c ++ Spec.ofBlock64 b ++ Spec.ofBlock64 a) =
      join4 a b c d := by
  apply Vector.ext
  intro i hi
  rw [toBytes_getElem, ext4 _ _ _ _ i hi]
  simp only [join4, Vector.getElem_ofFn]
  split
  · rw [ofBlock64_ext]
  · split
    · rw [ofBlock64_ext]
    · split
      · rw [ofBlock64_ext]
      · rw [ofBlock64_ext]

theorem toBytes_hPsi (y : BitVec 256) : Spec.toBytes (Spec.hPsi y) = transform_3 (Spec.toBytes y) := by
  apply Vector.ext
  intro i hi
  rw [toBytes_getElem]
  simp only [transform_3, Vector.getElem_ofFn, toBytes_getElem]
  apply BitVec.eq_of_getLsbD_eq
  intro j hj
  interval_cases i <;>
    simp [Spec.hPsi, Spec.part16, hj] <;> grind

end Dstu
