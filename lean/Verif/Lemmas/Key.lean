import Verif.Model.Key
import Verif.Lemmas.Compress
import Verif.Lemmas.Bytes
import Verif.Lemmas.GF2

/-! Lemmas about key parameters. -/

namespace Dstu

open Spec Polynomial

/-- The set bits in ascending order. -/
def bitList (p : Nat) : List Nat := (List.range (p.log2 + 1)).filter p.testBit

theorem mem_bitList {p i : Nat} (hp : p ≠ 0) : i ∈ bitList p ↔ p.testBit i = true := by
  unfold bitList
  rw [List.mem_filter, List.mem_range]
  refine ⟨fun h => h.2, fun h => ⟨?_, h⟩⟩
  by_contra hc
  rw [Nat.testBit_lt_two_pow (Nat.lt_of_lt_of_le Nat.lt_log2_self (Nat.pow_le_pow_right (by omega) (by omega)))] at h
  cases h

theorem bitList_sorted (p : Nat) : (bitList p).Pairwise (· < ·) :=
  (List.pairwise_lt_range).filter _

theorem log2_mem (p : Nat) (hp : p ≠ 0) : p.log2 ∈ bitList p := by
  rw [mem_bitList hp]
  exact Nat.testBit_log2 hp

theorem bitList_le {p i : Nat} (h : i ∈ bitList p) : i ≤ p.log2 := by
  unfold bitList at h
  rw [List.mem_filter, List.mem_range] at h
  omega

theorem arr2poly_testBit (l : List Nat) (i : Nat) :
    (arr2poly (l.map Int.ofNat ++ [-1])).testBit i = decide (i ∈ l) := by
  unfold arr2poly
  have : ((l.map Int.ofNat ++ [-1]).takeWhile (· ≠ -1)) = l.map Int.ofNat := by
    rw [List.takeWhile_append_of_pos]
    · simp
    · intro a ha
      simp only [List.mem_map] at ha
      obtain ⟨b, _, rfl⟩ := ha
      simp only [ne_eq, decide_not, Bool.not_eq_eq_eq_not, Bool.not_true, decide_eq_false_iff_not]
      have : (0 : Int) ≤ Int.ofNat b := Int.natCast_nonneg b
      omega
  rw [this]
  clear this
  induction l with
  | nil => simp
  | cons k l ih =>
    simp only [List.map_cons, List.foldr_cons, Nat.testBit_or, ih, List.mem_cons, Bool.decide_or]
    congr 1
    have : (Int.ofNat k).toNat = k := rfl
    rw [this, Nat.testBit_two_pow]
    by_cases h : k = i
    · subst h; simp
    · simp [h, Ne.symm h]

/-- The polynomial is determined by its exponents, in whatever order they are listed. -/
theorem arr2poly_eq {p : Nat} (hp : p ≠ 0) (l : List Nat) (h : ∀ i, i ∈ l ↔ i ∈ bitList p) :
    arr2poly (l.map Int.ofNat ++ [-1]) = p := by
  apply Nat.eq_of_testBit_eq
  intro i
  rw [arr2poly_testBit]
  by_cases hi : p.testBit i = true
  · rw [hi, decide_eq_true_eq, h, mem_bitList hp]; exact hi
  · have : ¬ i ∈ l := by rw [h, mem_bitList hp]; exact hi
    simp [this, hi]

/-- A field polynomial other than X has a constant term. -/
theorem irreducible_odd {p : Nat} (h : Irreducible (bitPoly p)) (hp : p ≠ 2) : p.testBit 0 = true := by
  by_contra h0
  have hc : (bitPoly p).coeff 0 = 0 := by rw [bitPoly_coeff, if_neg h0]
  have hX : (X : (ZMod 2)[X]) ∣ bitPoly p := X_dvd_iff.mpr hc
  have := (Polynomial.irreducible_X (R := ZMod 2)).associated_of_dvd h hX
  have he : (X : (ZMod 2)[X]) = bitPoly p := eq_of_monic_of_associated monic_X
    (bitPoly_monic p (by have := irreducible_pos p h; omega)) this
  apply hp
  apply bitPoly_injective
  rw [← he]
  have := bitPoly_polyBits (X : (ZMod 2)[X])
  rw [← this]
  congr 1
  unfold polyBits
  rw [support_X]
  simp

theorem poly2arr_eq (p : Nat) (h : (bitList p).length ≤ 5) :
    poly2arr p = (bitList p).reverse.map Int.ofNat ++ [-1] := by
  unfold poly2arr
  rw [List.take_of_length_le]
  · rfl
  · simp [bitList] at h ⊢; omega

/-- Trinomials and pentanomials. -/
theorem weight_cases {p : Nat} (hirr : Irreducible (bitPoly p)) (hw : weight p = 3 ∨ weight p = 5) :
    (∃ k, 0 < k ∧ k < p.log2 ∧ bitList p = [0, k, p.log2]) ∨
    (∃ k j l, 0 < k ∧ k < j ∧ j < l ∧ l < p.log2 ∧ bitList p = [0, k, j, l, p.log2]) := by
  have hp := irreducible_pos p hirr
  have hw' : (bitList p).length = 3 ∨ (bitList p).length = 5 := hw
  have h2 : p ≠ 2 := by
    rintro rfl
    revert hw'
    decide
  have h0 : 0 ∈ bitList p := (mem_bitList (by omega)).mpr (irreducible_odd hirr h2)
  have hm := log2_mem p (by omega)
  have hle : ∀ i ∈ bitList p, i ≤ p.log2 := fun i hi => bitList_le hi
  have hs := bitList_sorted p
  rcases hw' with h | h
  · obtain ⟨x, y, z, he⟩ := List.length_eq_three.mp h
    rw [he] at h0 hm hle hs ⊢
    left
    simp only [List.mem_cons, List.not_mem_nil, or_false, List.pairwise_cons, forall_eq_or_imp, forall_eq] at h0 hm hle hs
    refine ⟨y, ?_, ?_, ?_⟩
    · omega
    · omega
    · congr 1
      · omega
      · congr 1
        congr 1
        omega
  · match hb : bitList p, h with
    | [x, k, j, l, z], _ =>
      rw [hb] at h0 hm hle hs
      right
      simp only [List.mem_cons, List.not_mem_nil, or_false, List.pairwise_cons, forall_eq_or_imp, forall_eq] at h0 hm hle hs
      refine ⟨k, j, l, ?_, ?_, ?_, ?_, ?_⟩
      · omega
      · omega
      · omega
      · omega
      · rw [show x = 0 by omega, show z = p.log2 by omega]

theorem asn1_integer_get_small (n : Nat) (h : n < 2 ^ 31) : asn1_integer_get n = n := by
  unfold asn1_integer_get
  rw [if_neg (by omega)]
  apply Int.bmod_eq_of_le <;> norm_num <;> omega

/-- Field description and exponent array are inverse to each other. -/
theorem field_round_trip {p : Nat} (hirr : Irreducible (bitPoly p)) (hw : weight p = 3 ∨ weight p = 5)
    (hdeg : p.log2 < 2 ^ 31) :
    ∃ poly arr, fieldSpec (poly2arr p) = some ((p.log2 : Int), poly) ∧ polyArray p.log2 poly = some arr ∧
      arr2poly arr = p := by
  have hp := irreducible_pos p hirr
  rcases weight_cases hirr hw with ⟨k, h1, h2, he⟩ | ⟨k, j, l, h1, h2, h3, h4, he⟩
  · refine ⟨.trinomial k, [(p.log2 : Int), k, 0, -1], ?_, ?_, ?_⟩
    · rw [poly2arr_eq p (by rw [he]; simp), he]
      simp [fieldSpec]
    · unfold polyArray
      simp only [asn1_integer_get_small p.log2 hdeg, asn1_integer_get_small k (by omega)]
      rw [if_neg (by omega), if_neg (by omega)]
    · have := arr2poly_eq (p := p) (by omega) [p.log2, k, 0] (by intro i; rw [he]; simp; tauto)
      simpa using this
  · refine ⟨.pentanomial k j l, [(p.log2 : Int), l, j, k, 0, -1], ?_, ?_, ?_⟩
    · rw [poly2arr_eq p (by rw [he]; simp), he]
      simp only [fieldSpec]
      rw [if_neg, if_pos]
      · simp
      · simp
      · simp
    · unfold polyArray
      simp only [asn1_integer_get_small p.log2 hdeg, asn1_integer_get_small k (by omega),
        asn1_integer_get_small j (by omega), asn1_integer_get_small l (by omega)]
      rw [if_neg (by omega), if_neg (by omega), if_neg (by omega), if_neg (by omega)]
    · have := arr2poly_eq (p := p) (by omega) [p.log2, l, j, k, 0] (by intro i; rw [he]; simp; tauto)
      simpa using this

theorem maybeReverse_copy (le : Bool) (l : List Byte) (hl : l ≠ []) :
    ∃ r, maybeReverse le l = some r ∧ maybeReverseCopy le r = some l := by
  cases le with
  | false => exact ⟨l, rfl, rfl⟩
  | true =>
    refine ⟨l.reverse, by simp only [maybeReverse, if_true, reverse_bytes_eq], ?_⟩
    simp only [maybeReverseCopy, if_true]
    rw [if_neg (by simpa using hl), reverse_bytes_copy_eq, List.reverse_reverse]

end Dstu
