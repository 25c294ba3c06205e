import Verif.Model.Bn
import Verif.Spec.Bytes
import Mathlib.Tactic.Ring
import Mathlib.Tactic.Linarith

/-! Big-endian encodings and byte reversal. -/

namespace Dstu

open Spec

theorem leValue_append (l m : List Byte) : leValue (l ++ m) = leValue l + 256 ^ l.length * leValue m := by
  induction l with
  | nil => simp [leValue]
  | cons b l ih => simp only [List.cons_append, leValue, ih, List.length_cons, pow_succ]; ring

theorem beValue_append (l m : List Byte) : beValue (l ++ m) = 256 ^ m.length * beValue l + beValue m := by
  unfold beValue
  rw [List.reverse_append, leValue_append, List.length_reverse]
  ring

theorem bin2bn_eq (l : List Byte) : bin2bn l = beValue l := by
  unfold bin2bn
  induction l using List.reverseRecOn with
  | nil => rfl
  | append_singleton l b ih =>
    rw [List.foldl_append, ih, beValue_append]
    simp [beValue, leValue]

theorem leValue_lt (l : List Byte) : leValue l < 256 ^ l.length := by
  induction l with
  | nil => simp [leValue]
  | cons b l ih =>
    have := b.isLt
    simp only [leValue, List.length_cons, pow_succ]
    omega

theorem beValue_lt (l : List Byte) : beValue l < 256 ^ l.length := by
  have := leValue_lt l.reverse
  rwa [List.length_reverse] at this

theorem leValue_injective {l m : List Byte} (hl : l.length = m.length) (h : leValue l = leValue m) : l = m := by
  induction l generalizing m with
  | nil => cases m <;> simp_all
  | cons b l ih =>
    cases m with
    | nil => simp at hl
    | cons c m =>
      simp only [leValue] at h
      have hb := b.isLt
      have hc := c.isLt
      have h1 : b.toNat = c.toNat := by omega
      have h2 : leValue l = leValue m := by omega
      rw [BitVec.eq_of_toNat_eq h1, ih (by simpa using hl) h2]

theorem beValue_injective {l m : List Byte} (hl : l.length = m.length) (h : beValue l = beValue m) : l = m := by
  have := leValue_injective (l := l.reverse) (m := m.reverse) (by simpa using hl) h
  exact List.reverse_injective this

theorem bytesBE_length (size n : Nat) : (bytesBE size n).length = size := by
  induction size with
  | zero => rfl
  | succ k ih => simp [bytesBE, ih]

theorem beValue_bytesBE (size n : Nat) : beValue (bytesBE size n) = n % 256 ^ size := by
  induction size with
  | zero => simp [bytesBE, beValue, leValue, Nat.mod_one]
  | succ k ih =>
    rw [bytesBE, ← List.singleton_append, beValue_append, ih, bytesBE_length]
    have : beValue [BitVec.ofNat 8 (n / 256 ^ k)] = n / 256 ^ k % 256 := by
      simp [beValue, leValue]
    rw [this, pow_succ, Nat.mod_mul]
    ring

theorem beValue_replicate (k : Nat) : beValue (List.replicate k (0 : Byte)) = 0 := by
  unfold beValue
  rw [List.reverse_replicate]
  induction k with
  | zero => rfl
  | succ k ih => simpa [List.replicate_succ, leValue] using ih

theorem numBits_le (n b : Nat) : numBits n ≤ b ↔ n < 2 ^ b := by
  unfold numBits
  split
  · rename_i h; subst h; simp
  · rename_i h
    rw [Nat.succ_le_iff, Nat.log2_lt h]

theorem numBits_pos (n : Nat) : 0 < numBits n ↔ n ≠ 0 := by
  unfold numBits; split <;> simp_all

theorem two_pow_numBits (n : Nat) (h : n ≠ 0) : 2 ^ (numBits n - 1) ≤ n := by
  by_contra hc
  have := (numBits_le n (numBits n - 1)).mpr (by omega)
  have := (numBits_pos n).mpr h
  omega

theorem lt_two_pow_numBits (n : Nat) : n < 2 ^ numBits n := (numBits_le n _).mp (le_refl _)

theorem numBytes_le (n b : Nat) : numBytes n ≤ b ↔ n < 256 ^ b := by
  have : (256 : Nat) ^ b = 2 ^ (8 * b) := by rw [pow_mul]; norm_num
  rw [this, ← numBits_le]
  unfold numBytes
  omega

theorem numBytes_pos (n : Nat) : 0 < numBytes n ↔ n ≠ 0 := by
  rw [← numBits_pos]
  unfold numBytes
  omega

theorem numBytes_mono {a b : Nat} (h : a ≤ b) : numBytes a ≤ numBytes b :=
  (numBytes_le a _).mpr (lt_of_le_of_lt h ((numBytes_le b _).mp (le_refl _)))

theorem beValue_bn2bin (n : Nat) : beValue (bn2bin n) = n := by
  rw [bn2bin, beValue_bytesBE, Nat.mod_eq_of_lt ((numBytes_le n _).mp (le_refl _))]

theorem bn2bin_length (n : Nat) : (bn2bin n).length = numBytes n := bytesBE_length _ _

theorem bn_encode_fits (n length : Nat) (h : n < 256 ^ length) :
    bn_encode n length = (numBytes n, some (bytesBE length n)) := by
  have hl : numBytes n ≤ length := (numBytes_le n length).mpr h
  unfold bn_encode
  simp only
  rw [if_neg (by omega)]
  congr 2
  apply beValue_injective
  · simp [bn2bin_length, bytesBE_length]; omega
  · rw [beValue_append, beValue_replicate, beValue_bn2bin, beValue_bytesBE, Nat.mod_eq_of_lt h]
    simp

theorem bn_encode_not_fits (n length : Nat) (h : ¬ n < 256 ^ length) : bn_encode n length = (0, none) := by
  unfold bn_encode
  simp only
  rw [if_pos]
  rw [← numBytes_le] at h
  omega

/-! ### Reversal -/

theorem swapStep_spec (l : List Byte) (i size : Nat) (hs : size ≤ l.length) (hi : i < size / 2) :
    ∃ l', swapStep l i size = some l' ∧ l'.length = l.length ∧
      ∀ j, l'[j]? = if j = i ∨ j = size - 1 - i then l[size - 1 - j]? else l[j]? := by
  have h1 : i < l.length := by omega
  have h2 : size - 1 - i < l.length := by omega
  unfold swapStep
  rw [List.getElem?_eq_getElem h1, List.getElem?_eq_getElem h2]
  refine ⟨_, rfl, by simp, ?_⟩
  intro j
  rw [List.getElem?_set, List.getElem?_set]
  simp only [List.length_set]
  by_cases ha : j = i
  · subst ha
    have : ¬ size - 1 - j = j := by omega
    simp [this, h1, List.getElem?_eq_getElem h2]
  · by_cases hb : j = size - 1 - i
    · subst hb
      have e : size - 1 - (size - 1 - i) = i := by omega
      rw [e]
      simp [h2, List.getElem?_eq_getElem h1]
    · simp [ha, hb, Ne.symm ha, Ne.symm hb]

theorem reverse_loop (l : List Byte) (size k : Nat) (hs : size ≤ l.length) (hk : k ≤ size / 2) :
    ∃ l', (List.range k).foldlM (fun m i => swapStep m i size) l = some l' ∧ l'.length = l.length ∧
      ∀ j, l'[j]? = if j < k ∨ (size - k ≤ j ∧ j < size) then l[size - 1 - j]? else l[j]? := by
  induction k with
  | zero => exact ⟨l, rfl, rfl, fun j => by
      rw [if_neg (by omega)]⟩
  | succ k ih =>
    obtain ⟨l1, h1, hl1, hj1⟩ := ih (by omega)
    obtain ⟨l2, h2, hl2, hj2⟩ := swapStep_spec l1 k size (by omega) (by omega)
    refine ⟨l2, ?_, by omega, ?_⟩
    · rw [List.range_succ, List.foldlM_append, h1]
      simpa using h2
    · intro j
      rw [hj2 j]
      by_cases hc : j = k ∨ j = size - 1 - k
      · rw [if_pos hc, if_pos (by omega), hj1, if_neg (by omega)]
      · rw [if_neg hc, hj1]
        by_cases hd : j < k ∨ (size - k ≤ j ∧ j < size)
        · rw [if_pos hd, if_pos (by omega)]
        · rw [if_neg hd, if_neg (by omega)]

theorem reverse_bytes_eq (l : List Byte) : reverse_bytes l l.length = some l.reverse := by
  obtain ⟨l', h, hl, hj⟩ := reverse_loop l l.length (l.length / 2) (le_refl _) (le_refl _)
  rw [reverse_bytes, h]
  congr 1
  apply List.ext_getElem?
  intro j
  rw [hj j]
  by_cases hlt : j < l.length
  · rw [List.getElem?_reverse hlt]
    split
    · rfl
    · congr 1; omega
  · rw [List.getElem?_eq_none (by simpa using hlt : (l.reverse).length ≤ j)]
    rw [if_neg (by omega)]
    exact List.getElem?_eq_none (by omega)

theorem reverse_bytes_copy_eq (l : List Byte) : reverse_bytes_copy l l.length = some l.reverse := by
  unfold reverse_bytes_copy
  have h : ∀ k ≤ l.length, (List.range k).mapM (fun i => l[l.length - 1 - i]?) = some (l.reverse.take k) := by
    intro k hk
    induction k with
    | zero => rfl
    | succ k ih =>
      have hlt : k < l.reverse.length := by simp; omega
      rw [List.range_succ, List.mapM_append, ih (by omega), List.take_succ_eq_append_getElem hlt]
      have : l[l.length - 1 - k]? = some l.reverse[k] := by
        rw [← List.getElem?_eq_getElem hlt, List.getElem?_reverse (by simpa using hlt)]
      simp [this]
  rw [h _ (le_refl _)]
  congr 1
  simp [List.take_of_length_le]

end Dstu
