import Verif.Spec.KeyCtx
import Verif.Lemmas.Bytes

/-! Hexadecimal strings. -/

namespace Dstu

open Spec

theorem hexVal_eq : ∀ c : Byte, hexVal c = hexDigit c := by decide +kernel

theorem hexDigit_lt (c : Byte) (d : Nat) (h : hexDigit c = some d) : d < 16 := by
  unfold hexDigit at h
  simp only at h
  split_ifs at h <;> cases h <;> omega

theorem hexPrefix_get (v : List Byte) (j : Nat) (hj : j < (hexPrefix v).length) :
    hexDigit (v.getD j 0) = some (hexPrefix v)[j] := by
  induction v generalizing j with
  | nil => simp [hexPrefix] at hj
  | cons c v ih =>
    cases hd : hexDigit c with
    | none => simp [hexPrefix, hd] at hj
    | some d =>
      simp only [hexPrefix, hd] at hj ⊢
      cases j with
      | zero => simpa using hd
      | succ j => simpa using ih j (by simpa using hj)

theorem hexPrefix_length (v : List Byte) (n : Nat) : (hexPrefix v).length = n ↔
    n ≤ v.length ∧ (∀ c ∈ v.take n, (hexDigit c).isSome) ∧ (∀ c, v[n]? = some c → hexDigit c = none) := by
  induction v generalizing n with
  | nil => cases n <;> simp [hexPrefix]
  | cons c v ih =>
    cases hd : hexDigit c with
    | none =>
      cases n with
      | zero => simp [hexPrefix, hd]
      | succ n => simp [hexPrefix, hd]
    | some d =>
      cases n with
      | zero => simp [hexPrefix, hd]
      | succ n => simp [hexPrefix, hd, ih]

/-- Two digits to a byte. -/
def pairs : List Nat → List Byte
  | a :: b :: l => BitVec.ofNat 8 (16 * a + b) :: pairs l
  | _ => []

theorem pairs_length (k : Nat) : ∀ l : List Nat, l.length = 2 * k → (pairs l).length = k := by
  induction k with
  | zero => intro l hl; have : l = [] := List.length_eq_zero_iff.mp hl; subst this; rfl
  | succ k ih =>
    intro l hl
    match l, hl with
    | a :: b :: l, hl => simp [pairs, ih l (by simp at hl; omega)]

theorem pairs_get (k : Nat) : ∀ l : List Nat, l.length = 2 * k → ∀ i, i < k →
    (pairs l)[i]? = some (BitVec.ofNat 8 (16 * l.getD (2 * i) 0 + l.getD (2 * i + 1) 0)) := by
  induction k with
  | zero => intro l _ i hi; omega
  | succ k ih =>
    intro l hl i hi
    match l, hl with
    | a :: b :: l, hl =>
      cases i with
      | zero => simp [pairs]
      | succ i =>
        simp only [pairs, List.getElem?_cons_succ]
        rw [ih l (by simp at hl; omega) i (by omega)]
        rfl

theorem pairs_value (k : Nat) : ∀ l : List Nat, l.length = 2 * k → (∀ d ∈ l, d < 16) → ∀ acc,
    l.foldl (fun v d => 16 * v + d) acc = 256 ^ k * acc + beValue (pairs l) := by
  induction k with
  | zero => intro l hl _ acc; have : l = [] := List.length_eq_zero_iff.mp hl; subst this; simp [pairs, beValue, leValue]
  | succ k ih =>
    intro l hl hd acc
    match l, hl with
    | a :: b :: l, hl =>
      have ha := hd a (by simp)
      have hb := hd b (by simp)
      have hl' : l.length = 2 * k := by simp at hl; omega
      simp only [List.foldl_cons]
      rw [ih l hl' (fun d h => hd d (by simp [h]))]
      have : pairs (a :: b :: l) = [BitVec.ofNat 8 (16 * a + b)] ++ pairs l := rfl
      rw [this, beValue_append, pairs_length k l hl']
      have : beValue [BitVec.ofNat 8 (16 * a + b)] = 16 * a + b := by
        simp only [beValue, List.reverse_singleton, leValue, BitVec.toNat_ofNat]
        omega
      rw [this, pow_succ]
      ring

/-- The string control reads the S-box the string describes. -/
theorem string_sbox (value : List Byte) :
    (∃ s : Bytes 64, sboxOfString value = some s ∧ ∃ v, BN_hex2bn value = (128, false, v) ∧
      ∃ k, bn_encode v 64 = (k + 1, some s.toList)) ∨
    (sboxOfString value = none ∧ ∀ v, BN_hex2bn value = (128, false, v) → (bn_encode v 64).1 = 0) := by
  have hspec : (128 ≤ value.length ∧ (∀ c ∈ value.take 128, (hexVal c).isSome) ∧
      (∀ c, value[128]? = some c → hexVal c = none)) ↔ (hexPrefix value).length = 128 := by
    simp only [hexVal_eq]
    exact (hexPrefix_length value 128).symm
  by_cases hneg : value.head? = some 45
  · right
    obtain ⟨rest, rfl⟩ : ∃ rest, value = 45 :: rest := by
      cases value with
      | nil => cases hneg
      | cons c r => simp at hneg; exact ⟨r, by rw [hneg]; rfl⟩
    have hlen : (hexPrefix (45 :: rest)).length ≠ 128 := by
      have : hexDigit 45 = none := by decide
      simp only [hexPrefix, this]
      simp
    constructor
    · unfold sboxOfString
      rw [if_neg (mt hspec.mp hlen)]
    · intro v hv
      simp only [BN_hex2bn, decide_true, if_true, List.drop_one, List.tail_cons, Bool.true_and] at hv
      split at hv
      · simp at hv
      · simp only [Prod.mk.injEq] at hv
        obtain ⟨_, h2, h3⟩ := hv
        have : v = 0 := by
          subst h3
          simpa using h2
        subst this
        rw [bn_encode_fits 0 64 (by positivity)]
        rfl
  · have hb : BN_hex2bn value = if hexPrefix value = [] then (0, false, 0)
        else ((hexPrefix value).length, false, (hexPrefix value).foldl (fun v d => 16 * v + d) 0) := by
      unfold BN_hex2bn
      cases value with
      | nil => simp
      | cons c r =>
        have hc : ¬ c = 45 := by simpa using hneg
        simp only [hc, decide_false, Bool.false_eq_true, if_false, Bool.false_and, Nat.add_zero]
    by_cases hlen : (hexPrefix value).length = 128
    · have hne : hexPrefix value ≠ [] := by intro h; rw [h] at hlen; simp at hlen
      rw [if_neg hne, hlen] at hb
      have hlt : ∀ d ∈ hexPrefix value, d < 16 := by
        intro d hd
        obtain ⟨j, hj, rfl⟩ := List.getElem_of_mem hd
        exact hexDigit_lt _ _ (hexPrefix_get value j hj)
      have hval := pairs_value 64 (hexPrefix value) hlen hlt 0
      rw [Nat.mul_zero, Nat.zero_add] at hval
      rw [hval] at hb
      have hpl := pairs_length 64 (hexPrefix value) hlen
      have hfit := bn_encode_fits (beValue (pairs (hexPrefix value))) 64 (by
        have := beValue_lt (pairs (hexPrefix value))
        rwa [hpl] at this)
      have hbytes : bytesBE 64 (beValue (pairs (hexPrefix value))) = pairs (hexPrefix value) := by
        apply beValue_injective
        · rw [bytesBE_length, hpl]
        · rw [beValue_bytesBE]
          apply Nat.mod_eq_of_lt
          have := beValue_lt (pairs (hexPrefix value))
          rwa [hpl] at this
      rw [hbytes] at hfit
      have hs : (Vector.ofFn (n := 64) fun i => BitVec.ofNat 8 (16 * ((hexVal (value.getD (2 * i.val) 0)).getD 0) +
          (hexVal (value.getD (2 * i.val + 1) 0)).getD 0) : Bytes 64).toList = pairs (hexPrefix value) := by
        apply List.ext_getElem?
        intro i
        by_cases hi : i < 64
        · rw [pairs_get 64 _ hlen i hi]
          have h1 := hexPrefix_get value (2 * i) (by omega)
          have h2 := hexPrefix_get value (2 * i + 1) (by omega)
          simp only [hexVal_eq]
          rw [List.getElem?_eq_getElem (by simpa using hi)]
          simp only [Vector.getElem_toList, Vector.getElem_ofFn, h1, h2, Option.getD_some]
          simp only [List.getD_eq_getElem?_getD, List.getElem?_eq_getElem (show 2 * i < (hexPrefix value).length by omega),
            List.getElem?_eq_getElem (show 2 * i + 1 < (hexPrefix value).length by omega), Option.getD_some]
        · rw [List.getElem?_eq_none (by simp; omega), List.getElem?_eq_none (by omega)]
      unfold sboxOfString
      rw [if_pos (hspec.mpr hlen)]
      simp only
      by_cases hz : (Vector.ofFn (n := 64) fun i => BitVec.ofNat 8 (16 * ((hexVal (value.getD (2 * i.val) 0)).getD 0) +
          (hexVal (value.getD (2 * i.val + 1) 0)).getD 0) : Bytes 64) = Vector.replicate 64 0
      · right
        rw [if_pos hz]
        refine ⟨rfl, fun v hv => ?_⟩
        rw [hb] at hv
        simp only [Prod.mk.injEq, true_and] at hv
        subst hv
        rw [hfit]
        rw [hz] at hs
        rw [← hs]
        have : (Vector.replicate 64 (0 : Byte)).toList = List.replicate 64 0 := by simp
        rw [this, beValue_replicate]
        rfl
      · left
        rw [if_neg hz]
        refine ⟨_, rfl, _, hb, numBytes (beValue (pairs (hexPrefix value))) - 1, ?_⟩
        rw [hfit, hs]
        have : 0 < numBytes (beValue (pairs (hexPrefix value))) := by
          rw [numBytes_pos]
          intro h0
          apply hz
          have : pairs (hexPrefix value) = List.replicate 64 0 := by
            apply beValue_injective
            · rw [hpl, List.length_replicate]
            · rw [h0, beValue_replicate]
          rw [this] at hs
          apply Vector.toList_inj.mp
          rw [hs]
          simp
        rw [show numBytes (beValue (pairs (hexPrefix value))) - 1 + 1 = numBytes (beValue (pairs (hexPrefix value))) by omega]
    · right
      constructor
      · unfold sboxOfString
        rw [if_neg (mt hspec.mp hlen)]
      · intro v hv
        rw [hb] at hv
        split at hv
        · simp at hv
        · simp only [Prod.mk.injEq] at hv
          exact absurd hv.1 hlen

end Dstu
