import Verif.Model.Draws
import Verif.Spec.Draws
import Verif.Props.Rbg
import Verif.Lemmas.Bytes

/-! Lemmas on random numbers drawn from the generator. -/

namespace Dstu

open Spec Props

theorem startsLow_iff (n : Nat) (hn : 1 < n) : startsLow n = true ↔ 4 * n < 5 * 2 ^ n.log2 := by
  have hn0 : n ≠ 0 := by omega
  have h1 : 2 ^ n.log2 ≤ n := Nat.log2_self_le hn0
  have h2 : n < 2 ^ (n.log2 + 1) := Nat.lt_log2_self
  have hk1 : 1 ≤ n.log2 := by
    rw [Nat.le_log2 hn0]
    omega
  unfold startsLow numBits
  rw [if_neg hn0]
  simp only [Nat.add_sub_cancel, Nat.testBit_eq_decide_div_mod_eq]
  rw [show n.log2 + 1 - 2 = n.log2 - 1 by omega, show n.log2 + 1 - 3 = n.log2 - 2 by omega]
  generalize n.log2 = k at *
  by_cases hk : k = 1
  · subst hk
    simp only [Nat.sub_self, pow_zero, Nat.div_one]
    have : n = 2 ∨ n = 3 := by omega
    rcases this with rfl | rfl <;> decide
  · obtain ⟨j, rfl⟩ : ∃ j, k = j + 2 := ⟨k - 2, by omega⟩
    rw [show j + 2 - 1 = j + 1 by omega, Nat.add_sub_cancel]
    have e1 : 2 ^ (j + 1) = 2 ^ j * 2 := pow_succ ..
    have e2 : 2 ^ (j + 2) = 2 ^ j * 4 := by rw [pow_succ, e1]; ring
    have e3 : 2 ^ (j + 2 + 1) = 2 ^ j * 8 := by rw [pow_succ, e2]; ring
    rw [e1, ← Nat.div_div_eq_div_mul, e2]
    rw [e2] at h1
    rw [e3] at h2
    have hp : 0 < 2 ^ j := by positivity
    have hq := Nat.div_add_mod n (2 ^ j)
    have hm := Nat.mod_lt n hp
    generalize hQ : n / 2 ^ j = q at *
    have q1 : 4 ≤ q := by
      rw [← hQ]
      exact (Nat.le_div_iff_mul_le hp).mpr (by rw [Nat.mul_comm]; exact h1)
    have q2 : q < 8 := by
      rw [← hQ]
      exact Nat.div_lt_of_lt_mul h2
    have hlow : 4 * n < 5 * (2 ^ j * 4) ↔ q = 4 := by
      constructor
      · intro h
        by_contra hne
        have : 2 ^ j * 5 ≤ 2 ^ j * q := Nat.mul_le_mul_left _ (by omega)
        omega
      · rintro rfl
        omega
    rw [hlow]
    have : q = 4 ∨ q = 5 ∨ q = 6 ∨ q = 7 := by omega
    have h3 : decide (3 ≤ j + 2 + 1) = true := by simp
    rw [h3]
    rcases this with rfl | rfl | rfl | rfl <;> decide

theorem multiples_eq (n : Nat) (hn : 1 < n) : multiples n = if startsLow n then 3 else 1 := by
  unfold multiples
  by_cases h : 4 * n < 5 * 2 ^ n.log2
  · rw [if_pos h, if_pos ((startsLow_iff n hn).mpr h)]
  · rw [if_neg h, if_neg (fun h' => h ((startsLow_iff n hn).mp h'))]

theorem drawBits_eq (n : Nat) (hn : 1 < n) : drawBits n = rangeBits n := by
  have hn0 : n ≠ 0 := by omega
  have h1 : 2 ^ n.log2 ≤ n := Nat.log2_self_le hn0
  unfold drawBits rangeBits numBits
  rw [multiples_eq n hn, if_neg hn0]
  by_cases h : startsLow n = true
  · rw [if_pos h, if_pos h]
    have h2 := (startsLow_iff n hn).mp h
    congr 1
    rw [Nat.log2_eq_iff (by omega), pow_succ, pow_succ, pow_succ]
    omega
  · rw [if_neg h, if_neg h, Nat.one_mul]

/-- What is kept of a number of the right size. -/
theorem below_eq (n v : Nat) (hn : 1 < n) :
    below n v = if rangeReduce n (v % 2 ^ rangeBits n) ≥ n then none else some (rangeReduce n (v % 2 ^ rangeBits n)) := by
  unfold below rangeReduce
  rw [drawBits_eq n hn, multiples_eq n hn]
  generalize v % 2 ^ rangeBits n = r
  by_cases h : startsLow n = true
  · simp only [h, if_true]
    by_cases h3 : r < 3 * n
    · rw [if_pos h3]
      by_cases ha : r ≥ n
      · by_cases hb : r - n ≥ n
        · rw [if_pos ha, if_pos hb, if_neg (by omega)]
          rw [Nat.mod_eq_sub_mod ha, Nat.mod_eq_sub_mod hb, Nat.mod_eq_of_lt (by omega)]
        · rw [if_pos ha, if_neg hb, if_neg hb]
          rw [Nat.mod_eq_sub_mod ha, Nat.mod_eq_of_lt (by omega)]
      · rw [if_neg ha, if_neg ha, Nat.mod_eq_of_lt (by omega)]
    · rw [if_neg h3, if_pos (show r ≥ n by omega), if_pos (show r - n ≥ n by omega), if_pos (by omega)]
  · simp only [h, if_false, Bool.false_eq_true, Nat.one_mul]
    by_cases hr : r < n
    · rw [if_pos hr, if_neg (by omega), Nat.mod_eq_of_lt hr]
    · rw [if_neg hr, if_pos (by omega)]

/-- A request to a seeded generator. -/
theorem bytes_holds {st : RbgState} {g : RbgSeed} {pos : Nat} (e : RandEnv) (hs : st.rbg.Holds g (8 * pos)) (hl : st.lock = .unset ∨ st.lock = .live)
    (buf : List Byte) (num : Nat) (hb : buf.length = num) (hsz : num < 2 ^ 31) :
    ∃ st', dstu_rbg_bytes true e st buf num = some (true, g.segment pos num, st') ∧ st'.rbg.Holds g (8 * (pos + num)) ∧ st'.lock = .live := by
  obtain ⟨h1, h2⟩ := loop_holds g num pos st.rbg hs
  unfold dstu_rbg_bytes
  simp only [lock_ok _ hl, Option.bind_eq_bind, Option.bind_some, hs.init, if_true, unsigned_eq num (by omega) (by omega), Int.toNat_natCast, hb, le_refl, h1,
    dstu_unlock, pure, List.drop_of_length_le (le_of_eq hb), List.append_nil]
  exact ⟨_, rfl, h2, rfl⟩

/-- One number of a seeded generator. -/
theorem bnRand_holds {st : RbgState} {g : RbgSeed} {pos : Nat} (e : RandEnv) (hs : st.rbg.Holds g (8 * pos)) (hl : st.lock = .unset ∨ st.lock = .live)
    (bits : Nat) (hsz : bits < 2 ^ 30) :
    ∃ st', bnRand true e bits st = some (some (beValue (g.segment pos ((bits + 7) / 8)) % 2 ^ bits), st') ∧
      st'.rbg.Holds g (8 * (pos + (bits + 7) / 8)) ∧ st'.lock = .live := by
  obtain ⟨st', h1, h2, h3⟩ := bytes_holds e hs hl (List.replicate ((bits + 7) / 8) 0) ((bits + 7) / 8) (by simp) (by omega)
  refine ⟨st', ?_, h2, h3⟩
  unfold bnRand
  rw [h1]
  simp only [bin2bn_eq]

/-- The loop over blocks of a seeded generator. -/
theorem rangeLoop_holds (n : Nat) (hn : 1 < n) (hsz : numBits n < 2 ^ 29) (g : RbgSeed) (e : RandEnv) :
    ∀ (count pos : Nat) (st : RbgState), st.rbg.Holds g (8 * pos) → (st.lock = .unset ∨ st.lock = .live) →
    ∃ out st', rangeLoop true e n (count + 1) st = some (out, st') ∧ st'.lock = .live ∧
      ((∃ r j, out = some r ∧ j < count ∧ g.candidate n pos j = some r ∧ (∀ i < j, g.candidate n pos i = none) ∧
          st'.rbg.Holds g (8 * (pos + (j + 1) * drawBytes n))) ∨
        (out = none ∧ (∀ i < count, g.candidate n pos i = none) ∧ st'.rbg.Holds g (8 * (pos + (count + 1) * drawBytes n)))) := by
  have hb : rangeBits n < 2 ^ 30 := by unfold rangeBits; split <;> omega
  have hB : (rangeBits n + 7) / 8 = drawBytes n := by unfold drawBytes; rw [drawBits_eq n hn]
  intro count
  induction count with
  | zero =>
    intro pos st hs hl
    obtain ⟨st', h1, h2, h3⟩ := bnRand_holds e hs hl (rangeBits n) hb
    refine ⟨none, st', ?_, h3, Or.inr ⟨rfl, fun i hi => absurd hi (by omega), ?_⟩⟩
    · rw [rangeLoop, h1]
      rfl
    · rw [hB] at h2
      rw [Nat.zero_add, Nat.one_mul]
      exact h2
  | succ count ih =>
    intro pos st hs hl
    obtain ⟨st', h1, h2, h3⟩ := bnRand_holds e hs hl (rangeBits n) hb
    rw [hB] at h1 h2
    have hc : g.candidate n pos 0 = below n (beValue (g.segment pos (drawBytes n))) := by
      unfold RbgSeed.candidate
      rw [Nat.zero_mul, Nat.add_zero]
    rw [below_eq n _ hn] at hc
    rw [rangeLoop, h1]
    simp only [Nat.succ_ne_zero, if_false]
    split
    · rename_i hge
      rw [if_pos hge] at hc
      obtain ⟨out, st'', e1, e2, e3⟩ := ih (pos + drawBytes n) st' h2 (Or.inr h3)
      have hcand : ∀ i, g.candidate n (pos + drawBytes n) i = g.candidate n pos (i + 1) := by
        intro i
        unfold RbgSeed.candidate
        congr 3
        ring
      refine ⟨out, st'', e1, e2, ?_⟩
      rcases e3 with ⟨r, j, a1, a2, a3, a4, a5⟩ | ⟨a1, a2, a3⟩
      · refine Or.inl ⟨r, j + 1, a1, by omega, by rw [← hcand]; exact a3, ?_, ?_⟩
        · intro i hi
          cases i with
          | zero => exact hc
          | succ i => rw [← hcand]; exact a4 i (by omega)
        · rw [show pos + (j + 1 + 1) * drawBytes n = pos + drawBytes n + (j + 1) * drawBytes n by ring]
          exact a5
      · refine Or.inr ⟨a1, ?_, ?_⟩
        · intro i hi
          cases i with
          | zero => exact hc
          | succ i => rw [← hcand]; exact a2 i (by omega)
        · rw [show pos + (count + 1 + 1) * drawBytes n = pos + drawBytes n + (count + 1) * drawBytes n by ring]
          exact a3
    · rename_i hlt
      rw [if_neg hlt] at hc
      refine ⟨_, st', rfl, h3, Or.inl ⟨_, 0, rfl, by omega, hc, fun i hi => absurd hi (by omega), ?_⟩⟩
      rw [Nat.zero_add, Nat.one_mul]
      exact h2

/-- One draw from a seeded generator. -/
theorem range_holds (n : Nat) (hn : 1 < n) (hsz : numBits n < 2 ^ 29) (g : RbgSeed) (e : RandEnv) (pos : Nat) (st : RbgState)
    (hs : st.rbg.Holds g (8 * pos)) (hl : st.lock = .unset ∨ st.lock = .live) :
    ∃ out pos' st', BN_rand_range true e n st = some (out, st') ∧ st'.lock = .live ∧ st'.rbg.Holds g (8 * pos') ∧
      ((∃ r, out = some r ∧ g.Draws n pos r pos') ∨ (out = none ∧ (∀ i < 99, g.candidate n pos i = none) ∧ pos' = pos + 100 * drawBytes n)) := by
  obtain ⟨out, st', h1, h2, h3⟩ := rangeLoop_holds n hn hsz g e 99 pos st hs hl
  have hb : numBits n ≠ 1 := by
    unfold numBits
    rw [if_neg (by omega)]
    have : 1 ≤ n.log2 := by
      rw [Nat.le_log2 (by omega)]
      omega
    omega
  have e0 : BN_rand_range true e n st = some (out, st') := by
    unfold BN_rand_range
    rw [if_neg (by omega), if_neg hb]
    exact h1
  rcases h3 with ⟨r, j, a1, a2, a3, a4, a5⟩ | ⟨a1, a2, a3⟩
  · exact ⟨out, _, st', e0, h2, a5, Or.inl ⟨r, a1, j, a2, a3, a4, rfl⟩⟩
  · exact ⟨out, _, st', e0, h2, a3, Or.inr ⟨a1, a2, rfl⟩⟩

end Dstu
