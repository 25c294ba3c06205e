import Verif.Props.KeySpace
import Mathlib.Dynamics.PeriodicPts.Lemmas

/-! C115: the stream of the generator repeats. -/

namespace Dstu.Props

open Spec

theorem encrypt_injective (key : Bytes 32) : Function.Injective (encrypt dke1 key) := by
  intro a b h
  have hc := seeded_cryptor Rbg.boot.cryptor key
  rw [← hc a, ← hc b] at h
  have := congrArg (gostdecrypt (gost_key_nomask (gost_init Rbg.boot.cryptor (some (unpack_sbox default_sbox))) key)) h
  rwa [(C01_block_inverse _ _).1, (C01_block_inverse _ _).1] at this

theorem xor8_right_injective (c : Bytes 8) : Function.Injective (xor8 c) := by
  intro a b h
  ext i hi : 1
  have := congrArg (fun v : Bytes 8 => v[i]) h
  simp only [xor8, Vector.getElem_ofFn] at this
  simpa using this

theorem xor8_left_injective (c : Bytes 8) : Function.Injective (fun a => xor8 a c) := by
  intro a b h
  ext i hi : 1
  have := congrArg (fun v : Bytes 8 => v[i]) h
  simp only [xor8, Vector.getElem_ofFn] at this
  simpa using this

/-- From a state to the next. -/
def nextState (g : RbgSeed) (s : Bytes 8) : Bytes 8 := g.E (xor8 (g.E (xor8 g.I s)) g.I)

theorem nextState_injective (g : RbgSeed) : Function.Injective (nextState g) := fun _ _ h =>
  xor8_right_injective _ (encrypt_injective _ (xor8_left_injective _ (encrypt_injective _ h)))

theorem state_iterate (g : RbgSeed) : ∀ j, g.state j = (nextState g)^[j] g.s
  | 0 => rfl
  | j + 1 => by
    rw [Function.iterate_succ_apply', ← state_iterate g j]
    rfl

/-- The state returns to where it began after at most `2^64` bits. -/
theorem state_returns (g : RbgSeed) : ∃ T, 0 < T ∧ T ≤ 2 ^ 64 ∧ (∀ q j, g.state (q * T + j) = g.state j) ∧ ∀ i j, i < T → j < T → g.state i = g.state j → i = j := by
  classical
  have := Fintype.ofFinite (Bytes 8)
  have hper := (nextState_injective g).mem_periodicPts g.s
  refine ⟨Function.minimalPeriod (nextState g) g.s, Function.minimalPeriod_pos_of_mem_periodicPts hper, ?_, ?_, ?_⟩
  · refine Function.minimalPeriod_le_card.trans ?_
    rw [← Nat.card_eq_fintype_card]
    exact (bytes_card 8).trans (by norm_num)
  · intro q j
    have h := (Function.isPeriodicPt_minimalPeriod (nextState g) g.s).const_mul q
    rw [state_iterate, state_iterate, Nat.add_comm, Function.iterate_add_apply, h]
  · intro i j hi hj h
    rw [state_iterate, state_iterate] at h
    exact Function.iterate_injOn_Iio_minimalPeriod hi hj h

/-- C115 is false: whatever the seed and the time, there is a number `T`, at most `2^64`, such that after `T` bytes the stream begins anew: every request is given the bytes that one
`T` bytes earlier was given. -/
theorem C115_repeats_refuted (seed : Bytes 40) (date : Bytes 8) :
    ∃ T, 0 < T ∧ T ≤ 2 ^ 64 ∧ ∀ q o n, (RbgSeed.ofSeed seed date).segment (q * T + o) n = (RbgSeed.ofSeed seed date).segment o n := by
  generalize RbgSeed.ofSeed seed date = g
  obtain ⟨T, h1, h2, h3, _⟩ := state_returns g
  refine ⟨T, h1, h2, fun q o n => ?_⟩
  unfold RbgSeed.segment RbgSeed.byte RbgSeed.bit
  apply List.map_congr_left
  intro i _
  have : ∀ j, 8 * (q * T + o + i) + j = (8 * q) * T + (8 * (o + i) + j) := fun j => by ring
  simp only [this, h3]

/-- C115 is false for nonces and private keys: `T` bytes later the same number is drawn. -/
theorem C115_nonce_refuted (seed : Bytes 40) (date : Bytes 8) :
    ∃ T, 0 < T ∧ T ≤ 2 ^ 64 ∧ ∀ q n pos r pos', (RbgSeed.ofSeed seed date).Draws n pos r pos' → (RbgSeed.ofSeed seed date).Draws n (q * T + pos) r (q * T + pos') := by
  obtain ⟨T, h1, h2, h3⟩ := C115_repeats_refuted seed date
  refine ⟨T, h1, h2, ?_⟩
  rintro q n pos r pos' ⟨j, hj, k1, k2, rfl⟩
  have hc : ∀ i, (RbgSeed.ofSeed seed date).candidate n (q * T + pos) i = (RbgSeed.ofSeed seed date).candidate n pos i := by
    intro i
    unfold RbgSeed.candidate
    rw [Nat.add_assoc, h3]
  exact ⟨j, hj, by rw [hc]; exact k1, fun i hi => by rw [hc]; exact k2 i hi, by rw [Nat.add_assoc]⟩

/-- C115, what holds: the state does not repeat before the stream begins anew; `T` is the number of different states before bits, so if it is less than `2^64`, then only because the state
has returned to where it began. -/
theorem C115_states_partial (seed : Bytes 40) (date : Bytes 8) :
    ∃ T, 0 < T ∧ (RbgSeed.ofSeed seed date).state T = (RbgSeed.ofSeed seed date).state 0 ∧
      ∀ i j, i < T → j < T → (RbgSeed.ofSeed seed date).state i = (RbgSeed.ofSeed seed date).state j → i = j := by
  obtain ⟨T, h1, _, h3, h4⟩ := state_returns (RbgSeed.ofSeed seed date)
  refine ⟨T, h1, ?_, h4⟩
  have := h3 1 0
  rwa [Nat.one_mul, Nat.add_zero] at this

/-- In the process of the examples, the number 1 is drawn again and again. -/
example : ∃ T, 0 < T ∧ T ≤ 2 ^ 64 ∧ ∀ q, (RbgSeed.ofSeed (Vector.ofFn fun i => BitVec.ofNat 8 (7 + i.val)) (Vector.replicate 8 0)).Draws 17 (q * T) 1 (q * T + 1) := by
  obtain ⟨T, h1, h2, h3⟩ := C115_nonce_refuted (Vector.ofFn fun i => BitVec.ofNat 8 (7 + i.val)) (Vector.replicate 8 0)
  refine ⟨T, h1, h2, fun q => h3 q 17 0 1 1 ⟨0, by decide, ?_, fun i hi => absurd hi (by omega), by decide⟩⟩
  exact blockTiny

end Dstu.Props
