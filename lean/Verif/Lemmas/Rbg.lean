import Verif.Model.Rbg
import Verif.Spec.Rbg
import Verif.Props.BlockCipher
import Verif.Lemmas.Dke1
import Mathlib.Tactic.Ring

/-! Lemmas on the random generator. -/

namespace Dstu

open Spec

theorem byteOf_xor (a b : W32) (i : Nat) : byteOf (a ^^^ b) i = byteOf a i ^^^ byteOf b i := by
  ext j hj
  simp [byteOf]

theorem byteOf_le32 (a b c d : Byte) : byteOf (le32 a b c d) 0 = a ∧ byteOf (le32 a b c d) 1 = b ∧
    byteOf (le32 a b c d) 2 = c ∧ byteOf (le32 a b c d) 3 = d := by
  simp only [byteOf_eq, le32_eq, octet, word]
  refine ⟨?_, ?_, ?_, ?_⟩ <;>
  · ext j hj
    simp only [BitVec.getElem_extractLsb', BitVec.getLsbD_append]
    split <;> rename_i h1
    all_goals (try omega)
    all_goals (try split <;> rename_i h2)
    all_goals (try omega)
    all_goals (try split <;> rename_i h3)
    all_goals (try omega)
    all_goals
      rw [← BitVec.getLsbD_eq_getElem]
      congr 1
      try omega

theorem U4x2.bytes_ofBytes (b : Bytes 8) : (U4x2.ofBytes b).bytes = b := by
  simp only [U4x2.bytes, U4x2.ofBytes, (byteOf_le32 _ _ _ _).1, (byteOf_le32 _ _ _ _).2.1, (byteOf_le32 _ _ _ _).2.2.1,
    (byteOf_le32 _ _ _ _).2.2.2]
  ext i hi : 1
  have : i = 0 ∨ i = 1 ∨ i = 2 ∨ i = 3 ∨ i = 4 ∨ i = 5 ∨ i = 6 ∨ i = 7 := by omega
  rcases this with rfl | rfl | rfl | rfl | rfl | rfl | rfl | rfl <;> rfl

theorem U4x2.bytes_xor (a b : U4x2) : U4x2.bytes (a.1 ^^^ b.1, a.2 ^^^ b.2) = xor8 a.bytes b.bytes := by
  simp only [U4x2.bytes, byteOf_xor]
  ext i hi : 1
  simp only [xor8, Vector.getElem_ofFn]
  have : i = 0 ∨ i = 1 ∨ i = 2 ∨ i = 3 ∨ i = 4 ∨ i = 5 ∨ i = 6 ∨ i = 7 := by omega
  rcases this with rfl | rfl | rfl | rfl | rfl | rfl | rfl | rfl <;> rfl

/-- The bit taken from the first word. -/
theorem low_bit (x : U4x2) : (x.1 &&& 1).setWidth 8 = if x.bytes[0].getLsbD 0 then (1 : Byte) else 0 := by
  have h : x.bytes[0] = byteOf x.1 0 := rfl
  rw [h]
  have : (byteOf x.1 0).getLsbD 0 = x.1.getLsbD 0 := by simp [byteOf]
  rw [this]
  have h1 : x.1 &&& 1 = if x.1.getLsbD 0 then 1 else 0 := by
    ext j hj
    simp only [BitVec.getElem_and]
    by_cases h0 : j = 0
    · subst h0
      cases hb : x.1.getLsbD 0 <;> simp_all [BitVec.getLsbD_eq_getElem]
    · have : (1#32)[j] = false := by
        rw [BitVec.getElem_one]
        simp [h0]
      cases hb : x.1.getLsbD 0 <;> simp [this]
  rw [h1]
  cases x.1.getLsbD 0 <;> rfl

/-- The generator holds the state of the specified one before bit `n`. -/
structure Rbg.Holds (m : Rbg) (g : RbgSeed) (n : Nat) : Prop where
  I : m.I.bytes = g.I
  s : m.s.bytes = g.state n
  cryptor : ∀ blk, gostcrypt m.cryptor blk = g.E blk
  init : m.initialized = true

/-- The seed of the specification. -/
def RandEnv.gen (e : RandEnv) (seed : Bytes 40) : RbgSeed := ⟨seedKey seed, seedTail seed, e.curr⟩

theorem seeded_cryptor (c : GostCtx) (k : Bytes 32) (blk : Bytes 8) :
    gostcrypt (gost_key_nomask (gost_init c (some (unpack_sbox default_sbox))) k) blk = encrypt dke1 k blk := by
  rw [← (Props.C03_mask_unobservable _ (Vector.replicate 8 0) k).1, (Props.C02_block_is_gost28147_packed _ _ _ _ _).1, tableOf_default]

theorem init_holds (e : RandEnv) (m : Rbg) (seed : Bytes 40) (h : e.seed = some seed) :
    ∃ m', dstu_rbg_init e m = (true, m') ∧ m'.Holds (e.gen seed) 0 := by
  refine ⟨_, by rw [dstu_rbg_init, h], ⟨?_, ?_, ?_, rfl⟩⟩
  · simp only [U4x2.bytes_ofBytes, seeded_cryptor]
    rfl
  · exact U4x2.bytes_ofBytes _
  · intro blk
    exact seeded_cryptor _ _ _

theorem get_bit_holds {m : Rbg} {g : RbgSeed} {n : Nat} (h : m.Holds g n) :
    (dstu_rbg_get_bit m).1 = (if g.bit n then 1 else 0) ∧ (dstu_rbg_get_bit m).2.Holds g (n + 1) := by
  have hx : (U4x2.ofBytes (gostcrypt m.cryptor (U4x2.bytes (m.I.1 ^^^ m.s.1, m.I.2 ^^^ m.s.2)))).bytes =
      g.E (xor8 g.I (g.state n)) := by
    rw [U4x2.bytes_ofBytes, U4x2.bytes_xor, h.I, h.s, h.cryptor]
  refine ⟨?_, h.I, ?_, h.cryptor, h.init⟩
  · simp only [dstu_rbg_get_bit, low_bit, hx]
    rfl
  · simp only [dstu_rbg_get_bit, U4x2.bytes_ofBytes, U4x2.bytes_xor, h.I, h.s, h.cryptor, RbgSeed.state]

/-- The first `j` bits of byte `n` of the stream. -/
def partByte (g : RbgSeed) (n j : Nat) : Byte :=
  BitVec.ofNat 8 ((List.range j).map fun j => if g.bit (8 * n + j) then 2 ^ j else 0).sum

theorem partByte_zero (g : RbgSeed) (n : Nat) : partByte g n 0 = 0 := rfl

theorem partByte_eight (g : RbgSeed) (n : Nat) : partByte g n 8 = g.byte n := rfl

theorem sum_lt (f : Nat → Bool) : ∀ j, ((List.range j).map fun j => if f j then 2 ^ j else 0).sum < 2 ^ j := by
  intro j
  induction j with
  | zero => simp
  | succ j ih =>
    rw [List.range_succ, List.map_append, List.sum_append, Nat.pow_succ]
    simp only [List.map_cons, List.map_nil, List.sum_cons, List.sum_nil]
    split <;> omega

theorem partByte_succ (g : RbgSeed) (n j : Nat) (hj : j < 8) :
    partByte g n j ||| (if g.bit (8 * n + j) then (1 : Byte) else 0) <<< j = partByte g n (j + 1) := by
  have hs := sum_lt (fun j => g.bit (8 * n + j)) j
  have h8 : 2 ^ j < 2 ^ 8 := Nat.pow_lt_pow_right (by omega) hj
  unfold partByte
  rw [List.range_succ, List.map_append, List.sum_append]
  simp only [List.map_cons, List.map_nil, List.sum_cons, List.sum_nil, Nat.add_zero]
  apply BitVec.eq_of_toNat_eq
  rw [BitVec.toNat_or, BitVec.toNat_ofNat, BitVec.toNat_shiftLeft, Nat.mod_eq_of_lt (by omega)]
  generalize hS : ((List.range j).map fun j => if g.bit (8 * n + j) then 2 ^ j else 0).sum = S at *
  have hj2 : 2 ^ j + 2 ^ j ≤ 2 ^ 8 := by
    have : 2 ^ (j + 1) ≤ 2 ^ 8 := Nat.pow_le_pow_right (by omega) hj
    rw [Nat.pow_succ] at this
    omega
  cases g.bit (8 * n + j)
  · have e0 : (0 : Byte).toNat = 0 := rfl
    simp only [Bool.false_eq_true, if_false, e0, Nat.zero_shiftLeft, Nat.zero_mod, Nat.or_zero, Nat.add_zero, BitVec.toNat_ofNat]
    exact (Nat.mod_eq_of_lt (by omega)).symm
  · simp only [if_true, BitVec.toNat_ofNat]
    have e1 : (1 : Byte).toNat <<< j % 2 ^ 8 = 2 ^ j * 1 := by
      rw [Nat.shiftLeft_eq, show (1 : Byte).toNat = 1 from rfl, Nat.mul_comm]
      exact Nat.mod_eq_of_lt (by omega)
    rw [e1, Nat.or_comm, ← Nat.two_pow_add_eq_or_of_lt hs, Nat.mod_eq_of_lt (by omega)]
    omega

theorem bits_holds (g : RbgSeed) (n : Nat) : ∀ k j m, j + k = 8 → m.Holds g (8 * n + j) →
    (rbgBits (partByte g n j) j k m).1 = g.byte n ∧ (rbgBits (partByte g n j) j k m).2.Holds g (8 * n + 8)
  | 0, j, m, hj, h => by
    have : j = 8 := by omega
    subst this
    exact ⟨partByte_eight g n, h⟩
  | k + 1, j, m, hj, h => by
    obtain ⟨h1, h2⟩ := get_bit_holds h
    simp only [rbgBits]
    rw [h1, partByte_succ g n j (by omega)]
    exact bits_holds g n k (j + 1) _ (by omega) h2

theorem segment_succ (g : RbgSeed) (o n : Nat) : g.segment o (n + 1) = g.byte o :: g.segment (o + 1) n := by
  unfold RbgSeed.segment
  rw [List.range_succ_eq_map, List.map_cons, List.map_map, Nat.add_zero]
  apply congrArg (List.cons (g.byte o))
  apply List.map_congr_left
  intro i _
  simp only [Function.comp]
  rw [show o + (i + 1) = o + 1 + i by omega]

theorem segment_snoc (g : RbgSeed) (o n : Nat) : g.segment o (n + 1) = g.segment o n ++ [g.byte (o + n)] := by
  unfold RbgSeed.segment
  rw [List.range_succ, List.map_append, List.map_cons, List.map_nil]

theorem segment_length (g : RbgSeed) (o n : Nat) : (g.segment o n).length = n := by simp [RbgSeed.segment]

theorem segment_append (g : RbgSeed) (o n k : Nat) : g.segment o (n + k) = g.segment o n ++ g.segment (o + n) k := by
  induction k with
  | zero => simp [RbgSeed.segment]
  | succ k ih => rw [← Nat.add_assoc, segment_snoc, ih, segment_snoc, List.append_assoc, Nat.add_assoc]

theorem loop_holds (g : RbgSeed) : ∀ n o m, m.Holds g (8 * o) →
    (rbgLoop n m).1 = g.segment o n ∧ (rbgLoop n m).2.Holds g (8 * (o + n))
  | 0, o, m, h => ⟨rfl, h⟩
  | n + 1, o, m, h => by
    obtain ⟨h1, h2⟩ := bits_holds g o 8 0 m rfl h
    rw [partByte_zero] at h1 h2
    obtain ⟨h3, h4⟩ := loop_holds g n (o + 1) _ (by
      rw [show 8 * (o + 1) = 8 * o + 8 by ring]
      exact h2)
    simp only [rbgLoop, segment_succ, h1, h3, true_and]
    rw [show o + (n + 1) = o + 1 + n by ring]
    exact h4

/-- Drawing bytes does not change whether the generator is seeded. -/
theorem bits_initialized : ∀ k b j m, (rbgBits b j k m).2.initialized = m.initialized
  | 0, _, _, _ => rfl
  | k + 1, b, j, m => by
    simp only [rbgBits]
    rw [bits_initialized k]
    rfl

theorem loop_initialized : ∀ n m, (rbgLoop n m).2.initialized = m.initialized
  | 0, _ => rfl
  | n + 1, m => by
    simp only [rbgLoop]
    rw [loop_initialized n, bits_initialized]

theorem loop_length : ∀ n m, (rbgLoop n m).1.length = n
  | 0, _ => rfl
  | n + 1, m => by
    simp only [rbgLoop, List.length_cons]
    rw [loop_length n]

theorem loop_append : ∀ k l m, rbgLoop (k + l) m =
    ((rbgLoop k m).1 ++ (rbgLoop l (rbgLoop k m).2).1, (rbgLoop l (rbgLoop k m).2).2)
  | 0, l, m => by simp [rbgLoop]
  | k + 1, l, m => by
    rw [show k + 1 + l = k + l + 1 by omega]
    simp only [rbgLoop]
    rw [loop_append k l]
    rfl

end Dstu
