import Verif.Lemmas.Mac
import Verif.Props.BlockCipher

/-! # Property C16: the MAC -/

namespace Dstu.Props

open Dstu

/-- C16, full statement: for every message an `unsigned int` length can describe and every tag
length of at most 64 bits, the MAC functions compute the GOST 28147-89 MAC. -/
def C16_full : Prop :=
  ∀ (c : GostCtx) (b : SubstBlock) (S : Fin 8 → BitVec 4 → BitVec 4), b.Holds S →
  ∀ (rnd : Vector W32 8) (k : Bytes 32) (iv : Bytes 8) (bits : Nat) (data : List Byte),
    bits ≤ 64 → data.length < 2 ^ 32 →
    gost_mac_iv (gost_key (gost_init c (some b)) rnd k) bits iv data =
      some (Spec.mac S k iv bits data)

/-- C16 for tags of whole bytes and messages shorter than `2^32 - 8` bytes.  Missing from the full
statement: tag lengths that are not a multiple of 8 and the eight longest message lengths; both are
refuted below. `gost_mac` is the case of a zero initial value. -/
theorem C16_mac_partial (c : GostCtx) (b : SubstBlock) (S : Fin 8 → BitVec 4 → BitVec 4)
    (hb : b.Holds S) (rnd : Vector W32 8) (k : Bytes 32) (iv : Bytes 8) (n : Nat) (hn : n ≤ 8)
    (data : List Byte) (hd : data.length < 2 ^ 32 - 8) :
    gost_mac_iv (gost_key (gost_init c (some b)) rnd k) (8 * n) iv data =
      some (Spec.mac S k iv (8 * n) data) ∧
    gost_mac (gost_key (gost_init c (some b)) rnd k) (8 * n) data =
      some (Spec.mac S k (Vector.replicate 8 0) (8 * n) data) := by
  have ht : (gost_key (gost_init c (some b)) rnd k).Tables S :=
    tables_gost_key _ _ _ _ (kboxinit_tables c b S hb)
  have h : ∀ iv, gost_mac_iv (gost_key (gost_init c (some b)) rnd k) (8 * n) iv data =
      some (Spec.mac S k iv (8 * n) data) := by
    intro iv
    rw [gost_mac_iv_eq _ _ _ _ hd, mac_state_eq _ S ht k (keys_gost_key _ _ _), get_mac_bytes _ _ hn]
    rfl
  exact ⟨h iv, h _⟩

/-- A message of three bytes and one of 9 meet the hypotheses. -/
example : (unpack_sbox default_sbox).Holds (Spec.tableOf default_sbox) ∧
    ([1, 2, 3] : List Byte).length < 2 ^ 32 - 8 ∧
    (Spec.macBlocks [1, 2, 3]).length = 2 ∧
    (Spec.macBlocks [1, 2, 3, 4, 5, 6, 7, 8, 9]).length = 2 := by
  refine ⟨unpack_holds _, by decide, ?_, ?_⟩ <;>
    simp [Spec.macBlocks, blocks_length]

/-- What `get_mac` does when the tag length is not a whole number of bytes: the comparison
`1 < rembits` in the source makes the last byte zero for two to seven bits and complete for one
bit. -/
theorem C16_get_mac_bits (st : Bytes 8) (n r : Nat) (hn : n < 8) :
    (2 ≤ r → r < 8 → get_mac st (8 * n + r) = some (st.toList.take n ++ [0])) ∧
    get_mac st (8 * n + 1) = some (st.toList.take n ++ [st[n]]) := by
  have e1 : ∀ r < 8, (8 * n + r) >>> 3 = n := by
    intro r hr; rw [Nat.shiftRight_eq_div_pow]; omega
  have e2 : ∀ r < 8, (8 * n + r) &&& 7 = r := by
    intro r hr; rw [Nat.and_two_pow_sub_one_eq_mod _ 3]; omega
  constructor
  · intro h2 h8
    simp only [get_mac, e1 r h8, e2 r h8, ne_eq, show ¬ r = 0 by omega, not_false_eq_true, if_true,
      hn, dite_true, show 1 < r by omega]
    simp
  · simp only [get_mac, e1 1 (by decide), e2 1 (by decide), hn]
    simp
    exact BitVec.and_allOnes

/-- C16, what a caller gets for the other tag lengths, for every key, S-box, initial value and message: asking for one
bit more than `n` bytes gives the tag of `n + 1` bytes, and asking for two to seven bits more gives the tag of
`n` bytes and a zero byte.  With `C16_mac_partial` this is every tag length up to 64 bits. -/
theorem C16_other_lengths_partial (c : GostCtx) (b : SubstBlock) (S : Fin 8 → BitVec 4 → BitVec 4) (hb : b.Holds S) (rnd : Vector W32 8)
    (k : Bytes 32) (iv : Bytes 8) (n r : Nat) (hn : n < 8) (data : List Byte) (hd : data.length < 2 ^ 32 - 8) :
    gost_mac_iv (gost_key (gost_init c (some b)) rnd k) (8 * n + 1) iv data = some (Spec.mac S k iv (8 * (n + 1)) data) ∧
    (2 ≤ r → r < 8 → gost_mac_iv (gost_key (gost_init c (some b)) rnd k) (8 * n + r) iv data =
      some (Spec.mac S k iv (8 * n) data ++ [0])) := by
  have ht : (gost_key (gost_init c (some b)) rnd k).Tables S :=
    tables_gost_key _ _ _ _ (kboxinit_tables c b S hb)
  have hf : ∀ (st : Bytes 8) j, j ≤ 8 → Spec.firstBits st (8 * j) = st.toList.take j := by
    intro st j hj
    have h := get_mac_bytes st j hj
    have e1 : (8 * j) >>> 3 = j := by rw [Nat.shiftRight_eq_div_pow]; omega
    have e2 : (8 * j) &&& 7 = 0 := by rw [Nat.and_two_pow_sub_one_eq_mod _ 3]; omega
    simp only [get_mac, e1, e2, ne_eq, not_true_eq_false, if_false, hj, if_true, Option.some.injEq] at h
    exact h.symm
  have hg := fun st => C16_get_mac_bits st n r hn
  rw [gost_mac_iv_eq _ _ _ _ hd, gost_mac_iv_eq _ _ _ _ hd, mac_state_eq _ S ht k (keys_gost_key _ _ _)]
  refine ⟨?_, fun h2 h8 => ?_⟩
  · rw [(hg _).2, Spec.mac, hf _ _ (by omega), List.take_add_one]
    simp [hn]
  · rw [(hg _).1 h2 h8, Spec.mac, hf _ _ (by omega)]

/-- C16 is false of the code for tags of 12 bits: the standard's tag keeps four bits of the second
byte, the code clears them.  Witness: the all-ones state, reached with an empty message. -/
theorem C16_bits_refuted : ¬ C16_full := by
  intro h
  have h1 := h emptyCtx (unpack_sbox default_sbox) _ (unpack_holds _) demoMask demoKey
    (Vector.replicate 8 0xff) 12 [] (by decide) (by decide)
  rw [gost_mac_iv_eq _ _ _ _ (by decide)] at h1
  have hs : (Spec.macBlocks []).foldl
      (mac_block (gost_key (gost_init emptyCtx (some (unpack_sbox default_sbox))) demoMask demoKey))
      (Vector.replicate 8 0xff) = Vector.replicate 8 0xff := by
    simp [Spec.macBlocks, blocks_nil]
  have hs2 : Spec.mac (Spec.tableOf default_sbox) demoKey (Vector.replicate 8 0xff) 12 [] =
      Spec.firstBits (Vector.replicate 8 0xff) 12 := by
    simp [Spec.mac, Spec.macState, Spec.macBlocks, blocks_nil]
  rw [hs, hs2] at h1
  revert h1
  decide

/-- C16 is also false for the eight longest messages: for `2^32 - 8 <= data_len < 2^32` the
unsigned `i + 8` wraps to zero, the loop does not stop and the block is read outside the message. -/
theorem C16_length_refuted (c : GostCtx) (bits : Nat) (iv : Bytes 8) (data : List Byte)
    (h1 : 2 ^ 32 - 8 ≤ data.length) (h2 : data.length < 2 ^ 32) :
    gost_mac_iv c bits iv data = none ∧ gost_mac c bits data = none := by
  have key : ∀ (buf : Bytes 8) (i : Nat), i % 8 = 0 → i ≤ data.length →
      macLoop c data buf i = none := by
    intro buf i
    induction buf, i using macLoop.induct c data with
    | case1 buf i a1 a2 ih =>
      intro hm _
      rw [macLoop]; simp only [a1, a2, if_true, dite_true]
      exact ih (by omega) a2
    | case2 buf i a1 a2 =>
      intro _ _
      rw [macLoop]; simp only [a1, a2, if_true, dite_false]
    | case3 buf i a1 =>
      intro hm hi
      exfalso
      by_cases hw : i + 8 < 2 ^ 32
      · rw [Nat.mod_eq_of_lt hw] at a1; omega
      · have : i = 2 ^ 32 - 8 := by omega
        subst this
        exact a1 (by simp)
  have k0 := fun iv => key iv 0 rfl (Nat.zero_le _)
  constructor
  · simp [gost_mac_iv, k0]
  · simp [gost_mac, gost_mac_iv, k0]

/-- There are such messages. -/
example : ∃ data : List Byte, 2 ^ 32 - 8 ≤ data.length ∧ data.length < 2 ^ 32 :=
  ⟨List.replicate (2 ^ 32 - 8) 0, by rw [List.length_replicate]; decide⟩

/-- The theorems at the default S-box, with a tag of 4 bytes, of 33 bits and of 34 bits. -/
example (c : GostCtx) (rnd : Vector W32 8) (k : Bytes 32) (iv : Bytes 8) :
    gost_mac_iv (gost_key (gost_init c (some (unpack_sbox default_sbox))) rnd k) 32 iv [1, 2, 3] = some (Spec.mac (Spec.tableOf default_sbox) k iv 32 [1, 2, 3]) ∧
    gost_mac_iv (gost_key (gost_init c (some (unpack_sbox default_sbox))) rnd k) 33 iv [1, 2, 3] = some (Spec.mac (Spec.tableOf default_sbox) k iv 40 [1, 2, 3]) ∧
    gost_mac_iv (gost_key (gost_init c (some (unpack_sbox default_sbox))) rnd k) 34 iv [1, 2, 3] = some (Spec.mac (Spec.tableOf default_sbox) k iv 32 [1, 2, 3] ++ [0]) :=
  have h := C16_other_lengths_partial c _ _ (unpack_holds default_sbox) rnd k iv 4 2 (by omega) [1, 2, 3] (by decide)
  ⟨(C16_mac_partial c _ _ (unpack_holds default_sbox) rnd k iv 4 (by omega) [1, 2, 3] (by decide)).1, h.1, h.2 (by omega) (by omega)⟩
example (st : Bytes 8) := C16_get_mac_bits st 4 3 (by omega)
example (c : GostCtx) (iv : Bytes 8) := C16_length_refuted c 32 iv (List.replicate (2 ^ 32 - 8) 0) (by rw [List.length_replicate]) (by rw [List.length_replicate]; decide)

end Dstu.Props
