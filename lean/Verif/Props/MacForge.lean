import Verif.Lemmas.MacForge
import Verif.Props.BlockCipher

/-!
# Property C119: a MAC vouches for one message

`c` is any context: any S-boxes and any key.
-/

namespace Dstu.Props

open Dstu

/-- C119, what holds: if one block of a message is changed and nothing else, the MAC of 64 bits changes.  `p` is what comes before the block, `s` what follows; only the last block may be
incomplete.  Missing: messages that differ elsewhere or in length, refuted below. -/
theorem C119_change_partial (c : GostCtx) (iv : Bytes 8) (p x y s : List Byte) (hp : p.length % 8 = 0) (hl : x.length = y.length) (h8 : x.length = 8 ∨ (x.length ≤ 8 ∧ s = []))
    (hn : (p ++ x ++ s).length < 2 ^ 32 - 8) (h : x ≠ y) : gost_mac_iv c 64 iv (p ++ x ++ s) ≠ gost_mac_iv c 64 iv (p ++ y ++ s) := by
  have hx : x ≠ [] := by
    rintro rfl
    exact h (List.eq_nil_of_length_eq_zero hl.symm).symm
  have hy : y ≠ [] := by
    rintro rfl
    exact hx (List.eq_nil_of_length_eq_zero hl)
  have hb : ∀ z : List Byte, z ≠ [] → z.length = x.length →
      Spec.macBlocks (p ++ z ++ s) = Spec.blocks 8 (by decide) p ++ padded z :: (Spec.blocks 8 (by decide) s ++ if (p ++ x ++ s).length ≤ 8 then [zeros 8] else []) := by
    intro z hz hzl
    have e : Spec.blocks 8 (by decide) (p ++ z ++ s) = Spec.blocks 8 (by decide) p ++ padded z :: Spec.blocks 8 (by decide) s := by
      rw [List.append_assoc, blocks_append 8 _ p _ hp, blocks_first z s hz (by rw [hzl]; exact h8)]
    have hz0 : 0 < z.length := List.length_pos_iff.2 hz
    simp only [Spec.macBlocks]
    have hlen := blocks_length 8 (by decide) (p ++ z ++ s)
    by_cases h1 : (p ++ x ++ s).length ≤ 8
    · have : (Spec.blocks 8 (by decide) (p ++ z ++ s)).length = 1 := by
        rw [hlen]; simp only [List.length_append] at h1 ⊢; omega
      rw [if_pos this, if_pos h1, e]
      simp [zeros]
    · have : ¬ (Spec.blocks 8 (by decide) (p ++ z ++ s)).length = 1 := by
        rw [hlen]; simp only [List.length_append] at h1 ⊢; omega
      rw [if_neg this, if_neg h1, e]
      simp
  rw [gost_mac_iv_eq _ _ _ _ hn, gost_mac_iv_eq _ _ _ _ (by simpa [← hl] using hn), get_mac_full, get_mac_full, hb x hx rfl, hb y hy hl.symm]
  intro he
  have he := Vector.toList_inj.1 (Option.some.inj he)
  simp only [List.foldl_append, List.foldl_cons] at he
  rw [← List.foldl_append, ← List.foldl_append] at he
  exact h (padded_inj x y hl (by omega) (xorV_cancel _ _ _ (mac_block_inj c _ _ _ _ (fold_mac_inj c _ _ _ he))))

/-- One bit of the third of three blocks, and one of the middle. -/
example (iv : Bytes 8) : gost_mac_iv demoCtx 64 iv (List.replicate 16 5 ++ [1, 2, 3] ++ []) ≠ gost_mac_iv demoCtx 64 iv (List.replicate 16 5 ++ [1, 2, 2] ++ []) ∧
    gost_mac_iv demoCtx 64 iv (List.replicate 8 5 ++ List.replicate 8 0 ++ [7]) ≠ gost_mac_iv demoCtx 64 iv (List.replicate 8 5 ++ List.replicate 8 1 ++ [7]) :=
  ⟨C119_change_partial demoCtx iv _ _ _ _ (by decide) (by decide) (by decide) (by decide) (by decide),
    C119_change_partial demoCtx iv _ _ _ _ (by decide) (by decide) (by decide) (by decide) (by decide)⟩

/-- C119 is false: a message that does not end with a block and the message with a zero byte after it have the same MAC, for every key and every size of the MAC. -/
theorem C119_padding_refuted (c : GostCtx) (bits : Nat) (iv : Bytes 8) (m : List Byte) (h : m.length % 8 ≠ 0) (hn : m.length + 1 < 2 ^ 32 - 8) :
    gost_mac_iv c bits iv (m ++ [0]) = gost_mac_iv c bits iv m ∧ m ++ [0] ≠ m := by
  refine ⟨?_, by simp⟩
  have hb : Spec.blocks 8 (by decide) (m ++ [0]) = Spec.blocks 8 (by decide) m := by
    have hs : m = m.take (m.length / 8 * 8) ++ m.drop (m.length / 8 * 8) := (List.take_append_drop _ _).symm
    generalize hp : m.take (m.length / 8 * 8) = p at hs
    generalize hq : m.drop (m.length / 8 * 8) = q at hs
    have hpl : p.length % 8 = 0 := by
      rw [← hp, List.length_take, Nat.min_eq_left (Nat.div_mul_le_self _ _)]
      exact Nat.mul_mod_left _ _
    have hql : q.length = m.length % 8 := by rw [← hq, List.length_drop]; omega
    rw [hs, List.append_assoc, blocks_append 8 _ p _ hpl, blocks_append 8 _ p _ hpl, blocks_short 8 _ (q ++ [0]) (by simp) (by simp; omega),
      blocks_short 8 _ q (by intro e; rw [e] at hql; simp at hql; omega) (by omega)]
    congr 2
    apply Vector.ext
    intro i hi
    simp only [Vector.getElem_ofFn]
    by_cases h1 : i < q.length
    · rw [List.getElem?_append_left h1]
    · rw [List.getElem?_append_right (by omega), List.getElem?_eq_none (l := q) (by omega)]
      rcases Nat.eq_zero_or_pos (i - q.length) with h2 | h2
      · rw [h2]; rfl
      · rw [List.getElem?_eq_none (by simp; omega)]
  rw [gost_mac_iv_eq _ _ _ _ (by simpa using hn), gost_mac_iv_eq _ _ _ _ (by omega), Spec.macBlocks, Spec.macBlocks, hb]

example (bits : Nat) : gost_mac_iv demoCtx bits (zeros 8) [1, 0] = gost_mac_iv demoCtx bits (zeros 8) [1] := (C119_padding_refuted demoCtx bits (zeros 8) [1] (by decide) (by decide)).1

/-- C119 is false: so have a message of one block and this message with a block of zeros after it. -/
theorem C119_one_block_refuted (c : GostCtx) (bits : Nat) (iv : Bytes 8) (m : List Byte) (h : m.length = 8) :
    gost_mac_iv c bits iv (m ++ List.replicate 8 0) = gost_mac_iv c bits iv m := by
  have hm : m ≠ [] := by rintro rfl; cases h
  have hz : padded (List.replicate 8 0) = zeros 8 := by decide
  have e : Spec.macBlocks m = [padded m, zeros 8] := by
    have : Spec.blocks 8 (by decide) m = [padded m] := blocks_short 8 _ m hm (by omega)
    simp [Spec.macBlocks, this, zeros]
  have e' : Spec.macBlocks (m ++ List.replicate 8 0) = [padded m, zeros 8] := by
    rw [macBlocks_long _ (by simp; omega), blocks_first _ _ hm (Or.inl h), blocks_short 8 _ _ (by simp) (by simp), ← hz]
    rfl
  rw [gost_mac_iv_eq _ _ _ _ (by simp; omega), gost_mac_iv_eq _ _ _ _ (by omega), e, e']

example (bits : Nat) : gost_mac_iv demoCtx bits (zeros 8) (List.replicate 8 3 ++ List.replicate 8 0) = gost_mac_iv demoCtx bits (zeros 8) (List.replicate 8 3) :=
  C119_one_block_refuted demoCtx bits _ _ (by decide)

/-- C119 is false: the MAC of the empty message is known to everyone, whatever the key. -/
theorem C119_empty_refuted (c : GostCtx) (iv : Bytes 8) : gost_mac_iv c 64 iv [] = some iv.toList ∧ gost_mac c 64 [] = some (List.replicate 8 0) := by
  have h : ∀ iv, gost_mac_iv c 64 iv [] = some iv.toList := by
    intro iv
    rw [gost_mac_iv_eq _ _ _ _ (by decide), get_mac_full]
    simp [Spec.macBlocks, blocks_nil]
  refine ⟨h iv, ?_⟩
  rw [gost_mac, h]
  decide

/-- Byte by byte exclusive or. -/
def mix (a b : List Byte) : List Byte := List.zipWith (· ^^^ ·) a b

/-- C119 is false: a message `m` of two or more blocks and its MAC of 64 bits give, without the key, for every message `x ++ s` a longer message with the same MAC. -/
theorem C119_extension_refuted (c : GostCtx) (bits : Nat) (m t x s : List Byte) (hm : m.length % 8 = 0) (h16 : 16 ≤ m.length) (hx : x.length = 8) (hs : s ≠ [])
    (hn : (m ++ x ++ s).length < 2 ^ 32 - 8) (ht : gost_mac c 64 m = some t) :
    gost_mac c bits (m ++ mix x t ++ s) = gost_mac c bits (x ++ s) := by
  have hs0 : 0 < s.length := List.length_pos_iff.2 hs
  simp only [List.length_append] at hn
  rw [gost_mac, gost_mac_iv_eq _ _ _ _ (by omega), get_mac_full, macBlocks_long _ (by omega)] at ht
  have ht := Option.some.inj ht
  have htl : t.length = 8 := by rw [← ht]; simp
  have hml : (mix x t).length = 8 := by simp [mix, hx, htl]
  have hne : ∀ l : List Byte, l.length = 8 → l ≠ [] := by rintro l hl rfl; cases hl
  rw [gost_mac, gost_mac, gost_mac_iv_eq _ _ _ _ (by simp [hml]; omega), gost_mac_iv_eq _ _ _ _ (by simp; omega), macBlocks_long _ (by simp [hml]; omega),
    macBlocks_long _ (by simp; omega), List.append_assoc, blocks_append 8 _ m _ hm, blocks_first _ s (hne _ hml) (Or.inl hml), blocks_first x s (hne _ hx) (Or.inl hx),
    List.foldl_append, List.foldl_cons, List.foldl_cons]
  congr 2
  apply mac_block_congr
  apply Vector.ext
  intro i hi
  generalize hst : List.foldl (mac_block c) (zeros 8) (Spec.blocks 8 (by decide) m) = st at ht
  have hti : t[i]'(by omega) = st[i] := by simp [← ht]
  simp only [xorV, Vector.getElem_zipWith, padded, Vector.getElem_ofFn, zeros, Vector.getElem_replicate, mix, List.getElem?_zipWith]
  rw [List.getElem?_eq_getElem (by omega), List.getElem?_eq_getElem (l := t) (by omega), hti]
  simp [BitVec.xor_comm, BitVec.xor_assoc]

/-- From one MAC: a message of 16 bytes and its MAC `t` give the MAC, `t` again, of a message of 32 bytes. -/
example (t : List Byte) (ht : gost_mac demoCtx 64 (List.replicate 16 5) = some t) :
    gost_mac demoCtx 64 (List.replicate 16 5 ++ mix (List.replicate 8 5) t ++ List.replicate 8 5) = some t := by
  rw [C119_extension_refuted demoCtx 64 (List.replicate 16 5) t (List.replicate 8 5) (List.replicate 8 5) (by decide) (by decide) (by decide) (by decide) (by decide) ht, ← ht]
  rfl

/-- There is such a MAC. -/
example : ∃ t, gost_mac demoCtx 64 (List.replicate 16 5) = some t := by
  rw [gost_mac, gost_mac_iv_eq _ _ _ _ (by decide), get_mac_full]
  exact ⟨_, rfl⟩

/-- C119 is false: the MAC does not vouch for the initial value, whose changes can be made good in the first block. -/
theorem C119_iv_refuted (c : GostCtx) (bits : Nat) (iv δ : Bytes 8) (x s : List Byte) (hx : x.length = 8) (hn : (x ++ s).length < 2 ^ 32 - 8) :
    gost_mac_iv c bits (xorV iv δ) (mix x δ.toList ++ s) = gost_mac_iv c bits iv (x ++ s) := by
  have hml : (mix x δ.toList).length = 8 := by simp [mix, hx]
  have hne : ∀ l : List Byte, l.length = 8 → l ≠ [] := by rintro l hl rfl; cases hl
  have e : mac_block c (xorV iv δ) (padded (mix x δ.toList)) = mac_block c iv (padded x) := by
    apply mac_block_congr
    apply Vector.ext
    intro i hi
    simp only [xorV, Vector.getElem_zipWith, padded, Vector.getElem_ofFn, mix, List.getElem?_zipWith]
    rw [List.getElem?_eq_getElem (by omega), List.getElem?_eq_getElem (l := δ.toList) (by simpa using hi)]
    simp only [Vector.getElem_toList, Option.getD_some]
    rw [BitVec.xor_comm x[i], BitVec.xor_assoc, ← BitVec.xor_assoc δ[i], BitVec.xor_self, BitVec.zero_xor]
  rw [gost_mac_iv_eq _ _ _ _ (by simpa [hml, hx] using hn), gost_mac_iv_eq _ _ _ _ hn, Spec.macBlocks, Spec.macBlocks, blocks_first _ s (hne _ hml) (Or.inl hml),
    blocks_first x s (hne _ hx) (Or.inl hx)]
  simp only [List.length_cons]
  split <;> simp only [List.cons_append, List.foldl_cons, e]

example (bits : Nat) : gost_mac_iv demoCtx bits (xorV (zeros 8) demoBlock) (mix (List.replicate 8 1) demoBlock.toList ++ [9]) = gost_mac_iv demoCtx bits (zeros 8) (List.replicate 8 1 ++ [9]) :=
  C119_iv_refuted demoCtx bits (zeros 8) demoBlock _ _ (by decide) (by decide)

end Dstu.Props
