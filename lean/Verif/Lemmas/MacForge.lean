import Verif.Lemmas.Mac

/-! Lemmas for property C119: the MAC as a function of the message. -/

namespace Dstu

theorem blocks_append (n hn) (p q : List Byte) (h : p.length % n = 0) : Spec.blocks n hn (p ++ q) = Spec.blocks n hn p ++ Spec.blocks n hn q := by
  induction hl : p.length using Nat.strongRecOn generalizing p with
  | _ m ih =>
    cases p with
    | nil => simp [blocks_nil]
    | cons b t =>
      have hle : n ≤ (b :: t).length := by
        by_contra hn'
        rw [Nat.mod_eq_of_lt (by omega)] at h
        simp at h
      rw [blocks_full n hn (b :: t) (by omega), blocks_full n hn (b :: t ++ q) (by simp only [List.length_append]; omega)]
      change _ = _ :: _
      congr 1
      · rw [sub_eq_ofFn, sub_eq_ofFn]
        congr 1
        funext i
        rw [List.getElem?_append_left (by omega)]
      · rw [List.drop_append_of_le_length hle]
        refine ih _ ?_ _ ?_ rfl
        · simp only [List.length_drop]; omega
        · rw [List.length_drop, ← Nat.mod_eq_sub_mod hle]; exact h

/-- The block of a piece of at most 8 bytes. -/
def padded (x : List Byte) : Bytes 8 := Vector.ofFn fun i : Fin 8 => (x[i.val]?).getD 0

theorem padded_inj (x y : List Byte) (hl : x.length = y.length) (h8 : x.length ≤ 8) (h : padded x = padded y) : x = y := by
  apply List.ext_getElem hl
  intro i h1 h2
  have e : (padded x)[i] = (padded y)[i] := by rw [h]
  simpa [padded, h1, h2] using e

theorem xorV_cancel (u v w : Bytes 8) (h : xorV u v = xorV u w) : v = w := by
  apply Vector.ext
  intro i hi
  have e : (xorV u v)[i] = (xorV u w)[i] := by rw [h]
  simp only [xorV, Vector.getElem_zipWith] at e
  exact (BitVec.xor_right_inj _).1 e

theorem xorV_cancel' (u v w : Bytes 8) (h : xorV u w = xorV v w) : u = v := by
  apply Vector.ext
  intro i hi
  have e : (xorV u w)[i] = (xorV v w)[i] := by rw [h]
  simp only [xorV, Vector.getElem_zipWith] at e
  exact (BitVec.xor_left_inj _).1 e

theorem mac_block_inj (c : GostCtx) (u v u' v' : Bytes 8) (h : mac_block c u v = mac_block c u' v') : xorV u v = xorV u' v' := by
  simp only [mac_block, storeBlock_eq, loadBlock_eq, Prod.mk.eta] at h
  have h1 := congrArg Spec.load h
  rw [load_store, load_store] at h1
  have h2 := fold_inv c macOrder (Spec.load (xorV u v))
  rw [h1, fold_inv] at h2
  have h3 := congrArg Spec.store (congrArg Prod.swap h2)
  rwa [Prod.swap_swap, Prod.swap_swap, store_load, store_load, eq_comm] at h3

theorem fold_mac_inj (c : GostCtx) (bs : List (Bytes 8)) (u v : Bytes 8) (h : bs.foldl (mac_block c) u = bs.foldl (mac_block c) v) : u = v := by
  induction bs generalizing u v with
  | nil => exact h
  | cons b bs ih => exact xorV_cancel' _ _ _ (mac_block_inj c _ _ _ _ (ih _ _ h))

theorem mac_block_congr (c : GostCtx) (u v u' v' : Bytes 8) (h : xorV u v = xorV u' v') : mac_block c u v = mac_block c u' v' := by
  simp only [mac_block, h]

/-- Enough blocks: no block of zeros is added. -/
theorem macBlocks_long (m : List Byte) (h : 8 < m.length) : Spec.macBlocks m = Spec.blocks 8 (by decide) m := by
  simp only [Spec.macBlocks, blocks_length]
  rw [if_neg (by omega)]

/-- The first block of a message and the rest. -/
theorem blocks_first (x s : List Byte) (h : x ≠ []) (h8 : x.length = 8 ∨ (x.length ≤ 8 ∧ s = [])) :
    Spec.blocks 8 (by decide) (x ++ s) = padded x :: Spec.blocks 8 (by decide) s := by
  rcases h8 with h8 | ⟨h8, rfl⟩
  · rw [blocks_append 8 _ x s (by omega), blocks_short 8 _ x h (by omega)]
    rfl
  · rw [List.append_nil, blocks_short 8 _ x h h8, blocks_nil]
    rfl

theorem get_mac_full (st : Bytes 8) : get_mac st 64 = some st.toList := by
  rw [get_mac_bytes st 8 (by decide)]
  congr 1
  apply List.ext_getElem
  · simp [Spec.firstBits]
  · intro i h1 h2
    simp [Spec.firstBits] at h1
    simp [Spec.firstBits, show i < 8 by omega]
    omega

end Dstu
