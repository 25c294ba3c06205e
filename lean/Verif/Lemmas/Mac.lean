import Verif.Lemmas.Gost89
import Verif.Spec.Mac

namespace Dstu

theorem blocks_nil (n hn) : Spec.blocks n hn [] = [] := by rw [Spec.blocks]

theorem blocks_pos (n hn) (l : List Byte) (h : l ≠ []) :
    Spec.blocks n hn l =
      (Vector.ofFn fun i : Fin n => (l[i.val]?).getD 0) :: Spec.blocks n hn (l.drop n) := by
  cases l with
  | nil => exact absurd rfl h
  | cons b t => rw [Spec.blocks]

theorem sub_eq_ofFn (l : List Byte) (n : Nat) (h) :
    sub l 0 n h = Vector.ofFn fun i : Fin n => (l[i.val]?).getD 0 := by
  apply Vector.ext
  intro i hi
  have : i < l.length := by omega
  simp [sub, this]

theorem sub_drop (l : List Byte) (o n : Nat) (h) :
    sub l o n h = sub (l.drop o) 0 n (by simp; omega) := by
  simp [sub]

theorem blocks_full (n hn) (l : List Byte) (h : 0 + n ≤ l.length) :
    Spec.blocks n hn l = sub l 0 n h :: Spec.blocks n hn (l.drop n) := by
  rw [blocks_pos n hn l (by intro h'; subst h'; simp at h; omega), sub_eq_ofFn]

theorem blocks_short (n hn) (l : List Byte) (h : l ≠ []) (h2 : l.length ≤ n) :
    Spec.blocks n hn l = [Vector.ofFn fun i : Fin n => (l[i.val]?).getD 0] := by
  rw [blocks_pos n hn l h, List.drop_eq_nil_of_le h2, blocks_nil]

theorem blocks_length (n hn) (l : List Byte) : (Spec.blocks n hn l).length = (l.length + n - 1) / n := by
  induction h : l.length using Nat.strongRecOn generalizing l with
  | _ m ih =>
    cases l with
    | nil =>
      simp at h; subst h
      simp only [blocks_nil, List.length_nil]
      rw [Nat.div_eq_of_lt (by omega)]
    | cons b t =>
      rw [blocks_pos _ _ _ (by simp), List.length_cons, ih (m - n) _ _ (by simp at *; omega)]
      · by_cases hm : n ≤ m
        · rw [show m + n - 1 = (m - n + n - 1) + n by omega, Nat.add_div_right _ hn]
        · rw [show m - n = 0 by omega, show m + n - 1 = (m - 1) + n by simp at h; omega,
            Nat.add_div_right _ hn, Nat.div_eq_of_lt (by omega), Nat.div_eq_of_lt (by omega)]
      · simp at h; omega

theorem memcpy_zero (n : Nat) (l : List Byte) (h : l.length ≤ n) :
    memcpyAt (zeros n) 0 l = some (Vector.ofFn fun i : Fin n => (l[i.val]?).getD 0) := by
  simp [memcpyAt, zeros, h]

/-- Number of bytes consumed by the block loop and its effect. -/
theorem macLoop_eq (c : GostCtx) (data : List Byte) (hd : data.length < 2 ^ 32 - 8) (buf : Bytes 8)
    (i : Nat) (hi : i ≤ data.length) :
    ∃ j, i ≤ j ∧ j ≤ data.length ∧ data.length < j + 8 ∧ (j - i) % 8 = 0 ∧
    ∃ buf', macLoop c data buf i = some (buf', j) ∧
    (Spec.blocks 8 (by decide) (data.drop i)).foldl (mac_block c) buf =
      (Spec.blocks 8 (by decide) (data.drop j)).foldl (mac_block c) buf' := by
  induction buf, i using macLoop.induct c data with
  | case1 buf i h1 h2 ih =>
    obtain ⟨j, a1, a2, a3, a4, buf', e1, e2⟩ := ih h2
    refine ⟨j, by omega, a2, a3, by omega, buf', ?_, ?_⟩
    · rw [macLoop]; simp only [h1, h2, if_true, dite_true, e1]
    · rw [← e2, blocks_full 8 _ (data.drop i) (by simp; omega), List.foldl_cons, List.drop_drop,
        ← sub_drop]
  | case2 buf i h1 h2 =>
    rw [Nat.mod_eq_of_lt (by omega)] at h1
    exact absurd h1 h2
  | case3 buf i h1 =>
    rw [Nat.mod_eq_of_lt (by omega)] at h1
    refine ⟨i, by omega, hi, by omega, by omega, buf, ?_, rfl⟩
    rw [macLoop, Nat.mod_eq_of_lt (by omega)]; simp only [h1, if_false]

theorem gost_mac_iv_eq (c : GostCtx) (bits : Nat) (iv : Bytes 8) (data : List Byte)
    (hd : data.length < 2 ^ 32 - 8) :
    gost_mac_iv c bits iv data =
      get_mac ((Spec.macBlocks data).foldl (mac_block c) iv) bits := by
  obtain ⟨j, a1, a2, a3, a4, buf', e1, e2⟩ := macLoop_eq c data hd iv 0 (Nat.zero_le _)
  simp only [List.drop_zero] at e2
  have hlen := blocks_length 8 (by decide) data
  simp only [gost_mac_iv, e1, Option.bind_eq_bind, Option.bind_some]
  by_cases hj : j < data.length
  · simp only [hj, if_true]
    rw [memcpy_zero 8 _ (by simp; omega)]
    simp only [Option.map_some, Option.bind_some]
    rw [blocks_short 8 _ (data.drop j) (by simp; omega) (by simp; omega)] at e2
    simp only [Spec.macBlocks]
    have : ((data.length + 8 - 1) / 8 = 1) ↔ j + 8 = 8 := by omega
    rw [hlen]
    by_cases h8 : j + 8 = 8
    · simp only [h8, this.mpr h8, if_true, List.foldl_append, e2, List.foldl_cons, List.foldl_nil]
      rfl
    · have h8' := mt this.mp h8
      simp only [h8, h8', if_false, e2, List.foldl_cons, List.foldl_nil]
  · simp only [hj, if_false]
    have hjd : j = data.length := by omega
    rw [List.drop_eq_nil_of_le (by omega), blocks_nil, List.foldl_nil] at e2
    simp only [Spec.macBlocks]
    have : ((data.length + 8 - 1) / 8 = 1) ↔ j = 8 := by omega
    rw [hlen]
    by_cases h8 : j = 8
    · simp only [h8, this.mpr h8, if_true, List.foldl_append, e2, List.foldl_cons, List.foldl_nil]
      rfl
    · have h8' := mt this.mp h8
      simp only [h8, h8', if_false, e2]

theorem mac_state_eq (c : GostCtx) (S) (h : c.Tables S) (k : Bytes 32)
    (hk : c.keys = Spec.subkeys k) (iv : Bytes 8) (data : List Byte) :
    (Spec.macBlocks data).foldl (mac_block c) iv = Spec.macState S k iv data := by
  have : mac_block c = fun st b => Spec.macCycle S k (Vector.zipWith (· ^^^ ·) st b) := by
    funext u v
    rw [mac_block_spec c S h, hk]; rfl
  rw [this]; rfl

theorem get_mac_bytes (st : Bytes 8) (n : Nat) (hn : n ≤ 8) :
    get_mac st (8 * n) = some (Spec.firstBits st (8 * n)) := by
  have e1 : (8 * n) >>> 3 = n := by rw [Nat.shiftRight_eq_div_pow]; omega
  have e2 : (8 * n) &&& 7 = 0 := by rw [Nat.and_two_pow_sub_one_eq_mod _ 3]; omega
  simp only [get_mac, e1, e2, ne_eq, not_true_eq_false, if_false, hn, if_true]
  congr 1
  apply List.ext_getElem
  · simp [Spec.firstBits]; omega
  · intro i h1 h2
    simp [Spec.firstBits] at h1 h2
    simp [Spec.firstBits, show 8 * i + 8 ≤ 8 * n by omega, show i < 8 by omega]

end Dstu
