import Verif.Lemmas.Hash
import Verif.Lemmas.Mac
import Verif.Spec.HashCollision

/-! Lemmas for property C120. -/

namespace Dstu

theorem chain_append {H M : Type} (f : H → M → H) (h : H) (xs ys : List M) : Spec.chain f h (xs ++ ys) = Spec.chain f h xs ++ Spec.chain f (xs.foldl f h) ys := by
  induction xs generalizing h with
  | nil => rfl
  | cons x xs ih => simp [Spec.chain, ih]

/-- Two chains of the same length with the same end are the same, or two of their steps collide. -/
theorem chain_collision {H M : Type} (f : H → M → H) (a b : H) (xs ys : List M) (hl : xs.length = ys.length) (h : xs.foldl f a = ys.foldl f b) :
    (a = b ∧ xs = ys) ∨ ∃ p ∈ Spec.chain f a xs, ∃ q ∈ Spec.chain f b ys, p ≠ q ∧ f p.1 p.2 = f q.1 q.2 := by
  induction xs generalizing a b ys with
  | nil =>
    cases ys with
    | nil => exact Or.inl ⟨h, rfl⟩
    | cons y ys => cases hl
  | cons x xs ih =>
    cases ys with
    | nil => cases hl
    | cons y ys =>
      rcases ih (f a x) (f b y) ys (by simpa using hl) h with ⟨h1, rfl⟩ | ⟨p, hp, q, hq, hr⟩
      · by_cases he : (a, x) = (b, y)
        · obtain ⟨rfl, rfl⟩ := Prod.mk.inj he
          exact Or.inl ⟨rfl, rfl⟩
        · exact Or.inr ⟨(a, x), List.mem_cons_self, (b, y), List.mem_cons_self, he, h1⟩
      · exact Or.inr ⟨p, List.mem_cons_of_mem _ hp, q, List.mem_cons_of_mem _ hq, hr⟩

theorem blocks_inj (n hn) (x y : List Byte) (hl : x.length = y.length) (h : Spec.blocks n hn x = Spec.blocks n hn y) : x = y := by
  induction hm : x.length using Nat.strongRecOn generalizing x y with
  | _ m ih =>
    cases x with
    | nil => exact (List.eq_nil_of_length_eq_zero hl.symm).symm
    | cons b t =>
      have hy : y ≠ [] := by rintro rfl; cases hl
      rw [blocks_pos n hn (b :: t) (by simp), blocks_pos n hn y hy] at h
      obtain ⟨h1, h2⟩ := List.cons.inj h
      have h3 := ih ((b :: t).drop n).length (by simp only [List.length_drop, List.length_cons] at *; omega) _ _ (by simp only [List.length_drop, hl]) h2 rfl
      apply List.ext_getElem hl
      intro i hi hi'
      by_cases hin : i < n
      · have e := congrArg (fun v : Bytes n => v[i]) h1
        simp only [Vector.getElem_ofFn, List.getElem?_eq_getElem hi, List.getElem?_eq_getElem hi', Option.getD_some] at e
        exact e
      · have e := congrArg (fun l : List Byte => l[i - n]?) h3
        simp only [List.getElem?_drop] at e
        rw [show n + (i - n) = i by omega, List.getElem?_eq_getElem hi, List.getElem?_eq_getElem hi'] at e
        exact Option.some.inj e

theorem hBlocks_length (m : List Byte) : (Spec.hBlocks m).length = if m = [] then 1 else (m.length + 31) / 32 := by
  unfold Spec.hBlocks
  split
  · rfl
  · rw [List.length_map, blocks_length]; omega

theorem hBlocks_inj (x y : List Byte) (hl : x.length = y.length) (h : Spec.hBlocks x = Spec.hBlocks y) : x = y := by
  unfold Spec.hBlocks at h
  by_cases hx : x = []
  · subst hx
    exact (List.eq_nil_of_length_eq_zero hl.symm).symm
  · have hy : y ≠ [] := by rintro rfl; exact hx (List.eq_nil_of_length_eq_zero hl)
    rw [if_neg hx, if_neg hy] at h
    have h2 := congrArg (List.map Spec.toBytes) h
    simp only [List.map_map, Function.comp_def, toBytes_ofBytes, List.map_id'] at h2
    exact blocks_inj 32 _ x y hl h2

theorem hash_fold (T) (m : List Byte) :
    Spec.gost34311 T m = Spec.toBytes ((Spec.hBlocks m ++ [BitVec.ofNat 256 (8 * m.length), (Spec.hBlocks m).foldl (· + ·) 0]).foldl (Spec.hStep T) 0) := by
  simp [Spec.gost34311, List.foldl_append]

/-- Two messages with the same hash: two steps collide. -/
theorem hash_collision (T) (x y : List Byte) (hx : x.length < 2 ^ 60) (hy : y.length < 2 ^ 60) (hne : x ≠ y) (h : Spec.gost34311 T x = Spec.gost34311 T y) :
    ∃ p ∈ Spec.hashSteps T x, ∃ q ∈ Spec.hashSteps T y, p ≠ q ∧ Spec.hStep T p.1 p.2 = Spec.hStep T q.1 q.2 := by
  rw [hash_fold, hash_fold] at h
  have h := toBytes_inj h
  by_cases hl : x.length = y.length
  · have hb : (Spec.hBlocks x).length = (Spec.hBlocks y).length := by
      rw [hBlocks_length, hBlocks_length, hl]
      by_cases hx0 : x = []
      · have : y = [] := List.eq_nil_of_length_eq_zero (by rw [← hl, hx0]; rfl)
        rw [if_pos hx0, if_pos this]
      · have : y ≠ [] := by rintro rfl; exact hx0 (List.eq_nil_of_length_eq_zero hl)
        rw [if_neg hx0, if_neg this]
    rcases chain_collision (Spec.hStep T) 0 0 _ _ (by simp [hb]) h with ⟨_, he⟩ | hc
    · exact absurd (hBlocks_inj x y hl (List.append_inj he hb).1) hne
    · exact hc
  · have h' := h
    rw [List.foldl_append, List.foldl_append] at h'
    rcases chain_collision (Spec.hStep T) _ _ _ _ (by rfl) h' with ⟨_, he⟩ | ⟨p, hp, q, hq, hr⟩
    · exfalso
      have e := congrArg BitVec.toNat (List.cons.inj he).1
      rw [BitVec.toNat_ofNat, BitVec.toNat_ofNat, Nat.mod_eq_of_lt (by omega), Nat.mod_eq_of_lt (by omega)] at e
      omega
    · refine ⟨p, ?_, q, ?_, hr⟩
      · unfold Spec.hashSteps; rw [chain_append]; exact List.mem_append_right _ hp
      · unfold Spec.hashSteps; rw [chain_append]; exact List.mem_append_right _ hq

end Dstu
