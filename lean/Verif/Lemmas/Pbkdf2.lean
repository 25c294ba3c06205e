import Verif.Lemmas.Hmac

/-! Lemmas for property C121: PBKDF2. -/

namespace Dstu

open Spec (Digest Digests DigestOp)

/-- A number that is none of the contexts of `c`. -/
def HmacCtx.Free (c : HmacCtx) (j : Nat) : Prop := j ≠ c.md ∧ j ≠ c.i ∧ j ≠ c.o

/-- Two groups of contexts without a common one. -/
def HmacCtx.Disjoint (t w : HmacCtx) : Prop := w.Free t.md ∧ w.Free t.i ∧ w.Free t.o

theorem hmac_copy (h : MdHeap) (d : Digests) (hs : h.Sim d) (w t : HmacCtx) (hw : w.Apart) (hd : t.Disjoint w) (key m : List Byte) (ht : t.Has d key m) :
    ∃ d', (hmacCopy h w t).Sim d' ∧ w.Has d' key m ∧ ∀ j, w.Free j → d' j = d j := by
  obtain ⟨a1, a2, a3⟩ := hw
  obtain ⟨⟨m1, m2, m3⟩, ⟨i1, i2, i3⟩, ⟨o1, o2, o3⟩⟩ := hd
  have s1 := evp_copy h d hs w.i t.i i2.symm _ ht.i
  have s2 := evp_copy _ _ s1 w.o t.o o3.symm (.active default_sbox (outerKey key)) (by simp [Digests.put, o2, ht.o])
  have s3 := evp_copy _ _ s2 w.md t.md m1.symm (.active default_sbox (innerKey key ++ m)) (by simp [Digests.put, m2, m3, ht.md])
  exact ⟨_, s3, ⟨by simp [Digests.put, a1.symm, a3], by simp [Digests.put, a2.symm], by simp [Digests.put]⟩, fun j ⟨j1, j2, j3⟩ => by simp [Digests.put, j1, j2, j3]⟩

theorem hmac_reset (h : MdHeap) (d : Digests) (hs : h.Sim d) (c : HmacCtx) (ha : c.Apart) (x y z) (hi : d c.i = some x) (ho : d c.o = some y) (hm : d c.md = some z) :
    ∃ d', (hmacReset h c).Sim d' ∧ ∀ j, c.Free j → d' j = d j := by
  obtain ⟨a1, a2, a3⟩ := ha
  have s1 := evp_reset h d hs c.i x hi
  have s2 := evp_reset _ _ s1 c.o y (by simp [Digests.put, a3.symm, ho])
  have s3 := evp_reset _ _ s2 c.md z (by simp [Digests.put, a1, a2, hm])
  exact ⟨_, s3, fun j ⟨j1, j2, j3⟩ => by simp [Digests.put, j1, j2, j3]⟩

theorem has_frame (t w : HmacCtx) (hd : t.Disjoint w) (d d' : Digests) (key m : List Byte) (ht : t.Has d key m) (hf : ∀ j, w.Free j → d' j = d j) : t.Has d' key m :=
  ⟨by rw [hf _ hd.2.1, ht.i], by rw [hf _ hd.2.2, ht.o], by rw [hf _ hd.1, ht.md]⟩

theorem pbkdf2_prf (h : MdHeap) (d : Digests) (hs : h.Sim d) (t w : HmacCtx) (hw : w.Apart) (hd : t.Disjoint w) (key : List Byte) (ht : t.Has d key []) (data : List (List Byte))
    (hl : 32 + data.flatten.length < 2 ^ 60) :
    ∃ h' d', pbkdf2Prf h t w data = some (h', Spec.hmac Spec.dke1 key data.flatten) ∧ h'.Sim d' ∧ ∀ j, w.Free j → d' j = d j := by
  obtain ⟨d1, s1, c1, f1⟩ := hmac_copy h d hs w t hw hd key [] ht
  obtain ⟨h2, d2, e2, s2, c2, f2⟩ := hmac_updates _ _ s1 w hw key [] c1 data (by simpa using hl)
  obtain ⟨h3, d3, e3, s3, i3, o3, m3, f3⟩ := hmac_final _ _ s2 w hw key _ c2 (by simpa using hl)
  obtain ⟨d4, s4, f4⟩ := hmac_reset _ _ s3 w hw _ _ _ i3 o3 m3
  refine ⟨_, d4, ?_, s4, fun j hj => by rw [f4 j hj, f3 j hj.1, f2 j hj.1, f1 j hj]⟩
  unfold pbkdf2Prf
  simp only [e2, e3, Option.bind_eq_bind, Option.bind_some]
  rfl

theorem zip_take (k : Nat) (a b : Bytes 32) : List.zipWith (· ^^^ ·) (a.toList.take k) b.toList = (Vector.zipWith (· ^^^ ·) a b).toList.take k := by
  apply List.ext_getElem
  · simp
  · intro i h1 h2
    simp

theorem pbkdf2_rounds (t w : HmacCtx) (hw : w.Apart) (hd : t.Disjoint w) (key salt : List Byte) (i k n : Nat) :
    ∀ (c : Nat) (h : MdHeap) (d : Digests), h.Sim d → t.Has d key [] →
    ∃ h' d', pbkdf2Rounds t w n h (Spec.pbkdf2U Spec.dke1 key salt i c) ((Spec.pbkdf2F Spec.dke1 key salt i c).toList.take k) =
      some (h', (Spec.pbkdf2F Spec.dke1 key salt i (c + n)).toList.take k) ∧ h'.Sim d' ∧ ∀ j, w.Free j → d' j = d j := by
  induction n with
  | zero => intro c h d hs _; exact ⟨h, d, rfl, hs, fun _ _ => rfl⟩
  | succ n ih =>
    intro c h d hs ht
    obtain ⟨h1, d1, e1, s1, f1⟩ := pbkdf2_prf h d hs t w hw hd key ht [(Spec.pbkdf2U Spec.dke1 key salt i c).toList] (by simp)
    obtain ⟨h2, d2, e2, s2, f2⟩ := ih (c + 1) h1 d1 s1 (has_frame t w hd d d1 key [] ht f1)
    refine ⟨h2, d2, ?_, s2, fun j hj => by rw [f2 j hj, f1 j hj]⟩
    simp only [pbkdf2Rounds, e1, Option.bind_eq_bind, Option.bind_some, zip_take]
    simp only [List.flatten_cons, List.flatten_nil, List.append_nil]
    rw [show c + (n + 1) = c + 1 + n by omega]
    exact e2

theorem pbkdf2Count_eq (i : Nat) : pbkdf2Count i = [BitVec.ofNat 8 (i / 2 ^ 24), BitVec.ofNat 8 (i / 2 ^ 16), BitVec.ofNat 8 (i / 2 ^ 8), BitVec.ofNat 8 i] := by
  simp [pbkdf2Count, Nat.shiftRight_eq_div_pow]

theorem pbkdf2_loop (t w : HmacCtx) (hw : w.Apart) (hd : t.Disjoint w) (key salt : List Byte) (hsalt : salt.length < 2 ^ 59) (iter len : Nat) :
    ∀ (i : Nat) (h : MdHeap) (d : Digests), h.Sim d → t.Has d key [] →
    ∃ h' d', pbkdf2Loop h t w salt iter len i =
      some (h', ((List.range ((len + 31) / 32)).flatMap fun k => (Spec.pbkdf2F Spec.dke1 key salt (k + i) (iter - 1)).toList).take len) ∧ h'.Sim d' ∧ ∀ j, w.Free j → d' j = d j := by
  induction len using Nat.strongRecOn with
  | _ len ih =>
    intro i h d hs ht
    by_cases h0 : len = 0
    · refine ⟨h, d, ?_, hs, fun _ _ => rfl⟩
      rw [pbkdf2Loop, dif_pos h0, h0]
      simp
    · have hc : (if len > 32 then 32 else len) = min len 32 := by split <;> omega
      obtain ⟨h1, d1, e1, s1, f1⟩ := pbkdf2_prf h d hs t w hw hd key ht [salt, pbkdf2Count i] (by simp [pbkdf2Count]; omega)
      have t1 := has_frame t w hd d d1 key [] ht f1
      obtain ⟨h2, d2, e2, s2, f2⟩ := pbkdf2_rounds t w hw hd key salt i (min len 32) (iter - 1) 0 h1 d1 s1 t1
      obtain ⟨h3, d3, e3, s3, f3⟩ := ih (len - min len 32) (by omega) (i + 1) h2 d2 s2 (has_frame t w hd d1 d2 key [] t1 f2)
      refine ⟨h3, d3, ?_, s3, fun j hj => by rw [f3 j hj, f2 j hj, f1 j hj]⟩
      have hu : Spec.hmac Spec.dke1 key [salt, pbkdf2Count i].flatten = Spec.pbkdf2U Spec.dke1 key salt i 0 := by
        simp [Spec.pbkdf2U, pbkdf2Count_eq]
      have hf : Spec.pbkdf2F Spec.dke1 key salt i 0 = Spec.pbkdf2U Spec.dke1 key salt i 0 := rfl
      rw [hf, Nat.zero_add] at e2
      rw [pbkdf2Loop, dif_neg h0]
      simp only [hc, e1, hu, Option.bind_eq_bind, Option.bind_some, e2, e3]
      rw [show (len + 31) / 32 = (len - min len 32 + 31) / 32 + 1 by omega, List.range_succ_eq_map, List.flatMap_cons, List.flatMap_map]
      simp only [Option.pure_def, Option.some.injEq, Prod.mk.injEq, true_and, Nat.zero_add]
      rw [List.take_append]
      congr 1
      · by_cases h32 : len ≤ 32
        · rw [Nat.min_eq_left h32]
        · rw [Nat.min_eq_right (by omega), List.take_of_length_le (by simp), List.take_of_length_le (by simp; omega)]
      · have e : ∀ k, Nat.succ k + i = k + (i + 1) := fun k => by omega
        simp only [e, Vector.length_toList]
        by_cases h32 : len ≤ 32
        · rw [Nat.min_eq_left h32, Nat.sub_self, Nat.sub_eq_zero_of_le h32]
        · rw [Nat.min_eq_right (by omega)]

end Dstu
