import Verif.Lemmas.Md
import Verif.Lemmas.Dke1
import Verif.Model.Hmac
import Verif.Spec.Hmac

/-! Lemmas for property C121: what the digest contexts of HMAC and PBKDF2 stand for. -/

namespace Dstu

open Spec (Digest Digests DigestOp)

/-- A context with message `m` and the default S-box. -/
abbrev dflt (m : List Byte) : Option Digest := some (.active default_sbox m)

theorem sim_some (h : MdHeap) (d : Digests) (hs : h.Sim d) (i : Nat) (c : MdData) (hc : h i = some c) : ∃ x, d i = some x := by
  have := hs i
  rw [hc] at this
  rcases hd : d i with _ | x
  · rw [hd] at this; exact this.elim
  · exact ⟨x, rfl⟩

theorem sim_data (h : MdHeap) (d : Digests) (hs : h.Sim d) (i : Nat) (x) (hd : d i = some x) : ∃ c, h i = some c := by
  have := hs i
  rw [hd] at this
  rcases hc : h i with _ | c
  · rw [hc] at this; exact this.elim
  · exact ⟨c, rfl⟩

theorem digests_put_put (d : Digests) (i : Nat) (x y) : (d.put i x).put i y = d.put i y := by
  funext j; simp only [Digests.put]; split <;> rfl

theorem evp_init (h : MdHeap) (d : Digests) (hs : h.Sim d) (i : Nat) : ∃ h', evpDigestInit h i = some h' ∧ h'.Sim (d.put i (dflt [])) := by
  have key : ∀ (h : MdHeap) (d : Digests), h.Sim d → (∃ x, d i = some x) → ∃ h', dstu_md_init h i none = some h' ∧ h'.Sim (d.put i (dflt [])) := by
    intro h d hs ⟨x, hx⟩
    obtain ⟨h', e⟩ := step_legal h d hs (.init i none) (by simp [Digests.Legal, hx])
    have := step_sim h d hs _ h' e
    simp only [Digests.step, hx] at this
    exact ⟨h', e, this⟩
  unfold evpDigestInit
  cases hc : h i with
  | none =>
    have := key _ _ (step_sim h d hs (.new i) _ rfl) ⟨.fresh, by simp [Digests.step, Digests.put]⟩
    simpa only [Digests.step, digests_put_put] using this
  | some c => exact key h d hs (sim_some h d hs i c hc)

theorem evp_update (h : MdHeap) (d : Digests) (hs : h.Sim d) (i : Nat) (m data : List Byte) (hd : d i = dflt m) (hl : (m ++ data).length < 2 ^ 60) :
    ∃ h', dstu_md_update h i data = some h' ∧ h'.Sim (d.put i (dflt (m ++ data))) := by
  obtain ⟨h', e⟩ := step_legal h d hs (.update i data) ⟨_, _, hd, hl⟩
  have := step_sim h d hs _ h' e
  simp only [Digests.step, hd] at this
  exact ⟨h', e, this⟩

theorem evp_cleanup (h : MdHeap) (d : Digests) (hs : h.Sim d) (i : Nat) (x) (hd : d i = some x) : (dstu_md_cleanup h i).Sim (d.put i (some .fresh)) := by
  have := step_sim h d hs (.cleanup i) _ rfl
  simpa only [Digests.step, hd] using this

theorem evp_final (h : MdHeap) (d : Digests) (hs : h.Sim d) (i : Nat) (m : List Byte) (hd : d i = dflt m) (hl : m.length < 2 ^ 60) :
    ∃ h', evpDigestFinal h i = some (h', Spec.gost34311 Spec.dke1 m) ∧ h'.Sim (d.put i (some .fresh)) := by
  obtain ⟨h', e⟩ := sim_final h d hs i _ m hd hl
  have hs' := step_sim h d hs (.final i) h' (by simp [MdHeap.step, e])
  refine ⟨dstu_md_cleanup h' i, ?_, evp_cleanup h' d hs' i _ hd⟩
  simp only [evpDigestFinal, e, tableOf_default]

theorem evp_copy (h : MdHeap) (d : Digests) (hs : h.Sim d) (dst src : Nat) (hne : dst ≠ src) (x) (hd : d src = some x) : (evpDigestCopy h dst src).Sim (d.put dst (some x)) := by
  have key : ∀ (h : MdHeap) (d : Digests), h.Sim d → d dst = some .fresh → d src = some x → (dstu_md_copy h dst src).Sim (d.put dst (some x)) := by
    intro h d hs h1 h2
    have := step_sim h d hs (.copy dst src) _ rfl
    simpa only [Digests.step, h1, h2] using this
  unfold evpDigestCopy
  cases hc : h dst with
  | none =>
    have := key _ _ (step_sim h d hs (.new dst) _ rfl) (by simp [Digests.step, Digests.put]) (by simp [Digests.step, Digests.put, hne.symm, hd])
    simpa only [Digests.step, digests_put_put] using this
  | some c =>
    obtain ⟨y, hy⟩ := sim_some h d hs dst c hc
    have := key _ _ (evp_cleanup h d hs dst y hy) (by simp [Digests.put]) (by simp [Digests.put, hne.symm, hd])
    simpa only [digests_put_put] using this

theorem evp_reset (h : MdHeap) (d : Digests) (hs : h.Sim d) (i : Nat) (x) (hd : d i = some x) : (evpDigestReset h i).Sim (d.put i none) := by
  have := step_sim _ _ (evp_cleanup h d hs i x hd) (.free i) _ rfl
  simp only [Digests.step, digests_put_put] at this
  exact this

/-- The three contexts are different. -/
def HmacCtx.Apart (c : HmacCtx) : Prop := c.md ≠ c.i ∧ c.md ≠ c.o ∧ c.i ≠ c.o

/-- The first block of the inner and of the outer hash. -/
def innerKey (key : List Byte) : List Byte := (Spec.hmacKey Spec.dke1 key).map (0x36 ^^^ ·)
def outerKey (key : List Byte) : List Byte := (Spec.hmacKey Spec.dke1 key).map (0x5c ^^^ ·)

theorem hmacKey_length (T) (key : List Byte) : (Spec.hmacKey T key).length = 32 := by
  unfold Spec.hmacKey
  simp only [List.length_append, List.length_replicate]
  split
  · omega
  · simp

theorem innerKey_length (key : List Byte) : (innerKey key).length = 32 := by simp [innerKey, hmacKey_length]
theorem outerKey_length (key : List Byte) : (outerKey key).length = 32 := by simp [outerKey, hmacKey_length]

/-- `c` has a key and has been given `m`. -/
structure HmacCtx.Has (c : HmacCtx) (d : Digests) (key m : List Byte) : Prop where
  i : d c.i = dflt (innerKey key)
  o : d c.o = dflt (outerKey key)
  md : d c.md = dflt (innerKey key ++ m)

theorem hmacPad_eq (x : Byte) (k : List Byte) (hk : k.length ≤ 32) : hmacPad x (k ++ List.replicate (hmacBuf - k.length) 0) = (k ++ List.replicate (32 - k.length) 0).map (x ^^^ ·) := by
  unfold hmacPad mdBlock hmacBuf
  rw [← List.map_take, List.take_append, List.take_of_length_le hk, List.take_replicate]
  rw [show min (32 - k.length) (144 - k.length) = 32 - k.length by omega]

theorem hmac_init (h : MdHeap) (d : Digests) (hs : h.Sim d) (c : HmacCtx) (ha : c.Apart) (key : List Byte) (hl : key.length < 2 ^ 60) :
    ∃ h' d', hmacInit h c key = some h' ∧ h'.Sim d' ∧ c.Has d' key [] ∧ ∀ j, j ≠ c.md → j ≠ c.i → j ≠ c.o → d' j = d j := by
  obtain ⟨a1, a2, a3⟩ := ha
  have key1 : ∃ h1 d1 k, hmacShortKey h c key = some (h1, k) ∧ h1.Sim d1 ∧ k.length ≤ 32 ∧ k ++ List.replicate (32 - k.length) 0 = Spec.hmacKey Spec.dke1 key ∧
        ∀ j, j ≠ c.md → d1 j = d j := by
    by_cases hk : mdBlock < key.length
    · obtain ⟨h1, e1, s1⟩ := evp_init h d hs c.md
      obtain ⟨h2, e2, s2⟩ := evp_update h1 _ s1 c.md [] key (by simp [Digests.put]) (by simpa using hl)
      obtain ⟨h3, e3, s3⟩ := evp_final h2 _ s2 c.md key (by simp [Digests.put]) hl
      refine ⟨h3, _, (Spec.gost34311 Spec.dke1 key).toList, ?_, s3, by simp, ?_, fun j hj => by simp [Digests.put, hj]⟩
      · rw [hmacShortKey, if_pos hk]
        simp [e1, e2, e3]
      · unfold mdBlock at hk
        unfold Spec.hmacKey
        rw [if_neg (by omega)]
    · refine ⟨h, d, key, by rw [hmacShortKey, if_neg hk], hs, ?_, ?_, fun _ _ => rfl⟩
      · unfold mdBlock at hk; omega
      · unfold mdBlock at hk
        unfold Spec.hmacKey
        rw [if_pos (by omega)]
  obtain ⟨h1, d1, k, e1, s1, hk, hkey, hf1⟩ := key1
  obtain ⟨h2, e2, s2⟩ := evp_init h1 _ s1 c.i
  obtain ⟨h3, e3, s3⟩ := evp_update h2 _ s2 c.i [] (innerKey key) (by simp [Digests.put]) (by simp [innerKey_length])
  obtain ⟨h4, e4, s4⟩ := evp_init h3 _ s3 c.o
  obtain ⟨h5, e5, s5⟩ := evp_update h4 _ s4 c.o [] (outerKey key) (by simp [Digests.put]) (by simp [outerKey_length])
  have s6 := evp_copy h5 _ s5 c.md c.i a1 (.active default_sbox (innerKey key)) (by simp [Digests.put, a3])
  refine ⟨_, _, ?_, s6, ⟨?_, ?_, ?_⟩, ?_⟩
  · unfold hmacInit
    rw [e1]
    simp only [Option.bind_eq_bind, Option.bind_some]
    rw [hmacPad_eq _ _ hk, hmacPad_eq _ _ hk, hkey, e2, Option.bind_some]
    change (dstu_md_update h2 c.i (innerKey key)).bind _ = _
    rw [e3, Option.bind_some, e4, Option.bind_some]
    change (dstu_md_update h4 c.o (outerKey key)).bind _ = _
    rw [e5, Option.bind_some]
    rfl
  · simp [Digests.put, a1.symm, a3]
  · simp [Digests.put, a2.symm, a3.symm]
  · simp [Digests.put]
  · intro j j1 j2 j3
    simp [Digests.put, j1, j2, j3, hf1]

theorem hmac_updates (h : MdHeap) (d : Digests) (hs : h.Sim d) (c : HmacCtx) (ha : c.Apart) (key m : List Byte) (hc : c.Has d key m) (xs : List (List Byte))
    (hl : 32 + (m ++ xs.flatten).length < 2 ^ 60) :
    ∃ h' d', hmacUpdates h c xs = some h' ∧ h'.Sim d' ∧ c.Has d' key (m ++ xs.flatten) ∧ ∀ j, j ≠ c.md → d' j = d j := by
  induction xs generalizing h d m with
  | nil => exact ⟨h, d, rfl, hs, by simpa using hc, fun _ _ => rfl⟩
  | cons x xs ih =>
    obtain ⟨a1, a2, a3⟩ := ha
    simp only [List.flatten_cons, List.length_append] at hl
    obtain ⟨h1, e1, s1⟩ := evp_update h d hs c.md (innerKey key ++ m) x hc.md (by simp only [List.length_append, innerKey_length]; omega)
    obtain ⟨h2, d2, e2, s2, c2, f2⟩ := ih h1 _ s1 (m ++ x) ⟨by simp [Digests.put, a1.symm, hc.i], by simp [Digests.put, a2.symm, hc.o], by simp [Digests.put]⟩
      (by simp only [List.length_append]; omega)
    refine ⟨h2, d2, by simp [hmacUpdates, e1, e2], s2, by simpa using c2, fun j hj => ?_⟩
    rw [f2 j hj]
    simp [Digests.put, hj]

theorem hmac_final (h : MdHeap) (d : Digests) (hs : h.Sim d) (c : HmacCtx) (ha : c.Apart) (key m : List Byte) (hc : c.Has d key m) (hl : 32 + m.length < 2 ^ 60) :
    ∃ h' d', hmacFinal h c = some (h', Spec.hmac Spec.dke1 key m) ∧ h'.Sim d' ∧ d' c.i = dflt (innerKey key) ∧ d' c.o = dflt (outerKey key) ∧ d' c.md = some .fresh ∧
      ∀ j, j ≠ c.md → d' j = d j := by
  obtain ⟨a1, a2, a3⟩ := ha
  obtain ⟨h1, e1, s1⟩ := evp_final h d hs c.md _ hc.md (by simp only [List.length_append, innerKey_length]; omega)
  have s2 := evp_copy h1 _ s1 c.md c.o a2 (.active default_sbox (outerKey key)) (by simp [Digests.put, a2.symm, hc.o])
  obtain ⟨h3, e3, s3⟩ := evp_update _ _ s2 c.md (outerKey key) (Spec.gost34311 Spec.dke1 (innerKey key ++ m)).toList (by simp [Digests.put]) (by simp [outerKey_length])
  obtain ⟨h4, e4, s4⟩ := evp_final h3 _ s3 c.md (outerKey key ++ (Spec.gost34311 Spec.dke1 (innerKey key ++ m)).toList) (by simp [Digests.put]) (by simp [outerKey_length])
  refine ⟨h4, _, ?_, s4, by simp [Digests.put, a1.symm, hc.i], by simp [Digests.put, a2.symm, hc.o], by simp [Digests.put], fun j hj => by simp [Digests.put, hj]⟩
  unfold hmacFinal
  simp only [e1, e3, e4, Option.bind_eq_bind, Option.bind_some]
  rfl

theorem hmac_restart (h : MdHeap) (d : Digests) (hs : h.Sim d) (c : HmacCtx) (ha : c.Apart) (key : List Byte) (hi : d c.i = dflt (innerKey key)) (ho : d c.o = dflt (outerKey key)) :
    ∃ d', (hmacRestart h c).Sim d' ∧ c.Has d' key [] ∧ ∀ j, j ≠ c.md → d' j = d j := by
  obtain ⟨a1, a2, a3⟩ := ha
  exact ⟨_, evp_copy h d hs c.md c.i a1 _ hi, ⟨by simp [Digests.put, a1.symm, hi], by simp [Digests.put, a2.symm, ho], by simp [Digests.put]⟩, fun j hj => by simp [Digests.put, hj]⟩

end Dstu
