import Verif.Model.Utf16
import Mathlib.Tactic.Conv

/-! Lemmas on the conversion of passwords. -/

namespace Dstu

open Dstu.Spec

theorem ofBitVec_utf8Char (c : Char) : (utf8Char c).map UInt8.ofBitVec = String.utf8EncodeChar c := by
  unfold utf8Char
  rw [List.map_map]
  conv_rhs => rw [← List.map_id (String.utf8EncodeChar c)]
  rfl

theorem utf8Char_length (c : Char) : (utf8Char c).length = c.utf8Size := by simp [utf8Char]

theorem nextChar_encode (c : Char) (s : List Byte) : nextChar (utf8Char c ++ s) = some c := by
  unfold nextChar
  rw [List.map_append, ofBitVec_utf8Char, List.toByteArray_append]
  exact ByteArray.utf8DecodeChar?_utf8EncodeChar_append

theorem nextChar_some {s : List Byte} {c : Char} (h : nextChar s = some c) : s = utf8Char c ++ s.drop c.utf8Size := by
  obtain ⟨b, hb⟩ := ByteArray.exists_of_utf8DecodeChar?_eq_some h
  have h1 : s.map UInt8.ofBitVec = String.utf8EncodeChar c ++ b.data.toList := by
    have := congrArg (fun x : ByteArray => x.data.toList) hb
    simpa using this
  have h2 : s = utf8Char c ++ b.data.toList.map UInt8.toBitVec := by
    have := congrArg (List.map UInt8.toBitVec) h1
    rw [List.map_map, List.map_append] at this
    have hid : List.map (UInt8.toBitVec ∘ UInt8.ofBitVec) s = s := by
      conv_rhs => rw [← List.map_id s]
      rfl
    rw [hid] at this
    exact this
  conv_rhs => rw [h2]
  rw [List.drop_append_of_le_length (by rw [utf8Char_length]; exact Nat.le_refl _), List.drop_of_length_le (by rw [utf8Char_length]; exact Nat.le_refl _), List.nil_append]
  exact h2

theorem utf8Char_ne (c : Char) : utf8Char c ≠ [] := by
  intro h
  have := utf8Char_length c
  rw [h] at this
  have hp := c.utf8Size_pos
  simp at this
  omega

/-- The text is converted up to some point. -/
theorem iconv_text (t : List Char) (room : Nat) :
    (iconv (utf8 t) room).1 = .ok ∧ (iconv (utf8 t) room).2 = ([], utf16 t) ∨
    ∃ t1 t2, t = t1 ++ t2 ∧ (iconv (utf8 t) room).1 = .e2big ∧ (iconv (utf8 t) room).2 = (utf8 t2, utf16 t1) := by
  induction t generalizing room with
  | nil => left; simp [utf8, utf16, iconv]
  | cons c t ih =>
    have hne : utf8 (c :: t) ≠ [] := by
      intro h
      exact utf8Char_ne c (List.append_eq_nil_iff.1 h).1
    have hcons : utf8 (c :: t) = utf8Char c ++ utf8 t := rfl
    obtain ⟨b, s, hs⟩ := List.exists_cons_of_ne_nil hne
    have hnext : nextChar (b :: s) = some c := by rw [← hs, hcons, nextChar_encode]
    have hdrop : (b :: s).drop c.utf8Size = utf8 t := by
      rw [← hs, hcons, ← utf8Char_length, List.drop_left]
    have hun : iconv (utf8 (c :: t)) room = if (utf16Char c).length ≤ room then
        (match iconv (utf8 t) (room - (utf16Char c).length) with | (e, rest, out) => (e, rest, utf16Char c ++ out)) else (.e2big, utf8 (c :: t), []) := by
      rw [hs]
      conv_lhs => unfold iconv
      simp only [hnext]
      rw [hdrop]
    rw [hun]
    by_cases hr : (utf16Char c).length ≤ room
    · rw [if_pos hr]
      rcases h : iconv (utf8 t) (room - (utf16Char c).length) with ⟨e, rest, out⟩
      have ih := ih (room - (utf16Char c).length)
      rw [h] at ih
      rcases ih with ⟨h1, h2⟩ | ⟨t1, t2, h1, h2, h3⟩
      · cases h2
        exact Or.inl ⟨h1, rfl⟩
      · cases h3
        exact Or.inr ⟨c :: t1, t2, by rw [h1]; rfl, h2, rfl⟩
    · rw [if_neg hr]
      exact Or.inr ⟨[], c :: t, rfl, rfl, rfl⟩

/-- If the conversion ends well, or for lack of room, a text was read. -/
theorem iconv_read (s : List Byte) (room : Nat) :
    match iconv s room with
    | (.ok, rest, out) => rest = [] ∧ ∃ t, s = utf8 t ∧ out = utf16 t
    | (.e2big, rest, out) => ∃ t, s = utf8 t ++ rest ∧ out = utf16 t
    | (.bad, rest, _) => (∃ t, s = utf8 t ++ rest) ∧ ¬ ∃ t, rest = utf8 t := by
  cases s with
  | nil => simp [iconv]; exact ⟨[], rfl, rfl⟩
  | cons b s =>
    unfold iconv
    simp only
    split
    · rename_i heq
      split at heq
      · cases heq
      · rename_i c hc
        split at heq
        · have ih := iconv_read ((b :: s).drop c.utf8Size) (room - (utf16Char c).length)
          rcases h : iconv ((b :: s).drop c.utf8Size) (room - (utf16Char c).length) with ⟨e, rest, out⟩
          rw [h] at heq ih
          cases heq
          obtain ⟨h1, t, h2, h3⟩ := ih
          exact ⟨h1, c :: t, by rw [nextChar_some hc, h2]; rfl, by rw [h3]; rfl⟩
        · cases heq
    · rename_i heq
      split at heq
      · cases heq
      · rename_i c hc
        split at heq
        · have ih := iconv_read ((b :: s).drop c.utf8Size) (room - (utf16Char c).length)
          rcases h : iconv ((b :: s).drop c.utf8Size) (room - (utf16Char c).length) with ⟨e, rest, out⟩
          rw [h] at heq ih
          cases heq
          obtain ⟨t, h2, h3⟩ := ih
          exact ⟨c :: t, by conv_lhs => { rw [nextChar_some hc, h2] }; exact (List.append_assoc _ _ _).symm, by rw [h3]; rfl⟩
        · cases heq
          exact ⟨[], rfl, rfl⟩
    · rename_i heq
      split at heq
      · rename_i hc
        cases heq
        refine ⟨⟨[], rfl⟩, ?_⟩
        rintro ⟨t, ht⟩
        cases t with
        | nil => cases ht
        | cons c t =>
          have : nextChar (utf8 (c :: t)) = some c := nextChar_encode c _
          rw [← ht, hc] at this
          cases this
      · rename_i c hc
        split at heq
        · have ih := iconv_read ((b :: s).drop c.utf8Size) (room - (utf16Char c).length)
          rcases h : iconv ((b :: s).drop c.utf8Size) (room - (utf16Char c).length) with ⟨e, rest, out⟩
          rw [h] at heq ih
          cases heq
          obtain ⟨⟨t, h2⟩, h3⟩ := ih
          exact ⟨⟨c :: t, by conv_lhs => { rw [nextChar_some hc, h2] }; exact (List.append_assoc _ _ _).symm⟩, h3⟩
        · cases heq
termination_by s.length
decreasing_by
  all_goals
    have := Char.utf8Size_pos ‹Char›
    simp only [List.length_drop, List.length_cons]
    omega

theorem utf8_append (t t' : List Char) : utf8 (t ++ t') = utf8 t ++ utf8 t' := by simp [utf8]
theorem utf16_append (t t' : List Char) : utf16 (t ++ t') = utf16 t ++ utf16 t' := by simp [utf16]

/-- Characters can be taken off the front. -/
theorem utf8_cancel (t1 : List Char) (s : List Byte) : (∃ t, utf8 t1 ++ s = utf8 t) → ∃ t, s = utf8 t := by
  induction t1 with
  | nil => exact id
  | cons c t1 ih =>
    rintro ⟨t, ht⟩
    have h1 : nextChar (utf8 (c :: t1) ++ s) = some c := by
      show nextChar (utf8Char c ++ utf8 t1 ++ s) = some c
      rw [List.append_assoc, nextChar_encode]
    cases t with
    | nil =>
      rw [ht] at h1
      exact absurd (List.append_eq_nil_iff.1 (List.append_eq_nil_iff.1 ht).1).1 (utf8Char_ne c)
    | cons c' t =>
      have h2 : nextChar (utf8 (c' :: t)) = some c' := nextChar_encode c' _
      rw [ht, h2] at h1
      cases h1
      apply ih
      refine ⟨t, ?_⟩
      have ht : utf8Char c ++ utf8 t1 ++ s = utf8Char c ++ utf8 t := ht
      rw [List.append_assoc] at ht
      exact List.append_cancel_left ht

theorem utf8_inj {t t' : List Char} (h : utf8 t = utf8 t') : t = t' := by
  induction t generalizing t' with
  | nil =>
    cases t' with
    | nil => rfl
    | cons c t' => exact absurd (List.append_eq_nil_iff.1 h.symm).1 (utf8Char_ne c)
  | cons c t ih =>
    cases t' with
    | nil => exact absurd (List.append_eq_nil_iff.1 h).1 (utf8Char_ne c)
    | cons c' t' =>
      have h1 : nextChar (utf8 (c :: t)) = some c := nextChar_encode c _
      have h2 : nextChar (utf8 (c' :: t')) = some c' := nextChar_encode c' _
      rw [h, h2] at h1
      cases h1
      rw [ih (List.append_cancel_left h)]

/-- The loop converts everything, whatever the size of the buffer. -/
theorem convLoop_text (s : List Byte) (bufSize cap : Nat) (out : List Byte) (h0 : 0 < bufSize ∨ s = []) (hc : bufSize ≤ cap) :
    (∀ t, s = utf8 t → ∃ b c, convLoop s bufSize cap out = some (some (out ++ utf16 t, b, c)) ∧ b ≤ c) ∧
    ((¬ ∃ t, s = utf8 t) → convLoop s bufSize cap out = some none) := by
  unfold convLoop
  by_cases hs : s = []
  · rw [if_pos hs]
    refine ⟨fun t ht => ?_, fun h => absurd ⟨[], by rw [hs]; rfl⟩ h⟩
    cases t with
    | nil => exact ⟨bufSize, cap, by simp [utf16], hc⟩
    | cons c t =>
      rw [hs] at ht
      exact absurd (List.append_eq_nil_iff.1 ht.symm).1 (utf8Char_ne c)
  · rw [if_neg hs]
    have hb : 0 < bufSize := by
      rcases h0 with h | h
      · exact h
      · exact absurd h hs
    rw [if_neg (by omega)]
    have hread := iconv_read s bufSize
    split
    · rename_i rest o heq
      rw [heq] at hread
      obtain ⟨_, t, h1, h2⟩ := hread
      refine ⟨fun t' ht' => ?_, fun h => absurd ⟨t, h1⟩ h⟩
      have := iconv_text t' bufSize
      rw [← ht', heq] at this
      rcases this with ⟨_, h⟩ | ⟨_, _, _, h, _⟩
      · cases h
        exact ⟨_, _, rfl, hc⟩
      · cases h
    · rename_i rest o heq
      rw [heq] at hread
      obtain ⟨⟨t, h1⟩, h2⟩ := hread
      refine ⟨fun t' ht' => ?_, fun _ => rfl⟩
      exact absurd (utf8_cancel t rest ⟨t', by rw [← h1]; exact ht'⟩) h2
    · rename_i rest o heq
      rw [heq] at hread
      obtain ⟨t, h1, h2⟩ := hread
      have hdec : Prod.Lex (· < ·) (· < ·) (rest.length, 4 - bufSize * 2) (s.length, 4 - bufSize) := by
        rcases iconv_progress s bufSize with h' | ⟨h1, h2⟩
        · rw [heq] at h'
          exact Prod.Lex.left _ _ h'
        · rw [heq] at h1 h2
          simp only at h1
          rw [h1]
          have := h2 rfl
          exact Prod.Lex.right _ (by omega)
      obtain ⟨g1, g2⟩ := convLoop_text rest (bufSize * 2) (bufSize * 2) (out ++ o) (Or.inl (by omega)) (Nat.le_refl _)
      refine ⟨fun t' ht' => ?_, fun h => g2 ?_⟩
      · obtain ⟨t2, ht2⟩ := utf8_cancel t rest ⟨t', by rw [← h1]; exact ht'⟩
        obtain ⟨b, c, e, hbc⟩ := g1 t2 ht2
        refine ⟨b, c, ?_, hbc⟩
        rw [e, h2]
        have : t' = t ++ t2 := by
          apply utf8_inj
          rw [← ht', h1, ht2, utf8_append]
        rw [this, utf16_append, List.append_assoc]
      · rintro ⟨t2, ht2⟩
        exact h ⟨t ++ t2, by rw [h1, ht2, utf8_append]⟩
termination_by (s.length, 4 - bufSize)
decreasing_by exact hdec

end Dstu
