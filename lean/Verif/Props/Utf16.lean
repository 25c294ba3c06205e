import Verif.Lemmas.Utf16

/-! C60: conversion of passwords to UTF-16BE. -/

namespace Dstu.Props

open Dstu.Spec

/-- C60, for passwords that are not empty: the conversion ends, without undefined behaviour, and gives the whole password in
UTF-16BE.  Missing: the empty password, see `C60_empty_refuted`. -/
theorem C60_converted_partial (t : List Char) (h : t ≠ []) : toUTF16BE (utf8 t) = some (some (utf16 t)) := by
  obtain ⟨c, t, rfl⟩ := List.exists_cons_of_ne_nil h
  have hlen : 0 < (utf8 (c :: t)).length := by
    apply List.length_pos_iff.2
    intro h
    exact utf8Char_ne c (List.append_eq_nil_iff.1 h).1
  obtain ⟨g, _⟩ := convLoop_text (utf8 (c :: t)) (utf8 (c :: t)).length ((utf8 (c :: t)).length * 2) [] (Or.inl hlen) (by omega)
  obtain ⟨b, cp, e, hb⟩ := g (c :: t) rfl
  unfold toUTF16BE
  simp only [e, List.nil_append]
  rw [if_neg (by omega), if_neg]
  have : (utf16 (c :: t)).length = (utf16Char c).length + (utf16 t).length := List.length_append
  rcases utf16Char_length c with h | h <;> omega

/-- C60: bytes that are no UTF-8 text are refused; this ends, too. -/
theorem C60_invalid_refused (s : List Byte) (h : ¬ ∃ t, s = utf8 t) : toUTF16BE s = some none := by
  have hlen : 0 < s.length := by
    apply List.length_pos_iff.2
    rintro rfl
    exact h ⟨[], rfl⟩
  obtain ⟨_, g⟩ := convLoop_text s s.length (s.length * 2) [] (Or.inl hlen) (by omega)
  unfold toUTF16BE
  simp only [g h]

/-- The full C60 is false: the empty password is not converted (to the empty string), it is refused. -/
theorem C60_empty_refuted : ¬ ∀ t, toUTF16BE (utf8 t) = some (some (utf16 t)) := by
  intro h
  have := h []
  have h1 : toUTF16BE [] = some none := by
    unfold toUTF16BE convLoop
    simp
  rw [show utf8 [] = [] from rfl, h1] at this
  cases this

/-- A password with characters of one to four bytes. -/
example : utf8 ['a', 'і', '€', '𝄞'] = [0x61, 0xD1, 0x96, 0xE2, 0x82, 0xAC, 0xF0, 0x9D, 0x84, 0x9E] := by decide
example : toUTF16BE [0x61, 0xD1, 0x96, 0xE2, 0x82, 0xAC, 0xF0, 0x9D, 0x84, 0x9E] =
    some (some [0x00, 0x61, 0x04, 0x56, 0x20, 0xAC, 0xD8, 0x34, 0xDD, 0x1E]) := by
  rw [show ([0x61, 0xD1, 0x96, 0xE2, 0x82, 0xAC, 0xF0, 0x9D, 0x84, 0x9E] : List Byte) = utf8 ['a', 'і', '€', '𝄞'] by decide,
    C60_converted_partial _ (by simp)]
  decide
/-- A byte that no text begins with. -/
example : toUTF16BE [0xFF] = some none := by
  refine C60_invalid_refused _ ?_
  rintro ⟨t, h⟩
  cases t with
  | nil => cases h
  | cons c t =>
    have h1 : nextChar (utf8 (c :: t)) = some c := nextChar_encode c _
    have h2 : nextChar [0xFF] = none := by decide +kernel
    rw [← h, h2] at h1
    cases h1

end Dstu.Props
