import Verif.Spec.Utf16

/-! Model of `toUTF16BE` in keylib/jks.c.  `iconv` belongs to the C library; it is taken to do what POSIX says: it converts
one character after the other until the input ends, or there is no room for the next character (`E2BIG`), or the input goes on
with something that is not a character (`EILSEQ`, or `EINVAL` at the end).  Memory allocation is assumed to succeed. -/

namespace Dstu

open Spec

/-- The first character of a UTF-8 string, by Lean's decoder. -/
def nextChar (s : List Byte) : Option Char := (s.map UInt8.ofBitVec).toByteArray.utf8DecodeChar? 0

/-- How `iconv` ends. -/
inductive IconvEnd where
  | ok
  | e2big
  | bad

/-- `iconv(cd, &s, &ss, &d, &ds)` with `room` bytes at `d`: how it ends, what is left of the input, and what is written. -/
def iconv (s : List Byte) (room : Nat) : IconvEnd × List Byte × List Byte :=
  match h : s with
  | [] => (.ok, [], [])
  | _ :: _ =>
    match nextChar s with
    | none => (.bad, s, [])
    | some c =>
      if (utf16Char c).length ≤ room then
        match iconv (s.drop c.utf8Size) (room - (utf16Char c).length) with
        | (e, rest, out) => (e, rest, utf16Char c ++ out)
      else (.e2big, s, [])
termination_by s.length
decreasing_by
  have := c.utf8Size_pos
  simp [h]
  omega

theorem utf16Char_length (c : Char) : (utf16Char c).length = 2 ∨ (utf16Char c).length = 4 := by
  unfold utf16Char
  split <;> simp [unit16]

/-- What is left is not longer; if nothing was converted for lack of room, there was little room. -/
theorem iconv_progress (s : List Byte) (room : Nat) :
    (iconv s room).2.1.length < s.length ∨ ((iconv s room).2.1 = s ∧ ((iconv s room).1 = .e2big → room < 4)) := by
  cases s with
  | nil => exact Or.inr ⟨by simp [iconv], by simp [iconv]⟩
  | cons b s =>
    unfold iconv
    simp only
    split
    · exact Or.inr ⟨rfl, by simp⟩
    · rename_i c hc
      split
      · left
        have ih := iconv_progress ((b :: s).drop c.utf8Size) (room - (utf16Char c).length)
        have hp := c.utf8Size_pos
        have : ((b :: s).drop c.utf8Size).length < (b :: s).length := by simp; omega
        rcases ih with h | ⟨h, _⟩
        · exact Nat.lt_trans h this
        · show (iconv ((b :: s).drop c.utf8Size) (room - (utf16Char c).length)).2.1.length < _
          rw [h]
          exact this
      · rename_i h
        refine Or.inr ⟨rfl, fun _ => ?_⟩
        rcases utf16Char_length c with h' | h' <;> omega
termination_by s.length
decreasing_by
  have := Char.utf8Size_pos ‹Char›
  simp only [List.length_drop, List.length_cons]
  omega

/-- keylib/jks.c:67-85: the loop; `cap` is the size of the block at `buf`, `out` what was written to `res`.  `none`: undefined
behaviour (more room is claimed than there is), or the loop does not end, as there is no room at all (doubling it does not
help). -/
def convLoop (s : List Byte) (bufSize cap : Nat) (out : List Byte) : Option (Option (List Byte × Nat × Nat)) :=
  if s = [] then some (some (out, bufSize, cap))
  else if cap < bufSize ∨ bufSize = 0 then none
  else
    match h : iconv s bufSize with
    | (.ok, _, o) => some (some (out ++ o, bufSize, cap))
    | (.bad, _, _) => some none
    | (.e2big, rest, o) => convLoop rest (bufSize * 2) (bufSize * 2) (out ++ o)
termination_by (s.length, 4 - bufSize)
decreasing_by
  rcases iconv_progress s bufSize with h' | ⟨h1, h2⟩
  · rw [h] at h'
    exact Prod.Lex.left _ _ h'
  · rw [h] at h1 h2
    simp only at h1
    rw [h1]
    have := h2 rfl
    exact Prod.Lex.right _ (by omega)

/-- keylib/jks.c:50-117 `toUTF16BE`: outer `none`: undefined behaviour or no end; inner `none`: 0 is returned.  The loop at 86-104
asks `iconv` for what ends the text; in UTF-16BE that is nothing, it succeeds at once. -/
def toUTF16BE (source : List Byte) : Option (Option (List Byte)) :=
  match convLoop source source.length (source.length * 2) [] with
  | none => none
  | some none => some none
  | some (some (res, bufSize, cap)) =>
    if cap < bufSize then none
    else if res.length = 0 then some none
    else some (some res)

end Dstu
