import Verif.Lemmas.Bytes

/-! C47: fixed-width encoding of numbers and byte reversal. -/

namespace Dstu.Props

open Spec

/-- C47, encoding: for every nonzero number and every width, the function reports success iff the number
fits; then it writes exactly `width` bytes, whose big-endian value is the number, and reading them back
gives it.  Missing: zero, see `C47_zero_refuted`. -/
theorem C47_encode_round_trip_partial (n width : Nat) (hn : n ≠ 0) :
    ((bn_encode n width).1 ≠ 0 ↔ n < 256 ^ width) ∧
    ∀ bytes, (bn_encode n width).2 = some bytes →
      bytes.length = width ∧ beValue bytes = n ∧ bin2bn bytes = n := by
  by_cases h : n < 256 ^ width
  · rw [bn_encode_fits n width h]
    have h1 := (numBytes_pos n).mpr hn
    refine ⟨by simp only [h, iff_true]; omega, ?_⟩
    rintro bytes ⟨⟩
    rw [bin2bn_eq, beValue_bytesBE, Nat.mod_eq_of_lt h]
    exact ⟨bytesBE_length _ _, rfl, rfl⟩
  · rw [bn_encode_not_fits n width h]
    exact ⟨by simp [h], by simp⟩

example : (bn_encode 258 3).1 ≠ 0 ∧ ¬ (bn_encode 65536 2).1 ≠ 0 :=
  ⟨(C47_encode_round_trip_partial 258 3 (by decide)).1.mpr (by decide), fun h => absurd ((C47_encode_round_trip_partial 65536 2 (by decide)).1.mp h) (by decide)⟩

/-- C47, the bytes are written iff the number fits, zero included, and never half of them. -/
theorem C47_written_iff_fits (n width : Nat) :
    ((∃ bytes, (bn_encode n width).2 = some bytes) ↔ n < 256 ^ width) ∧
    ∀ bytes, (bn_encode n width).2 = some bytes → bytes.length = width ∧ beValue bytes = n := by
  by_cases h : n < 256 ^ width
  · rw [bn_encode_fits n width h]
    refine ⟨by simp [h], ?_⟩
    rintro bytes ⟨⟩
    exact ⟨bytesBE_length _ _, by rw [beValue_bytesBE, Nat.mod_eq_of_lt h]⟩
  · rw [bn_encode_not_fits n width h]
    exact ⟨by simp [h], by simp⟩

/-- C47 fails for zero: it fits into every width and its bytes are written, but the value returned is
the one of failure. -/
theorem C47_zero_refuted (width : Nat) :
    0 < 256 ^ width ∧ (bn_encode 0 width).1 = 0 ∧ (bn_encode 0 width).2 = some (bytesBE width 0) := by
  have h : 0 < 256 ^ width := by positivity
  have h0 : numBytes 0 = 0 := by decide
  rw [bn_encode_fits 0 width h]
  exact ⟨h, h0, rfl⟩

/-- C47, reversal in place: it never goes out of the buffer, gives the reversed bytes, and twice gives the
buffer back. -/
theorem C47_reverse_involution (l : List Byte) :
    reverse_bytes l l.length = some l.reverse ∧
    (reverse_bytes l l.length >>= fun m => reverse_bytes m l.length) = some l := by
  have h1 := reverse_bytes_eq l
  have h2 := reverse_bytes_eq l.reverse
  rw [List.length_reverse, List.reverse_reverse] at h2
  refine ⟨h1, ?_⟩
  rw [h1]
  exact h2

/-- C47, reversing copy: the same. -/
theorem C47_reverse_copy_involution (l : List Byte) :
    reverse_bytes_copy l l.length = some l.reverse ∧
    (reverse_bytes_copy l l.length >>= fun m => reverse_bytes_copy m l.length) = some l := by
  have h1 := reverse_bytes_copy_eq l
  have h2 := reverse_bytes_copy_eq l.reverse
  rw [List.length_reverse, List.reverse_reverse] at h2
  refine ⟨h1, ?_⟩
  rw [h1]
  exact h2

/-- Concrete cases: 258 in three bytes, 65536 does not fit into two. -/
example : bn_encode 258 3 = (2, some [0, 1, 2]) ∧ bn_encode 65536 2 = (0, none) ∧
    reverse_bytes [1, 2, 3] 3 = some [3, 2, 1] := by decide

end Dstu.Props
