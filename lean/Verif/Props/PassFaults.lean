import Verif.Model.PassFaults
import Verif.Props.StoreFaults
import Verif.Props.Utf16
import Verif.Props.Jks

/-! Property C131: failures of library calls and passwords of JKS files. -/

namespace Dstu.Props

open Spec Flt

variable {κ χ : Type}

theorem writeOut_done {out o r : List Byte} {w : Nat → Bool} {t t' : Ticks} (h : Dstu.Faulty.writeOut out o w t = (.done r, t')) :
    (r = out ++ o ∧ t'.faults = t.faults) ∨ (r = out ∧ t'.faults = t.faults + 1) := by
  unfold Dstu.Faulty.writeOut at h
  split at h
  · rename_i h0
    obtain ⟨h1, h2⟩ := pure_done (α := List Byte) h
    exact Or.inl ⟨by rw [h0, List.append_nil, h1], by rw [h2]⟩
  · obtain ⟨ok, t1, e1, e2⟩ := bind_done h
    obtain ⟨p1, p2⟩ := pure_done (α := List Byte) e2
    rcases ask_cases e1 with ⟨rfl, f⟩ | ⟨rfl, f⟩
    · exact Or.inl ⟨p1.symm, by rw [← p2, f]⟩
    · exact Or.inr ⟨p1.symm, by rw [← p2, f]⟩

theorem fconv_ok {s rest o out : List Byte} {bufSize cap : Nat} (h0 : s ≠ []) (hc : ¬ (cap < bufSize ∨ bufSize = 0)) (hi : iconv s bufSize = (.ok, rest, o)) :
    Dstu.Faulty.convLoop s bufSize cap out = (Dstu.Faulty.writeOut out o >>= fun out => pure (some (some (out, bufSize, cap)))) := by
  conv_lhs => unfold Dstu.Faulty.convLoop
  rw [if_neg h0, if_neg hc]
  split <;> rename_i heq <;> rw [hi] at heq <;> cases heq
  rfl

theorem fconv_bad {s rest o out : List Byte} {bufSize cap : Nat} (h0 : s ≠ []) (hc : ¬ (cap < bufSize ∨ bufSize = 0)) (hi : iconv s bufSize = (.bad, rest, o)) :
    Dstu.Faulty.convLoop s bufSize cap out = (Dstu.Faulty.writeOut out o >>= fun _ => pure (some none)) := by
  conv_lhs => unfold Dstu.Faulty.convLoop
  rw [if_neg h0, if_neg hc]
  split <;> rename_i heq <;> rw [hi] at heq <;> cases heq
  rfl

theorem fconv_e2big {s rest o out : List Byte} {bufSize cap : Nat} (h0 : s ≠ []) (hc : ¬ (cap < bufSize ∨ bufSize = 0)) (hi : iconv s bufSize = (.e2big, rest, o)) :
    Dstu.Faulty.convLoop s bufSize cap out =
      (Dstu.Faulty.writeOut out o >>= fun out => Dstu.Faulty.convLoop rest (bufSize * 2) (bufSize * 2) out) := by
  conv_lhs => unfold Dstu.Faulty.convLoop
  rw [if_neg h0, if_neg hc]
  split <;> rename_i heq <;> rw [hi] at heq <;> cases heq
  rfl

/-- What comes out is what comes out without failures, with some parts missing. -/
theorem convLoop_done (w : Nat → Bool) (s : List Byte) (bufSize cap : Nat) (out full : List Byte) (t t' : Ticks) (r : Option (Option (List Byte × Nat × Nat)))
    (hs : out.Sublist full) (h : Dstu.Faulty.convLoop s bufSize cap out w t = (.done r, t')) :
    t.faults ≤ t'.faults ∧
    ((r = none ∧ convLoop s bufSize cap full = none) ∨ (r = some none ∧ convLoop s bufSize cap full = some none) ∨
    ∃ x y b c, r = some (some (x, b, c)) ∧ convLoop s bufSize cap full = some (some (y, b, c)) ∧ x.Sublist y ∧ (t'.faults = t.faults → out = full → x = y)) := by
  unfold convLoop
  by_cases h0 : s = []
  · unfold Dstu.Faulty.convLoop at h
    rw [if_pos h0] at h ⊢
    obtain ⟨h1, h2⟩ := pure_done (α := Option (Option (List Byte × Nat × Nat))) h
    subst h2
    exact ⟨Nat.le_refl _, Or.inr (Or.inr ⟨out, full, bufSize, cap, h1.symm, rfl, hs, fun _ h => h⟩)⟩
  · rw [if_neg h0]
    by_cases hc : cap < bufSize ∨ bufSize = 0
    · unfold Dstu.Faulty.convLoop at h
      rw [if_neg h0, if_pos hc] at h
      rw [if_pos hc]
      obtain ⟨h1, h2⟩ := pure_done (α := Option (Option (List Byte × Nat × Nat))) h
      subst h2
      exact ⟨Nat.le_refl _, Or.inl ⟨h1.symm, rfl⟩⟩
    · rw [if_neg hc]
      rcases heq : iconv s bufSize with ⟨_ | _ | _, rest, o⟩
      · rw [fconv_ok h0 hc heq] at h
        obtain ⟨x, t1, e1, e2⟩ := bind_done h
        obtain ⟨h1, h2⟩ := pure_done (α := Option (Option (List Byte × Nat × Nat))) e2
        subst h2
        have hx : x.Sublist (full ++ o) ∧ t.faults ≤ t1.faults ∧ (t1.faults = t.faults → out = full → x = full ++ o) := by
          rcases writeOut_done e1 with ⟨rfl, f⟩ | ⟨rfl, f⟩
          · exact ⟨hs.append (List.Sublist.refl o), by omega, fun _ h => by rw [h]⟩
          · exact ⟨hs.trans (List.sublist_append_left _ _), by omega, fun h => by omega⟩
        refine ⟨hx.2.1, Or.inr (Or.inr ⟨x, full ++ o, bufSize, cap, h1.symm, ?_, hx.1, hx.2.2⟩)⟩
        split <;> rename_i heq' <;> cases heq'
        rfl
      · rw [fconv_e2big h0 hc heq] at h
        obtain ⟨x, t1, e1, e2⟩ := bind_done h
        have hdec : Prod.Lex (· < ·) (· < ·) (rest.length, 4 - bufSize * 2) (s.length, 4 - bufSize) := by
          rcases iconv_progress s bufSize with h' | ⟨h1, h2⟩
          · rw [heq] at h'
            exact Prod.Lex.left _ _ h'
          · rw [heq] at h1 h2
            simp only at h1
            rw [h1]
            have := h2 rfl
            exact Prod.Lex.right _ (by omega)
        have hx : x.Sublist (full ++ o) ∧ t.faults ≤ t1.faults ∧ (t1.faults = t.faults → out = full → x = full ++ o) := by
          rcases writeOut_done e1 with ⟨rfl, f⟩ | ⟨rfl, f⟩
          · exact ⟨hs.append (List.Sublist.refl o), by omega, fun _ h => by rw [h]⟩
          · exact ⟨hs.trans (List.sublist_append_left _ _), by omega, fun h => by omega⟩
        obtain ⟨k0, k⟩ := convLoop_done w rest (bufSize * 2) (bufSize * 2) x (full ++ o) t1 t' r hx.1 e2
        refine ⟨by omega, ?_⟩
        split <;> rename_i heq' <;> cases heq'
        rcases k with k | k | ⟨a, b, c, d, k1, k2, k3, k4⟩
        · exact Or.inl k
        · exact Or.inr (Or.inl k)
        · exact Or.inr (Or.inr ⟨a, b, c, d, k1, k2, k3, fun hf ho => k4 (by omega) (hx.2.2 (by omega) ho)⟩)
      · rw [fconv_bad h0 hc heq] at h
        obtain ⟨x, t1, e1, e2⟩ := bind_done h
        obtain ⟨h1, h2⟩ := pure_done (α := Option (Option (List Byte × Nat × Nat))) e2
        subst h2
        refine ⟨by rcases writeOut_done e1 with ⟨_, f⟩ | ⟨_, f⟩ <;> omega, Or.inr (Or.inl ⟨h1.symm, ?_⟩)⟩
        split <;> rename_i heq' <;> cases heq'
        rfl
termination_by (s.length, 4 - bufSize)
decreasing_by exact hdec

/-- C131, part: whatever calls fail while a password is converted, if the conversion is reported as done, the password is not empty and in UTF-8, and what comes out is the
password in UTF-16BE, with parts of it missing at most if a call failed. -/
theorem C131_converted_partial (source r : List Byte) (w : Nat → Bool) (t t' : Ticks) (h : Dstu.Faulty.toUTF16BE source w t = (.done (some (some r)), t')) :
    ∃ p, p ≠ [] ∧ source = utf8 p ∧ r.Sublist (utf16 p) ∧ (t'.faults = t.faults → r = utf16 p) := by
  unfold Dstu.Faulty.toUTF16BE at h
  obtain ⟨ok, t1, e1, e2⟩ := bind_done h
  rcases ask_cases e1 with ⟨rfl, f1⟩ | ⟨rfl, f1⟩
  · rw [if_neg (by decide)] at e2
    obtain ⟨c, t2, e3, e4⟩ := bind_done e2
    obtain ⟨h1, h2⟩ := pure_done (α := Option (Option (List Byte))) e4
    subst h2
    obtain ⟨_, k⟩ := convLoop_done w source _ _ [] [] t1 t2 c (List.Sublist.refl _) e3
    rcases k with ⟨rfl, _⟩ | ⟨rfl, _⟩ | ⟨x, y, b, cp, rfl, k2, k3, k4⟩
    · cases h1
    · cases h1
    · unfold Dstu.Faulty.convEnd at h1
      simp only at h1
      split at h1
      · cases h1
      · rename_i hcb
        split at h1
        · cases h1
        · rename_i hx
          cases h1
          have hy : toUTF16BE source = some (some y) := by
            unfold toUTF16BE
            rw [k2]
            simp only
            rw [if_neg hcb, if_neg (by have := k3.length_le; omega)]
          by_cases hp : ∃ p, source = utf8 p
          · obtain ⟨p, rfl⟩ := hp
            have hne : p ≠ [] := by
              rintro rfl
              unfold toUTF16BE convLoop at hy
              simp [utf8] at hy
            rw [C60_converted_partial p hne] at hy
            cases hy
            exact ⟨p, hne, rfl, k3, fun hf => k4 (by omega) rfl⟩
          · rw [C60_invalid_refused source hp] at hy
            cases hy
  · rw [if_pos rfl] at e2
    obtain ⟨h1, _⟩ := pure_done (α := Option (Option (List Byte))) e2
    cases h1

/-- C131: when no call fails, a JKS file is imported as in the model without failures. -/
theorem C131_no_failure (lib : JksLib κ χ) (data storagePass keyPass : List Byte) (ks out : Option Nat) (m m' : ImpMem κ χ) (w : Nat → Bool) (t t' : Ticks)
    (h : Dstu.Faulty.parseJKS lib data storagePass keyPass ks m w t = (.done (some (true, out, m')), t')) (hf : t'.faults = t.faults) :
    parseJKS lib data storagePass keyPass ks m = some (true, out, m') := by
  unfold Dstu.Faulty.parseJKS at h
  unfold parseJKS
  cases h1 : read32 data 0 with
  | none =>
    rw [h1] at h
    cases (pure_done (α := Option (Bool × Option Nat × ImpMem κ χ)) h).1
  | some magic =>
    cases h2 : be32 data 8 with
    | none =>
      rw [h1, h2] at h
      cases (pure_done (α := Option (Bool × Option Nat × ImpMem κ χ)) h).1
    | some entries =>
      rw [h1, h2] at h
      simp only at h
      by_cases hm : magic ≠ 0xedfeedfe ∧ magic ≠ 0xcececece
      · rw [if_pos hm] at h
        cases (pure_done (α := Option (Bool × Option Nat × ImpMem κ χ)) h).1
      · rw [if_neg hm] at h
        cases h3 : read32 data 4 with
        | none =>
          rw [h3] at h
          cases (pure_done (α := Option (Bool × Option Nat × ImpMem κ χ)) h).1
        | some version =>
          rw [h3] at h
          simp only at h
          by_cases hv : version ≠ 0x02000000
          · rw [if_pos hv] at h
            cases (pure_done (α := Option (Bool × Option Nat × ImpMem κ χ)) h).1
          · rw [if_neg hv] at h
            obtain ⟨p, t1, e1, e2⟩ := bind_done h
            rcases p with _ | _ | p
            · cases (pure_done (α := Option (Bool × Option Nat × ImpMem κ χ)) e2).1
            · cases (pure_done (α := Option (Bool × Option Nat × ImpMem κ χ)) e2).1
            · obtain ⟨k1, k2⟩ := pure_done (α := Option (Bool × Option Nat × ImpMem κ χ)) e2
              subst k2
              obtain ⟨text, hne, hs, _, hp⟩ := C131_converted_partial _ _ _ _ _ e1
              have hu : toUTF16BE storagePass = some (some p) := by rw [hs, C60_converted_partial text hne, hp hf]
              simp only [Option.bind_eq_bind, Option.bind_some]
              rw [if_neg hm, if_neg hv, hu]
              exact k1

theorem run_writeOut (out o : List Byte) : Run (Dstu.Faulty.writeOut out o) (out ++ o) := by
  unfold Dstu.Faulty.writeOut
  split
  · rename_i h
    rw [h, List.append_nil]
    exact run_pure _
  · exact run_bind run_ask (run_pure _)

theorem run_convLoop (s : List Byte) (bufSize cap : Nat) (out : List Byte) : Run (Dstu.Faulty.convLoop s bufSize cap out) (convLoop s bufSize cap out) := by
  unfold convLoop
  by_cases h0 : s = []
  · unfold Dstu.Faulty.convLoop
    rw [if_pos h0, if_pos h0]
    exact run_pure _
  · rw [if_neg h0]
    by_cases hc : cap < bufSize ∨ bufSize = 0
    · unfold Dstu.Faulty.convLoop
      rw [if_neg h0, if_pos hc, if_pos hc]
      exact run_pure _
    · rw [if_neg hc]
      rcases heq : iconv s bufSize with ⟨_ | _ | _, rest, o⟩
      · rw [fconv_ok h0 hc heq]
        exact run_bind (run_writeOut _ _) (run_pure _)
      · have hdec : Prod.Lex (· < ·) (· < ·) (rest.length, 4 - bufSize * 2) (s.length, 4 - bufSize) := by
          rcases iconv_progress s bufSize with h' | ⟨h1, h2⟩
          · rw [heq] at h'
            exact Prod.Lex.left _ _ h'
          · rw [heq] at h1 h2
            simp only at h1
            rw [h1]
            have := h2 rfl
            exact Prod.Lex.right _ (by omega)
        rw [fconv_e2big h0 hc heq]
        exact run_bind (run_writeOut _ _) (run_convLoop rest (bufSize * 2) (bufSize * 2) (out ++ o))
      · rw [fconv_bad h0 hc heq]
        exact run_bind (run_writeOut _ _) (run_pure _)
termination_by (s.length, 4 - bufSize)
decreasing_by exact hdec

theorem run_toUTF16BE (source : List Byte) : Run (Dstu.Faulty.toUTF16BE source) (toUTF16BE source) := by
  unfold Dstu.Faulty.toUTF16BE
  refine run_bind run_ask ?_
  rw [if_neg (by decide)]
  exact run_bind (run_convLoop _ _ _ _) (run_pure _)

/-- C131: when nothing fails, the result is that of the model without failures, for every file and all passwords. -/
theorem C131_nothing_fails (lib : JksLib κ χ) (data storagePass keyPass : List Byte) (ks : Option Nat) (m : ImpMem κ χ) (t : Ticks) :
    ∃ t', Dstu.Faulty.parseJKS lib data storagePass keyPass ks m noFault t = (.done (parseJKS lib data storagePass keyPass ks m), t') ∧ t'.faults = t.faults := by
  refine Run.none ?_ t
  unfold Dstu.Faulty.parseJKS parseJKS
  cases read32 data 0 with
  | none => exact run_pure _
  | some magic =>
    cases be32 data 8 with
    | none => exact run_pure _
    | some entries =>
      simp only [Option.bind_eq_bind, Option.bind_some]
      by_cases hm : magic ≠ 0xedfeedfe ∧ magic ≠ 0xcececece
      · rw [if_pos hm, if_pos hm]
        exact run_pure _
      · rw [if_neg hm, if_neg hm]
        cases read32 data 4 with
        | none => exact run_pure _
        | some version =>
          simp only [Option.bind_some]
          by_cases hv : version ≠ 0x02000000
          · rw [if_pos hv, if_pos hv]
            exact run_pure _
          · rw [if_neg hv, if_neg hv]
            refine run_bind (run_toUTF16BE storagePass) ?_
            rcases toUTF16BE storagePass with _ | _ | p
            · exact run_pure _
            · exact run_pure _
            · exact run_pure _

/-! ### A wrong password is accepted -/

theorem iconv_step (c : Char) (t : List Char) (room : Nat) : iconv (utf8 (c :: t)) room = if (utf16Char c).length ≤ room then
    (match iconv (utf8 t) (room - (utf16Char c).length) with | (e, rest, out) => (e, rest, utf16Char c ++ out)) else (.e2big, utf8 (c :: t), []) := by
  have hne : utf8 (c :: t) ≠ [] := by
    intro h
    exact utf8Char_ne c (List.append_eq_nil_iff.1 h).1
  have hcons : utf8 (c :: t) = utf8Char c ++ utf8 t := rfl
  obtain ⟨b, s, hs⟩ := List.exists_cons_of_ne_nil hne
  have hnext : nextChar (b :: s) = some c := by rw [← hs, hcons, nextChar_encode]
  have hdrop : (b :: s).drop c.utf8Size = utf8 t := by
    rw [← hs, hcons, ← utf8Char_length, List.drop_left]
  rw [hs]
  conv_lhs => unfold iconv
  simp only [hnext]
  rw [hdrop]

/-- There is room for the first part only. -/
theorem iconv_part (a b : List Char) (hb : b ≠ []) : iconv (utf8 (a ++ b)) (utf16 a).length = (.e2big, utf8 b, utf16 a) := by
  induction a with
  | nil =>
    obtain ⟨c, t, rfl⟩ := List.exists_cons_of_ne_nil hb
    show iconv (utf8 (c :: t)) 0 = _
    rw [iconv_step, if_neg (by rcases utf16Char_length c with h | h <;> omega)]
    rfl
  | cons c a ih =>
    have hl : (utf16 (c :: a)).length = (utf16Char c).length + (utf16 a).length := List.length_append
    rw [List.cons_append, iconv_step, if_pos (by omega), hl, Nat.add_sub_cancel_left, ih]
    rfl

/-- There is room for everything. -/
theorem iconv_all (b : List Char) (room : Nat) (h : (utf16 b).length ≤ room) : iconv (utf8 b) room = (.ok, [], utf16 b) := by
  induction b generalizing room with
  | nil => simp [utf8, utf16, iconv]
  | cons c b ih =>
    have hl : (utf16 (c :: b)).length = (utf16Char c).length + (utf16 b).length := List.length_append
    rw [iconv_step, if_pos (by omega), ih _ (by omega)]
    rfl

/-- Texts in which every character has one byte in UTF-8. -/
def Ascii (t : List Char) : Prop := ∀ c ∈ t, (utf8Char c).length = 1 ∧ (utf16Char c).length = 2

theorem ascii_lengths {t : List Char} (h : Ascii t) : (utf8 t).length = t.length ∧ (utf16 t).length = 2 * t.length := by
  induction t with
  | nil => exact ⟨rfl, rfl⟩
  | cons c t ih =>
    obtain ⟨h1, h2⟩ := ih fun x hx => h x (by simp [hx])
    obtain ⟨k1, k2⟩ := h c (by simp)
    have e1 : (utf8 (c :: t)).length = (utf8Char c).length + (utf8 t).length := List.length_append
    have e2 : (utf16 (c :: t)).length = (utf16Char c).length + (utf16 t).length := List.length_append
    simp only [List.length_cons]
    omega

/-- C131 fails: when the second write fails, half of a password of ASCII characters is missing, with success reported. -/
theorem C131_half_refuted (a b : List Char) (ha : Ascii a) (hb : Ascii b) (hne : a ≠ []) (hl : a.length = b.length) :
    Dstu.Faulty.toUTF16BE (utf8 (a ++ b)) (fun j => decide (j ≠ 2)) ⟨0, 0⟩ = (.done (some (some (utf16 a))), ⟨3, 1⟩) := by
  obtain ⟨a1, a2⟩ := ascii_lengths ha
  obtain ⟨b1, b2⟩ := ascii_lengths hb
  have hpos : 0 < a.length := List.length_pos_iff.2 hne
  have hbne : b ≠ [] := by
    rintro rfl
    simp at hl
    exact hne hl
  have hlen : (utf8 (a ++ b)).length = (utf16 a).length := by
    rw [utf8_append, List.length_append]
    omega
  have n1 : utf8 (a ++ b) ≠ [] := by
    intro h
    have := congrArg List.length h
    rw [hlen, a2] at this
    simp at this
    exact hne this
  have n2 : utf8 b ≠ [] := by
    intro h
    have := congrArg List.length h
    rw [b1] at this
    simp at this
    exact hbne this
  have n3 : utf16 a ≠ [] := by
    intro h
    have := congrArg List.length h
    rw [a2] at this
    simp at this
    exact hne this
  have n4 : utf16 b ≠ [] := by
    intro h
    have := congrArg List.length h
    rw [b2] at this
    simp at this
    exact hbne this
  unfold Dstu.Faulty.toUTF16BE
  rw [ask_pass _ _ 0 0 (by decide), if_neg (by decide)]
  have w1 : Dstu.Faulty.writeOut [] (utf16 a) (fun j => decide (j ≠ 2)) ⟨1, 0⟩ = (.done (utf16 a), ⟨2, 0⟩) := by
    unfold Dstu.Faulty.writeOut
    rw [if_neg n3]
    rfl
  have w2 : Dstu.Faulty.writeOut (utf16 a) (utf16 b) (fun j => decide (j ≠ 2)) ⟨2, 0⟩ = (.done (utf16 a), ⟨3, 1⟩) := by
    unfold Dstu.Faulty.writeOut
    rw [if_neg n4]
    rfl
  have c2 : Dstu.Faulty.convLoop (utf8 b) ((utf8 (a ++ b)).length * 2) ((utf8 (a ++ b)).length * 2) (utf16 a) (fun j => decide (j ≠ 2)) ⟨2, 0⟩ =
      (.done (some (some (utf16 a, (utf8 (a ++ b)).length * 2, (utf8 (a ++ b)).length * 2))), ⟨3, 1⟩) := by
    rw [fconv_ok n2 (by omega) (iconv_all b ((utf8 (a ++ b)).length * 2) (by omega)), bind_step w2]
    rfl
  have c1 : Dstu.Faulty.convLoop (utf8 (a ++ b)) (utf8 (a ++ b)).length ((utf8 (a ++ b)).length * 2) [] (fun j => decide (j ≠ 2)) ⟨1, 0⟩ =
      (.done (some (some (utf16 a, (utf8 (a ++ b)).length * 2, (utf8 (a ++ b)).length * 2))), ⟨3, 1⟩) := by
    have hi : iconv (utf8 (a ++ b)) (utf8 (a ++ b)).length = (.e2big, utf8 b, utf16 a) := by
      rw [hlen]
      exact iconv_part a b hbne
    rw [fconv_e2big n1 (by omega) hi, bind_step w1]
    exact c2
  rw [bind_step c1]
  have hfin : Dstu.Faulty.convEnd (some (some (utf16 a, (utf8 (a ++ b)).length * 2, (utf8 (a ++ b)).length * 2))) = some (some (utf16 a)) := by
    unfold Dstu.Faulty.convEnd
    simp only
    rw [if_neg (by omega), if_neg (by omega)]
  rw [hfin]
  rfl

/-- C131 fails: every file that is accepted with a password of ASCII characters is also accepted with that password followed by as many other characters, when one call
fails. -/
theorem C131_wrong_password_refuted (lib : JksLib κ χ) (data : List Byte) (a b : List Char) (ha : Ascii a) (hb : Ascii b) (hne : a ≠ []) (hl : a.length = b.length)
    (keyPass : List Byte) (ks out : Option Nat) (m m' : ImpMem κ χ) (h : parseJKS lib data (utf8 a) keyPass ks m = some (true, out, m')) :
    Dstu.Faulty.parseJKS lib data (utf8 (a ++ b)) keyPass ks m (fun j => decide (j ≠ 2)) ⟨0, 0⟩ = (.done (some (true, out, m')), ⟨3, 1⟩) := by
  have hh := C131_half_refuted a b ha hb hne hl
  unfold parseJKS at h
  unfold Dstu.Faulty.parseJKS
  cases h1 : read32 data 0 with
  | none =>
    rw [h1] at h
    cases h
  | some magic =>
    cases h2 : be32 data 8 with
    | none =>
      rw [h1, h2] at h
      cases h
    | some entries =>
      rw [h1, h2] at h
      simp only [Option.bind_eq_bind, Option.bind_some] at h
      by_cases hm : magic ≠ 0xedfeedfe ∧ magic ≠ 0xcececece
      · rw [if_pos hm] at h
        cases h
      · rw [if_neg hm] at h
        cases h3 : read32 data 4 with
        | none =>
          rw [h3] at h
          cases h
        | some version =>
          rw [h3] at h
          simp only [Option.bind_some] at h
          by_cases hv : version ≠ 0x02000000
          · rw [if_pos hv] at h
            cases h
          · rw [if_neg hv, C60_converted_partial a hne] at h
            simp only
            rw [if_neg hm, if_neg hv, bind_step hh]
            have h' : importEntries lib data (utf16 a) keyPass entries m = some (true, out, m') := h
            simp only
            rw [h']
            rfl

/-- C131, passwords of keys: when success is reported and no call failed, the key is decrypted as with the given password. -/
theorem C131_key_no_failure (lib : JksLib κ χ) (data password : List Byte) (ks : Nat) (m m' : ImpMem κ χ) (w : Nat → Bool) (t t' : Ticks)
    (h : Dstu.Faulty.decryptKey lib data password ks m w t = (.done (some (true, m')), t')) (hf : t'.faults = t.faults) :
    decryptKey lib data password ks m = some (true, m') := by
  unfold Dstu.Faulty.decryptKey at h
  unfold decryptKey
  obtain ⟨p, t1, e1, e2⟩ := bind_done h
  rcases p with _ | _ | p
  · cases (pure_done (α := Option (Bool × ImpMem κ χ)) e2).1
  · cases (pure_done (α := Option (Bool × ImpMem κ χ)) e2).1
  · have ht : t1 = t' ∧ (match lib.d2i_X509_SIG data with
        | none => some (false, m)
        | some (oid, keyData) =>
          if oid = keyProtectorOID then fromKeyProtector lib keyData p ks m else if oid = pbes1OID then some (false, m) else some (true, m)) = some (true, m') := by
      cases hd : lib.d2i_X509_SIG data with
      | none =>
        simp only [hd] at e2
        cases (pure_done (α := Option (Bool × ImpMem κ χ)) e2).1
      | some x =>
        obtain ⟨oid, keyData⟩ := x
        simp only [hd] at e2 ⊢
        split at e2
        · rename_i h1
          rw [if_pos h1]
          exact (pure_done (α := Option (Bool × ImpMem κ χ)) e2).symm
        · rename_i h1
          rw [if_neg h1]
          split at e2
          · cases (pure_done (α := Option (Bool × ImpMem κ χ)) e2).1
          · rename_i h2
            rw [if_neg h2]
            exact (pure_done (α := Option (Bool × ImpMem κ χ)) e2).symm
    obtain ⟨rfl, hr⟩ := ht
    obtain ⟨text, hne, hs, _, hp⟩ := C131_converted_partial _ _ _ _ _ e1
    rw [hs, C60_converted_partial text hne, ← hp hf]
    exact hr

/-- C131, passwords of keys: when nothing fails, the result is that of the model without failures. -/
theorem C131_key_nothing_fails (lib : JksLib κ χ) (data password : List Byte) (ks : Nat) (m : ImpMem κ χ) (t : Ticks) :
    ∃ t', Dstu.Faulty.decryptKey lib data password ks m noFault t = (.done (decryptKey lib data password ks m), t') ∧ t'.faults = t.faults := by
  refine Run.none ?_ t
  unfold Dstu.Faulty.decryptKey decryptKey
  refine run_bind (run_toUTF16BE password) ?_
  rcases toUTF16BE password with _ | _ | p
  · exact run_pure _
  · exact run_pure _
  · simp only [Option.bind_eq_bind, Option.bind_some]
    cases lib.d2i_X509_SIG data with
    | none => exact run_pure _
    | some x =>
      obtain ⟨oid, keyData⟩ := x
      simp only
      by_cases h1 : oid = keyProtectorOID
      · rw [if_pos h1, if_pos h1]
        exact run_pure _
      · rw [if_neg h1, if_neg h1]
        by_cases h2 : oid = pbes1OID
        · rw [if_pos h2, if_pos h2]
          exact run_pure _
        · rw [if_neg h2, if_neg h2]
          exact run_pure _

/-- C131 fails for passwords of keys, too: what is decrypted with a password of ASCII characters is also decrypted with that password followed by as many other
characters, when one call fails. -/
theorem C131_key_password_refuted (lib : JksLib κ χ) (data : List Byte) (a b : List Char) (ha : Ascii a) (hb : Ascii b) (hne : a ≠ []) (hl : a.length = b.length)
    (ks : Nat) (m : ImpMem κ χ) :
    Dstu.Faulty.decryptKey lib data (utf8 (a ++ b)) ks m (fun j => decide (j ≠ 2)) ⟨0, 0⟩ = (.done (decryptKey lib data (utf8 a) ks m), ⟨3, 1⟩) := by
  unfold Dstu.Faulty.decryptKey decryptKey
  rw [bind_step (C131_half_refuted a b ha hb hne hl), C60_converted_partial a hne]
  simp only [Option.bind_eq_bind, Option.bind_some]
  cases lib.d2i_X509_SIG data with
  | none => rfl
  | some x =>
    obtain ⟨oid, keyData⟩ := x
    simp only
    by_cases h1 : oid = keyProtectorOID
    · rw [if_pos h1, if_pos h1]
      rfl
    · rw [if_neg h1, if_neg h1]
      by_cases h2 : oid = pbes1OID
      · rw [if_pos h2, if_pos h2]
        rfl
      · rw [if_neg h2, if_neg h2]
        rfl

/-- A file with the password "p", read with the password "px". -/
example : ∃ id m', Dstu.Faulty.parseJKS toyJks (jksFile toyJks.sha1 .jceks ['p'] toyEntries ++ [1, 2]) (utf8 ['p', 'x']) (utf8 ['k', 'і']) none emptyMem
      (fun j => decide (j ≠ 2)) ⟨0, 0⟩ = (.done (some (true, some id, m')), ⟨3, 1⟩) ∧
    HoldsExactly m' id [[5], [6], List.replicate 25 8] [[0x30, 1], [0x30, 2, 3]] := by
  obtain ⟨id, m', e, _, _, _, h⟩ := C55_import_partial toyJks .jceks ['p'] ['k', 'і'] (by simp) (by simp) toyEntries [1, 2] (by decide) toy_fits.1 toy_fits.2 _ _ toy_gives none emptyMem boot_reachable
  refine ⟨id, m', C131_wrong_password_refuted toyJks _ ['p'] ['x'] ?_ ?_ (by simp) rfl _ none _ _ _ e, h⟩
  · intro c hc
    rw [List.mem_singleton.1 hc]
    decide
  · intro c hc
    rw [List.mem_singleton.1 hc]
    decide

end Dstu.Props
