import Verif.Lemmas.JksLayout

/-! Lemmas on `parseJKS` as a whole. -/

namespace Dstu

open Dstu.Spec

variable {κ χ : Type} (lib : JksLib κ χ)

theorem toUTF16BE_some {s p : List Byte} (h : toUTF16BE s = some (some p)) : ∃ t, t ≠ [] ∧ s = utf8 t ∧ p = utf16 t := by
  by_cases ht : ∃ t, s = utf8 t
  · obtain ⟨t, rfl⟩ := ht
    have hne : t ≠ [] := by
      rintro rfl
      have h1 : toUTF16BE [] = some none := by
        unfold toUTF16BE convLoop
        simp
      rw [show utf8 [] = [] from rfl, h1] at h
      cases h
    rw [Props.C60_converted_partial t hne] at h
    cases h
    exact ⟨t, hne, rfl, rfl⟩
  · rw [Props.C60_invalid_refused s ht] at h
    cases h

theorem toUTF16BE_never (s : List Byte) : toUTF16BE s ≠ none := by
  by_cases ht : ∃ t, s = utf8 t
  · obtain ⟨t, rfl⟩ := ht
    by_cases hne : t = []
    · subst hne
      have h1 : toUTF16BE [] = some none := by
        unfold toUTF16BE convLoop
        simp
      rw [show utf8 [] = [] from rfl, h1]
      simp
    · rw [Props.C60_converted_partial t hne]
      simp
  · rw [Props.C60_invalid_refused s ht]
    simp

theorem aphrodite_eq : mightyAphrodite = aphrodite := by decide +kernel

theorem whiteHash_eq (t : List Char) (body : List Byte) : whiteHash lib (utf16 t) body = jksDigest lib.sha1 t body := by
  unfold whiteHash jksDigest
  rw [aphrodite_eq]

/-- The magic numbers, as they are read. -/
def goodMagic (n : Nat) : Prop := n = 0xedfeedfe ∨ n = 0xcececece

/-- `parseJKS`, after the header. -/
theorem parseJKS_body (kind : JksKind) (es : List JksEntry) (rest sp kp : List Byte) (ks : Option Nat) (m : ImpMem κ χ) (hn : es.length < 2 ^ 32) :
    parseJKS lib (jksBody kind es ++ rest) sp kp ks m =
      (toUTF16BE sp).bind fun r => match r with
        | none => some (false, ks, m)
        | some pwd16 => importEntries lib (jksBody kind es ++ rest) pwd16 kp es.length m := by
  have h1 : read32 (jksBody kind es ++ rest) 0 = some (leValue kind.magic) := by
    unfold read32
    rw [copyAt_at (data := jksBody kind es ++ rest) (pos := 0) (n := 4) (pre := []) (x := kind.magic) (post := u32 2 ++ u32 es.length ++ es.flatMap JksEntry.bytes ++ rest) (by simp [jksBody]) rfl (by cases kind <;> rfl), Option.map_some]
  have h2 : be32 (jksBody kind es ++ rest) 8 = some es.length :=
    be32_at (pre := kind.magic ++ u32 2) (post := es.flatMap JksEntry.bytes ++ rest) (by simp [jksBody]) (by cases kind <;> rfl) hn
  have h3 : read32 (jksBody kind es ++ rest) 4 = some (leValue (u32 2)) := by
    unfold read32
    rw [copyAt_at (data := jksBody kind es ++ rest) (pos := 4) (n := 4) (pre := kind.magic) (x := u32 2) (post := u32 es.length ++ es.flatMap JksEntry.bytes ++ rest) (by simp [jksBody]) (by cases kind <;> rfl) rfl, Option.map_some]
  have h4 : leValue kind.magic = 0xedfeedfe ∨ leValue kind.magic = 0xcececece := by
    cases kind
    · exact Or.inl (by decide +kernel)
    · exact Or.inr (by decide +kernel)
  have h5 : leValue (u32 2) = 0x02000000 := by decide +kernel
  unfold parseJKS
  rw [h1, h2, h3, h5]
  generalize leValue kind.magic = M at h4
  simp only [Option.bind_eq_bind, Option.bind_some]
  rw [if_neg (by omega), if_neg (by simp)]
  rcases toUTF16BE sp with _ | _ | _ <;> rfl

theorem parseJKS_cases (data sp kp : List Byte) (ks : Option Nat) (m : ImpMem κ χ) :
    parseJKS lib data sp kp ks m = none ∨ parseJKS lib data sp kp ks m = some (false, ks, m) ∨
      ∃ t n, t ≠ [] ∧ sp = utf8 t ∧ parseJKS lib data sp kp ks m = importEntries lib data (utf16 t) kp n m := by
  unfold parseJKS
  cases h1 : read32 data 0 with
  | none => exact Or.inl rfl
  | some magic =>
    cases h2 : be32 data 8 with
    | none => exact Or.inl rfl
    | some n =>
      simp only [Option.bind_eq_bind, Option.bind_some]
      split
      · exact Or.inr (Or.inl rfl)
      · cases h3 : read32 data 4 with
        | none => exact Or.inl rfl
        | some v =>
          simp only [Option.bind_some]
          split
          · exact Or.inr (Or.inl rfl)
          · rcases h4 : toUTF16BE sp with _ | _ | p
            · exact Or.inl rfl
            · exact Or.inr (Or.inl rfl)
            · obtain ⟨t, h5, h6, rfl⟩ := toUTF16BE_some h4
              exact Or.inr (Or.inr ⟨t, n, h5, h6, rfl⟩)

/-- The result of the import for a file with well laid out key entries. -/
theorem parseJKS_layout (kind : JksKind) (es : List JksEntry) (rest kp : List Byte) (t : List Char) (ht : t ≠ []) (ks : Option Nat) (m : ImpMem κ χ) (R : Reachable m.ks)
    (hn : es.length < 2 ^ 32) (hf : ∀ e ∈ es, e.Fits) (hk : ∀ e ∈ es, e.IsKey) (hr : 20 ≤ rest.length) :
    ∃ id, match readEntries lib kp es with
      | none => parseJKS lib (jksBody kind es ++ rest) (utf8 t) kp ks m = none
      | some none => ∃ m', parseJKS lib (jksBody kind es ++ rest) (utf8 t) kp ks m = some (false, some id, m') ∧ FailedClean m m' id
      | some (some (k, c)) =>
        if jksDigest lib.sha1 t (jksBody kind es) = rest.take 20 then
          ∃ m', parseJKS lib (jksBody kind es ++ rest) (utf8 t) kp ks m = some (true, some id, m') ∧ Imported m m' id k c
        else ∃ m', parseJKS lib (jksBody kind es ++ rest) (utf8 t) kp ks m = some (false, some id, m') ∧ FailedClean m m' id := by
  obtain ⟨id, h⟩ := importEntries_eq lib (jksBody kind es ++ rest) (utf16 t) kp es.length R
  refine ⟨id, ?_⟩
  rw [parseJKS_body lib kind es rest (utf8 t) kp ks m hn, Props.C60_converted_partial t ht, Option.bind_some]
  have hl := pEntryLoop_at lib (data := jksBody kind es ++ rest) (post := rest) (keyPass := kp) es (kind.magic ++ u32 2 ++ u32 es.length) (by simp [jksBody]) hf hk
  have h12 : (kind.magic ++ u32 2 ++ u32 es.length).length = 12 := by cases kind <;> rfl
  rw [h12] at hl
  rw [hl] at h
  rcases h1 : readEntries lib kp es with _ | _ | ⟨k, c⟩
  · rw [h1] at h
    exact h
  · rw [h1] at h
    exact h
  · rw [h1] at h
    have e2 : kind.magic ++ u32 2 ++ u32 es.length ++ es.flatMap JksEntry.bytes = jksBody kind es := rfl
    simp only [Option.map_some, e2] at h
    rw [copyAt_at (data := jksBody kind es ++ rest) (pos := 0) (pre := []) (x := jksBody kind es) (post := rest) (by simp) rfl rfl] at h
    simp only [List.drop_left] at h
    rw [whiteHash_eq, sameBytes_eq 20 0 (by unfold jksDigest; rw [lib.sha1_length]) (by omega), List.drop_zero, List.drop_zero,
      show (jksDigest lib.sha1 t (jksBody kind es)).take 20 = jksDigest lib.sha1 t (jksBody kind es) from List.take_of_length_le (by unfold jksDigest; rw [lib.sha1_length])] at h
    by_cases h3 : jksDigest lib.sha1 t (jksBody kind es) = rest.take 20
    · rw [decide_eq_true h3] at h
      simp only [if_pos h3]
      exact h
    · rw [decide_eq_false h3] at h
      simp only [if_neg h3]
      exact h

theorem allGive_length {kp : List Char} {es : List JksEntry} {ks : List κ} {cs : List χ} (h : AllGive lib kp es ks cs) (hk : ∀ e ∈ es, e.IsKey) : es.length ≤ ks.length := by
  induction h with
  | nil => simp
  | @cons e es k c k' c' h1 h2 ih =>
    have := ih fun e he => hk e (by simp [he])
    have hke := hk e (by simp)
    cases e with
    | cert => exact hke.elim
    | key =>
      obtain ⟨_, _, k1, k2, _, _, _, rfl, _⟩ := h1
      simp
      omega

end Dstu
