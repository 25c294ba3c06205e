import Verif.Lemmas.JksStuck
import Verif.Props.JksAccept

/-! C55, C56: exactly which data is accepted as a Java key store, and for which data the import leaves its input. -/

namespace Dstu.Props

open Dstu Dstu.Spec

variable {κ χ : Type}

theorem copyAt_head (kind : JksKind) (es : List TakenEntry) (z : List Byte) :
    copyAt (jksHead kind es.length ++ (es.flatMap TakenEntry.bytes ++ z)) 0 (jksHead kind es.length ++ es.flatMap TakenEntry.bytes).length = some (takenBody kind es) :=
  copyAt_at (pre := []) (x := takenBody kind es) (post := z) (by rw [List.nil_append, ← List.append_assoc]; rfl) rfl rfl

/-- What follows a header of a store, read. -/
theorem importEntries_head (lib : JksLib κ χ) (kind : JksKind) (n : Nat) (rest : List Byte) (t : List Char) (kp : List Byte) {m : ImpMem κ χ} (R : Reachable m.ks) :
    importEntries lib (jksHead kind n ++ rest) (utf16 t) kp n m = none ↔
      ∃ (es : List TakenEntry) (keys : List κ) (certs : List χ) (z : List Byte), ReadableEntries lib kp es keys certs ∧ rest = es.flatMap TakenEntry.bytes ++ z ∧
        (es.length < n ∧ Stuck lib kp z ∨ es.length = n ∧ CutShort z (jksDigest lib.sha1 t (takenBody kind es))) := by
  have h12 := jksHead_length kind n
  have hnone := pEntryLoop_none lib (data := jksHead kind n ++ rest) (keyPass := kp) (n := n) (pre := jksHead kind n) rfl
  have hall := fun ks cs q => pEntryLoop_all lib (data := jksHead kind n ++ rest) (keyPass := kp) (n := n) (pre := jksHead kind n) rfl (ks := ks) (cs := cs) (q := q)
  rw [h12] at hnone hall
  have hbody : ∀ (es : List TakenEntry), es.length = n → jksHead kind n ++ es.flatMap TakenEntry.bytes = takenBody kind es := by
    intro es hl
    rw [← hl]
    rfl
  obtain ⟨id, g⟩ := importEntries_eq lib (jksHead kind n ++ rest) (utf16 t) kp n R
  have hsame : ∀ (es : List TakenEntry) (z : List Byte), es.length = n → rest = es.flatMap TakenEntry.bytes ++ z →
      copyAt (jksHead kind n ++ rest) 0 (jksHead kind n ++ es.flatMap TakenEntry.bytes).length = some (takenBody kind es) ∧
      (sameBytes (whiteHash lib (utf16 t) (takenBody kind es)) ((jksHead kind n ++ rest).drop (jksHead kind n ++ es.flatMap TakenEntry.bytes).length) 20 0 = none ↔
        CutShort z (jksDigest lib.sha1 t (takenBody kind es))) := by
    rintro es z hl rfl
    constructor
    · rw [← hbody es hl]
      exact copyAt_at (pre := []) (post := z) (by simp) rfl rfl
    · rw [← List.append_assoc, List.drop_left, sameBytes_none 20 0 (by rw [show (whiteHash lib (utf16 t) (takenBody kind es)).length = 20 from lib.sha1_length _]) (Nat.zero_le _), whiteHash_eq]
      rfl
  constructor
  · intro hn
    rw [hn] at g
    rcases h1 : pEntryLoop lib (jksHead kind n ++ rest) kp n 12 with _ | _ | ⟨⟨k, c⟩, p⟩
    · obtain ⟨es, keys, certs, z, a, b, c, d⟩ := hnone.1 h1
      exact ⟨es, keys, certs, z, b, c, Or.inl ⟨a, d⟩⟩
    · rw [h1] at g
      obtain ⟨_, g, _⟩ := g
      cases g
    · rw [h1] at g
      simp only at g
      obtain ⟨es, z, a, b, e, rfl⟩ := (hall k c p).1 h1
      obtain ⟨s1, s2⟩ := hsame es z a e
      rw [s1] at g
      simp only at g
      refine ⟨es, k, c, z, b, e, Or.inr ⟨a, s2.1 ?_⟩⟩
      rcases h3 : sameBytes (whiteHash lib (utf16 t) (takenBody kind es)) ((jksHead kind n ++ rest).drop (jksHead kind n ++ es.flatMap TakenEntry.bytes).length) 20 0 with _ | _ | _
      · rfl
      · rw [h3] at g
        obtain ⟨_, g, _⟩ := g
        cases g
      · rw [h3] at g
        obtain ⟨_, g, _⟩ := g
        cases g
  · rintro ⟨es, keys, certs, z, b, e, ⟨a, d⟩ | ⟨a, d⟩⟩
    · rw [hnone.2 ⟨es, keys, certs, z, a, b, e, d⟩] at g
      exact g
    · obtain ⟨s1, s2⟩ := hsame es z a e
      rw [(hall keys certs _).2 ⟨es, z, a, b, e, rfl⟩] at g
      simp only at g
      rw [s1] at g
      simp only at g
      rw [s2.2 d] at g
      exact g

/-- C56, exactly: the import of `data` leaves its input, or breaks off with undefined behaviour, precisely when there are less than 12 bytes, or the data
begins with the header of a store of version 2 with `n` entries, the password is not empty, some entries can be read, and then either
one of the entries announced cannot be read to its end (`Stuck`: it is cut short, or holds a key that breaks the reader), or all entries
could be read and the data ends inside of the correct digest.  All other data, and all data in which any entry is refused before, is safe. -/
theorem C56_exactly (lib : JksLib κ χ) (data storagePass keyPass : List Byte) (ks : Option Nat) (m : ImpMem κ χ) (R : Reachable m.ks) :
    parseJKS lib data storagePass keyPass ks m = none ↔
      data.length < 12 ∨
      ∃ (kind : JksKind) (n : Nat) (pass : List Char) (es : List TakenEntry) (keys : List κ) (certs : List χ) (rest : List Byte),
        n < 2 ^ 32 ∧ pass ≠ [] ∧ storagePass = utf8 pass ∧ ReadableEntries lib keyPass es keys certs ∧
        data = jksHead kind n ++ es.flatMap TakenEntry.bytes ++ rest ∧
        (es.length < n ∧ Stuck lib keyPass rest ∨ es.length = n ∧ CutShort rest (jksDigest lib.sha1 pass (takenBody kind es))) := by
  constructor
  · intro hn
    by_cases hl : data.length < 12
    · exact Or.inl hl
    · right
      rcases parseJKS_header lib data storagePass keyPass ks m with e | e | ⟨t, n, kind, ht, hs, hb, ah, e⟩
      · by_cases hf : (∀ kind : JksKind, ¬(kind.magic ++ u32 2) <+: data) ∨ ∀ t : List Char, t ≠ [] → storagePass ≠ utf8 t
        · rw [C56_foreign_partial lib data storagePass keyPass (by omega) hf ks m] at hn
          cases hn
        · push Not at hf
          obtain ⟨⟨kind, rest, rfl⟩, t, ht, rfl⟩ := hf
          have h4 : ∃ x y, rest = x ++ y ∧ x.length = 4 := by
            refine ⟨rest.take 4, rest.drop 4, (List.take_append_drop 4 rest).symm, ?_⟩
            rw [List.length_take]
            have : (kind.magic ++ u32 2).length = 8 := by cases kind <;> rfl
            rw [List.length_append, this] at hl
            omega
          obtain ⟨x, y, rfl, hx⟩ := h4
          obtain ⟨f1, f2⟩ := four_bytes hx
          generalize ntohl (leValue x) = n at f1 f2
          subst f1
          have hd : kind.magic ++ u32 2 ++ (u32 n ++ y) = jksHead kind n ++ y := by
            unfold jksHead
            simp only [List.append_assoc]
          rw [hd] at hn ⊢
          rw [parseJKS_head lib kind n f2 y t ht] at hn
          obtain ⟨es, keys, certs, z, a, rfl, b⟩ := (importEntries_head lib kind n y t keyPass R).1 hn
          exact ⟨kind, n, t, es, keys, certs, z, f2, ht, rfl, a, by rw [List.append_assoc], b⟩
      · rw [e] at hn
        cases hn
      · rw [e] at hn
        obtain ⟨y, rfl⟩ : ∃ y, data = jksHead kind n ++ y := ⟨data.drop 12, ah.1⟩
        obtain ⟨es, keys, certs, z, a, rfl, b⟩ := (importEntries_head lib kind n y t keyPass R).1 hn
        exact ⟨kind, n, t, es, keys, certs, z, hb, ht, hs, a, by rw [List.append_assoc], b⟩
  · rintro (hl | ⟨kind, n, t, es, keys, certs, z, hb, ht, rfl, a, rfl, b⟩)
    · exact C56_short_refuted lib data storagePass keyPass hl ks m
    · rw [List.append_assoc, parseJKS_head lib kind n hb _ t ht]
      exact (importEntries_head lib kind n _ t keyPass R).2 ⟨es, keys, certs, z, a, rfl, b⟩

/-- A store that ends inside the name of its only entry, for any library and any key password. -/
example (lib : JksLib κ χ) (keyPass : List Byte) (ks : Option Nat) (m : ImpMem κ χ) (R : Reachable m.ks) :
    parseJKS lib (jksHead .jks 1 ++ (u32 1 ++ [0, 3, 97])) (utf8 ['a']) keyPass ks m = none := by
  refine (C56_exactly lib _ _ _ ks m R).2 (Or.inr ⟨.jks, 1, ['a'], [], [], [], _, by decide, by simp, rfl, ⟨by simp, ['a'], by simp, by simp, .nil⟩, rfl, Or.inl ⟨by decide, ?_⟩⟩)
  exact .head ⟨[97, 98, 99], List.replicate 8 0, [], 0⟩ ⟨by decide, rfl, by decide, by decide⟩ ⟨⟨[98, 99] ++ List.replicate 8 0 ++ str32 [] ++ u32 0, rfl⟩, by decide⟩

/-- C55, exactly: data is imported precisely when it begins with a key store of version 2, with entries that can be read with the key password and with their
keyed digest for the password, which must not be empty. -/
theorem C55_exactly (lib : JksLib κ χ) (data storagePass keyPass : List Byte) (ks : Option Nat) (m : ImpMem κ χ) (R : Reachable m.ks) :
    (∃ out m', parseJKS lib data storagePass keyPass ks m = some (true, out, m')) ↔
      ∃ (kind : JksKind) (pass : List Char) (es : List TakenEntry) (keys : List κ) (certs : List χ) (more : List Byte),
        pass ≠ [] ∧ storagePass = utf8 pass ∧ es.length < 2 ^ 32 ∧ ReadableEntries lib keyPass es keys certs ∧
        data = takenBody kind es ++ jksDigest lib.sha1 pass (takenBody kind es) ++ more := by
  constructor
  · rintro ⟨out, m', h⟩
    rcases parseJKS_header lib data storagePass keyPass ks m with e | e | ⟨t, n, kind, ht, hs, hb, ah, e⟩
    · rw [e] at h
      cases h
    · rw [e] at h
      cases h
    · obtain ⟨y, rfl⟩ : ∃ y, data = jksHead kind n ++ y := ⟨data.drop 12, ah.1⟩
      rw [e] at h
      obtain ⟨id, g⟩ := importEntries_eq lib (jksHead kind n ++ y) (utf16 t) keyPass n R
      rw [h] at g
      rcases h1 : pEntryLoop lib (jksHead kind n ++ y) keyPass n 12 with _ | _ | ⟨⟨k, c⟩, p⟩
      · rw [h1] at g
        cases g
      · rw [h1] at g
        obtain ⟨_, g, _⟩ := g
        cases g
      · rw [h1] at g
        simp only at g
        have hall := pEntryLoop_all lib (data := jksHead kind n ++ y) (keyPass := keyPass) (n := n) (pre := jksHead kind n) rfl (ks := k) (cs := c) (q := p)
        rw [jksHead_length] at hall
        obtain ⟨es, z, rfl, b, rfl, rfl⟩ := hall.1 h1
        rw [copyAt_head] at g
        simp only at g
        rw [← List.append_assoc, List.drop_left] at g
        rcases h3 : sameBytes (whiteHash lib (utf16 t) (takenBody kind es)) z 20 0 with _ | _ | _
        · rw [h3] at g
          cases g
        · rw [h3] at g
          obtain ⟨_, g, _⟩ := g
          cases g
        · have hl := sameBytes_long 20 0 (by decide) h3
          have hd : (whiteHash lib (utf16 t) (takenBody kind es)).length = 20 := lib.sha1_length _
          rw [sameBytes_eq 20 0 (by omega) hl] at h3
          have h4 := of_decide_eq_true (Option.some.inj h3)
          rw [List.drop_zero, List.drop_zero, List.take_of_length_le (Nat.le_of_eq hd), whiteHash_eq] at h4
          refine ⟨kind, t, es, k, c, z.drop 20, ht, hs, hb, b, ?_⟩
          rw [h4, List.append_assoc, List.take_append_drop]
          unfold takenBody jksHead
          simp only [List.append_assoc]
  · rintro ⟨kind, t, es, keys, certs, more, ht, rfl, hb, b, rfl⟩
    have hd : (jksDigest lib.sha1 t (takenBody kind es)).length = 20 := lib.sha1_length _
    have he : takenBody kind es ++ jksDigest lib.sha1 t (takenBody kind es) ++ more = jksHead kind es.length ++ (es.flatMap TakenEntry.bytes ++ (jksDigest lib.sha1 t (takenBody kind es) ++ more)) := by
      rw [show takenBody kind es = jksHead kind es.length ++ es.flatMap TakenEntry.bytes from rfl]
      simp only [List.append_assoc]
    generalize hD : jksDigest lib.sha1 t (takenBody kind es) = D at hd he
    rw [he, parseJKS_head lib kind es.length hb _ t ht]
    obtain ⟨id, g⟩ := importEntries_eq lib (jksHead kind es.length ++ (es.flatMap TakenEntry.bytes ++ (D ++ more))) (utf16 t) keyPass es.length R
    have hall := pEntryLoop_all lib (data := jksHead kind es.length ++ (es.flatMap TakenEntry.bytes ++ (D ++ more))) (keyPass := keyPass) (n := es.length) (pre := jksHead kind es.length) rfl
      (ks := keys) (cs := certs) (q := (jksHead kind es.length ++ es.flatMap TakenEntry.bytes).length)
    rw [jksHead_length] at hall
    rw [hall.2 ⟨es, _, rfl, b, rfl, rfl⟩] at g
    simp only at g
    rw [copyAt_head] at g
    simp only at g
    rw [← List.append_assoc, List.drop_left, whiteHash_eq, hD] at g
    rw [sameBytes_eq 20 0 (by omega) (by rw [List.length_append]; omega), List.drop_zero, List.drop_zero, List.take_of_length_le (Nat.le_of_eq hd),
      List.take_append_of_le_length (Nat.le_of_eq hd.symm), List.take_of_length_le (Nat.le_of_eq hd), decide_eq_true rfl] at g
    obtain ⟨m', g, _⟩ := g
    rw [← List.append_assoc]
    exact ⟨_, _, g⟩

/-- C54, exactly when a failure leaves `*ks` referring to a freed store: whenever the data begins with the header of a store of version 2 and the password is a
text that is not empty; in all other cases of failure nothing at all is changed. -/
theorem C54_jks_exactly (lib : JksLib κ χ) (data storagePass keyPass : List Byte) (ks out : Option Nat) (m m' : ImpMem κ χ) (R : Reachable m.ks)
    (h : parseJKS lib data storagePass keyPass ks m = some (false, out, m')) :
    ((∃ (kind : JksKind) (n : Nat) (rest : List Byte) (pass : List Char), n < 2 ^ 32 ∧ pass ≠ [] ∧ storagePass = utf8 pass ∧ data = jksHead kind n ++ rest) →
      ∃ id, out = some id ∧ m'.ks.stores id = none) ∧
    ((¬∃ (kind : JksKind) (n : Nat) (rest : List Byte) (pass : List Char), n < 2 ^ 32 ∧ pass ≠ [] ∧ storagePass = utf8 pass ∧ data = jksHead kind n ++ rest) →
      out = ks ∧ m' = m) := by
  constructor
  · rintro ⟨kind, n, rest, t, hn, ht, rfl, rfl⟩
    rw [parseJKS_head lib kind n hn rest t ht] at h
    obtain ⟨id, g⟩ := importEntries_eq lib (jksHead kind n ++ rest) (utf16 t) keyPass n R
    rw [h] at g
    have key : (∃ x, some (false, out, m') = some (false, some id, x) ∧ FailedClean m x id) → ∃ id, out = some id ∧ m'.ks.stores id = none := by
      rintro ⟨x, e, _, _, _, f⟩
      cases e
      exact ⟨id, rfl, f⟩
    rcases h1 : pEntryLoop lib (jksHead kind n ++ rest) keyPass n 12 with _ | _ | ⟨⟨k, c⟩, p⟩
    · rw [h1] at g
      cases g
    · rw [h1] at g
      exact key g
    · rw [h1] at g
      simp only at g
      rcases h2 : copyAt (jksHead kind n ++ rest) 0 p with _ | body
      · rw [h2] at g
        cases g
      · rw [h2] at g
        simp only at g
        rcases h3 : sameBytes (whiteHash lib (utf16 t) body) ((jksHead kind n ++ rest).drop p) 20 0 with _ | _ | _
        · rw [h3] at g
          cases g
        · rw [h3] at g
          exact key g
        · rw [h3] at g
          obtain ⟨_, g, _⟩ := g
          cases g
  · intro hno
    rcases parseJKS_header lib data storagePass keyPass ks m with e | e | ⟨t, n, kind, ht, hs, hb, ah, e⟩
    · rw [e] at h
      cases h
    · rw [e] at h
      cases h
      exact ⟨rfl, rfl⟩
    · exact absurd ⟨kind, n, data.drop 12, t, hb, ht, hs, ah.1⟩ hno

/-- An accepted file in `C55_exactly`, and a refused one in `C54_jks_exactly`: it has a header, so that the caller is left with the freed store. -/
example : (∃ (kind : JksKind) (pass : List Char) (es : List TakenEntry) (keys certs : List (List Byte)) (more : List Byte), pass ≠ [] ∧ utf8 ['p'] = utf8 pass ∧ es.length < 2 ^ 32 ∧
      ReadableEntries toyJks (utf8 ['k', 'і']) es keys certs ∧
      jksFile toyJks.sha1 .jceks ['p'] toyEntries ++ [1, 2] = takenBody kind es ++ jksDigest toyJks.sha1 pass (takenBody kind es) ++ more) ∧
    ∃ out m' id, parseJKS toyJks (JksKind.jks.magic ++ u32 2 ++ u32 1 ++ u32 3 ++ []) (utf8 ['p']) [1] none emptyMem = some (false, out, m') ∧ out = some id ∧ m'.ks.stores id = none := by
  obtain ⟨id, m', e, _⟩ := C55_import_partial toyJks .jceks ['p'] ['k', 'і'] (by simp) (by simp) toyEntries [1, 2] (by decide) toy_fits.1 toy_fits.2 _ _ toy_gives none emptyMem boot_reachable
  refine ⟨(C55_exactly toyJks _ _ _ none emptyMem boot_reachable).mp ⟨_, _, e⟩, ?_⟩
  obtain ⟨id, m', e, _⟩ := C54_jks_dangling_refuted toyJks ['p'] (by simp) [1] [] emptyMem boot_reachable
  obtain ⟨i, h1, h2⟩ := (C54_jks_exactly toyJks _ _ _ _ _ emptyMem m' boot_reachable e).1 ⟨.jks, 1, u32 3, ['p'], by decide, by simp, rfl, by decide⟩
  exact ⟨_, m', i, e, h1, h2⟩

end Dstu.Props
