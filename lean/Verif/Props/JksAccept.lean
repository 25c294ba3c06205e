import Verif.Lemmas.JksAccept
import Verif.Props.Jks

/-! C55, C59: what is accepted as a Java key store. -/

namespace Dstu.Props

open Dstu Dstu.Spec

variable {κ χ : Type}

/-- C55: whatever the data and the passwords, success means that the data begins with a key store of version 2: a known magic number, its entries and
nothing else, and their keyed digest for the given password; `*ks` is then a new store with exactly what these entries hold for the given key password.
Entries are those of `TakenEntry`. -/
theorem C55_accepted_partial (lib : JksLib κ χ) (data storagePass keyPass : List Byte) (ks out : Option Nat) (m m' : ImpMem κ χ) (R : Reachable m.ks)
    (h : parseJKS lib data storagePass keyPass ks m = some (true, out, m')) :
    ∃ kind pass kp es more keys certs id, storagePass = utf8 pass ∧ ((∃ e ∈ es, TakenEntry.IsKey e) → keyPass = utf8 kp) ∧
      es.length < 2 ^ 32 ∧ (∀ e ∈ es, e.Fits) ∧ data = takenBody kind es ++ jksDigest lib.sha1 pass (takenBody kind es) ++ more ∧
      AllAdd lib kp es keys certs ∧ out = some id ∧ Reachable m'.ks ∧ Undisturbed m m' ∧ m.ks.stores id = none ∧ HoldsExactly m' id keys certs := by
  rcases parseJKS_header lib data storagePass keyPass ks m with e | e | ⟨t, n, kind, ht, hs, hn, ah, e⟩
  · rw [e] at h
    cases h
  · rw [e] at h
    cases h
  · obtain ⟨id, g⟩ := importEntries_eq lib data (utf16 t) keyPass n R
    rw [e] at h
    rw [h] at g
    rcases h1 : pEntryLoop lib data keyPass n 12 with _ | _ | ⟨⟨k, c⟩, p⟩
    · rw [h1] at g
      cases g
    · rw [h1] at g
      obtain ⟨_, g, _⟩ := g
      cases g
    · rw [h1] at g
      simp only at g
      rcases h2 : copyAt data 0 p with _ | body
      · rw [h2] at g
        cases g
      · rw [h2] at g
        simp only at g
        rcases h3 : sameBytes (whiteHash lib (utf16 t) body) (data.drop p) 20 0 with _ | _ | _
        · rw [h3] at g
          cases g
        · rw [h3] at g
          obtain ⟨_, g, _⟩ := g
          cases g
        · rw [h3] at g
          obtain ⟨m2, g, i1, i2, i3, i4⟩ := g
          cases g
          have hl := sameBytes_long 20 0 (by decide) h3
          have hd : (whiteHash lib (utf16 t) body).length = 20 := lib.sha1_length _
          rw [sameBytes_eq 20 0 (by omega) hl] at h3
          have h4 := of_decide_eq_true (Option.some.inj h3)
          rw [List.drop_zero, List.drop_zero, List.take_of_length_le (Nat.le_of_eq hd)] at h4
          obtain ⟨es, le, fe, ae, ke, ge⟩ := pEntryLoop_some lib h1
          have ab := ah.append ae
          have hb : JksKind.magic kind ++ u32 2 ++ u32 n ++ es.flatMap TakenEntry.bytes = takenBody kind es := by
            unfold takenBody
            rw [le]
          rw [hb] at ab
          have hbody : body = takenBody kind es := by
            obtain ⟨a0, l0⟩ := copyAt_some h2
            have e1 := a0.1
            rw [ab.1, Nat.zero_add] at e1
            exact (List.append_cancel_right e1).symm
          have hkp : ∃ kp, kp ≠ [] ∧ ((∃ e ∈ es, TakenEntry.IsKey e) → keyPass = utf8 kp) := by
            by_cases hx : ∃ e ∈ es, TakenEntry.IsKey e
            · obtain ⟨e, he, hk⟩ := hx
              obtain ⟨kp, h5, h6⟩ := ke e he hk
              exact ⟨kp, h5, fun _ => h6⟩
            · exact ⟨['k'], by simp, fun h => absurd h hx⟩
          obtain ⟨kp, hk1, hk2⟩ := hkp
          refine ⟨kind, t, kp, es, data.drop (p + 20), k, c, id, hs, hk2, by rw [le]; exact hn, fe, ?_, ge kp hk1 hk2, rfl, i1, i2, i3, i4⟩
          rw [← hbody, ← whiteHash_eq, h4, hbody, ← List.drop_drop, List.append_assoc, List.take_append_drop]
          have := ab.1
          rw [List.drop_zero] at this
          exact this

/-- C56, another part: data of at least 12 bytes that does not begin like a key store of version 2 is refused without an access outside of it, and nothing is
changed; and so is any data of this length when the password is empty or no UTF-8. -/
theorem C56_foreign_partial (lib : JksLib κ χ) (data storagePass keyPass : List Byte) (hl : 12 ≤ data.length)
    (h : (∀ kind : JksKind, ¬(kind.magic ++ u32 2) <+: data) ∨ ∀ t : List Char, t ≠ [] → storagePass ≠ utf8 t) (ks : Option Nat) (m : ImpMem κ χ) :
    parseJKS lib data storagePass keyPass ks m = some (false, ks, m) := by
  have hr : ∀ p, p + 4 ≤ 12 → ∃ n, read32 data p = some n := by
    intro p hp
    unfold read32 copyAt
    rw [if_pos (by omega)]
    exact ⟨_, rfl⟩
  rcases parseJKS_header lib data storagePass keyPass ks m with e | e | ⟨t, n, kind, ht, hs, hn, ah, e⟩
  · exfalso
    obtain ⟨x, hx⟩ := hr 0 (by omega)
    obtain ⟨y, hy⟩ := hr 4 (by omega)
    obtain ⟨z, hz⟩ := hr 8 (by omega)
    unfold parseJKS be32 at e
    simp only [hx, hy, hz, Option.bind_eq_bind, Option.bind_some, Option.map_some] at e
    split at e
    · cases e
    · split at e
      · cases e
      · rename_i h1 h2
        rcases h3 : toUTF16BE storagePass with _ | _ | p
        · exact toUTF16BE_never _ h3
        · rw [h3] at e
          cases e
        · obtain ⟨t, h4, h5, -⟩ := toUTF16BE_some h3
          rcases h with h | h
          · have hk : ∃ kind : JksKind, x = leValue kind.magic := by
              by_cases e : x = 0xedfeedfe
              · exact ⟨.jks, by rw [e]; decide +kernel⟩
              · exact ⟨.jceks, by rw [show x = 0xcececece from Decidable.not_not.1 fun e' => h1 ⟨e, e'⟩]; decide +kernel⟩
            obtain ⟨kind, hk⟩ := hk
            have a1 := read32_value hx kind.magic (by cases kind <;> rfl) hk
            have a2 := read32_value hy (u32 2) rfl (by rw [show leValue (u32 2) = 0x02000000 by decide +kernel]; exact Decidable.not_not.1 h2)
            exact h kind ⟨_, (by simpa using (a1.append a2).1.symm)⟩
          · exact h t h4 h5
  · exact e
  · exfalso
    rcases h with h | h
    · refine h kind ⟨u32 n ++ data.drop 12, ?_⟩
      have := ah.1
      rw [List.drop_zero] at this
      rw [← List.append_assoc]
      exact this.symm
    · exact h t ht hs

/-- A file of another kind, with the magic number of JKS and version 1. -/
example (ks : Option Nat) : parseJKS toyJks (JksKind.jks.magic ++ u32 1 ++ u32 7) (utf8 ['p']) [] ks emptyMem = some (false, ks, emptyMem) :=
  C56_foreign_partial toyJks _ _ _ (by decide) (Or.inl fun kind => by cases kind <;> decide) ks emptyMem

/-- C59, for any data: when the import succeeds, the data begins with a key store, and if the algorithms of its private key entries are known ones, the new store
has at least as many keys as there are private key entries. -/
theorem C59_any_data_partial (lib : JksLib κ χ) (data storagePass keyPass : List Byte) (ks out : Option Nat) (m m' : ImpMem κ χ) (R : Reachable m.ks)
    (h : parseJKS lib data storagePass keyPass ks m = some (true, out, m')) :
    ∃ kind es rest keys certs id, data = takenBody kind es ++ rest ∧ out = some id ∧ HoldsExactly m' id keys certs ∧
      ((∀ name time prot chain, .key name time prot chain ∈ es → KnownAlg lib (.key name time prot chain)) → es.countP TakenEntry.isKey ≤ keys.length) := by
  obtain ⟨kind, pass, kp, es, more, keys, certs, id, -, -, -, -, hd, ha, ho, -, -, -, hh⟩ := C55_accepted_partial lib data storagePass keyPass ks out m m' R h
  refine ⟨kind, es, _, keys, certs, id, by rw [hd, List.append_assoc], ho, hh, ?_⟩
  clear hd hh
  induction ha with
  | nil => simp
  | @cons e es ks cs ks' cs' h1 _ ih =>
    intro known
    have ih := ih fun name time prot chain hm => known name time prot chain (by simp [hm])
    rw [List.countP_cons, List.length_append]
    cases e with
    | bare c =>
      simp only [TakenEntry.isKey, Bool.false_eq_true, if_false]
      omega
    | key name time prot chain =>
      simp only [TakenEntry.isKey, if_true]
      rcases h1 with ⟨_, _, k1, k2, _, _, _, h5, _⟩ | ⟨⟨oid, d, h2, h3, h4⟩, _⟩
      · rw [h5, List.length_cons]
        omega
      · rcases known name time prot chain (by simp) oid d h2 with h | h
        · exact absurd h h3
        · exact absurd h h4

/-- The store of `Props.Jks` meets the hypothesis. -/
example : ∃ id m', parseJKS toyJks (jksFile toyJks.sha1 .jceks ['p'] toyEntries ++ [1, 2]) (utf8 ['p']) (utf8 ['k', 'і']) none emptyMem = some (true, some id, m') := by
  obtain ⟨id, m', e, _, _, _, h⟩ := C55_import_partial toyJks .jceks ['p'] ['k', 'і'] (by simp) (by simp) toyEntries [1, 2] (by decide) toy_fits.1 toy_fits.2 _ _ toy_gives none emptyMem boot_reachable
  exact ⟨id, m', e⟩

/-- What `C55_accepted_partial` and `C59_any_data_partial` say of it. -/
example : ∃ id m', parseJKS toyJks (jksFile toyJks.sha1 .jceks ['p'] toyEntries ++ [1, 2]) (utf8 ['p']) (utf8 ['k', 'і']) none emptyMem = some (true, some id, m') ∧
    (∃ kind pass kp es more keys certs i, utf8 ['p'] = utf8 pass ∧ ((∃ e ∈ es, TakenEntry.IsKey e) → utf8 ['k', 'і'] = utf8 kp) ∧ es.length < 2 ^ 32 ∧ (∀ e ∈ es, e.Fits) ∧
      jksFile toyJks.sha1 .jceks ['p'] toyEntries ++ [1, 2] = takenBody kind es ++ jksDigest toyJks.sha1 pass (takenBody kind es) ++ more ∧ AllAdd toyJks kp es keys certs ∧
      some id = some i ∧ HoldsExactly m' i keys certs) ∧
    ∃ kind es rest keys certs i, jksFile toyJks.sha1 .jceks ['p'] toyEntries ++ [1, 2] = takenBody kind es ++ rest ∧ some id = some i ∧ HoldsExactly m' i keys certs ∧
      ((∀ name time prot chain, .key name time prot chain ∈ es → KnownAlg toyJks (.key name time prot chain)) → es.countP TakenEntry.isKey ≤ keys.length) := by
  obtain ⟨id, m', e, _, _, _, h⟩ := C55_import_partial toyJks .jceks ['p'] ['k', 'і'] (by simp) (by simp) toyEntries [1, 2] (by decide) toy_fits.1 toy_fits.2 _ _ toy_gives none emptyMem boot_reachable
  refine ⟨id, m', e, ?_, C59_any_data_partial toyJks _ _ _ _ _ emptyMem m' boot_reachable e⟩
  obtain ⟨kind, pass, kp, es, more, keys, certs, i, h1, h2, h3, h4, h5, h6, h7, _, _, _, h8⟩ := C55_accepted_partial toyJks _ _ _ _ _ emptyMem m' boot_reachable e
  exact ⟨kind, pass, kp, es, more, keys, certs, i, h1, h2, h3, h4, h5, h6, h7, h8⟩

end Dstu.Props
