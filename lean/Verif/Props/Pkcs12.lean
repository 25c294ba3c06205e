import Verif.Spec.Pkcs12
import Verif.Lemmas.Pkcs12

/-! C53, C54: import of PKCS#12 files. -/

namespace Dstu.Props

open Dstu Dstu.Spec

variable {D κ χ : Type}

/-- C53.  The import of any data, into any memory, is free of undefined behaviour, so no write falls outside a store; it
reports success if and only if the file has contents for the password.  On success `*ks` is a new store with exactly
the keys and certificates of the file, at every depth of nesting, in order and without null entries.  Nothing that
existed before is touched. -/
theorem C53_import (lib : P12Lib D κ χ) (data pass : List Byte) (ks : Option Nat) (m : ImpMem κ χ) (R : Reachable m.ks) :
    ∃ ok out m', parsePKCS12 lib data pass ks m = some (ok, out, m') ∧ Reachable m'.ks ∧ Undisturbed m m' ∧
      (ok = true ↔ ∃ items, contents lib data pass items) ∧
      (∀ items, contents lib data pass items →
        ∃ id, out = some id ∧ m.ks.stores id = none ∧ HoldsExactly m' id (keysOf items) (certsOf items)) := by
  obtain ⟨ok, out, m', e, r, u, h1, h2⟩ := parsePKCS12_eq lib data pass ks m R
  have huniq : ∀ a b, contents lib data pass a → contents lib data pass b → a = b := by
    rintro a b ⟨p, s, q1, _, q2, _, q3, _⟩ ⟨p', s', q1', _, q2', _, q3', _⟩
    rw [q1] at q1'; cases q1'; rw [q2] at q2'; cases q2'
    rw [q3, q3']
  refine ⟨ok, out, m', e, r, u, ⟨fun h => ?_, fun ⟨items, h⟩ => ?_⟩, fun items h => ?_⟩
  · obtain ⟨items, _, h, _⟩ := h1 h
    exact ⟨items, h⟩
  · cases ok with
    | true => rfl
    | false => exact absurd h ((h2 rfl).1 items)
  · cases ok with
    | true =>
      obtain ⟨items', id, h', e1, e2, e3⟩ := h1 rfl
      rw [huniq items items' h h']
      exact ⟨id, e1, e2, e3⟩
    | false => exact absurd h ((h2 rfl).1 items)

/-- C54, part: a failed import leaves no object and no store behind and touches nothing that existed; but `*ks`, when it
was changed, refers to a freed store. -/
theorem C54_pkcs12_partial (lib : P12Lib D κ χ) (data pass : List Byte) (ks : Option Nat) (m : ImpMem κ χ) (R : Reachable m.ks)
    (out : Option Nat) (m' : ImpMem κ χ) (h : parsePKCS12 lib data pass ks m = some (false, out, m')) :
    Undisturbed m m' ∧ NothingLeft m m' ∧ (out = ks ∨ ∃ id, out = some id ∧ m'.ks.stores id = none) := by
  obtain ⟨ok, out', m2, e, _, u, _, h2⟩ := parsePKCS12_eq lib data pass ks m R
  rw [e] at h
  cases h
  exact ⟨u, (h2 rfl).2⟩

/-- C54, part: a file that is damaged or whose MAC does not fit the password leaves everything as it was, `*ks` too. -/
theorem C54_pkcs12_refused_partial (lib : P12Lib D κ χ) (data pass : List Byte) (ks : Option Nat) (m : ImpMem κ χ)
    (h : ∀ p12, lib.d2i_PKCS12 data = some p12 → lib.verify_mac p12 pass = false) :
    parsePKCS12 lib data pass ks m = some (false, ks, m) := by
  unfold parsePKCS12
  cases h1 : lib.d2i_PKCS12 data with
  | none => rfl
  | some p12 => simp only [h p12 h1, if_true]

/-- A library for examples: a file is its password; keys and certificates are their own encoding, the encoding `[0]` being
unreadable. -/
def toyLib (safes : List (Option P7)) (bags : List Bag) : P12Lib (List Byte) (List Byte) (List Byte) where
  d2i_PKCS12 := fun d => some d
  verify_mac := fun d pass => d == pass
  unpack_authsafes := fun _ => some safes
  unpack_p7data := fun _ => some bags
  unpack_p7encdata := fun _ pass => if pass = [1] then some bags else none
  EVP_PKCS82PKEY := fun b => if b = [0] then none else some b
  decrypt_skey := fun b pass => if pass = [1] then some b else none
  get1_cert := fun b => if b = [0] then none else some b

/-- A key, and in a nested bag a certificate, another nested bag with a key, and a certificate. -/
def toyBags : List Bag := [.keyBag [7], .safes [.certBag [8], .other, .safes [.shrouded [9]], .certBag [10]]]

def emptyMem : ImpMem (List Byte) (List Byte) := ⟨.boot, fun _ => none, fun _ => none⟩

theorem boot_reachable : Reachable KsMem.boot := ⟨[], trivial, rfl⟩

/-- Two safes, one encrypted, one absent, one of unknown type. -/
theorem toy_contents : contents (toyLib [some ⟨.data, []⟩, none, some ⟨.other, []⟩, some ⟨.encrypted, []⟩] toyBags) [1] [1]
    [.key (some [7]), .cert (some [8]), .key (some [9]), .cert (some [10]), .key (some [7]), .cert (some [8]), .key (some [9]), .cert (some [10])] := by
  refine ⟨[1], _, rfl, rfl, rfl, ?_, ?_, ?_, by simp⟩
  · simp [safeBags, toyLib]
  · simp [itemsOfSafes, safeBags, toyLib, toyBags, itemsOfBags, itemsOfBag]
  · simp [Item.readable]

example : ∃ id m', parsePKCS12 (toyLib [some ⟨.data, []⟩, none, some ⟨.other, []⟩, some ⟨.encrypted, []⟩] toyBags) [1] [1] none emptyMem = some (true, some id, m') ∧
    HoldsExactly m' id [[7], [9], [7], [9]] [[8], [10], [8], [10]] := by
  obtain ⟨ok, out, m', e, _, _, h1, h2⟩ := C53_import (toyLib [some ⟨.data, []⟩, none, some ⟨.other, []⟩, some ⟨.encrypted, []⟩] toyBags) [1] [1] none emptyMem boot_reachable
  obtain ⟨id, e1, _, e2⟩ := h2 _ toy_contents
  rw [h1.2 ⟨_, toy_contents⟩, e1] at e
  exact ⟨id, m', e, e2⟩

/-- C54 fails: a file whose last certificate cannot be read makes the import fail after `*ks` was set; `*ks` then refers to a
store that was freed, and freeing it again is undefined. -/
theorem C54_pkcs12_dangling_refuted : ∃ id m', parsePKCS12 (toyLib [some ⟨.data, []⟩] [.keyBag [7], .certBag [0]]) [1] [1] none emptyMem = some (false, some id, m') ∧
    m'.ks.stores id = none ∧ KeyStoreFree id m'.ks = none := ⟨0, _, rfl, rfl, rfl⟩

/-- The wrong password. -/
example : ∀ p12, (toyLib [] []).d2i_PKCS12 [1] = some p12 → (toyLib [] []).verify_mac p12 [2] = false := by
  intro p12 h
  cases h
  rfl

/-- A file that is refused, and one that fails after the store was made. -/
example (ks : Option Nat) : parsePKCS12 (toyLib [] []) [1] [2] ks emptyMem = some (false, ks, emptyMem) := C54_pkcs12_refused_partial _ _ _ ks emptyMem (by
  intro p12 h
  cases h
  rfl)
example : ∃ id m', parsePKCS12 (toyLib [some ⟨.data, []⟩] [.keyBag [7], .certBag [0]]) [1] [1] none emptyMem = some (false, some id, m') ∧ Undisturbed emptyMem m' ∧ NothingLeft emptyMem m' := by
  obtain ⟨id, m', h, _⟩ := C54_pkcs12_dangling_refuted
  obtain ⟨h1, h2, _⟩ := C54_pkcs12_partial _ _ _ none emptyMem boot_reachable _ m' h
  exact ⟨id, m', h, h1, h2⟩

end Dstu.Props
