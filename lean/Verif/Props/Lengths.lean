import Verif.Model.Lengths
import Verif.Props.Sign
import Verif.Props.Pkcs12

/-! C105: digests and passwords of any length. -/

namespace Dstu.Props

open Dstu Dstu.Spec

/-! ### Lengths -/

theorem intOfSize_small {n : Nat} (h : n < 2 ^ 31) : intOfSize n = n := by
  rw [intOfSize, if_pos (by omega)]
  omega

theorem intOfSize_wrap {n : Nat} (h : n < 2 ^ 31) : intOfSize (n + 2 ^ 32) = n := by
  rw [intOfSize, if_pos (by omega)]
  omega

/-- The bytes in use are the first `length mod 2 ^ 32`, if that number is below 2 ^ 31, otherwise none. -/
theorem digestUsed_eq (tbs : List Byte) :
    digestUsed tbs = if tbs.length % 2 ^ 32 < 2 ^ 31 then tbs.take (tbs.length % 2 ^ 32) else [] := by
  rw [digestUsed, intOfSize]
  split
  · rw [Int.toNat_natCast]
  · rw [Int.toNat_of_nonpos (by omega), List.take_zero]

theorem reverseFirst_eq (hash : List Byte) : (n : Nat) → n ≤ hash.length → reverseFirst hash n = some (hash.take n).reverse
  | 0, _ => by rw [List.take_zero]; rfl
  | n + 1, h => by
    rw [reverseFirst, reverseFirst_eq hash n (by omega), List.take_add_one, List.getElem?_eq_getElem (by omega)]
    simp only [Option.toList_some, List.reverse_append, List.reverse_cons, List.reverse_nil, List.nil_append, List.singleton_append]

/-- `hash_to_field` is free of undefined behaviour and does for any digest what it does for the bytes in use. -/
theorem hash_to_field_size_eq (hash : List Byte) (m : Nat) : hash_to_field_size hash m = some (hash_to_field (digestUsed hash) m) := by
  unfold hash_to_field_size digestUsed
  by_cases h : intOfSize hash.length ≤ 0
  · rw [if_pos h, Int.toNat_of_nonpos h, List.take_zero, hash_to_field, if_pos rfl]
  · have hle : (intOfSize hash.length).toNat ≤ hash.length := by rw [intOfSize]; split <;> omega
    rw [if_neg h, reverseFirst_eq _ _ hle, hash_to_field, if_neg]
    intro h0
    have := congrArg List.length h0
    simp only [List.length_take, List.length_nil] at this
    omega

/-! ### Digests -/

variable {g : EcGroup} [hg : GoodGroup g]

omit hg in
theorem digestUsed_small {tbs : List Byte} (h : tbs.length < 2 ^ 31) : digestUsed tbs = tbs := by
  rw [digestUsed, intOfSize_small h, Int.toNat_natCast, List.take_length]

omit hg in
theorem digestUsed_long {tbs more : List Byte} (h : tbs.length < 2 ^ 31) (hm : more.length = 2 ^ 32) : digestUsed (tbs ++ more) = tbs := by
  rw [digestUsed, List.length_append, hm, intOfSize_wrap h, Int.toNat_natCast, List.take_left]

/-- C105, part, signing: a digest of less than 2 ^ 31 bytes is used whole; so the theorems about signing without regard to the length (C23, C25, C26)
apply. -/
theorem C105_sign_partial (type : KeyType) (key : EcKey g) (sig : Bool) (siglen : Nat) (tbs : List Byte) (draws : List (Option Nat))
    (h : tbs.length < 2 ^ 31) : pkey_sign_size type g key sig siglen tbs draws = dstu_pkey_sign type g key sig siglen tbs draws := by
  rw [pkey_sign_size, digestUsed_small h]

/-- C105, part, verification: for a digest of less than 2 ^ 31 bytes the verdict is the one of the verification equation for the whole digest. -/
theorem C105_verify_partial (dec : OctetDecoder) (type : KeyType) (key : EcKey g) (sig tbs : List Byte) (h : tbs.length < 2 ^ 31) :
    pkey_verify_size dec type g key sig tbs = true ↔
      (body dec sig).length % 2 = 0 ∧ 2 * numBytes g.n ≤ (body dec sig).length ∧ tbs ≠ [] ∧
        (leValue tbs % 2 ^ fieldDegree g.p ≠ 0 ∨ leValue tbs = 0) ∧
        ∃ Q, key.pub = some Q ∧
          Accepts g.gen Q g.n (digestElem (fieldDegree g.p) tbs) (rOf dec type sig) (sOf dec type sig) := by
  rw [pkey_verify_size, digestUsed_small h, C29_verify_iff_equation]

/-- C105 fails for longer digests: 2 ^ 32 bytes more, whatever they are, make no difference to signing nor to verification. -/
theorem C105_digest_refuted (dec : OctetDecoder) (type : KeyType) (key : EcKey g) (tbs more : List Byte) (h : tbs.length < 2 ^ 31) (hm : more.length = 2 ^ 32) :
    (∀ sig siglen draws, pkey_sign_size type g key sig siglen (tbs ++ more) draws = pkey_sign_size type g key sig siglen tbs draws) ∧
      ∀ sig, pkey_verify_size dec type g key sig (tbs ++ more) = pkey_verify_size dec type g key sig tbs := by
  refine ⟨fun sig siglen draws => ?_, fun sig => ?_⟩
  · rw [pkey_sign_size, pkey_sign_size, digestUsed_long h hm, digestUsed_small h]
  · rw [pkey_verify_size, pkey_verify_size, digestUsed_long h hm, digestUsed_small h]

omit hg in
/-- The field elements of a digest and of a longer one differ if the digest is shorter than the field and what follows starts with an odd byte. -/
theorem digestElem_longer (m : Nat) (tbs more : List Byte) (b : Byte) (hb : b.toNat % 2 = 1) (h : 8 * tbs.length < m) (h0 : leValue tbs ≠ 0) :
    digestElem m (tbs ++ b :: more) ≠ digestElem m tbs := by
  have hlt : leValue tbs < 2 ^ (8 * tbs.length) := by
    have := leValue_lt tbs
    rwa [show (256 : Nat) = 2 ^ 8 from rfl, ← pow_mul] at this
  have hle : 2 ^ (8 * tbs.length + 1) ≤ 2 ^ m := Nat.pow_le_pow_right (by omega) (by omega)
  have e1 : leValue tbs % 2 ^ m = leValue tbs := Nat.mod_eq_of_lt (by rw [Nat.pow_succ] at hle; omega)
  have e2 : leValue (tbs ++ b :: more) % 2 ^ (8 * tbs.length + 1) = leValue tbs + 2 ^ (8 * tbs.length) := by
    rw [leValue_append, leValue, show (256 : Nat) = 2 ^ 8 from rfl, ← pow_mul]
    generalize leValue more = v
    obtain ⟨c, hc⟩ : ∃ c, b.toNat = 2 * c + 1 := ⟨b.toNat / 2, by omega⟩
    have : leValue tbs + 2 ^ (8 * tbs.length) * (b.toNat + 2 ^ 8 * v) = leValue tbs + 2 ^ (8 * tbs.length) + 2 ^ (8 * tbs.length + 1) * (c + 2 ^ 7 * v) := by
      rw [hc, pow_succ]; ring
    rw [this, Nat.add_mul_mod_self_left, Nat.mod_eq_of_lt (by rw [pow_succ]; omega)]
  have e3 : leValue (tbs ++ b :: more) % 2 ^ m % 2 ^ (8 * tbs.length + 1) = leValue tbs + 2 ^ (8 * tbs.length) := by
    rw [Nat.mod_mod_of_dvd _ (pow_dvd_pow 2 (by omega)), e2]
  rw [digestElem, digestElem, e1, if_neg h0]
  split
  · rename_i hz
    rw [hz, Nat.zero_mod] at e3
    have := Nat.pos_of_ne_zero h0
    omega
  · intro he
    rw [he] at e3
    rw [Nat.mod_eq_of_lt (by rw [pow_succ]; omega)] at e3
    have : 0 < 2 ^ (8 * tbs.length) := by positivity
    omega

/-- C105 fails, what it means: a signature that is accepted for a digest, of fewer bits than the field, is accepted for a longer digest that has a different
field element, so that the signature equation is another one. -/
theorem C105_forgery_refuted (dec : OctetDecoder) (type : KeyType) (key : EcKey g) (sig tbs : List Byte) (h : 8 * tbs.length < fieldDegree g.p)
    (hs : tbs.length < 2 ^ 31) (h0 : leValue tbs ≠ 0) (hv : pkey_verify_size dec type g key sig tbs = true) :
    ∃ more : List Byte, digestElem (fieldDegree g.p) (tbs ++ more) ≠ digestElem (fieldDegree g.p) tbs ∧
      pkey_verify_size dec type g key sig (tbs ++ more) = true := by
  refine ⟨List.replicate (2 ^ 32) 1, ?_, ?_⟩
  · rw [show (2 ^ 32 : Nat) = (2 ^ 32 - 1) + 1 from by omega, List.replicate_succ]
    exact digestElem_longer _ _ _ 1 (by decide) h h0
  · rw [(C105_digest_refuted dec type key tbs _ hs List.length_replicate).2, hv]

/-- C105 fails: for digests of 2 ^ 31 to 2 ^ 32 bytes nothing can be signed and nothing is accepted. -/
theorem C105_negative_refuted (dec : OctetDecoder) (type : KeyType) (key : EcKey g) (tbs : List Byte) (h : 2 ^ 31 ≤ tbs.length) (h' : tbs.length ≤ 2 ^ 32) :
    (∀ siglen draws out, pkey_sign_size type g key true siglen tbs draws = .done out → out.ret = false) ∧
      ∀ sig, pkey_verify_size dec type g key sig tbs = false := by
  have e : digestUsed tbs = [] := by
    rw [digestUsed_eq]
    split
    · rw [show tbs.length % 2 ^ 32 = 0 by omega, List.take_zero]
    · rfl
  refine ⟨fun siglen draws out ho => ?_, fun sig => ?_⟩
  · rw [pkey_sign_size, e] at ho
    have := C26_empty_digest_fails key draws
    unfold dstu_pkey_sign at ho
    rw [this] at ho
    simp only at ho
    split at ho
    · cases ho; rfl
    · simp only [if_true] at ho
      cases ho; rfl
  · rw [pkey_verify_size, e, Bool.eq_false_iff, Ne, C29_verify_iff_equation]
    rintro ⟨_, _, hn, _⟩
    exact hn rfl

/-- A digest and a signature of the running example; the degree of the field is above 8. -/
theorem verifyEx (type : KeyType) : ∃ sig, pkey_verify_size octetDecoder type gEx keyEx sig [1] = true := by
  obtain ⟨out, ho, hr⟩ := runEx type
  refine ⟨out.written, ?_⟩
  rw [pkey_verify_size, digestUsed_small (by decide)]
  exact C23_signature_verifies octetDecoder type keyEx keyEx 1 rfl rfl gEx_numbers.2.2.2.1 [1] 1000 [some 1] draws_ex out ho hr

example (type : KeyType) : ∃ sig more, digestElem (fieldDegree gEx.p) ([1] ++ more) ≠ digestElem (fieldDegree gEx.p) [1] ∧
    pkey_verify_size octetDecoder type gEx keyEx sig [1] = true ∧ pkey_verify_size octetDecoder type gEx keyEx sig ([1] ++ more) = true := by
  obtain ⟨sig, h⟩ := verifyEx type
  obtain ⟨more, h1, h2⟩ := C105_forgery_refuted octetDecoder type keyEx sig [1] (by decide +kernel) (by decide) (by decide) h
  exact ⟨sig, more, h1, h, h2⟩

/-- Signing in the running example. -/
example (type : KeyType) : ∃ out, pkey_sign_size type gEx keyEx true 1000 [1] [some 1] = .done out ∧ out.ret = true := by
  rw [C105_sign_partial type keyEx true 1000 [1] [some 1] (by decide)]
  exact runEx type

example (type : KeyType) : ∃ sig, (body octetDecoder sig).length % 2 = 0 ∧ ∃ Q, keyEx.pub = some Q ∧
    Accepts gEx.gen Q gEx.n (digestElem (fieldDegree gEx.p) [1]) (rOf octetDecoder type sig) (sOf octetDecoder type sig) := by
  obtain ⟨sig, h⟩ := verifyEx type
  obtain ⟨h1, _, _, _, h2⟩ := (C105_verify_partial octetDecoder type keyEx sig [1] (by decide)).mp h
  exact ⟨sig, h1, h2⟩

/-- With 2 ^ 32 zero bytes more, and digests that are too long by themselves. -/
example (type : KeyType) : ∃ out, pkey_sign_size type gEx keyEx true 1000 ([1] ++ List.replicate (2 ^ 32) 0) [some 1] = .done out ∧ out.ret = true := by
  rw [(C105_digest_refuted octetDecoder type keyEx [1] _ (by decide) List.length_replicate).1, C105_sign_partial type keyEx true 1000 [1] [some 1] (by decide)]
  exact runEx type
example (type : KeyType) (sig : List Byte) : pkey_verify_size octetDecoder type gEx keyEx sig (List.replicate (2 ^ 31) 1) = false :=
  (C105_negative_refuted octetDecoder type keyEx _ (by rw [List.length_replicate]) (by rw [List.length_replicate]; omega)).2 sig

/-! ### Passwords -/

section

variable {D κ χ : Type}

/-- Two libraries that are the same, but for the password. -/
structure SameLib (a : P12Lib D κ χ) (p : List Byte) (b : P12Lib D κ χ) (q : List Byte) : Prop where
  d2i : a.d2i_PKCS12 = b.d2i_PKCS12
  mac : ∀ d, a.verify_mac d p = b.verify_mac d q
  safes : a.unpack_authsafes = b.unpack_authsafes
  data : a.unpack_p7data = b.unpack_p7data
  enc : ∀ c, a.unpack_p7encdata c p = b.unpack_p7encdata c q
  key : a.EVP_PKCS82PKEY = b.EVP_PKCS82PKEY
  skey : ∀ c, a.decrypt_skey c p = b.decrypt_skey c q
  cert : a.get1_cert = b.get1_cert

variable {a b : P12Lib D κ χ} {p q : List Byte}

mutual
theorem fromBag_same (S : SameLib a p b q) (ks : Nat) : (bag : Bag) → (st : ImpSt κ χ) → fromBag a p ks bag st = fromBag b q ks bag st
  | .keyBag _, st => by rw [fromBag, fromBag, S.key]
  | .shrouded _, st => by rw [fromBag, fromBag, S.key, S.skey]
  | .certBag _, st => by rw [fromBag, fromBag, S.cert]
  | .safes bags, st => by rw [fromBag, fromBag, fromBags_same S ks bags st]
  | .other, st => by rw [fromBag, fromBag]
theorem fromBags_same (S : SameLib a p b q) (ks : Nat) : (bags : List Bag) → (st : ImpSt κ χ) → fromBags a p ks bags st = fromBags b q ks bags st
  | [], st => by rw [fromBags, fromBags]
  | bag :: bags, st => by
    rw [fromBags, fromBags, fromBag_same S ks bag st]
    rcases fromBag b q ks bag st with _ | ⟨_ | _, st'⟩
    · rfl
    · rfl
    · exact fromBags_same S ks bags st'
end

theorem unpack_same (S : SameLib a p b q) (s : Option P7) : a.unpack p s = b.unpack q s := by
  cases s with
  | none => rfl
  | some s =>
    simp only [P12Lib.unpack, S.data, S.enc]

theorem countKeysCerts_same (S : SameLib a p b q) : (safes : List (Option P7)) → (n : Nat × Nat) → countKeysCerts a p safes n = countKeysCerts b q safes n
  | [], n => rfl
  | s :: safes, n => by
    rw [countKeysCerts, countKeysCerts, unpack_same S]
    rcases b.unpack q s with _ | _ | bags
    · exact countKeysCerts_same S safes n
    · rfl
    · simp only
      rcases countKeysCertsInBags bags n with ⟨_ | _, n'⟩
      · rfl
      · exact countKeysCerts_same S safes n'

theorem fromSafes_same (S : SameLib a p b q) (ks : Nat) : (safes : List (Option P7)) → (st : ImpSt κ χ) → fromSafes a p ks safes st = fromSafes b q ks safes st
  | [], st => rfl
  | s :: safes, st => by
    rw [fromSafes, fromSafes, unpack_same S]
    rcases b.unpack q s with _ | _ | bags
    · exact fromSafes_same S ks safes st
    · rfl
    · simp only [fromBags_same S]
      rcases fromBags b q ks bags st with _ | ⟨_ | _, st'⟩
      · rfl
      · rfl
      · exact fromSafes_same S ks safes st'

theorem parse_same (S : SameLib a p b q) (data : List Byte) (ks : Option Nat) (m : ImpMem κ χ) : parsePKCS12 a data p ks m = parsePKCS12 b data q ks m := by
  have hi : ∀ safes, importSafes a p safes ks m = importSafes b q safes ks m := by
    intro safes
    simp only [importSafes, countKeysCerts_same S, fromSafes_same S]
  simp only [parsePKCS12, S.d2i, S.mac, S.safes, hi]

theorem sameLib_of (lib : P12LibC D κ χ) (mem : List Byte) (passSize n : Nat) (h : intOfSize passSize = n) (hn : n ≤ mem.length) :
    SameLib (lib.at passSize) mem lib.lib (mem.take n) where
  d2i := rfl
  mac d := by simp only [P12LibC.at, h, lib.verify_mac_eq d mem n hn]
  safes := rfl
  data := rfl
  enc c := by simp only [P12LibC.at, h, lib.unpack_p7encdata_eq c mem n hn]
  key := rfl
  skey c := by simp only [P12LibC.at, h, lib.decrypt_skey_eq c mem n hn]
  cert := rfl

/-- C105, part, PKCS#12: a password of less than 2 ^ 31 bytes is used whole, whatever follows it in memory; so the theorems about the import (C53, C54)
apply. -/
theorem C105_password_partial (lib : P12LibC D κ χ) (data pass behind : List Byte) (ks : Option Nat) (m : ImpMem κ χ) (h : pass.length < 2 ^ 31) :
    parsePKCS12_size lib data (pass ++ behind) pass.length ks m = parsePKCS12 lib.lib data pass ks m := by
  rw [parsePKCS12_size, parse_same (sameLib_of lib (pass ++ behind) pass.length pass.length (intOfSize_small h) (by simp)), List.take_left]

/-- C105 fails for longer passwords: the password of a file with 2 ^ 32 bytes more, whatever they are, opens it too. -/
theorem C105_password_refuted (lib : P12LibC D κ χ) (data pass more : List Byte) (ks : Option Nat) (m : ImpMem κ χ) (h : pass.length < 2 ^ 31)
    (hm : more.length = 2 ^ 32) :
    parsePKCS12_size lib data (pass ++ more) (pass ++ more).length ks m = parsePKCS12 lib.lib data pass ks m := by
  rw [parsePKCS12_size, List.length_append, hm, parse_same (sameLib_of lib (pass ++ more) _ pass.length (intOfSize_wrap h) (by simp)), List.take_left]

end

/-- The library of the examples for C53, with passwords as pointers. -/
def toyLibC (safes : List (Option P7)) (bags : List Bag) : P12LibC (List Byte) (List Byte) (List Byte) where
  lib := toyLib safes bags
  verify_mac := fun d mem n => (toyLib safes bags).verify_mac d (mem.take n.toNat)
  unpack_p7encdata := fun c mem n => (toyLib safes bags).unpack_p7encdata c (mem.take n.toNat)
  decrypt_skey := fun c mem n => (toyLib safes bags).decrypt_skey c (mem.take n.toNat)
  verify_mac_eq := fun _ _ _ _ => by rw [Int.toNat_natCast]
  unpack_p7encdata_eq := fun _ _ _ _ => by rw [Int.toNat_natCast]
  decrypt_skey_eq := fun _ _ _ _ => by rw [Int.toNat_natCast]

/-- C105 fails: a file whose MAC does not fit the password given is imported, keys and all. -/
theorem C105_wrong_password_refuted : ∃ (lib : P12LibC (List Byte) (List Byte) (List Byte)) (data pass : List Byte) (id : Nat) (m' : ImpMem (List Byte) (List Byte)),
    (∀ p12, lib.lib.d2i_PKCS12 data = some p12 → lib.lib.verify_mac p12 pass = false) ∧
      parsePKCS12_size lib data pass pass.length none emptyMem = some (true, some id, m') ∧ HoldsExactly m' id [[7]] [] := by
  have hc : contents (toyLibC [some ⟨.data, []⟩] [.keyBag [7]]).lib [1] [1] [.key (some [7])] := by
    refine ⟨[1], _, rfl, rfl, rfl, ?_, ?_, ?_, by simp⟩
    · simp [safeBags, toyLib, toyLibC]
    · simp [itemsOfSafes, safeBags, toyLib, toyLibC, itemsOfBags, itemsOfBag]
    · simp [Item.readable]
  obtain ⟨ok, out, m', e, _, _, h1, h2⟩ := C53_import (toyLibC [some ⟨.data, []⟩] [.keyBag [7]]).lib [1] [1] none emptyMem boot_reachable
  obtain ⟨id, e1, _, e2⟩ := h2 _ hc
  rw [h1.2 ⟨_, hc⟩, e1] at e
  refine ⟨toyLibC [some ⟨.data, []⟩] [.keyBag [7]], [1], [1] ++ List.replicate (2 ^ 32) 0, id, m', fun p12 h => ?_, ?_, e2⟩
  · cases h
    change (([1] : List Byte) == [1] ++ List.replicate (2 ^ 32) 0) = false
    rw [beq_eq_false_iff_ne]
    intro hx
    have := congrArg List.length hx
    rw [List.length_append, List.length_replicate] at this
    simp only [List.length_cons, List.length_nil] at this
    omega
  · rw [C105_password_refuted _ _ _ _ _ _ (by decide) List.length_replicate]
    exact e

/-- A short password, followed by other bytes in memory. -/
example : ∃ m', parsePKCS12_size (toyLibC [some ⟨.data, []⟩] [.keyBag [7]]) [1] ([1] ++ [5, 6]) ([1] : List Byte).length none emptyMem = some (true, some 0, m') := by
  rw [C105_password_partial (toyLibC [some ⟨.data, []⟩] [.keyBag [7]]) [1] [1] [5, 6] none emptyMem (by decide)]
  exact ⟨_, rfl⟩

end Dstu.Props
