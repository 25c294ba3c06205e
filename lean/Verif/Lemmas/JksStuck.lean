import Verif.Spec.JksStuck
import Verif.Lemmas.JksAccept

/-! When `parseJKS` leaves its input. -/

namespace Dstu

open Dstu.Spec

theorem copyAt_none {data : List Byte} {pos n : Nat} : copyAt data pos n = none ↔ data.length < pos + n := by
  unfold copyAt
  split
  · constructor
    · intro h; cases h
    · intro h; omega
  · exact ⟨fun _ => by omega, fun _ => rfl⟩

theorem copyAt_more {data x : List Byte} {pos n : Nat} (more : List Byte) (h : copyAt data pos n = some x) : copyAt (data ++ more) pos n = some x := by
  unfold copyAt at h ⊢
  split at h
  · rename_i hl
    cases h
    rw [if_pos (by rw [List.length_append]; omega), List.drop_append_of_le_length (by omega), List.take_append_of_le_length (by rw [List.length_drop]; omega)]
  · cases h

theorem copyAt_less {data more x : List Byte} {pos n : Nat} (h : copyAt (data ++ more) pos n = some x) (hl : pos + n ≤ data.length) : copyAt data pos n = some x := by
  unfold copyAt at h ⊢
  rw [if_pos (by rw [List.length_append]; omega), List.drop_append_of_le_length (by omega), List.take_append_of_le_length (by rw [List.length_drop]; omega)] at h
  rw [if_pos hl, h]

theorem be16_more {data : List Byte} {pos n : Nat} (more : List Byte) (h : be16 data pos = some n) : be16 (data ++ more) pos = some n := by
  unfold be16 read16 at h ⊢
  cases h1 : copyAt data pos 2 with
  | none => rw [h1] at h; cases h
  | some x => rw [h1] at h; rw [copyAt_more more h1, ← h]

theorem be32_more {data : List Byte} {pos n : Nat} (more : List Byte) (h : be32 data pos = some n) : be32 (data ++ more) pos = some n := by
  unfold be32 read32 at h ⊢
  cases h1 : copyAt data pos 4 with
  | none => rw [h1] at h; cases h
  | some x => rw [h1] at h; rw [copyAt_more more h1, ← h]

theorem be16_is {data : List Byte} {pos : Nat} (h : pos + 2 ≤ data.length) : ∃ n, be16 data pos = some n := by
  unfold be16 read16 copyAt
  rw [if_pos h]
  exact ⟨_, rfl⟩

theorem be32_is {data : List Byte} {pos : Nat} (h : pos + 4 ≤ data.length) : ∃ n, be32 data pos = some n := by
  unfold be32 read32 copyAt
  rw [if_pos h]
  exact ⟨_, rfl⟩

theorem be32_none {data : List Byte} {pos : Nat} : be32 data pos = none ↔ data.length < pos + 4 := by
  unfold be32 read32
  rw [Option.map_eq_none_iff, Option.map_eq_none_iff, copyAt_none]

theorem At.length {data x : List Byte} {p q : Nat} (h : At data p x q) (hp : p ≤ data.length) : q ≤ data.length := by
  have h1 := congrArg List.length h.1
  have h2 := h.2
  rw [List.length_append, List.length_drop, List.length_drop] at h1
  omega

/-- With enough bytes after it every beginning is that of a certificate. -/
theorem certHeader_long {data : List Byte} {pos : Nat} (h : pos + 2 ^ 33 ≤ data.length) : ∃ r, certHeader data pos = some r := by
  unfold certHeader
  obtain ⟨a, ha⟩ := be16_is (data := data) (pos := pos) (by omega)
  have la := (be16_some ha).2
  rw [ha]
  simp only
  obtain ⟨b, hb⟩ := be32_is (data := data) (pos := pos + (2 + a)) (by omega)
  have lb := (be32_some hb).2
  rw [hb]
  simp only
  unfold copyAt
  rw [if_pos (by omega)]
  exact ⟨_, rfl⟩

theorem keyHeader_long {data : List Byte} {pos : Nat} (h : pos + 2 ^ 33 ≤ data.length) : ∃ r, keyHeader data pos = some r := by
  unfold keyHeader
  obtain ⟨a, ha⟩ := be16_is (data := data) (pos := pos) (by omega)
  have la := (be16_some ha).2
  rw [ha]
  simp only
  obtain ⟨b, hb⟩ := be32_is (data := data) (pos := pos + (2 + a + 8)) (by omega)
  have lb := (be32_some hb).2
  rw [hb]
  simp only
  obtain ⟨c, hc⟩ := be32_is (data := data) (pos := pos + (2 + a + 8 + 4 + b)) (by omega)
  rw [hc]
  simp only
  unfold copyAt
  rw [if_pos (by omega)]
  exact ⟨_, rfl⟩

theorem certHeader_more {data : List Byte} {pos : Nat} {r : List Byte × Nat} (more : List Byte) (h : certHeader data pos = some r) : certHeader (data ++ more) pos = some r := by
  unfold certHeader at h ⊢
  cases h1 : be16 data pos with
  | none => rw [h1] at h; cases h
  | some a =>
    rw [h1] at h
    rw [be16_more more h1]
    simp only at h ⊢
    cases h2 : be32 data (pos + (2 + a)) with
    | none => rw [h2] at h; cases h
    | some b =>
      rw [h2] at h
      rw [be32_more more h2]
      simp only at h ⊢
      cases h3 : copyAt data (pos + (2 + a + 4)) b with
      | none => rw [h3] at h; cases h
      | some c =>
        rw [h3] at h
        rw [copyAt_more more h3]
        exact h

theorem keyHeader_more {data : List Byte} {pos : Nat} {r : List Byte × Nat × Nat} (more : List Byte) (h : keyHeader data pos = some r) : keyHeader (data ++ more) pos = some r := by
  unfold keyHeader at h ⊢
  cases h1 : be16 data pos with
  | none => rw [h1] at h; cases h
  | some a =>
    rw [h1] at h
    rw [be16_more more h1]
    simp only at h ⊢
    cases h2 : be32 data (pos + (2 + a + 8)) with
    | none => rw [h2] at h; cases h
    | some b =>
      rw [h2] at h
      rw [be32_more more h2]
      simp only at h ⊢
      cases h3 : be32 data (pos + (2 + a + 8 + 4 + b)) with
      | none => rw [h3] at h; cases h
      | some c =>
        rw [h3] at h
        rw [be32_more more h3]
        simp only at h ⊢
        cases h4 : copyAt data (pos + (2 + a + 8 + 4)) b with
        | none => rw [h4] at h; cases h
        | some d =>
          rw [h4] at h
          rw [copyAt_more more h4]
          exact h

theorem prefix_cut {x y z : List Byte} {more more' : List Byte} (h : x ++ more = y ++ more') (hl : x.length < y.length) : CutShort x y :=
  ⟨List.prefix_of_prefix_length_le ⟨more, rfl⟩ ⟨more', h.symm⟩ (Nat.le_of_lt hl), hl⟩

theorem certHeader_none {data pre x : List Byte} (h : data = pre ++ x) : certHeader data pre.length = none ↔ CutCert x := by
  constructor
  · intro hn
    obtain ⟨N, hN⟩ : ∃ N, N = 2 ^ 33 := ⟨_, rfl⟩
    obtain ⟨⟨der, next⟩, hr⟩ := certHeader_long (data := data ++ List.replicate N 0) (pos := pre.length) (by
      rw [h, List.length_append, List.length_append, List.length_replicate, hN]; omega)
    obtain ⟨c, fc, rfl, ac⟩ := certHeader_some hr
    have e := ac.1
    rw [h, List.append_assoc, List.drop_left] at e
    by_cases hl : x.length < c.bytes.length
    · exact ⟨c, fc, prefix_cut (z := []) e hl⟩
    · exfalso
      obtain ⟨z, hz⟩ := List.prefix_of_prefix_length_le (l₁ := c.bytes) (l₂ := x) ⟨_, e.symm⟩ ⟨_, rfl⟩ (by omega)
      rw [certHeader_at (pre := pre) (post := z) (by rw [h, ← hz]) fc] at hn
      cases hn
  · rintro ⟨c, fc, ⟨z, hz⟩, hl⟩
    cases h1 : certHeader data pre.length with
    | none => rfl
    | some r =>
      exfalso
      have h2 := certHeader_more z h1
      rw [certHeader_at (pre := pre) (post := []) (by rw [h, List.append_assoc, hz, List.append_nil]) fc] at h2
      obtain ⟨c', fc', _, ac⟩ := certHeader_some (der := r.1) (next := r.2) h1
      have := ac.length (by rw [h, List.length_append]; omega)
      have e := congrArg Prod.snd (Option.some.inj h2)
      simp only at e
      rw [← e, List.length_append, h, List.length_append] at this
      omega

theorem keyHeader_none {data pre x : List Byte} (h : data = pre ++ x) : keyHeader data pre.length = none ↔ ∃ k : KeyHead, k.Fits ∧ CutShort x k.bytes := by
  constructor
  · intro hn
    obtain ⟨N, hN⟩ : ∃ N, N = 2 ^ 33 := ⟨_, rfl⟩
    obtain ⟨⟨der, num, next⟩, hr⟩ := keyHeader_long (data := data ++ List.replicate N 0) (pos := pre.length) (by
      rw [h, List.length_append, List.length_append, List.length_replicate, hN]; omega)
    obtain ⟨name, time, f1, f2, f3, f4, ac⟩ := keyHeader_some hr
    have e := ac.1
    rw [h, List.append_assoc, List.drop_left] at e
    by_cases hl : x.length < (str16 name ++ time ++ str32 der ++ u32 num).length
    · exact ⟨⟨name, time, der, num⟩, ⟨f1, f2, f3, f4⟩, prefix_cut (z := []) e hl⟩
    · exfalso
      obtain ⟨z, hz⟩ := List.prefix_of_prefix_length_le (l₁ := str16 name ++ time ++ str32 der ++ u32 num) (l₂ := x) ⟨_, e.symm⟩ ⟨_, rfl⟩ (by omega)
      rw [keyHeader_at (pre := pre) (post := z) (name := name) (time := time) (prot := der) (n := num) (by rw [h, ← hz]) f1 f2 f3 f4] at hn
      cases hn
  · rintro ⟨k, ⟨f1, f2, f3, f4⟩, ⟨z, hz⟩, hl⟩
    cases h1 : keyHeader data pre.length with
    | none => rfl
    | some r =>
      exfalso
      have h2 := keyHeader_more z h1
      rw [keyHeader_at (pre := pre) (post := []) (name := k.name) (time := k.time) (prot := k.prot) (n := k.num) (by rw [h, List.append_assoc, hz, List.append_nil]; rfl) f1 f2 f3 f4] at h2
      obtain ⟨_, _, _, _, _, _, ac⟩ := keyHeader_some (der := r.1) (num := r.2.1) (next := r.2.2) h1
      have := ac.length (by rw [h, List.length_append]; omega)
      have e := congrArg (fun t => t.2.2) (Option.some.inj h2)
      simp only at e
      have hb : (str16 k.name ++ k.time ++ str32 k.prot ++ u32 k.num).length = k.bytes.length := rfl
      rw [← e, List.length_append, hb, h, List.length_append] at this
      omega

variable {κ χ : Type} (lib : JksLib κ χ)

theorem pCert_none {data : List Byte} {pos : Nat} : pCert lib data pos = none ↔ certHeader data pos = none := by
  unfold pCert
  rcases certHeader data pos with _ | ⟨der, next⟩
  · exact ⟨fun _ => rfl, fun _ => rfl⟩
  · simp only [Option.bind_eq_bind, Option.bind_some]
    cases lib.d2i_X509 der <;> simp

theorem pCert_at {data pre post : List Byte} {c : JksCert} (h : data = pre ++ (c.bytes ++ post)) (hc : c.Fits) {y : χ} (hy : lib.d2i_X509 c.der = some y) :
    pCert lib data pre.length = some (some (([], [y]), (pre ++ c.bytes).length)) := by
  unfold pCert
  rw [certHeader_at h hc]
  simp only [Option.bind_eq_bind, Option.bind_some, hy]

theorem pCertLoop_none {data : List Byte} {n : Nat} {pre x : List Byte} (h : data = pre ++ x) : pCertLoop lib data n pre.length = none ↔
    ∃ (chain : List JksCert) (z : List Byte), chain.length < n ∧ (∀ c ∈ chain, c.Fits ∧ ∃ y, lib.d2i_X509 c.der = some y) ∧ CutCert z ∧ x = chain.flatMap JksCert.bytes ++ z := by
  induction n generalizing pre x with
  | zero =>
    unfold pCertLoop
    constructor
    · intro h; cases h
    · rintro ⟨_, _, h, _⟩; omega
  | succ n ih =>
    unfold pCertLoop
    rcases h1 : pCert lib data pre.length with _ | _ | ⟨⟨k1, c1⟩, p⟩
    · refine ⟨fun _ => ⟨[], x, by simp, by simp, ?_, rfl⟩, fun _ => rfl⟩
      rw [pCert_none] at h1
      exact (certHeader_none h).1 h1
    · refine ⟨fun h => (by cases h), ?_⟩
      rintro ⟨chain, z, hl, hc, hz, rfl⟩
      exfalso
      cases chain with
      | nil =>
        have := (pCert_none lib).2 ((certHeader_none h).2 hz)
        rw [h1] at this
        cases this
      | cons c chain =>
        obtain ⟨fc, y, hy⟩ := hc c (by simp)
        rw [pCert_at lib (post := chain.flatMap JksCert.bytes ++ z) (by rw [h]; simp) fc hy] at h1
        cases h1
    · simp only [Option.bind_eq_bind, Option.bind_some]
      obtain ⟨c, fc, ac, rfl, y, hy, rfl⟩ := pCert_some lib h1
      obtain ⟨z0, rfl⟩ : ∃ z0, x = c.bytes ++ z0 := by
        have := ac.1
        rw [h, List.drop_left] at this
        exact ⟨_, this⟩
      have hp : p = (pre ++ c.bytes).length := by rw [ac.2, List.length_append]
      subst hp
      have ih := ih (pre := pre ++ c.bytes) (x := z0) (by rw [h]; simp)
      constructor
      · intro hn
        have : pCertLoop lib data n (pre ++ c.bytes).length = none := by
          rcases h2 : pCertLoop lib data n (pre ++ c.bytes).length with _ | _ | ⟨⟨_, _⟩, _⟩
          · rfl
          · rw [h2] at hn; cases hn
          · rw [h2] at hn; cases hn
        obtain ⟨chain, z, hl, hc, hz, rfl⟩ := ih.1 this
        refine ⟨c :: chain, z, by simp [hl], ?_, hz, by simp⟩
        intro d hd
        rcases List.mem_cons.1 hd with rfl | hd
        · exact ⟨fc, y, hy⟩
        · exact hc d hd
      · rintro ⟨chain, z, hl, hc, hz, e⟩
        cases chain with
        | nil =>
          exfalso
          rw [List.flatMap_nil, List.nil_append] at e
          have := (pCert_none lib).2 ((certHeader_none (data := data) (pre := pre) (x := z) (by rw [h, e])).2 hz)
          rw [h1] at this
          cases this
        | cons c' chain =>
          obtain ⟨fc', y', hy'⟩ := hc c' (by simp)
          have h2 := pCert_at lib (data := data) (pre := pre) (post := chain.flatMap JksCert.bytes ++ z) (by rw [h, e]; simp) fc' hy'
          rw [h1] at h2
          have hlen : c.bytes.length = c'.bytes.length := by
            have := congrArg (fun t => t.map (fun t => t.map Prod.snd)) h2
            simpa using this
          have e' : c.bytes ++ z0 = c'.bytes ++ (chain.flatMap JksCert.bytes ++ z) := by rw [e]; simp
          have hz0 := (List.append_inj e' hlen).2
          rw [ih.2 ⟨chain, z, by simpa using hl, fun d hd => hc d (by simp [hd]), hz, hz0⟩]
          rfl

theorem pDecrypt_none {prot keyPass : List Byte} : pDecrypt lib prot keyPass = none ↔ BadKey lib keyPass prot := by
  unfold pDecrypt
  rcases h1 : toUTF16BE keyPass with _ | _ | p
  · exact absurd h1 (toUTF16BE_never _)
  · simp only [Option.bind_eq_bind, Option.bind_some]
    refine ⟨fun h => (by cases h), ?_⟩
    rintro ⟨kp, d, hk, rfl, _⟩
    rw [Props.C60_converted_partial kp hk] at h1
    cases h1
  · obtain ⟨t, ht, rfl, rfl⟩ := toUTF16BE_some h1
    simp only [Option.bind_eq_bind, Option.bind_some]
    have hinj : ∀ kp : List Char, kp ≠ [] → utf8 t = utf8 kp → utf16 t = utf16 kp := by
      intro kp hk e
      rw [e, Props.C60_converted_partial kp hk] at h1
      exact (Option.some.inj (Option.some.inj h1)).symm
    rcases h2 : lib.d2i_X509_SIG prot with _ | ⟨oid, d⟩
    · refine ⟨fun h => (by cases h), ?_⟩
      rintro ⟨kp, d, _, _, h3, _⟩
      rw [h2] at h3
      cases h3
    · simp only
      by_cases h3 : oid = oidKeyProtector
      · rw [if_pos h3]
        unfold pProt
        by_cases hl : d.length < 40
        · refine ⟨fun _ => ⟨t, d, ht, rfl, by rw [h2, h3], Or.inl hl⟩, fun _ => ?_⟩
          unfold unprotect
          rw [if_pos hl]
          rfl
        · rcases unprotect_long lib (utf16 t) (Nat.le_of_not_lt hl) with ⟨key, e, hp⟩ | ⟨e, hp⟩
          · rw [e]
            simp only [Option.bind_eq_bind, Option.bind_some]
            constructor
            · intro hn
              refine ⟨t, d, ht, rfl, by rw [h2, h3], Or.inr ⟨key, hp, fun k hk => ?_⟩⟩
              rw [hk] at hn
              cases hn
            · rintro ⟨kp, d', hk, ek, h4, h5⟩
              rw [h2] at h4
              cases h4
              rw [← hinj kp hk ek] at h5
              rcases h5 with h5 | ⟨key', hp', hk'⟩
              · exact absurd h5 hl
              · have := unprotect_protect lib hp'
                rw [e] at this
                cases this
                rcases h6 : lib.keys key with _ | _ | k
                · rfl
                · rfl
                · exact absurd h6 (hk' k)
          · rw [e]
            refine ⟨fun h => (by cases h), ?_⟩
            rintro ⟨kp, d', hk, ek, h4, h5⟩
            rw [h2] at h4
            cases h4
            rw [← hinj kp hk ek] at h5
            rcases h5 with h5 | ⟨key', hp', hk'⟩
            · exact absurd h5 hl
            · exact absurd hp' (hp key')
      · rw [if_neg h3]
        constructor
        · intro h
          split at h <;> cases h
        · rintro ⟨kp, d', hk, ek, h4, h5⟩
          rw [h2] at h4
          cases h4
          exact absurd rfl h3

theorem pDecrypt_passed {prot keyPass : List Byte} : (∃ ks, pDecrypt lib prot keyPass = some (some ks)) ↔ PassedKey lib keyPass prot := by
  constructor
  · rintro ⟨ks, h⟩
    have hk : ∃ t, t ≠ [] ∧ keyPass = utf8 t := by
      unfold pDecrypt at h
      rcases h5 : toUTF16BE keyPass with _ | _ | p16
      · rw [h5] at h; cases h
      · rw [h5] at h; cases h
      · obtain ⟨t, h6, h7, _⟩ := toUTF16BE_some h5
        exact ⟨t, h6, h7⟩
    obtain ⟨t, ht, rfl⟩ := hk
    refine ⟨t, ht, rfl, ?_⟩
    rcases pDecrypt_adds lib ht h with ⟨d, key, k1, k2, a, b, c, _⟩ | ⟨a, _⟩
    · exact Or.inl ⟨d, key, (k1, k2), a, b, c⟩
    · exact Or.inr a
  · rintro ⟨kp, hk, rfl, ⟨d, key, ⟨k1, k2⟩, a, b, c⟩ | ⟨oid, d, a, b, c⟩⟩
    · exact ⟨_, pDecrypt_gives lib hk a b c⟩
    · refine ⟨[], ?_⟩
      unfold pDecrypt
      rw [Props.C60_converted_partial kp hk]
      simp only [Option.bind_eq_bind, Option.bind_some, a]
      rw [if_neg b, if_neg c]

theorem at_pre {data pre x y : List Byte} {q : Nat} (h : data = pre ++ x) (a : At data pre.length y q) : ∃ z, x = y ++ z ∧ q = (pre ++ y).length := by
  have e := a.1
  rw [h, List.drop_left] at e
  exact ⟨_, e, by rw [a.2, List.length_append]⟩

theorem pKey_none {data keyPass pre x : List Byte} (h : data = (pre ++ u32 1) ++ x) : pKey lib data (pre ++ u32 1).length keyPass = none ↔ Stuck lib keyPass (u32 1 ++ x) := by
  constructor
  · intro hn
    unfold pKey at hn
    rcases h1 : keyHeader data (pre ++ u32 1).length with _ | ⟨der, num, p⟩
    · obtain ⟨k, fk, hk⟩ := (keyHeader_none h).1 h1
      exact .head k fk hk
    · rw [h1] at hn
      simp only [Option.bind_eq_bind, Option.bind_some] at hn
      obtain ⟨name, time, f1, f2, f3, f4, a⟩ := keyHeader_some h1
      obtain ⟨z, rfl, rfl⟩ := at_pre h a
      rcases h2 : pDecrypt lib der keyPass with _ | _ | ks
      · have := Stuck.bad (lib := lib) (keyPass := keyPass) (x := z) ⟨name, time, der, num⟩ ⟨f1, f2, f3, f4⟩ ((pDecrypt_none lib).1 h2)
        rw [List.append_assoc] at this
        exact this
      · rw [h2] at hn
        cases hn
      · rw [h2] at hn
        simp only [Option.bind_some] at hn
        have h3 : pCertLoop lib data num (pre ++ u32 1 ++ (str16 name ++ time ++ str32 der ++ u32 num)).length = none := by
          rcases h3 : pCertLoop lib data num (pre ++ u32 1 ++ (str16 name ++ time ++ str32 der ++ u32 num)).length with _ | _ | ⟨⟨_, _⟩, _⟩
          · rfl
          · rw [h3] at hn; cases hn
          · rw [h3] at hn; cases hn
        obtain ⟨chain, w, l, hc, hw, rfl⟩ := (pCertLoop_none lib (x := z) (by rw [h]; simp only [List.append_assoc])).1 h3
        have := Stuck.chain (lib := lib) (keyPass := keyPass) (x := w) ⟨name, time, der, num⟩ chain ⟨f1, f2, f3, f4⟩ ((pDecrypt_passed lib).1 ⟨ks, h2⟩) l hc hw
        rw [List.append_assoc, List.append_assoc] at this
        exact this
  · have key : ∀ (k : KeyHead) (z : List Byte), k.Fits → data = (pre ++ u32 1) ++ (k.bytes ++ z) → keyHeader data (pre ++ u32 1).length = some (k.prot, k.num, (pre ++ u32 1 ++ k.bytes).length) := by
      rintro k z ⟨f1, f2, f3, f4⟩ hd
      exact keyHeader_at (post := z) (name := k.name) (time := k.time) (prot := k.prot) (n := k.num) hd f1 f2 f3 f4
    intro hs
    unfold pKey
    generalize hy : u32 1 ++ x = y at hs
    cases hs with
    | tag hl =>
      rw [← hy, List.length_append, u32_length] at hl
      omega
    | cert hc =>
      have := (List.append_inj hy rfl).1
      exact absurd this (by decide)
    | head k fk hk =>
      obtain rfl := (List.append_inj hy rfl).2
      rw [(keyHeader_none h).2 ⟨k, fk, hk⟩]
      rfl
    | bad k fk hk =>
      rw [List.append_assoc] at hy
      obtain rfl := (List.append_inj hy rfl).2
      rw [key k _ fk h]
      simp only [Option.bind_eq_bind, Option.bind_some]
      rw [(pDecrypt_none lib).2 hk]
      rfl
    | chain k chain fk hp hl hc hz =>
      rw [List.append_assoc, List.append_assoc] at hy
      obtain rfl := (List.append_inj hy rfl).2
      rw [key k _ fk h]
      simp only [Option.bind_eq_bind, Option.bind_some]
      obtain ⟨ks, hk⟩ := (pDecrypt_passed lib).2 hp
      rw [hk]
      simp only [Option.bind_some]
      rw [(pCertLoop_none lib (pre := pre ++ u32 1 ++ k.bytes) (by rw [h, List.append_assoc (pre ++ u32 1)])).2 ⟨chain, _, hl, hc, hz, rfl⟩]
      rfl

theorem pEntry_none {data keyPass pre x : List Byte} (h : data = pre ++ x) : pEntry lib data pre.length keyPass = none ↔ Stuck lib keyPass x := by
  unfold pEntry
  cases h1 : be32 data pre.length with
  | none =>
    refine ⟨fun _ => .tag ?_, fun _ => rfl⟩
    rw [be32_none, h, List.length_append] at h1
    omega
  | some tag =>
    obtain ⟨a1, ht⟩ := be32_some h1
    obtain ⟨z, rfl, -⟩ := at_pre h a1
    simp only [Option.bind_eq_bind, Option.bind_some]
    have hp : pre.length + 4 = (pre ++ u32 tag).length := by rw [List.length_append, u32_length]
    have hd : data = (pre ++ u32 tag) ++ z := by rw [h, List.append_assoc]
    have hinj : ∀ t, t < 2 ^ 32 → u32 tag = u32 t → tag = t := by
      intro t ht' e
      have := congrArg (fun x => ntohl (leValue x)) e
      simp only [ntohl_u32 ht, ntohl_u32 ht'] at this
      exact this
    by_cases e1 : tag = 1
    · subst e1
      rw [if_pos rfl, hp]
      exact pKey_none lib hd
    · rw [if_neg e1]
      by_cases e2 : tag = 2
      · subst e2
        rw [if_pos rfl, hp, pCert_none, certHeader_none hd]
        constructor
        · exact fun hc => .cert hc
        · intro hs
          generalize hy : u32 2 ++ z = y at hs
          cases hs with
          | tag hl =>
            rw [← hy, List.length_append, u32_length] at hl
            omega
          | cert hc =>
            obtain rfl := (List.append_inj hy rfl).2
            exact hc
          | head k fk hk => exact absurd (List.append_inj hy rfl).1 (by decide)
          | bad k fk hk =>
            rw [List.append_assoc] at hy
            exact absurd (List.append_inj hy rfl).1 (by decide)
          | chain k chain fk hp hl hc hz =>
            rw [List.append_assoc, List.append_assoc] at hy
            exact absurd (List.append_inj hy rfl).1 (by decide)
      · rw [if_neg e2]
        refine ⟨fun h => (by cases h), fun hs => ?_⟩
        exfalso
        generalize hy : u32 tag ++ z = y at hs
        cases hs with
        | tag hl =>
          rw [← hy, List.length_append, u32_length] at hl
          omega
        | cert hc => exact e2 (hinj 2 (by decide) (List.append_inj hy rfl).1)
        | head k fk hk => exact e1 (hinj 1 (by decide) (List.append_inj hy rfl).1)
        | bad k fk hk =>
          rw [List.append_assoc] at hy
          exact e1 (hinj 1 (by decide) (List.append_inj hy rfl).1)
        | chain k chain fk hp hl hc hz =>
          rw [List.append_assoc, List.append_assoc] at hy
          exact e1 (hinj 1 (by decide) (List.append_inj hy rfl).1)

theorem pDecrypt_unknown {kp : List Char} (hk : kp ≠ []) {prot : List Byte} (h : ∃ oid d, lib.d2i_X509_SIG prot = some (oid, d) ∧ oid ≠ oidKeyProtector ∧ oid ≠ oidPbes1) :
    pDecrypt lib prot (utf8 kp) = some (some []) := by
  obtain ⟨oid, d, a, b, c⟩ := h
  unfold pDecrypt
  rw [Props.C60_converted_partial kp hk]
  simp only [Option.bind_eq_bind, Option.bind_some, a]
  rw [if_neg b, if_neg c]

theorem pEntry_taken {data post keyPass pre : List Byte} {e : TakenEntry} (h : data = pre ++ (e.bytes ++ post)) (hf : e.Fits) {kp : List Char} (hkp : kp ≠ [])
    (hk : e.IsKey → keyPass = utf8 kp) {ks : List κ} {cs : List χ} (ha : e.Adds lib kp ks cs) :
    pEntry lib data pre.length keyPass = some (some ((ks, cs), (pre ++ e.bytes).length)) := by
  cases e with
  | key name time prot chain =>
    obtain rfl := hk trivial
    rw [pEntry_at lib (e := .key name time prot chain) (keyPass := utf8 kp) h hf trivial]
    unfold readEntry readKeyEntry
    simp only
    have hd : pDecrypt lib prot (utf8 kp) = some (some ks) ∧ chain.map (fun c => lib.d2i_X509 c.der) = cs.map some := by
      rcases ha with ⟨d, key, k1, k2, a, b, c, rfl, hc⟩ | ⟨a, rfl, hc⟩
      · exact ⟨pDecrypt_gives lib hkp a b c, hc⟩
      · exact ⟨pDecrypt_unknown lib hkp a, hc⟩
    rw [hd.1]
    simp only [Option.bind_eq_bind, Option.bind_some]
    rw [(chainCerts_iff lib chain cs).2 hd.2]
    rfl
  | bare c =>
    obtain ⟨rfl, y, hy, rfl⟩ := ha
    have h0 : be32 data pre.length = some 2 := be32_at (pre := pre) (n := 2) (post := c.bytes ++ post) (by rw [h]; simp [TakenEntry.bytes]) rfl (by decide)
    unfold pEntry
    rw [h0]
    simp only [Option.bind_eq_bind, Option.bind_some]
    rw [if_neg (by decide), if_pos trivial, show pre.length + 4 = (pre ++ u32 2).length by simp [u32_length]]
    rw [pCert_at lib (post := post) (by rw [h]; simp [TakenEntry.bytes]) hf hy]
    simp [TakenEntry.bytes]

theorem pEntryLoop_taken {data post keyPass : List Byte} {es : List TakenEntry} {kp : List Char} (hkp : kp ≠ []) {ks : List κ} {cs : List χ} (ha : AllAdd lib kp es ks cs)
    (pre : List Byte) (h : data = pre ++ (es.flatMap TakenEntry.bytes ++ post)) (hf : ∀ e ∈ es, e.Fits) (hk : (∃ e ∈ es, TakenEntry.IsKey e) → keyPass = utf8 kp) (k : Nat) :
    pEntryLoop lib data keyPass (es.length + k) pre.length =
      (pEntryLoop lib data keyPass k (pre ++ es.flatMap TakenEntry.bytes).length).map fun r => r.map fun x => ((ks ++ x.1.1, cs ++ x.1.2), x.2) := by
  induction ha generalizing pre with
  | nil =>
    simp only [List.length_nil, Nat.zero_add, List.flatMap_nil, List.append_nil, List.nil_append]
    rcases pEntryLoop lib data keyPass k pre.length with _ | _ | ⟨⟨_, _⟩, _⟩ <;> rfl
  | @cons e es ks cs ks' cs' h1 h2 ih =>
    have g1 := pEntry_taken lib (data := data) (pre := pre) (e := e) (post := es.flatMap TakenEntry.bytes ++ post) (keyPass := keyPass) (by rw [h]; simp) (hf e (by simp)) hkp
      (fun hx => hk ⟨e, by simp, hx⟩) h1
    have g2 := ih (pre ++ e.bytes) (by rw [h]; simp) (fun c hm => hf c (by simp [hm])) (fun ⟨d, hd, hx⟩ => hk ⟨d, by simp [hd], hx⟩)
    rw [show (e :: es).length + k = (es.length + k) + 1 by rw [List.length_cons]; omega]
    rw [List.flatMap_cons, ← List.append_assoc pre]
    generalize pEntryLoop lib data keyPass k (pre ++ e.bytes ++ es.flatMap TakenEntry.bytes).length = R at g2 ⊢
    unfold pEntryLoop
    rw [g1]
    simp only [Option.bind_eq_bind, Option.bind_some]
    rw [g2]
    rcases R with _ | _ | ⟨⟨_, _⟩, _⟩
    · rfl
    · rfl
    · simp

theorem pEntryLoop_none {data keyPass : List Byte} {n : Nat} {pre x : List Byte} (h : data = pre ++ x) : pEntryLoop lib data keyPass n pre.length = none ↔
    ∃ (es : List TakenEntry) (keys : List κ) (certs : List χ) (z : List Byte), es.length < n ∧ ReadableEntries lib keyPass es keys certs ∧ x = es.flatMap TakenEntry.bytes ++ z ∧ Stuck lib keyPass z := by
  constructor
  · intro hn
    have : ∃ (es : List TakenEntry) (keys : List κ) (certs : List χ) (z : List Byte), es.length < n ∧ (∀ e ∈ es, e.Fits) ∧ (∀ e ∈ es, e.IsKey → ∃ kp, kp ≠ [] ∧ keyPass = utf8 kp) ∧
        (∀ kp, kp ≠ [] → ((∃ e ∈ es, e.IsKey) → keyPass = utf8 kp) → AllAdd lib kp es keys certs) ∧ x = es.flatMap TakenEntry.bytes ++ z ∧ Stuck lib keyPass z := by
      induction n generalizing pre x with
      | zero => cases hn
      | succ n ih =>
        unfold pEntryLoop at hn
        rcases h1 : pEntry lib data pre.length keyPass with _ | _ | ⟨⟨k1, c1⟩, p⟩
        · exact ⟨[], [], [], x, by simp, by simp, by simp, fun _ _ _ => .nil, rfl, (pEntry_none lib h).1 h1⟩
        · rw [h1] at hn
          cases hn
        · rw [h1] at hn
          simp only [Option.bind_eq_bind, Option.bind_some] at hn
          obtain ⟨e, f, a, g, r⟩ := pEntry_some lib h1
          obtain ⟨z, rfl, rfl⟩ := at_pre h a
          have h2 : pEntryLoop lib data keyPass n (pre ++ e.bytes).length = none := by
            rcases h2 : pEntryLoop lib data keyPass n (pre ++ e.bytes).length with _ | _ | ⟨⟨_, _⟩, _⟩
            · rfl
            · rw [h2] at hn; cases hn
            · rw [h2] at hn; cases hn
          obtain ⟨es, keys, certs, w, l, f', g', r', rfl, hw⟩ := ih (by rw [h, List.append_assoc]) h2
          refine ⟨e :: es, k1 ++ keys, c1 ++ certs, w, by simp [l], ?_, ?_, ?_, by simp, hw⟩
          · intro d hd
            rcases List.mem_cons.1 hd with rfl | hd
            · exact f
            · exact f' d hd
          · intro d hd
            rcases List.mem_cons.1 hd with rfl | hd
            · exact g
            · exact g' d hd
          · intro kp hkp hp
            exact .cons (r kp hkp fun hk => hp ⟨e, by simp, hk⟩) (r' kp hkp fun ⟨d, hd, hk⟩ => hp ⟨d, by simp [hd], hk⟩)
    obtain ⟨es, keys, certs, z, l, f, g, r, e, hz⟩ := this
    refine ⟨es, keys, certs, z, l, ⟨f, ?_⟩, e, hz⟩
    by_cases hx : ∃ e ∈ es, TakenEntry.IsKey e
    · obtain ⟨d, he, hk⟩ := hx
      obtain ⟨kp, h5, h6⟩ := g d he hk
      exact ⟨kp, h5, fun _ => h6, r kp h5 fun _ => h6⟩
    · exact ⟨['k'], by simp, fun h => absurd h hx, r _ (by simp) fun h => absurd h hx⟩
  · rintro ⟨es, keys, certs, z, l, ⟨f, kp, hkp, hk, ha⟩, rfl, hz⟩
    rw [show n = es.length + (n - es.length - 1 + 1) by omega, pEntryLoop_taken lib hkp ha pre h f hk]
    have : pEntryLoop lib data keyPass (n - es.length - 1 + 1) (pre ++ es.flatMap TakenEntry.bytes).length = none := by
      unfold pEntryLoop
      rw [(pEntry_none lib (x := z) (by rw [h, List.append_assoc])).2 hz]
      rfl
    rw [this]
    rfl

theorem pEntryLoop_all {data keyPass : List Byte} {n : Nat} {pre x : List Byte} (h : data = pre ++ x) {ks : List κ} {cs : List χ} {q : Nat} :
    pEntryLoop lib data keyPass n pre.length = some (some ((ks, cs), q)) ↔
    ∃ (es : List TakenEntry) (z : List Byte), es.length = n ∧ ReadableEntries lib keyPass es ks cs ∧ x = es.flatMap TakenEntry.bytes ++ z ∧ q = (pre ++ es.flatMap TakenEntry.bytes).length := by
  constructor
  · intro hn
    obtain ⟨es, l, f, a, g, r⟩ := pEntryLoop_some lib hn
    obtain ⟨z, e, rfl⟩ := at_pre h a
    refine ⟨es, z, l, ⟨f, ?_⟩, e, rfl⟩
    by_cases hx : ∃ e ∈ es, TakenEntry.IsKey e
    · obtain ⟨d, he, hk⟩ := hx
      obtain ⟨kp, h5, h6⟩ := g d he hk
      exact ⟨kp, h5, fun _ => h6, r kp h5 fun _ => h6⟩
    · exact ⟨['k'], by simp, fun h => absurd h hx, r _ (by simp) fun h => absurd h hx⟩
  · rintro ⟨es, z, rfl, ⟨f, kp, hkp, hk, ha⟩, rfl, rfl⟩
    have := pEntryLoop_taken lib hkp ha pre h f hk 0
    rw [Nat.add_zero] at this
    rw [this]
    simp [pEntryLoop]

theorem sameBytes_none {d c : List Byte} (n j : Nat) (hd : j + n = d.length) (hj : j ≤ c.length) : sameBytes d c n j = none ↔ CutShort (c.drop j) (d.drop j) := by
  induction n generalizing j with
  | zero =>
    refine ⟨fun h => (by cases h), fun h => ?_⟩
    have := h.2
    rw [List.length_drop, List.length_drop] at this
    omega
  | succ n ih =>
    have h1 : j < d.length := by omega
    unfold sameBytes
    rw [List.getElem?_eq_getElem h1]
    by_cases h2 : j < c.length
    · rw [List.getElem?_eq_getElem h2]
      simp only [Option.bind_eq_bind, Option.bind_some]
      rw [List.drop_eq_getElem_cons h1, List.drop_eq_getElem_cons h2]
      by_cases h : d[j] = c[j]
      · rw [if_neg (by simpa using h), ih (j + 1) (by omega) (by omega)]
        unfold CutShort
        rw [List.cons_prefix_cons, List.length_cons, List.length_cons]
        exact ⟨fun ⟨a, b⟩ => ⟨⟨h.symm, a⟩, by omega⟩, fun ⟨⟨_, a⟩, b⟩ => ⟨a, by omega⟩⟩
      · rw [if_pos h]
        refine ⟨fun h => (by cases h), fun hc => ?_⟩
        exact absurd (List.cons_prefix_cons.1 hc.1).1.symm h
    · rw [List.getElem?_eq_none (by omega)]
      refine ⟨fun _ => ?_, fun _ => rfl⟩
      rw [List.drop_of_length_le (by omega)]
      exact ⟨List.nil_prefix, by rw [List.length_drop, List.length_nil]; omega⟩

/-- `parseJKS`, after a header. -/
theorem parseJKS_head (kind : JksKind) (n : Nat) (hn : n < 2 ^ 32) (rest : List Byte) (t : List Char) (ht : t ≠ []) (kp : List Byte) (ks : Option Nat) (m : ImpMem κ χ) :
    parseJKS lib (jksHead kind n ++ rest) (utf8 t) kp ks m = importEntries lib (jksHead kind n ++ rest) (utf16 t) kp n m := by
  have h1 : read32 (jksHead kind n ++ rest) 0 = some (leValue kind.magic) := by
    unfold read32
    rw [copyAt_at (data := jksHead kind n ++ rest) (pos := 0) (n := 4) (pre := []) (x := kind.magic) (post := u32 2 ++ u32 n ++ rest) (by simp [jksHead]) rfl (by cases kind <;> rfl), Option.map_some]
  have h2 : be32 (jksHead kind n ++ rest) 8 = some n :=
    be32_at (pre := kind.magic ++ u32 2) (post := rest) (by simp [jksHead]) (by cases kind <;> rfl) hn
  have h3 : read32 (jksHead kind n ++ rest) 4 = some (leValue (u32 2)) := by
    unfold read32
    rw [copyAt_at (data := jksHead kind n ++ rest) (pos := 4) (n := 4) (pre := kind.magic) (x := u32 2) (post := u32 n ++ rest) (by simp [jksHead]) (by cases kind <;> rfl) rfl, Option.map_some]
  unfold parseJKS
  rw [h1, h2, h3]
  simp only [Option.bind_eq_bind, Option.bind_some]
  rw [if_neg (by cases kind <;> decide +kernel), if_neg (by decide +kernel), Props.C60_converted_partial t ht]
  rfl

theorem jksHead_length (kind : JksKind) (n : Nat) : (jksHead kind n).length = 12 := by cases kind <;> rfl

end Dstu
