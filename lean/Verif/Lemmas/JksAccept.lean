import Verif.Spec.JksAccept
import Verif.Lemmas.JksImport

/-! What data `parseJKS` accepts. -/

namespace Dstu

open Dstu.Spec

/-- The bytes `x` are at a position, and `next` is the position after them. -/
def At (data : List Byte) (pos : Nat) (x : List Byte) (next : Nat) : Prop := data.drop pos = x ++ data.drop next ∧ next = pos + x.length

theorem At.nil (data : List Byte) (pos : Nat) : At data pos [] pos := ⟨rfl, rfl⟩

theorem At.append {data x y : List Byte} {p q r : Nat} (h1 : At data p x q) (h2 : At data q y r) : At data p (x ++ y) r := by
  refine ⟨?_, ?_⟩
  · rw [h1.1, h2.1, List.append_assoc]
  · rw [h2.2, h1.2, List.length_append, Nat.add_assoc]

theorem copyAt_some {data x : List Byte} {pos n : Nat} (h : copyAt data pos n = some x) : At data pos x (pos + n) ∧ x.length = n := by
  unfold copyAt at h
  split at h
  · cases h
    have hl : ((data.drop pos).take n).length = n := by
      rw [List.length_take, List.length_drop]
      omega
    refine ⟨⟨?_, by rw [hl]⟩, hl⟩
    rw [← List.drop_drop, List.take_append_drop]
  · cases h

theorem two_bytes {x : List Byte} (h : x.length = 2) : x = u16 (ntohs (leValue x)) ∧ ntohs (leValue x) < 2 ^ 16 := by
  obtain ⟨a, b, rfl⟩ : ∃ a b, x = [a, b] := by
    match x, h with
    | [a, b], _ => exact ⟨a, b, rfl⟩
  have e : ntohs (leValue [a, b]) = a.toNat * 256 + b.toNat := by
    simp only [leValue, Nat.mul_zero, Nat.add_zero]
    exact ntohs_two a.isLt b.isLt
  have ha := a.isLt
  have hb := b.isLt
  rw [e]
  refine ⟨?_, by omega⟩
  unfold u16
  congr 1
  · apply BitVec.eq_of_toNat_eq
    rw [BitVec.toNat_ofNat]
    omega
  · congr 1
    apply BitVec.eq_of_toNat_eq
    rw [BitVec.toNat_ofNat]
    omega

theorem four_bytes {x : List Byte} (h : x.length = 4) : x = u32 (ntohl (leValue x)) ∧ ntohl (leValue x) < 2 ^ 32 := by
  obtain ⟨a, b, c, d, rfl⟩ : ∃ a b c d, x = [a, b, c, d] := by
    match x, h with
    | [a, b, c, d], _ => exact ⟨a, b, c, d, rfl⟩
  have e : ntohl (leValue [a, b, c, d]) = a.toNat * 2 ^ 24 + b.toNat * 2 ^ 16 + c.toNat * 2 ^ 8 + d.toNat := by
    simp only [leValue, Nat.mul_zero, Nat.add_zero]
    exact ntohl_four a.isLt b.isLt c.isLt d.isLt
  have ha := a.isLt
  have hb := b.isLt
  have hc := c.isLt
  have hd := d.isLt
  rw [e]
  refine ⟨?_, by omega⟩
  unfold u32
  congr 1
  · apply BitVec.eq_of_toNat_eq
    rw [BitVec.toNat_ofNat]
    omega
  · congr 1
    · apply BitVec.eq_of_toNat_eq
      rw [BitVec.toNat_ofNat]
      omega
    · congr 1
      · apply BitVec.eq_of_toNat_eq
        rw [BitVec.toNat_ofNat]
        omega
      · congr 1
        apply BitVec.eq_of_toNat_eq
        rw [BitVec.toNat_ofNat]
        omega

theorem be16_some {data : List Byte} {pos n : Nat} (h : be16 data pos = some n) : At data pos (u16 n) (pos + 2) ∧ n < 2 ^ 16 := by
  unfold be16 read16 at h
  cases h1 : copyAt data pos 2 with
  | none =>
    rw [h1] at h
    cases h
  | some x =>
    rw [h1] at h
    cases h
    obtain ⟨a, l⟩ := copyAt_some h1
    obtain ⟨e, b⟩ := two_bytes l
    exact ⟨e ▸ a, b⟩

theorem be32_some {data : List Byte} {pos n : Nat} (h : be32 data pos = some n) : At data pos (u32 n) (pos + 4) ∧ n < 2 ^ 32 := by
  unfold be32 read32 at h
  cases h1 : copyAt data pos 4 with
  | none =>
    rw [h1] at h
    cases h
  | some x =>
    rw [h1] at h
    cases h
    obtain ⟨a, l⟩ := copyAt_some h1
    obtain ⟨e, b⟩ := four_bytes l
    exact ⟨e ▸ a, b⟩

/-- Bytes between two positions that are inside. -/
theorem At.between {data y : List Byte} {p n q : Nat} (h : At data (p + n) y q) (hy : y ≠ []) : ∃ x, x.length = n ∧ At data p x (p + n) := by
  have hl : p + n ≤ data.length := by
    by_contra hc
    have h1 := h.1
    rw [List.drop_eq_nil_of_le (by omega)] at h1
    have := congrArg List.length h1
    rw [List.length_append] at this
    simp only [List.length_nil] at this
    exact hy (List.length_eq_zero_iff.1 (by omega))
  have h1 : copyAt data p n = some ((data.drop p).take n) := by
    unfold copyAt
    rw [if_pos hl]
  obtain ⟨a, l⟩ := copyAt_some h1
  exact ⟨_, l, a⟩

theorem u32_ne_nil (n : Nat) : u32 n ≠ [] := by
  unfold u32
  simp

theorem certHeader_some {data der : List Byte} {pos next : Nat} (h : certHeader data pos = some (der, next)) :
    ∃ c : JksCert, c.Fits ∧ c.der = der ∧ At data pos c.bytes next := by
  unfold certHeader at h
  cases h1 : be16 data pos with
  | none =>
    rw [h1] at h
    cases h
  | some tl =>
    rw [h1] at h
    simp only at h
    cases h2 : be32 data (pos + (2 + tl)) with
    | none =>
      rw [h2] at h
      cases h
    | some dl =>
      rw [h2] at h
      simp only at h
      cases h3 : copyAt data (pos + (2 + tl + 4)) dl with
      | none =>
        rw [h3] at h
        cases h
      | some x =>
        rw [h3] at h
        cases h
        obtain ⟨a1, b1⟩ := be16_some h1
        obtain ⟨a2, b2⟩ := be32_some h2
        obtain ⟨a3, l3⟩ := copyAt_some h3
        rw [← Nat.add_assoc] at a2
        obtain ⟨t, lt, at'⟩ := a2.between (u32_ne_nil _)
        refine ⟨⟨t, der⟩, ⟨by rw [lt]; exact b1, by rw [l3]; exact b2⟩, rfl, ?_⟩
        unfold JksCert.bytes str16 str32
        simp only
        rw [lt, l3]
        have a3' : At data (pos + 2 + tl + 4) der (pos + (2 + tl + 4 + dl)) := by
          rw [show pos + (2 + tl + 4) = pos + 2 + tl + 4 by omega, show pos + 2 + tl + 4 + dl = pos + (2 + tl + 4 + dl) by omega] at a3
          exact a3
        exact (a1.append at').append (a2.append a3')

theorem keyHeader_some {data der : List Byte} {pos num next : Nat} (h : keyHeader data pos = some (der, num, next)) :
    ∃ name time, name.length < 2 ^ 16 ∧ time.length = 8 ∧ der.length < 2 ^ 32 ∧ num < 2 ^ 32 ∧
      At data pos (str16 name ++ time ++ str32 der ++ u32 num) next := by
  unfold keyHeader at h
  cases h1 : be16 data pos with
  | none =>
    rw [h1] at h
    cases h
  | some nl =>
    rw [h1] at h
    simp only at h
    cases h2 : be32 data (pos + (2 + nl + 8)) with
    | none =>
      rw [h2] at h
      cases h
    | some dl =>
      rw [h2] at h
      simp only at h
      cases h3 : be32 data (pos + (2 + nl + 8 + 4 + dl)) with
      | none =>
        rw [h3] at h
        cases h
      | some cn =>
        rw [h3] at h
        simp only at h
        cases h4 : copyAt data (pos + (2 + nl + 8 + 4)) dl with
        | none =>
          rw [h4] at h
          cases h
        | some x =>
          rw [h4] at h
          cases h
          obtain ⟨a1, b1⟩ := be16_some h1
          obtain ⟨a2, b2⟩ := be32_some h2
          obtain ⟨a3, b3⟩ := be32_some h3
          obtain ⟨a4, l4⟩ := copyAt_some h4
          rw [show pos + (2 + nl + 8) = pos + 2 + nl + 8 by omega] at a2
          obtain ⟨t, lt, at'⟩ := a2.between (u32_ne_nil _)
          obtain ⟨nm, ln, an⟩ := (at'.between (p := pos + 2) (n := nl) (by intro e; rw [e] at lt; cases lt))
          rw [show pos + (2 + nl + 8 + 4) = pos + 2 + nl + 8 + 4 by omega] at a4
          rw [show pos + (2 + nl + 8 + 4 + dl) = pos + 2 + nl + 8 + 4 + dl by omega] at a3
          rw [show pos + 2 + nl + 8 + 4 + dl + 4 = pos + (2 + nl + 8 + 4 + dl + 4) by omega] at a3
          refine ⟨nm, t, by rw [ln]; exact b1, lt, by rw [l4]; exact b2, b3, ?_⟩
          unfold str16 str32
          rw [ln, l4]
          exact (((a1.append an).append at').append (a2.append a4)).append a3

variable {κ χ : Type} (lib : JksLib κ χ)

theorem pCert_some {data : List Byte} {pos next : Nat} {ks : List κ} {cs : List χ} (h : pCert lib data pos = some (some ((ks, cs), next))) :
    ∃ c : JksCert, c.Fits ∧ At data pos c.bytes next ∧ ks = [] ∧ ∃ x, lib.d2i_X509 c.der = some x ∧ cs = [x] := by
  unfold pCert at h
  rcases h1 : certHeader data pos with _ | ⟨der, nx⟩
  · rw [h1] at h
    cases h
  · rw [h1] at h
    simp only [Option.bind_eq_bind, Option.bind_some] at h
    cases h2 : lib.d2i_X509 der with
    | none =>
      rw [h2] at h
      cases h
    | some x =>
      rw [h2] at h
      cases h
      obtain ⟨c, f, e, a⟩ := certHeader_some h1
      exact ⟨c, f, a, rfl, x, by rw [e, h2], rfl⟩

theorem pCertLoop_some {data : List Byte} {n pos next : Nat} {ks : List κ} {cs : List χ} (h : pCertLoop lib data n pos = some (some ((ks, cs), next))) :
    ∃ chain : List JksCert, chain.length = n ∧ (∀ c ∈ chain, c.Fits) ∧ At data pos (chain.flatMap JksCert.bytes) next ∧ ks = [] ∧
      chain.map (fun c => lib.d2i_X509 c.der) = cs.map some := by
  induction n generalizing pos ks cs with
  | zero =>
    cases h
    exact ⟨[], rfl, by simp, At.nil _ _, rfl, rfl⟩
  | succ n ih =>
    unfold pCertLoop at h
    rcases h1 : pCert lib data pos with _ | _ | ⟨⟨k1, c1⟩, p⟩
    · rw [h1] at h
      cases h
    · rw [h1] at h
      cases h
    · rw [h1] at h
      simp only [Option.bind_eq_bind, Option.bind_some] at h
      rcases h2 : pCertLoop lib data n p with _ | _ | ⟨⟨k2, c2⟩, q⟩
      · rw [h2] at h
        cases h
      · rw [h2] at h
        cases h
      · rw [h2] at h
        cases h
        obtain ⟨c, f, a, rfl, x, e, rfl⟩ := pCert_some lib h1
        obtain ⟨chain, l, f', a', rfl, e'⟩ := ih h2
        refine ⟨c :: chain, by simp [l], ?_, ?_, rfl, ?_⟩
        · intro d hd
          rcases List.mem_cons.1 hd with rfl | hd
          · exact f
          · exact f' d hd
        · rw [List.flatMap_cons]
          exact a.append a'
        · rw [List.map_cons, e, e']
          rfl

theorem pDecrypt_adds {kp : List Char} (hkp : kp ≠ []) {prot : List Byte} {ks : List κ} (h : pDecrypt lib prot (utf8 kp) = some (some ks)) :
    (∃ d key k1 k2, lib.d2i_X509_SIG prot = some (oidKeyProtector, d) ∧ Protected lib.sha1 (utf16 kp) d key ∧ lib.keys key = some (some (k1, k2)) ∧ ks = k1 :: k2.toList) ∨
      (∃ oid d, lib.d2i_X509_SIG prot = some (oid, d) ∧ oid ≠ oidKeyProtector ∧ oid ≠ oidPbes1) ∧ ks = [] := by
  by_cases hk : ∀ oid d, lib.d2i_X509_SIG prot = some (oid, d) → oid = oidKeyProtector ∨ oid = oidPbes1
  · exact Or.inl (pDecrypt_some lib hkp hk h)
  · right
    push Not at hk
    obtain ⟨oid, d, h1, h2, h3⟩ := hk
    refine ⟨⟨oid, d, h1, h2, h3⟩, ?_⟩
    unfold pDecrypt at h
    rw [Props.C60_converted_partial kp hkp] at h
    simp only [Option.bind_eq_bind, Option.bind_some, h1] at h
    rw [if_neg h2, if_neg h3] at h
    cases h
    rfl

theorem pEntry_some {data keyPass : List Byte} {pos next : Nat} {ks : List κ} {cs : List χ} (h : pEntry lib data pos keyPass = some (some ((ks, cs), next))) :
    ∃ e : TakenEntry, e.Fits ∧ At data pos e.bytes next ∧ (e.IsKey → ∃ kp, kp ≠ [] ∧ keyPass = utf8 kp) ∧ ∀ kp, kp ≠ [] → (e.IsKey → keyPass = utf8 kp) → e.Adds lib kp ks cs := by
  unfold pEntry at h
  cases h1 : be32 data pos with
  | none =>
    rw [h1] at h
    cases h
  | some tag =>
    obtain ⟨a1, _⟩ := be32_some h1
    rw [h1] at h
    simp only [Option.bind_eq_bind, Option.bind_some] at h
    split at h
    · rename_i ht
      subst ht
      unfold pKey at h
      rcases h2 : keyHeader data (pos + 4) with _ | ⟨der, num, p⟩
      · rw [h2] at h
        cases h
      · rw [h2] at h
        simp only [Option.bind_eq_bind, Option.bind_some] at h
        rcases h3 : pDecrypt lib der keyPass with _ | _ | k1
        · rw [h3] at h
          cases h
        · rw [h3] at h
          cases h
        · rw [h3] at h
          simp only [Option.bind_some] at h
          rcases h4 : pCertLoop lib data num p with _ | _ | ⟨⟨k2, c2⟩, q⟩
          · rw [h4] at h
            cases h
          · rw [h4] at h
            cases h
          · rw [h4] at h
            cases h
            obtain ⟨name, time, f1, f2, f3, f4, a2⟩ := keyHeader_some h2
            obtain ⟨chain, l, f5, a3, rfl, e⟩ := pCertLoop_some lib h4
            refine ⟨.key name time der chain, ⟨f1, f2, f3, by rw [l]; exact f4, f5⟩, ?_, ?_, ?_⟩
            · unfold TakenEntry.bytes JksEntry.bytes
              have := (a1.append a2).append a3
              simp only
              rw [l]
              simp only [List.append_assoc] at this ⊢
              exact this
            · intro _
              unfold pDecrypt at h3
              rcases h5 : toUTF16BE keyPass with _ | _ | p16
              · rw [h5] at h3
                cases h3
              · rw [h5] at h3
                cases h3
              · obtain ⟨t, h6, h7, _⟩ := toUTF16BE_some h5
                exact ⟨t, h6, h7⟩
            · intro kp hkp hp
              obtain rfl := hp trivial
              rw [List.append_nil]
              rcases pDecrypt_adds lib hkp h3 with ⟨d, key, x1, x2, g1, g2, g3, g4⟩ | ⟨g1, g2⟩
              · exact Or.inl ⟨d, key, x1, x2, g1, g2, g3, g4, e⟩
              · exact Or.inr ⟨g1, g2, e⟩
    · split at h
      · rename_i ht
        subst ht
        obtain ⟨c, f, a, rfl, x, e, rfl⟩ := pCert_some lib h
        exact ⟨.bare c, f, a1.append a, fun hk => hk.elim, fun _ _ _ => ⟨rfl, x, e, rfl⟩⟩
      · cases h

theorem pEntryLoop_some {data keyPass : List Byte} {n pos next : Nat} {ks : List κ} {cs : List χ} (h : pEntryLoop lib data keyPass n pos = some (some ((ks, cs), next))) :
    ∃ es : List TakenEntry, es.length = n ∧ (∀ e ∈ es, e.Fits) ∧ At data pos (es.flatMap TakenEntry.bytes) next ∧
      (∀ e ∈ es, e.IsKey → ∃ kp, kp ≠ [] ∧ keyPass = utf8 kp) ∧ ∀ kp, kp ≠ [] → ((∃ e ∈ es, e.IsKey) → keyPass = utf8 kp) → AllAdd lib kp es ks cs := by
  induction n generalizing pos ks cs with
  | zero =>
    cases h
    exact ⟨[], rfl, by simp, At.nil _ _, by simp, fun _ _ _ => .nil⟩
  | succ n ih =>
    unfold pEntryLoop at h
    rcases h1 : pEntry lib data pos keyPass with _ | _ | ⟨⟨k1, c1⟩, p⟩
    · rw [h1] at h
      cases h
    · rw [h1] at h
      cases h
    · rw [h1] at h
      simp only [Option.bind_eq_bind, Option.bind_some] at h
      rcases h2 : pEntryLoop lib data keyPass n p with _ | _ | ⟨⟨k2, c2⟩, q⟩
      · rw [h2] at h
        cases h
      · rw [h2] at h
        cases h
      · rw [h2] at h
        cases h
        obtain ⟨e, f, a, g, r⟩ := pEntry_some lib h1
        obtain ⟨es, l, f', a', g', r'⟩ := ih h2
        refine ⟨e :: es, by simp [l], ?_, ?_, ?_, ?_⟩
        · intro d hd
          rcases List.mem_cons.1 hd with rfl | hd
          · exact f
          · exact f' d hd
        · rw [List.flatMap_cons]
          exact a.append a'
        · intro d hd
          rcases List.mem_cons.1 hd with rfl | hd
          · exact g
          · exact g' d hd
        · intro kp hkp hp
          exact .cons (r kp hkp fun hk => hp ⟨e, by simp, hk⟩) (r' kp hkp fun ⟨d, hd, hk⟩ => hp ⟨d, by simp [hd], hk⟩)

theorem read32_value {data : List Byte} {pos n : Nat} (h : read32 data pos = some n) (x : List Byte) (hx : x.length = 4) (hn : n = leValue x) : At data pos x (pos + 4) := by
  unfold read32 at h
  cases h1 : copyAt data pos 4 with
  | none =>
    rw [h1] at h
    cases h
  | some y =>
    rw [h1] at h
    obtain ⟨a, l⟩ := copyAt_some h1
    have e : leValue y = leValue x := by
      rw [← hn]
      exact Option.some.inj h
    have : y = x := by
      rw [(four_bytes l).1, (four_bytes hx).1, e]
    exact this ▸ a

/-- `parseJKS` reaches its entries only after the right header. -/
theorem parseJKS_header (data sp kp : List Byte) (ks : Option Nat) (m : ImpMem κ χ) :
    parseJKS lib data sp kp ks m = none ∨ parseJKS lib data sp kp ks m = some (false, ks, m) ∨
      ∃ t n kind, t ≠ [] ∧ sp = utf8 t ∧ n < 2 ^ 32 ∧ At data 0 (JksKind.magic kind ++ u32 2 ++ u32 n) 12 ∧
        parseJKS lib data sp kp ks m = importEntries lib data (utf16 t) kp n m := by
  unfold parseJKS
  cases h1 : read32 data 0 with
  | none => exact Or.inl rfl
  | some magic =>
    cases h2 : be32 data 8 with
    | none => exact Or.inl rfl
    | some n =>
      simp only [Option.bind_eq_bind, Option.bind_some]
      split
      · exact Or.inr (Or.inl rfl)
      · rename_i hm
        cases h3 : read32 data 4 with
        | none => exact Or.inl rfl
        | some v =>
          simp only [Option.bind_some]
          split
          · exact Or.inr (Or.inl rfl)
          · rename_i hv
            rcases h4 : toUTF16BE sp with _ | _ | p
            · exact Or.inl rfl
            · exact Or.inr (Or.inl rfl)
            · obtain ⟨t, h5, h6, rfl⟩ := toUTF16BE_some h4
              have hv' : v = leValue (u32 2) := by
                rw [show leValue (u32 2) = 0x02000000 by decide +kernel]
                exact Decidable.not_not.1 hv
              have a2 := read32_value h3 (u32 2) rfl hv'
              obtain ⟨a3, b3⟩ := be32_some h2
              have hk : ∃ kind : JksKind, magic = leValue kind.magic := by
                by_cases e : magic = 0xedfeedfe
                · exact ⟨.jks, by rw [e]; decide +kernel⟩
                · exact ⟨.jceks, by rw [show magic = 0xcececece from Decidable.not_not.1 fun e' => hm ⟨e, e'⟩]; decide +kernel⟩
              obtain ⟨kind, hk⟩ := hk
              have a1 := read32_value h1 kind.magic (by cases kind <;> rfl) hk
              exact Or.inr (Or.inr ⟨t, n, kind, h5, h6, b3, (a1.append a2).append a3, rfl⟩)

end Dstu
