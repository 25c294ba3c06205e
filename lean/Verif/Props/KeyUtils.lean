import Verif.Props.Key
import Verif.Lemmas.KeyUtils

/-! C63, C64, C66: keys from PKCS#8 structures. -/

namespace Dstu.Props

open Dstu.Spec

/-! ### C63 -/

/-- C63: the private number is taken from the first string among the values, whatever its length; its bit `i` is the `i`-th bit of
that string. -/
theorem C63_number (attr : Attr) (s : List Byte) (h : FirstString attr.values s) :
    ∃ n, getPrivateKeyNum attr = some (some n) ∧ ∀ i, n.testBit i = bitAt s i := by
  rw [getPrivateKeyNum_eq, (findString_some _ _).2 h]
  exact ⟨_, rfl, swapped_bit s⟩

/-- C63: without a string there is no number, and nothing undefined happens. -/
theorem C63_no_number (attr : Attr) (h : NoString attr.values) : getPrivateKeyNum attr = some none := by
  rw [getPrivateKeyNum_eq, (findString_none _).2 h]
  rfl

/-- The string 10000000 01100000 after another value: bits 0, 9 and 10 are set. -/
example : FirstString [.other, .bit [0x80, 0x60], .octet [1]] [0x80, 0x60] :=
  ⟨[.other], .bit [0x80, 0x60], [.octet [1]], rfl, Or.inr rfl, by simp⟩
example : getPrivateKeyNum ⟨none, [.other, .bit [0x80, 0x60], .octet [1]]⟩ = some (some (2 ^ 0 + 2 ^ 9 + 2 ^ 10)) := by decide

/-! ### C66 -/

theorem makePoly_pos {m : Int} {poly : PolySpec} (h : (polyExponents m poly).takeWhile (· ≠ -1) = (polyExponents m poly).dropLast)
    (hp : ∀ k ∈ (polyExponents m poly).dropLast, 0 ≤ k) : makePoly m poly = some (arr2poly (polyExponents m poly)) := by
  unfold makePoly
  simp only
  rw [if_pos]
  rw [h, List.all_eq_true]
  intro k hk
  simpa using hp k hk

/-- C66: whenever the engine's reader builds a polynomial from a field description, the key library builds the same one. -/
theorem C66_same_polynomial (m : Int) (poly : PolySpec) (arr : List Int) (h : polyArray m poly = some arr) :
    makePoly m poly = some (arr2poly arr) := by
  obtain ⟨h0, tail, rfl, ht⟩ := polyArray_some h
  cases poly with
  | trinomial k =>
    obtain ⟨hk, rfl⟩ := ht
    rw [makePoly_pos]
    · rfl
    · have h1 : asn1_integer_get m ≠ -1 := by omega
      have h2 : asn1_integer_get k ≠ -1 := by omega
      simp [polyExponents, List.takeWhile, h1, h2]
    · intro e he
      simp [polyExponents] at he
      omega
  | pentanomial k j l =>
    obtain ⟨hk, hj, hl, rfl⟩ := ht
    have h1 : asn1_integer_get m ≠ -1 := by omega
    have h2 : asn1_integer_get k ≠ -1 := by omega
    have h3 : asn1_integer_get j ≠ -1 := by omega
    have h4 : asn1_integer_get l ≠ -1 := by omega
    rw [makePoly_pos]
    · simp [polyExponents, arr2poly, List.takeWhile, h1, h2, h3, h4]
      congr 1
      rw [← Nat.lor_assoc, ← Nat.lor_assoc, ← Nat.lor_assoc, ← Nat.lor_assoc, Nat.lor_comm (2 ^ _) (2 ^ _)]
      rw [Nat.lor_comm (_ ||| _) (2 ^ (asn1_integer_get l).toNat), ← Nat.lor_assoc, Nat.lor_assoc (2 ^ (asn1_integer_get l).toNat)]
    · simp [polyExponents, List.takeWhile, h1, h2, h3, h4]
    · intro e he
      simp [polyExponents] at he
      omega

/-- C66: for sane descriptions the polynomial of the key library has exactly the described exponents. -/
theorem C66_described (s : CustomCurveSpec) (h : SaneField s) :
    ∃ p, makePoly s.m s.poly = some p ∧ ∀ i : Nat, p.testBit i = true ↔ (i : Int) ∈ fieldExponents s := by
  refine ⟨_, makePoly_sane s h, fun i => ?_⟩
  have : fieldExponents s = ((fieldExponents s).map Int.toNat).map Int.ofNat := by
    rw [List.map_map]
    conv_lhs => rw [← List.map_id (fieldExponents s)]
    apply List.map_congr_left
    intro e he
    have := (h e he).1
    simp only [id_eq, Function.comp_apply]
    exact (Int.toNat_of_nonneg this).symm
  rw [this, arr2poly_testBit, decide_eq_true_eq, List.mem_map (f := Int.ofNat)]
  constructor
  · intro hi
    exact ⟨i, hi, rfl⟩
  · rintro ⟨j, hj, e⟩
    have : j = i := Int.ofNat.inj e
    rw [← this]
    exact hj

/-- C66, for whole curves: if the engine reads a big-endian description of a curve, the key library reads the same curve. -/
theorem C66_same_curve (sq : QuadSolver) (spec : CustomCurveSpec) (g : EcGroup) (h : group_from_asn1 sq spec false = some g) :
    makeECGROUPFromSpec sq spec = some (some g) := by
  unfold group_from_asn1 at h
  unfold makeECGROUPFromSpec
  cases harr : polyArray spec.m spec.poly with
  | none => rw [harr] at h; cases h
  | some arr =>
    rw [harr] at h
    rw [C66_same_polynomial _ _ _ harr]
    simp only [maybeReverseCopy, Bool.false_eq_true, if_false] at h ⊢
    by_cases ha : spec.a ≠ 1 ∧ spec.a ≠ 0
    · rw [if_pos ha] at h; cases h
    · rw [if_neg ha] at h
      have : spec.a.natAbs = spec.a.toNat := by omega
      rw [this]
      cases h1 : new_curve_GF2m (arr2poly arr) spec.a.toNat (bin2bn spec.b) with
      | none => rw [h1] at h; cases h
      | some c =>
        obtain ⟨p, a, b⟩ := c
        rw [h1] at h
        simp only at h ⊢
        cases h2 : dstu_point_expand sq spec.bp ⟨p, a, b, 0, 0, 0, 0⟩ with
        | none => rw [h2] at h; cases h
        | some c =>
          obtain ⟨x, y⟩ := c
          rw [h2] at h
          simp only at h ⊢
          by_cases h3 : set_generator_ok p spec.n
          · rw [if_pos h3] at h ⊢
            rw [h]
          · rw [if_neg h3] at h; cases h

/-- The pentanomial of the standard curve of degree 163, in both orders. -/
example : polyArray 163 (.pentanomial 3 6 7) = some [163, 7, 6, 3, 0, -1] := by decide
example : makePoly 163 (.pentanomial 3 6 7) = some (2 ^ 163 + 2 ^ 7 + 2 ^ 6 + 2 ^ 3 + 1) := by decide +kernel
example : SaneField ⟨163, .pentanomial 3 6 7, 1, [], 0, []⟩ := by simp [SaneField, fieldExponents]

/-- C66, for field descriptions the engine refuses: the key library accepts some of them.  With the exponents 163, 3, 6, -1 the
engine refuses the pentanomial, and the key library builds a polynomial. -/
theorem C66_refused_alike_refuted : ¬ ∀ m poly, polyArray m poly = none → makePoly m poly = none := by
  intro h
  have := h 163 (.pentanomial 3 6 (-1)) (by decide)
  revert this
  decide

/-! ### C64 -/

theorem makePKey_eq (env : P8Env) (c k : Attr) (h : ∀ spec, FirstSpec env c.values spec → ¬ NegativeField spec) :
    ∃ r, makePKey env c k = some r ∧ ∀ key, r = some key ↔ ∃ s spec g d Q, FirstString k.values s ∧ (∀ i, Nat.testBit d i = bitAt s i) ∧
      FirstSpec env c.values spec ∧ makeECGROUPFromSpec env.sq spec = some (some g) ∧ add_public_key env.toEnv g d = some Q ∧
      key = ⟨.le, some ⟨some g, none, some d, some Q⟩⟩ := by
  unfold makePKey
  rw [getPrivateKeyNum_eq]
  cases hs : findString k.values with
  | none =>
    have : ∀ s, ¬ FirstString k.values s := fun s hf => by rw [← findString_some, hs] at hf; cases hf
    simp only [Option.map_none, makeECGROUP]
    cases hf : findSpec env c.values with
    | none => exact ⟨none, rfl, fun key => ⟨fun h => (by cases h), fun ⟨s, _, _, _, _, h, _⟩ => absurd h (this s)⟩⟩
    | some spec =>
      obtain ⟨r, hr⟩ := Option.ne_none_iff_exists'.1 (mt (fromSpec_none_iff env.sq spec).1 (h spec ((findSpec_some _ _ _).1 hf)))
      simp only [hr]
      exact ⟨none, rfl, fun key => ⟨fun h => (by cases h), fun ⟨s, _, _, _, _, h, _⟩ => absurd h (this s)⟩⟩
  | some s =>
    have hs' := (findString_some _ _).1 hs
    simp only [Option.map_some, makeECGROUP]
    cases hf : findSpec env c.values with
    | none =>
      have : ∀ spec, ¬ FirstSpec env c.values spec := fun s hs => by rw [← findSpec_some, hf] at hs; cases hs
      exact ⟨none, rfl, fun key => ⟨fun h => (by cases h), fun ⟨_, s, _, _, _, _, _, h, _⟩ => absurd h (this s)⟩⟩
    | some spec =>
      obtain ⟨r, hr⟩ := Option.ne_none_iff_exists'.1 (mt (fromSpec_none_iff env.sq spec).1 (h spec ((findSpec_some _ _ _).1 hf)))
      have huniq : ∀ s', FirstString k.values s' → s' = s := fun s' h' => by rw [← findString_some, hs] at h'; cases h'; rfl
      have huniq2 : ∀ sp, FirstSpec env c.values sp → sp = spec := fun s' h' => by rw [← findSpec_some, hf] at h'; cases h'; rfl
      simp only [hr]
      cases r with
      | none =>
        refine ⟨none, rfl, fun key => ⟨fun h => (by cases h), ?_⟩⟩
        rintro ⟨_, sp, g, _, _, _, _, h1, h2, _⟩
        rw [huniq2 sp h1, hr] at h2
        cases h2
      | some g =>
        simp only
        have hd : ∀ d s', FirstString k.values s' → (∀ i, Nat.testBit d i = bitAt s' i) → d = bin2bn (s.map swapBits).reverse := by
          intro d s' h1 h2
          rw [huniq s' h1] at h2
          apply Nat.eq_of_testBit_eq
          intro i
          rw [h2, swapped_bit]
        cases hq : add_public_key env.toEnv g (bin2bn (s.map swapBits).reverse) with
        | none =>
          refine ⟨none, rfl, fun key => ⟨fun h => (by cases h), ?_⟩⟩
          rintro ⟨s', sp, g', d, Q, h0, hb, h1, h2, h3, _⟩
          rw [huniq2 sp h1, hr] at h2
          cases h2
          rw [hd d s' h0 hb, hq] at h3
          cases h3
        | some Q =>
          refine ⟨_, rfl, fun key => ⟨?_, ?_⟩⟩
          · intro h
            cases h
            exact ⟨s, spec, g, _, Q, hs', swapped_bit s, (findSpec_some _ _ _).1 hf, hr, hq, rfl⟩
          · rintro ⟨s', sp, g', d, Q', h0, hb, h1, h2, h3, rfl⟩
            rw [huniq2 sp h1, hr] at h2
            cases h2
            rw [hd d s' h0 hb, hq] at h3
            cases h3
            rw [hd d s' h0 hb]

theorem attributes_eq (env : P8Env) (attrs : List (Option Attr)) (h : ¬ NegativeCurve env attrs) :
    ∃ r, pkeyFromAttributes env attrs = some r ∧ ∀ k, r = some k ↔ SecondKey env attrs k := by
  unfold pkeyFromAttributes
  rw [findAttrs_eq]
  have hl := fun oid a => foldl_last oid attrs none a
  simp only [reduceCtorEq, false_and, or_false] at hl
  cases hc : attrs.foldl (pickAttr oidCurveAttr) none with
  | none =>
    refine ⟨none, rfl, fun k => ⟨fun h => (by cases h), ?_⟩⟩
    rintro ⟨c, _, _, _, _, _, _, h1, _⟩
    rw [← hl, hc] at h1
    cases h1
  | some c =>
    cases hk : attrs.foldl (pickAttr oidKeyAttr) none with
    | none =>
      refine ⟨none, rfl, fun k => ⟨fun h => (by cases h), ?_⟩⟩
      rintro ⟨_, c, _, _, _, _, _, _, h1, _⟩
      rw [← hl, hk] at h1
      cases h1
    | some k =>
      have hc' := (hl _ _).1 hc
      have hk' := (hl _ _).1 hk
      obtain ⟨r, e, hr⟩ := makePKey_eq env c k fun spec hs hn => h ⟨c, k, spec, hc', hk', hs, hn⟩
      refine ⟨r, e, fun key => ?_⟩
      rw [hr]
      constructor
      · rintro ⟨s, spec, g, d, Q, h⟩
        exact ⟨c, k, s, spec, g, d, Q, hc', hk', h⟩
      · rintro ⟨c', k', s, spec, g, d, Q, h1, h2, h⟩
        rw [← hl, hc] at h1
        rw [← hl, hk] at h2
        cases h1
        cases h2
        exact ⟨s, spec, g, d, Q, h⟩

theorem attributes_none_iff (env : P8Env) (attrs : List (Option Attr)) : pkeyFromAttributes env attrs = none ↔ NegativeCurve env attrs := by
  constructor
  · intro h
    by_contra hn
    obtain ⟨r, e, _⟩ := attributes_eq env attrs hn
    rw [h] at e
    cases e
  · rintro ⟨c, k, spec, hc, hk, hs, hn⟩
    have hl := fun oid a => foldl_last oid attrs none a
    simp only [reduceCtorEq, false_and, or_false] at hl
    unfold pkeyFromAttributes
    rw [findAttrs_eq, (hl _ _).2 hc, (hl _ _).2 hk]
    simp only [makePKey]
    rw [getPrivateKeyNum_eq]
    simp only [makeECGROUP, (findSpec_some env _ spec).2 hs, (fromSpec_none_iff env.sq spec).2 hn]

/-- C64, exactly where it fails: when the structure and its main key are readable, the import is undefined behaviour if and only if there are both attributes and the curve that is taken
has a negative exponent. -/
theorem C64_undefined_iff {χ : Type} (env : P8Env) (data p8 : List Byte) (attrs : List (Option Attr)) (k1 : EvpPkey) (ks : Option Nat) (m : ImpMem EvpPkey χ)
    (hd : env.d2i_PKCS8 data = some (p8, attrs)) (hk : env.pkcs82pkey p8 = some k1) (R : Reachable m.ks) :
    keysFromPKCS8 (pkcs8Keys env) data ks m = none ↔ NegativeCurve env attrs := by
  constructor
  · intro h
    by_contra hn
    obtain ⟨r, e, _⟩ := attributes_eq env attrs hn
    have hkeys : pkcs8Keys env data = some (some (k1, r)) := by
      unfold pkcs8Keys
      simp only [hd, hk, e]
    obtain ⟨ops, o1, o2⟩ := R
    obtain ⟨m', s', e', F⟩ := keysFromPKCS8_fill (χ := χ) (pkcs8Keys env) data ks ⟨ops, o1, o2, rfl⟩ hkeys
    rw [h] at e'
    cases e'
  · intro h
    have hkeys : pkcs8Keys env data = none := by
      unfold pkcs8Keys
      simp only [hd, hk, (attributes_none_iff env attrs).2 h]
    unfold keysFromPKCS8
    rw [hkeys]

/-- C64, unless the curve has a negative exponent: when the structure and its main key are readable the import succeeds, with a new store that
holds the main key and then the second key, if and only if the attributes describe one; nothing else changes.  Missing:
descriptions with negative exponents, see `C64_undefined_iff` and `C64_negative_exponent_refuted`. -/
theorem C64_keys_partial {χ : Type} (env : P8Env) (data p8 : List Byte) (attrs : List (Option Attr)) (k1 : EvpPkey) (ks : Option Nat) (m : ImpMem EvpPkey χ)
    (hd : env.d2i_PKCS8 data = some (p8, attrs)) (hk : env.pkcs82pkey p8 = some k1) (hs : ¬ NegativeCurve env attrs) (R : Reachable m.ks) :
    ∃ id m' keys, keysFromPKCS8 (pkcs8Keys env) data ks m = some (true, some id, m') ∧ Reachable m'.ks ∧ Undisturbed m m' ∧ m.ks.stores id = none ∧
      HoldsExactly m' id keys [] ∧ ((∃ k2, SecondKey env attrs k2 ∧ keys = [k1, k2]) ∨ ((¬ ∃ k2, SecondKey env attrs k2) ∧ keys = [k1])) := by
  obtain ⟨r, e, hr⟩ := attributes_eq env attrs hs
  have hkeys : pkcs8Keys env data = some (some (k1, r)) := by
    unfold pkcs8Keys
    simp only [hd, hk, e]
  obtain ⟨ops, o1, o2⟩ := R
  have R' : Reach m.ks (Shelves.boot.run ops) := ⟨ops, o1, o2, rfl⟩
  obtain ⟨m', s', e', F⟩ := keysFromPKCS8_fill (χ := χ) (pkcs8Keys env) data ks R' hkeys
  have hid : (Shelves.boot.run ops).store m.ks.nextStore = none := R'.holds.1.freshStore _ (Nat.le_of_eq R'.holds.1.next.symm)
  refine ⟨_, m', _, e', F.reach.reachable, F.undisturbed R' hid, ?_, F.full, ?_⟩
  · rw [R'.holds.1.stores, hid]; rfl
  · cases r with
    | none =>
      refine Or.inr ⟨?_, rfl⟩
      rintro ⟨k2, h2⟩
      have := (hr k2).2 h2
      cases this
    | some k2 => exact Or.inl ⟨k2, (hr k2).1 rfl, rfl⟩

/-- C64: when the structure or its main key is not readable the import fails, and there is no store: the caller's pointer and the
memory are as before. -/
theorem C64_failure {χ : Type} (env : P8Env) (data : List Byte) (ks : Option Nat) (m : ImpMem EvpPkey χ)
    (h : env.d2i_PKCS8 data = none ∨ ∃ p8 attrs, env.d2i_PKCS8 data = some (p8, attrs) ∧ env.pkcs82pkey p8 = none) :
    keysFromPKCS8 (pkcs8Keys env) data ks m = some (false, ks, m) := by
  have : pkcs8Keys env data = some none := by
    unfold pkcs8Keys
    rcases h with h | ⟨p8, attrs, h1, h2⟩
    · rw [h]
    · simp only [h1, h2]
  unfold keysFromPKCS8
  rw [this]

/-- The full C64 is false: a structure whose attributes describe a curve with a negative exponent brings undefined behaviour
instead of one key. -/
theorem C64_negative_exponent_refuted (base : Env) (k1 : EvpPkey) :
    ∃ (env : P8Env) (data p8 : List Byte) (attrs : List (Option Attr)), env.toEnv = base ∧ env.d2i_PKCS8 data = some (p8, attrs) ∧ env.pkcs82pkey p8 = some k1 ∧
      ∀ (χ : Type) ks (m : ImpMem EvpPkey χ), keysFromPKCS8 (pkcs8Keys env) data ks m = none := by
  let attrs : List (Option Attr) := [some ⟨some oidCurveAttr, [.seq []]⟩, some ⟨some oidKeyAttr, [.bit [0x80]]⟩]
  let env : P8Env := ⟨base, fun _ => some ([], attrs), fun _ => some ⟨163, .trinomial (-7), 1, [1], 5, [1]⟩, fun _ => some k1⟩
  have : pkcs8Keys env [] = none := by
    have h1 : getPrivateKeyNum ⟨some oidKeyAttr, [.bit [0x80]]⟩ = some (some 1) := by decide
    have h2 : makePoly 163 (.trinomial (-7)) = none := by decide
    have h3 : findAttrs attrs (none, none) = (some ⟨some oidCurveAttr, [.seq []]⟩, some ⟨some oidKeyAttr, [.bit [0x80]]⟩) := by
      have hne : oidKeyAttr ≠ oidCurveAttr := by decide
      simp [attrs, findAttrs, dstu4145CurveOID_eq, dstu4145KeyOID_eq, hne]
    have h4 : pkeyFromAttributes env attrs = none := by
      unfold pkeyFromAttributes
      rw [h3]
      simp only [makePKey, h1, makeECGROUP, findSpec, env, makeECGROUPFromSpec, h2]
    unfold pkcs8Keys
    show (match pkeyFromAttributes env attrs with | none => none | some pkey2 => some (some (k1, pkey2))) = none
    rw [h4]
  refine ⟨env, [], [], attrs, rfl, rfl, rfl, fun χ ks m => ?_⟩
  unfold keysFromPKCS8
  rw [this]

/-- The hypotheses of `C64_keys_partial` are met, with a complete second key, if the curve can be used. -/
example (base : Env) (k1 : EvpPkey) (g : EcGroup) (spec : CustomCurveSpec) (Q : Nat × Nat) (h : makeECGROUPFromSpec base.sq spec = some (some g))
    (hs : SaneField spec) (hq : add_public_key base g 5 = some Q) :
    ∃ (env : P8Env) (p8 : List Byte) (attrs : List (Option Attr)), env.d2i_PKCS8 [] = some (p8, attrs) ∧ env.pkcs82pkey p8 = some k1 ∧ ¬ NegativeCurve env attrs ∧
      SecondKey env attrs ⟨.le, some ⟨some g, none, some 5, some Q⟩⟩ := by
  refine ⟨⟨base, fun _ => some ([], [some ⟨some oidCurveAttr, [.seq []]⟩, none, some ⟨some oidKeyAttr, [.bit [0xA0]]⟩]), fun _ => some spec, fun _ => some k1⟩,
    [], _, rfl, rfl, ?_, ?_⟩
  · rintro ⟨_, _, sp, _, _, ⟨_, _, _, _, hsp, _⟩, hn⟩
    cases hsp
    exact sane_not_negative _ hs hn
  · refine ⟨_, _, [0xA0], spec, g, 5, Q, ⟨[], _, rfl, rfl, ?_⟩, ⟨[some _, none], [], rfl, rfl, by simp⟩, ⟨[], _, [], rfl, Or.inr rfl, by simp⟩, ?_,
      ⟨[], [], [], rfl, rfl, by simp⟩, h, hq, rfl⟩
    · intro a ha
      simp only [List.mem_cons, reduceCtorEq, Option.some.injEq, false_or, List.not_mem_nil, or_false] at ha
      rw [ha]
      decide
    · intro i
      rw [show (5 : Nat) = bin2bn (([0xA0] : List Byte).map swapBits).reverse by decide]
      exact swapped_bit _ i

example : makePoly 163 (.pentanomial 3 6 7) = some (arr2poly [163, 7, 6, 3, 0, -1]) := C66_same_polynomial 163 _ _ (by decide)

/-- Data that is not PKCS#8. -/
example (base : Env) (ks : Option Nat) (m : ImpMem EvpPkey (List Byte)) :=
  C64_failure ⟨base, fun _ => none, fun _ => none, fun _ => none⟩ [1, 2] ks m (Or.inl rfl)

end Dstu.Props
