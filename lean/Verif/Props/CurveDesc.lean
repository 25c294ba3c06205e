import Mathlib.Data.Finset.Card
import Verif.Spec.CurveDesc
import Verif.Props.Expand
import Verif.Props.KeyUtils
import Verif.Props.Builtin
import Verif.Props.KeyFile

/-! C104: which descriptions of curves are read, and as what. -/

namespace Dstu.Props

open Spec

theorem fieldPoly_unique {s : CustomCurveSpec} {p q : Nat} (hp : FieldPoly s p) (hq : FieldPoly s q) : p = q := by
  apply Nat.eq_of_testBit_eq
  intro i
  rw [Bool.eq_iff_iff, hp, hq]

theorem weight_card {s : CustomCurveSpec} {p : Nat} (hs : ∀ e ∈ fieldExponents s, 0 ≤ e) (hp : FieldPoly s p) :
    weight p = (fieldExponents s).toFinset.card := by
  have hne : p ≠ 0 := by
    rintro rfl
    have : (0 : Int) ∈ fieldExponents s := by unfold fieldExponents; split <;> simp
    have := (hp 0).2 (by exact_mod_cast this)
    simp at this
  have hbit : ∀ i, p.testBit i = true → i < p.log2 + 1 := by
    intro i hi
    by_contra h
    have := Nat.ge_two_pow_of_testBit hi
    have h2 : p < 2 ^ i := lt_of_lt_of_le Nat.lt_log2_self (Nat.pow_le_pow_right (by omega) (by omega))
    omega
  have e : (fieldExponents s).toFinset = (((List.range (p.log2 + 1)).filter p.testBit).map Int.ofNat).toFinset := by
    ext x
    rw [List.mem_toFinset, List.mem_toFinset, List.mem_map]
    constructor
    · intro hx
      obtain ⟨i, rfl⟩ := Int.eq_ofNat_of_zero_le (hs x hx)
      have hi := (hp i).2 hx
      exact ⟨i, List.mem_filter.2 ⟨List.mem_range.2 (hbit i hi), hi⟩, rfl⟩
    · rintro ⟨i, hi, rfl⟩
      exact (hp i).1 (List.mem_filter.1 hi).2
  rw [e, List.toFinset_card_of_nodup, List.length_map]
  · rfl
  · exact (List.nodup_range.filter _).map Int.ofNat_injective

/-- The common part of both readers. -/
theorem curve_core (sq : QuadSolver) (p : Nat) (hirr : Irreducible (bitPoly p)) (hodd : fieldDegree p % 2 = 1) (a b : Nat) (ha : a = 0 ∨ a = 1) (bp : List Byte) (n : Int)
    (x y : Nat) :
    (new_curve_GF2m p a b = if weight p = 3 ∨ weight p = 5 then some (p, a, gf2m_mod p b) else none) ∧
    (dstu_point_expand sq bp ⟨p, a, gf2m_mod p b, 0, 0, 0, 0⟩ = some (x, y) ↔ (fieldDegree p + 7) / 8 ≤ bp.length ∧ StandsFor p a (gf2m_mod p b) (beValue bp) x y) ∧
    (set_generator_ok p n ↔ 0 < n ∧ n < 2 ^ (fieldDegree p + 2)) := by
  have hp := irreducible_pos p hirr
  have hd := fieldDegree_pos hp
  have h2 : 2 ^ 1 ≤ 2 ^ fieldDegree p := Nat.pow_le_pow_right (by omega) hd
  refine ⟨?_, ?_, ?_⟩
  · unfold new_curve_GF2m
    rw [gf2m_mod_eq p a (by omega) (by change a < 2 ^ fieldDegree p; omega)]
  · have : Fact (Irreducible (bitPoly (EcGroup.mk p a (gf2m_mod p b) 0 0 0 0).p)) := ⟨hirr⟩
    exact C32_expand_iff (g := ⟨p, a, gf2m_mod p b, 0, 0, 0, 0⟩) sq hodd ha bp x y
  · unfold set_generator_ok
    rw [numBits_le]
    have : numBits p + 1 = fieldDegree p + 2 := by
      unfold numBits fieldDegree
      rw [if_neg (by omega)]
    rw [this]
    refine and_congr_right fun hn => ?_
    obtain ⟨k, rfl⟩ := Int.eq_ofNat_of_zero_le (le_of_lt hn)
    rw [Int.toNat_natCast]
    exact_mod_cast Iff.rfl

/-- Both readers, from the polynomial on. -/
theorem core_iff (sq : QuadSolver) (s : CustomCurveSpec) (p : Nat) (hirr : Irreducible (bitPoly p)) (hodd : fieldDegree p % 2 = 1) (hs : ∀ e ∈ fieldExponents s, 0 ≤ e)
    (hp : FieldPoly s p) (t : KeyType) (a : Nat) (ha : a = 0 ∨ a = 1) (has : (a : Int) = s.a) (bb bp : List Byte) (hb : beValue bb = numberIn t s.b)
    (hbp : beValue bp = numberIn t s.bp) (hl : bp.length = s.bp.length) (g : EcGroup) :
    (match new_curve_GF2m p a (bin2bn bb) with
      | none => none
      | some (p, a, b) =>
        match dstu_point_expand sq bp ⟨p, a, b, 0, 0, 0, 0⟩ with
        | none => none
        | some (x, y) => if set_generator_ok p s.n then some (EcGroup.mk p a b x y s.n.toNat 1) else none) = some g ↔
      Described t s g ∧ Limits s (fieldDegree g.p) := by
  have hp1 := irreducible_pos p hirr
  have : Fact (Irreducible (bitPoly p)) := ⟨hirr⟩
  have core := curve_core sq p hirr hodd a (bin2bn bb) ha bp s.n
  rw [(core 0 0).1]
  have hex := fun x y => (core x y).2.1
  have hok := (core 0 0).2.2
  have hw := weight_card hs hp
  have hblt : gf2m_mod p (bin2bn bb) < 2 ^ fieldDegree p := GF.toNat_lt p hp1 _
  have hbeq : GF.ofNat p (gf2m_mod p (bin2bn bb)) = GF.ofNat p (numberIn t s.b) := by
    rw [gf2m_mod, GF.ofNat_toNat p (by omega), bin2bn_eq, hb]
  constructor
  · intro h
    by_cases h1 : weight p = 3 ∨ weight p = 5
    · rw [if_pos h1] at h
      simp only at h
      split at h
      · cases h
      · rename_i x y hxy
        split at h
        · rename_i hn
          cases h
          obtain ⟨l1, l2⟩ := (hex x y).1 hxy
          obtain ⟨n1, n2⟩ := hok.1 hn
          rw [hbp] at l2
          exact ⟨⟨hp, has, hblt, hbeq, l2, by simp only; omega, rfl⟩, ⟨by rw [← hw]; exact h1, by rw [← hl]; exact l1, n1, n2⟩⟩
        · cases h
    · rw [if_neg h1] at h
      cases h
  · rintro ⟨D, L⟩
    obtain ⟨gp, ga, gb, gx, gy, gn, gh⟩ := g
    have e1 : gp = p := fieldPoly_unique D.field hp
    subst e1
    have e2 : ga = a := by have := D.a; simp only at this; omega
    subst e2
    have e3 : gb = gf2m_mod gp (bin2bn bb) := ofNat_inj gp D.b_lt hblt (D.b.trans hbeq.symm)
    subst e3
    have e4 : gn = s.n.toNat := by have := D.n; simp only at this; omega
    subst e4
    have e5 : gh = 1 := D.h
    subst e5
    rw [if_pos (by rw [hw]; exact L.exponents)]
    simp only
    rw [(hex gx gy).2 ⟨by rw [hl]; exact L.base, by rw [hbp]; exact D.base⟩]
    simp only
    rw [if_pos (hok.2 ⟨L.n_pos, L.n_lt⟩)]

theorem polyArray_positive (s : CustomCurveSpec) (hr : ∀ e ∈ fieldExponents s, -2 ^ 31 ≤ e ∧ e < 2 ^ 31) :
    (∃ arr, polyArray s.m s.poly = some arr) ↔ ∀ e ∈ (fieldExponents s).dropLast, 0 < e := by
  unfold fieldExponents at hr ⊢
  unfold polyArray
  cases hp : s.poly with
  | trinomial k =>
    rw [hp] at hr
    simp only [List.mem_cons, List.not_mem_nil, or_false, forall_eq_or_imp, forall_eq] at hr
    simp only [get_range _ hr.1, get_range _ hr.2.1, List.dropLast, List.mem_cons, List.not_mem_nil, or_false, forall_eq_or_imp, forall_eq]
    constructor
    · rintro ⟨arr, h⟩
      split at h
      · cases h
      · split at h
        · cases h
        · omega
    · rintro ⟨h1, h2⟩
      rw [if_neg (by omega), if_neg (by omega)]
      exact ⟨_, rfl⟩
  | pentanomial k j l =>
    rw [hp] at hr
    simp only [List.mem_cons, List.not_mem_nil, or_false, forall_eq_or_imp, forall_eq] at hr
    simp only [get_range _ hr.1, get_range _ hr.2.1, get_range _ hr.2.2.1, get_range _ hr.2.2.2.1, List.dropLast, List.mem_cons, List.not_mem_nil, or_false, forall_eq_or_imp, forall_eq]
    constructor
    · rintro ⟨arr, h⟩
      split at h
      · cases h
      · split at h
        · cases h
        · split at h
          · cases h
          · split at h
            · cases h
            · omega
    · rintro ⟨h1, h2, h3, h4⟩
      rw [if_neg (by omega), if_neg (by omega), if_neg (by omega), if_neg (by omega)]
      exact ⟨_, rfl⟩

theorem exponents_nonneg (s : CustomCurveSpec) (h : ∀ e ∈ (fieldExponents s).dropLast, 0 < e) : ∀ e ∈ fieldExponents s, 0 ≤ e := by
  unfold fieldExponents at h ⊢
  cases hp : s.poly with
  | trinomial k =>
    simp only [hp, List.dropLast, List.mem_cons, List.not_mem_nil, or_false, forall_eq_or_imp, forall_eq] at h ⊢
    omega
  | pentanomial k j l =>
    simp only [hp, List.dropLast, List.mem_cons, List.not_mem_nil, or_false, forall_eq_or_imp, forall_eq] at h ⊢
    omega

theorem reversed_value (t : KeyType) (l r : List Byte) (h : maybeReverseCopy (decide (t = .le)) l = some r) : beValue r = numberIn t l ∧ r.length = l.length := by
  unfold maybeReverseCopy at h
  unfold numberIn
  by_cases ht : t = .le
  · simp only [ht, decide_true, if_true] at h ⊢
    split at h
    · cases h
    · rw [reverse_bytes_copy_eq] at h
      cases h
      refine ⟨?_, by simp⟩
      rw [beValue, List.reverse_reverse]
  · simp only [ht, decide_false, if_false, Bool.false_eq_true] at h ⊢
    cases h
    exact ⟨rfl, rfl⟩

theorem reversed_some (t : KeyType) (l : List Byte) : (∃ r, maybeReverseCopy (decide (t = .le)) l = some r) ↔ (t = .le → l ≠ []) := by
  unfold maybeReverseCopy
  by_cases ht : t = .le
  · simp only [ht, decide_true, if_true, forall_const]
    by_cases hl : l = []
    · simp [hl]
    · rw [if_neg (by rwa [List.length_eq_zero_iff]), reverse_bytes_copy_eq]
      simp [hl]
  · simp [ht]

/-- C104, for the engine: a description whose exponents fit into a C `int` and whose polynomial is irreducible of odd degree is read as a curve if and only if it is within the limits and
the curve is the described one. -/
theorem C104_engine (sq : QuadSolver) (t : KeyType) (s : CustomCurveSpec) (p : Nat) (hr : ∀ e ∈ fieldExponents s, -2 ^ 31 ≤ e ∧ e < 2 ^ 31) (hp : FieldPoly s p)
    (hirr : Irreducible (bitPoly p)) (hodd : fieldDegree p % 2 = 1) (g : EcGroup) :
    group_from_asn1 sq s (t = .le) = some g ↔ Described t s g ∧ Limits s (fieldDegree p) ∧ EngineLimits t s := by
  have hm := fieldDegree_pos (irreducible_pos p hirr)
  have hfp : ∀ arr, polyArray s.m s.poly = some arr → arr2poly arr = p ∧ (∀ e ∈ (fieldExponents s).dropLast, 0 < e) ∧ ∀ e ∈ fieldExponents s, 0 ≤ e := by
    intro arr harr
    have hpos := (polyArray_positive s hr).1 ⟨arr, harr⟩
    have hnn := exponents_nonneg s hpos
    obtain ⟨q, e1, e2⟩ := C66_described s fun e he => ⟨hnn e he, (hr e he).2⟩
    rw [C66_same_polynomial _ _ _ harr] at e1
    cases e1
    exact ⟨fieldPoly_unique e2 hp, hpos, hnn⟩
  have heq : ∀ {q : EcGroup}, Described t s q → q.p = p := fun D => fieldPoly_unique D.field hp
  unfold group_from_asn1
  constructor
  · intro h
    split at h
    · cases h
    rename_i arr harr
    obtain ⟨e1, hpos, hnn⟩ := hfp arr harr
    rw [e1] at h
    simp only at h
    split at h
    · cases h
    rename_i ha
    split at h
    · cases h
    rename_i bb hbb
    cases hbp : maybeReverseCopy (decide (t = .le)) s.bp with
    | none =>
      rw [hbp] at h
      simp only at h
      split at h <;> cases h
    | some bp =>
      rw [hbp] at h
      simp only at h
      have ha' : s.a.toNat = 0 ∨ s.a.toNat = 1 := by omega
      obtain ⟨D, L⟩ := (core_iff sq s p hirr hodd hnn hp t s.a.toNat ha' (by omega) bb bp (reversed_value t _ _ hbb).1 (reversed_value t _ _ hbp).1 (reversed_value t _ _ hbp).2 g).1 h
      rw [heq D] at L
      exact ⟨D, L, by omega, hpos, (reversed_some t _).1 ⟨bb, hbb⟩⟩
  · rintro ⟨D, L, E⟩
    obtain ⟨arr, harr⟩ := (polyArray_positive s hr).2 E.positive
    obtain ⟨e1, hpos, hnn⟩ := hfp arr harr
    obtain ⟨bb, hbb⟩ := (reversed_some t _).2 E.b
    obtain ⟨bp, hbp⟩ := (reversed_some t s.bp).2 fun _ h => by
      have := L.base
      rw [h, List.length_nil] at this
      omega
    have ha := E.a
    rw [harr]
    simp only [e1]
    rw [if_neg (by omega), hbb]
    simp only [hbp]
    exact (core_iff sq s p hirr hodd hnn hp t s.a.toNat (by omega) (by omega) bb bp (reversed_value t _ _ hbb).1 (reversed_value t _ _ hbp).1 (reversed_value t _ _ hbp).2 g).2
      ⟨D, by rw [heq D]; exact L⟩

/-- C104, for the key library, which reads big-endian descriptions only: the same with fewer limits, if the exponents are not negative and `a` is 0 or 1; nothing undefined happens. -/
theorem C104_library (sq : QuadSolver) (s : CustomCurveSpec) (p : Nat) (hr : SaneField s) (ha : s.a = 0 ∨ s.a = 1) (hp : FieldPoly s p)
    (hirr : Irreducible (bitPoly p)) (hodd : fieldDegree p % 2 = 1) :
    ∃ r, makeECGROUPFromSpec sq s = some r ∧ ∀ g, r = some g ↔ Described .be s g ∧ Limits s (fieldDegree p) := by
  obtain ⟨r, hres⟩ := fromSpec_sane sq s hr
  refine ⟨r, hres, fun g => ?_⟩
  obtain ⟨q, e1, e2⟩ := C66_described s hr
  have : q = p := fieldPoly_unique e2 hp
  subst this
  have core := core_iff sq s q hirr hodd (fun e he => (hr e he).1) hp .be s.a.natAbs (by omega) (by omega) s.b s.bp rfl rfl rfl g
  have hd : (Described .be s g ∧ Limits s (fieldDegree g.p)) ↔ (Described .be s g ∧ Limits s (fieldDegree q)) := by
    refine and_congr_right fun D => ?_
    rw [fieldPoly_unique D.field hp]
  rw [← hd, ← core]
  unfold makeECGROUPFromSpec at hres
  rw [e1] at hres
  simp only at hres
  generalize new_curve_GF2m q s.a.natAbs (bin2bn s.b) = c at hres ⊢
  cases c with
  | none => simp only at hres ⊢; cases hres; rfl
  | some c =>
    obtain ⟨p, a, b⟩ := c
    simp only at hres ⊢
    generalize dstu_point_expand sq s.bp ⟨p, a, b, 0, 0, 0, 0⟩ = c at hres ⊢
    cases c with
    | none => simp only at hres ⊢; cases hres; rfl
    | some c =>
      obtain ⟨x, y⟩ := c
      simp only at hres ⊢
      split at hres <;> rename_i hh <;> cases hres <;> simp only [hh, if_true, if_false]

/-- C32, for the other coefficients `a`: only strings of zeros are expanded, to the point with abscissa 0. -/
theorem C32_other_coefficient {g : EcGroup} [Fact (Irreducible (bitPoly g.p))] (sq : QuadSolver) (hlt : g.a < 2 ^ fieldDegree g.p) (h0 : g.a ≠ 0) (h1 : g.a ≠ 1) (c : List Byte)
    (x y : Nat) : dstu_point_expand sq c g = some (x, y) ↔ (fieldDegree g.p + 7) / 8 ≤ c.length ∧ beValue c = 0 ∧ StandsFor g.p g.a g.b 0 x y := by
  have hp := pgt g.p
  constructor
  · intro h
    obtain ⟨l1, l2, hx, hy, hon⟩ := expand_sound g hp sq c x y h
    have hset : ∀ u v, set_affine g.p g.a g.b u v = some (x, y) → u = x ∧ v = y := by
      intro u v huv
      unfold set_affine at huv
      split at huv
      · simp only [Option.some.injEq, Prod.mk.injEq] at huv
        exact huv
      · cases huv
    unfold dstu_point_expand expandWith at h
    split at h
    · cases h
    simp only [h0, h1, and_false, or_self, if_false] at h
    split at h
    · rename_i hz
      have hx0 := (hset _ _ h).1.symm.trans hz
      rw [bin2bn_eq] at hz
      exact ⟨l1, hz, hx, hy, hon, by rw [if_pos rfl]; exact hx0⟩
    exfalso
    split at h
    · cases h
    split at h
    · cases h
    rename_i i hi
    split at h
    · cases h
    rename_i z hz
    obtain ⟨e1, e2⟩ := hset _ _ h
    rw [e1] at e2 hi hz
    have hX : GF.ofNat g.p x ≠ 0 := by
      intro hx0
      have : GF.ofNat g.p (gf2m_sqr g.p x) = 0 := by rw [gf2m_sqr, GF.ofNat_toNat g.p (by omega), hx0, mul_zero]
      rw [gf2m_inv_none g.p _ this] at hi
      cases hi
    have hsq : GF.ofNat g.p (gf2m_sqr g.p x) = GF.ofNat g.p x * GF.ofNat g.p x := by rw [gf2m_sqr, GF.ofNat_toNat g.p (by omega)]
    obtain ⟨i', hi', hinv⟩ := gf2m_inv_some g.p (gf2m_sqr g.p x) (by rw [hsq]; exact mul_ne_zero hX hX)
    rw [hi] at hi'
    cases hi'
    have hq := (sq.sound _ _ _ hz).1
    rw [gf2m_mul, GF.ofNat_toNat g.p (by omega), GF.ofNat_xor, gf2m_mul, GF.ofNat_toNat g.p (by omega), hinv, hsq] at hq
    have hY : ∃ w : GF g.p, w ^ 2 + w = GF.ofNat g.p z ^ 2 + GF.ofNat g.p z ∧ GF.ofNat g.p y = w * GF.ofNat g.p x := by
      rw [← e2, gf2m_mul, GF.ofNat_toNat g.p (by omega)]
      refine ⟨_, ?_, rfl⟩
      split
      · rw [GF.ofNat_xor, GF.ofNat_one]
        have : (1 : GF g.p) + 1 = 0 := CharTwo.add_self_eq_zero 1
        linear_combination (GF.ofNat g.p z + 1) * this
      · rfl
    obtain ⟨w, hw, hyw⟩ := hY
    rw [hq] at hw
    unfold OnCurve at hon
    rw [hyw] at hon
    have hz0 : GF.ofNat g.p g.a * GF.ofNat g.p x ^ 2 = 0 := by
      have hm : (w ^ 2 + w) * GF.ofNat g.p x ^ 2 = GF.ofNat g.p x ^ 3 + GF.ofNat g.p g.b := by
        rw [hw]
        field_simp
      linear_combination hm - hon
    have := (ofNat_eq_zero g.p hlt).mp ((mul_eq_zero.mp hz0).resolve_right (pow_ne_zero 2 hX))
    exact h0 this
  · rintro ⟨l1, l2, hx, hy, hon, hz⟩
    rw [if_pos rfl] at hz
    subst hz
    rw [GF.ofNat_zero] at hon
    exact expand_zero g sq c y l1 hy hon (by rw [bin2bn_eq, l2])

/-- C104, for the key library and any coefficient `a`. -/
theorem C104_library_any (sq : QuadSolver) (s : CustomCurveSpec) (p : Nat) (hr : SaneField s) (hp : FieldPoly s p) (hirr : Irreducible (bitPoly p)) (hodd : fieldDegree p % 2 = 1) :
    ∃ r, makeECGROUPFromSpec sq s = some r ∧ ∀ g, r = some g ↔ DescribedAny s g ∧ Limits s (fieldDegree p) := by
  obtain ⟨r, hres⟩ := fromSpec_sane sq s hr
  refine ⟨r, hres, fun g => ?_⟩
  obtain ⟨q, e1, e2⟩ := C66_described s hr
  have : q = p := fieldPoly_unique e2 hp
  subst this
  have hq := irreducible_pos q hirr
  have : Fact (Irreducible (bitPoly q)) := ⟨hirr⟩
  obtain ⟨a, hae⟩ : ∃ a, a = gf2m_mod q s.a.natAbs := ⟨_, rfl⟩
  obtain ⟨b, hbe⟩ : ∃ b, b = gf2m_mod q (bin2bn s.b) := ⟨_, rfl⟩
  have halt : a < 2 ^ fieldDegree q := hae ▸ GF.toNat_lt q hq _
  have hblt : b < 2 ^ fieldDegree q := hbe ▸ GF.toNat_lt q hq _
  have ha : GF.ofNat q a = GF.ofNat q s.a.natAbs := by rw [hae, gf2m_mod, GF.ofNat_toNat q (by omega)]
  have hb : GF.ofNat q b = GF.ofNat q (beValue s.b) := by rw [hbe, gf2m_mod, GF.ofNat_toNat q (by omega), bin2bn_eq]
  have hw := weight_card (fun e he => (hr e he).1) hp
  have hok := (curve_core sq q hirr hodd 0 0 (Or.inl rfl) [] s.n 0 0).2.2
  have hex : ∀ x y, dstu_point_expand sq s.bp ⟨q, a, b, 0, 0, 0, 0⟩ = some (x, y) ↔
      (fieldDegree q + 7) / 8 ≤ s.bp.length ∧ StandsFor q a b (beValue s.bp) x y ∧ (a ≠ 0 → a ≠ 1 → beValue s.bp = 0) := by
    intro x y
    by_cases h01 : a = 0 ∨ a = 1
    · have := C32_expand_iff (g := ⟨q, a, b, 0, 0, 0, 0⟩) sq hodd h01 s.bp x y
      simp only at this
      rw [this]
      refine and_congr_right fun _ => ⟨fun h => ⟨h, fun n0 n1 => absurd h01 (by tauto)⟩, fun h => h.1⟩
    · push Not at h01
      have := C32_other_coefficient (g := ⟨q, a, b, 0, 0, 0, 0⟩) sq halt h01.1 h01.2 s.bp x y
      simp only at this
      rw [this]
      refine and_congr_right fun _ => ⟨fun h => ⟨by rw [h.1]; exact h.2, fun _ _ => h.1⟩, fun h => ⟨h.2 h01.1 h01.2, by rw [← h.2 h01.1 h01.2]; exact h.1⟩⟩
  unfold makeECGROUPFromSpec at hres
  rw [e1] at hres
  simp only [new_curve_GF2m, ← hae, ← hbe] at hres
  constructor
  · rintro rfl
    by_cases h1 : weight q = 3 ∨ weight q = 5
    · rw [if_pos h1] at hres
      simp only at hres
      split at hres
      · cases hres
      · rename_i x y hxy
        split at hres
        · rename_i hn
          cases hres
          obtain ⟨l1, l2, l3⟩ := (hex x y).1 hxy
          obtain ⟨n1, n2⟩ := hok.1 hn
          exact ⟨⟨hp, halt, ha, hblt, hb, l2, l3, by simp only; omega, rfl⟩, ⟨by rw [← hw]; exact h1, l1, n1, n2⟩⟩
        · cases hres
    · rw [if_neg h1] at hres
      cases hres
  · rintro ⟨D, L⟩
    obtain ⟨gp, ga, gb, gx, gy, gn, gh⟩ := g
    have k1 : gp = q := fieldPoly_unique D.field hp
    subst k1
    have k2 : ga = a := ofNat_inj gp D.a_lt halt (D.a.trans ha.symm)
    have k3 : gb = b := ofNat_inj gp D.b_lt hblt (D.b.trans hb.symm)
    have k4 : gn = s.n.toNat := by have := D.n; simp only at this; omega
    have k5 : gh = 1 := D.h
    subst k2 k3 k4 k5
    rw [if_pos (by rw [hw]; exact L.exponents)] at hres
    simp only at hres
    rw [(hex gx gy).2 ⟨L.base, D.base, D.zero⟩] at hres
    simp only at hres
    rw [if_pos (hok.2 ⟨L.n_pos, L.n_lt⟩)] at hres
    exact (Option.some.inj hres).symm

/-- C104: the key library does not look at the sign of `a`: it reads -1 as 1, which the engine refuses. -/
theorem C104_library_sign (sq : QuadSolver) (s : CustomCurveSpec) (t : KeyType) (h : s.a = -1) :
    makeECGROUPFromSpec sq s = makeECGROUPFromSpec sq { s with a := 1 } ∧ group_from_asn1 sq s (t = .le) = none := by
  constructor
  · unfold makeECGROUPFromSpec
    rw [h]
    rfl
  · unfold group_from_asn1
    cases polyArray s.m s.poly with
    | none => rfl
    | some arr => simp only [h]; rfl

/-- C104: no description stands for two curves. -/
theorem C104_unique (t : KeyType) (s : CustomCurveSpec) (p : Nat) (hp : FieldPoly s p) (hirr : Irreducible (bitPoly p)) (hodd : fieldDegree p % 2 = 1)
    (ha : s.a = 0 ∨ s.a = 1) (sq : QuadSolver) (g g' : EcGroup) (h : Described t s g) (h' : Described t s g') : g = g' := by
  have hp1 := irreducible_pos p hirr
  have : Fact (Irreducible (bitPoly p)) := ⟨hirr⟩
  obtain ⟨gp, ga, gb, gx, gy, gn, gh⟩ := g
  obtain ⟨gp', ga', gb', gx', gy', gn', gh'⟩ := g'
  have e1 : gp = p := fieldPoly_unique h.field hp
  have e1' : gp' = p := fieldPoly_unique h'.field hp
  subst e1 e1'
  have hA := h.a; have hA' := h'.a; have hN := h.n; have hN' := h'.n; have hH := h.h; have hH' := h'.h
  simp only at hA hA' hN hN' hH hH'
  have e2 : ga' = ga := by omega
  subst e2
  have e3 : gb' = gb := ofNat_inj gp' h'.b_lt h.b_lt (h'.b.trans h.b.symm)
  subst e3
  have e4 : gn' = gn := by omega
  subst e4
  subst hH hH'
  have hB := h.base; have hB' := h'.base
  simp only at hB hB'
  let L := max ((fieldDegree gp' + 7) / 8) (numberIn t s.bp + 1)
  have hv : beValue (bytesBE L (numberIn t s.bp)) = numberIn t s.bp := by
    rw [beValue_bytesBE]
    refine Nat.mod_eq_of_lt (lt_of_lt_of_le (Nat.lt_pow_self (by omega : 1 < 256)) (Nat.pow_le_pow_right (by omega) ?_))
    exact le_trans (by omega) (le_max_right _ _)
  have hl : (fieldDegree gp' + 7) / 8 ≤ (bytesBE L (numberIn t s.bp)).length := by
    rw [bytesBE_length]
    exact le_max_left _ _
  have : Fact (Irreducible (bitPoly (EcGroup.mk gp' ga' gb' 0 0 0 0).p)) := ⟨hirr⟩
  have hex := fun x y => C32_expand_iff (g := ⟨gp', ga', gb', 0, 0, 0, 0⟩) sq hodd (by simp only; omega) (bytesBE L (numberIn t s.bp)) x y
  have r1 := (hex gx gy).2 ⟨hl, by rw [hv]; exact hB⟩
  have r2 := (hex gx' gy').2 ⟨hl, by rw [hv]; exact hB'⟩
  rw [r1] at r2
  cases r2
  rfl

/-- The group that parameters give. -/
theorem curveGroup_iff (env : Env) (t : KeyType) (c : CurveSpec) (hf : OddField c) (g : EcGroup) :
    curveGroup env.sq env.nids env.objs c (t = .le) = some g ↔ CurveOf env t c g := by
  cases c with
  | named oid =>
    simp only [curveGroup, CurveOf]
    constructor
    · intro h
      by_cases hi : ∃ i, env.nids.uacurve i = env.objs.obj2nid oid
      · obtain ⟨i, hi⟩ := hi
        rw [← hi, group_from_nid_uacurve] at h
        exact ⟨i, hi.symm, h⟩
      · rw [C34_unknown_identifier env.nids _ fun i h => hi ⟨i, h⟩] at h
        cases h
    · rintro ⟨i, hi, h⟩
      rw [hi, group_from_nid_uacurve, h]
  | custom s =>
    obtain ⟨hr, p, hp, hirr, hodd⟩ := hf
    simp only [curveGroup, CurveOf]
    rw [C104_engine env.sq t s p hr hp hirr hodd g]
    refine and_congr_right fun D => ?_
    rw [fieldPoly_unique D.field hp]

theorem bytes64_some (l : List Byte) (s : Bytes 64) : bytes64 l = some s ↔ s.toList = l := by
  constructor
  · intro h
    unfold bytes64 at h
    split at h
    · cases h
      rfl
    · cases h
  · rintro rfl
    exact bytes64_toList s

/-- C104, for whole parameters: over a field of odd degree, they are read as a key if and only if they stand for a curve and an S-box; these are the ones of the key, which has no private
and no public part. -/
theorem C104_parameters (env : Env) (t : KeyType) (p : AlgorithmParameters) (hf : OddField p.curve) (key : DstuKey) :
    key_from_asn1 env.sq env.nids env.objs p (t = .le) = some key ↔ ∃ g sb, CurveOf env t p.curve g ∧ SboxOf p.sbox sb ∧ key = ⟨some g, sb, none, none⟩ := by
  have hg := curveGroup_iff env t p.curve hf
  unfold key_from_asn1
  simp only
  cases hs : p.sbox with
  | none =>
    simp only [SboxOf]
    constructor
    · intro h
      split at h
      · cases h
      · rename_i g hgg
        cases h
        exact ⟨g, none, (hg g).1 hgg, rfl, rfl⟩
    · rintro ⟨g, sb, h1, rfl, rfl⟩
      rw [(hg g).2 h1]
      rfl
  | some l =>
    simp only [SboxOf]
    constructor
    · intro h
      split at h
      · cases h
      rename_i s hs64
      have hl := (bytes64_some l s).1 hs64
      split at h
      · cases h
      · rename_i g hgg
        cases h
        refine ⟨g, _, (hg g).1 hgg, ?_, rfl⟩
        by_cases hd : is_default_sbox s = true
        · rw [if_pos hd]
          exact ⟨by rw [Option.getD_none, ← (is_default_iff s).1 hd, hl], by simp⟩
        · rw [if_neg hd]
          refine ⟨hl, fun h => hd ((is_default_iff s).2 (Option.some.inj h))⟩
    · rintro ⟨g, sb, h1, ⟨h2, h3⟩, rfl⟩
      rw [(bytes64_some l _).2 h2]
      simp only
      rw [(hg g).2 h1]
      simp only [DSTU_KEY_new]
      cases sb with
      | none =>
        rw [Option.getD_none, if_pos ((is_default_iff _).2 rfl)]
      | some s =>
        rw [if_neg fun h => h3 (by rw [← (is_default_iff _).1 h]; rfl)]
        rfl

/-- The curves that are read are over fields of odd degree, with `a` 0 or 1. -/
theorem curveOf_odd (env : Env) (t : KeyType) (c : CurveSpec) (hf : OddField c) (g : EcGroup) (h : CurveOf env t c g) :
    Irreducible (bitPoly g.p) ∧ fieldDegree g.p % 2 = 1 ∧ (g.a = 0 ∨ g.a = 1) := by
  cases c with
  | named oid =>
    obtain ⟨i, _, h⟩ := h
    have D := named_dstu env.nids i g h
    exact ⟨D.good.valid.irreducible, D.odd, D.a01⟩
  | custom s =>
    obtain ⟨_, p, hp, hirr, hodd⟩ := hf
    obtain ⟨D, _, E⟩ := h
    rw [fieldPoly_unique D.field hp]
    refine ⟨hirr, hodd, ?_⟩
    have h1 := D.a
    have h2 := E.a
    omega

/-- C104, from the bytes: a byte string whose parameters are over a field of odd degree is read as a private key exactly if it starts with a `PrivateKeyInfo` of one of the two types whose
parameters stand for a curve and an S-box and whose number has at least one byte.  The public key is the negated multiple of the base point, if the order of the base point is the described one. -/
theorem C104_private_key (env : Env) (hc : TemplateCodecs env) (ok : Nat → List Byte → Bool) (l : List Byte)
    (hf : ∀ t a p ep kb e, BerPrivateKeyInfo ok (keyOid t) ep kb a e → e <+: l → BerParams p ep → OddField p.curve) (pk : EvpPkey) :
    importPrivate env ok l = some pk ↔
      ∃ t a p ep kb e g sb Q, BerPrivateKeyInfo ok (keyOid t) ep kb a e ∧ e <+: l ∧ BerParams p ep ∧ kb ≠ [] ∧ CurveOf env t p.curve g ∧ SboxOf p.sbox sb ∧
        add_public_key env g (leValue kb) = some Q ∧ (∀ [GoodGroup g], Q = affine (-(leValue kb • g.gen))) ∧
        pk = ⟨t, some ⟨some g, sb, some (leValue kb), some Q⟩⟩ := by
  rw [C100_private_accepts env hc]
  constructor
  · rintro ⟨t, a, p, ep, kb, e, rest, key, g, Q, h1, h2, h3, h4, h5, h6, h7, rfl⟩
    have hpre : e <+: l := ⟨rest, h2.symm⟩
    obtain ⟨g', sb, h8, h9, rfl⟩ := (C104_parameters env t p (hf t a p ep kb e h1 hpre h3) key).1 h5
    cases h6
    refine ⟨t, a, p, ep, kb, e, g, sb, Q, h1, hpre, h3, h4, h8, h9, h7, ?_, rfl⟩
    intro hg
    rw [add_public_key_good] at h7
    exact (Option.some.inj h7).symm
  · rintro ⟨t, a, p, ep, kb, e, g, sb, Q, h1, ⟨rest, h2⟩, h3, h4, h8, h9, h7, _, rfl⟩
    exact ⟨t, a, p, ep, kb, e, rest, _, g, Q, h1, h2.symm, h3, h4, (C104_parameters env t p (hf t a p ep kb e h1 ⟨rest, h2⟩ h3) _).2 ⟨g, sb, h8, h9, rfl⟩, rfl, h7, rfl⟩

/-- C104, from the bytes, for public keys: the contents are an octet string of at least the size of the field whose number stands for the point. -/
theorem C104_public_key (env : Env) (hc : TemplateCodecs env) (ok : Nat → List Byte → Bool) (l : List Byte)
    (hf : ∀ t p ep kb e, BerPublicKeyInfo (keyOid t) ep kb e → e <+: l → BerParams p ep → OddField p.curve) (pk : EvpPkey) :
    importPublic env ok l = some pk ↔
      ∃ t p ep kb e g sb c ec x y, BerPublicKeyInfo (keyOid t) ep kb e ∧ e <+: l ∧ BerParams p ep ∧ CurveOf env t p.curve g ∧ SboxOf p.sbox sb ∧
        BerOctets c ec ∧ ec <+: kb ∧ (fieldDegree g.p + 7) / 8 ≤ c.length ∧ StandsFor g.p g.a g.b (numberIn t c) x y ∧
        pk = ⟨t, some ⟨some g, sb, none, some (some (x, y))⟩⟩ := by
  have hval : ∀ (t : KeyType) (c : List Byte), beValue (match t with | .le => c.reverse | .be => c) = numberIn t c ∧ (match t with | .le => c.reverse | .be => c).length = c.length := by
    intro t c
    cases t
    · exact ⟨by simp [numberIn, beValue], by simp⟩
    · exact ⟨by simp [numberIn], rfl⟩
  rw [C100_public_accepts env hc]
  constructor
  · rintro ⟨t, p, ep, kb, e, rest, key, g, c, ec, rest', ⟨x, y⟩, h1, h2, h3, h4, h5, h6, h7, h8, h9, rfl⟩
    have hpre : e <+: l := ⟨rest, h2.symm⟩
    have hof := hf t p ep kb e h1 hpre h3
    obtain ⟨g', sb, h10, h11, rfl⟩ := (C104_parameters env t p hof key).1 h4
    cases h5
    obtain ⟨hirr, hodd, ha⟩ := curveOf_odd env t p.curve hof g h10
    have : Fact (Irreducible (bitPoly g.p)) := ⟨hirr⟩
    obtain ⟨l1, l2⟩ := (C32_expand_iff env.sq hodd ha _ x y).1 h9
    exact ⟨t, p, ep, kb, e, g, sb, c, ec, x, y, h1, hpre, h3, h10, h11, h6, ⟨rest', h7.symm⟩, l1.trans_eq (hval t c).2, by rw [← (hval t c).1]; exact l2, rfl⟩
  · rintro ⟨t, p, ep, kb, e, g, sb, c, ec, x, y, h1, ⟨rest, h2⟩, h3, h10, h11, h6, ⟨rest', h7⟩, h8, h9, rfl⟩
    have hof := hf t p ep kb e h1 ⟨rest, h2⟩ h3
    obtain ⟨hirr, hodd, ha⟩ := curveOf_odd env t p.curve hof g h10
    have : Fact (Irreducible (bitPoly g.p)) := ⟨hirr⟩
    have hm := fieldDegree_pos (irreducible_pos g.p hirr)
    refine ⟨t, p, ep, kb, e, rest, _, g, c, ec, rest', (x, y), h1, h2.symm, h3, (C104_parameters env t p hof _).2 ⟨g, sb, h10, h11, rfl⟩, rfl, h6, h7.symm, ?_, ?_, rfl⟩
    · rintro _ rfl
      rw [List.length_nil] at h8
      omega
    · rw [← (hval t c).1] at h9
      exact (C32_expand_iff env.sq hodd ha _ x y).2 ⟨h8.trans_eq (hval t c).2.symm, h9⟩

/-- C104, for the second key in the attributes of a file (C101): it is the described one. -/
theorem C104_second_key (env : Env) (as : List Attr)
    (hf : ∀ c der s dke dke1 e, LastAttr oidCurveAttr (as.map some) c → .seq der ∈ c.values → BerCurveAttr s dke dke1 e → e <+: der →
      (s.a = 0 ∨ s.a = 1) ∧ SaneField s ∧ OddField (.custom s)) (k : EvpPkey) :
    SecondKeyIn env as k ↔
      ∃ curveAttr keyAttr str pre der post s g d Q, LastAttr oidCurveAttr (as.map some) curveAttr ∧ LastAttr oidKeyAttr (as.map some) keyAttr ∧
        FirstString keyAttr.values str ∧ (∀ i, Nat.testBit d i = bitAt str i) ∧
        curveAttr.values = pre ++ .seq der :: post ∧ (∃ dke dke1 e, BerCurveAttr s dke dke1 e ∧ e <+: der) ∧
        (∀ x, .seq x ∈ pre → ∀ s' dke dke1 e, BerCurveAttr s' dke dke1 e → ¬ e <+: x) ∧
        Described .be s g ∧ Limits s (fieldDegree g.p) ∧ add_public_key env g d = some Q ∧ (∀ [GoodGroup g], Q = affine (-(d • g.gen))) ∧
        k = ⟨.le, some ⟨some g, none, some d, some Q⟩⟩ := by
  have key : ∀ c der s, LastAttr oidCurveAttr (as.map some) c → .seq der ∈ c.values → (∃ dke dke1 e, BerCurveAttr s dke dke1 e ∧ e <+: der) → ∀ g,
      makeECGROUPFromSpec env.sq s = some (some g) ↔ Described .be s g ∧ Limits s (fieldDegree g.p) := by
    rintro c der s h1 h2 ⟨dke, dke1, e, h3, h4⟩ g
    obtain ⟨ha, hs, _, p, hp, hirr, hodd⟩ := hf c der s dke dke1 e h1 h2 h3 h4
    obtain ⟨r, e1, e2⟩ := C104_library env.sq s p hs ha hp hirr hodd
    rw [e1, Option.some.injEq, e2]
    refine and_congr_right fun D => ?_
    rw [fieldPoly_unique D.field hp]
  constructor
  · rintro ⟨c, k', str, pre, der, post, s, g, d, Q, h1, h2, h3, h4, h5, h6, h7, h8, h9, rfl⟩
    obtain ⟨D, L⟩ := (key c der s h1 (by rw [h5]; simp) h6 g).1 h8
    refine ⟨c, k', str, pre, der, post, s, g, d, Q, h1, h2, h3, h4, h5, h6, h7, D, L, h9, ?_, rfl⟩
    intro hg
    rw [add_public_key_good] at h9
    exact (Option.some.inj h9).symm
  · rintro ⟨c, k', str, pre, der, post, s, g, d, Q, h1, h2, h3, h4, h5, h6, h7, D, L, h9, _, rfl⟩
    exact ⟨c, k', str, pre, der, post, s, g, d, Q, h1, h2, h3, h4, h5, h6, h7, (key c der s h1 (by rw [h5]; simp) h6 g).2 ⟨D, L⟩, h9, rfl⟩

/-- C104, for the second key in the attributes of a file (C101): the same for any coefficient `a`. -/
theorem C104_second_key_any (env : Env) (as : List Attr)
    (hf : ∀ c der s dke dke1 e, LastAttr oidCurveAttr (as.map some) c → .seq der ∈ c.values → BerCurveAttr s dke dke1 e → e <+: der →
      SaneField s ∧ OddField (.custom s)) (k : EvpPkey) :
    SecondKeyIn env as k ↔
      ∃ curveAttr keyAttr str pre der post s g d Q, LastAttr oidCurveAttr (as.map some) curveAttr ∧ LastAttr oidKeyAttr (as.map some) keyAttr ∧
        FirstString keyAttr.values str ∧ (∀ i, Nat.testBit d i = bitAt str i) ∧
        curveAttr.values = pre ++ .seq der :: post ∧ (∃ dke dke1 e, BerCurveAttr s dke dke1 e ∧ e <+: der) ∧
        (∀ x, .seq x ∈ pre → ∀ s' dke dke1 e, BerCurveAttr s' dke dke1 e → ¬ e <+: x) ∧
        DescribedAny s g ∧ Limits s (fieldDegree g.p) ∧ add_public_key env g d = some Q ∧ (∀ [GoodGroup g], Q = affine (-(d • g.gen))) ∧
        k = ⟨.le, some ⟨some g, none, some d, some Q⟩⟩ := by
  have key : ∀ c der s, LastAttr oidCurveAttr (as.map some) c → .seq der ∈ c.values → (∃ dke dke1 e, BerCurveAttr s dke dke1 e ∧ e <+: der) → ∀ g,
      makeECGROUPFromSpec env.sq s = some (some g) ↔ DescribedAny s g ∧ Limits s (fieldDegree g.p) := by
    rintro c der s h1 h2 ⟨dke, dke1, e, h3, h4⟩ g
    obtain ⟨hs, _, p, hp, hirr, hodd⟩ := hf c der s dke dke1 e h1 h2 h3 h4
    obtain ⟨r, e1, e2⟩ := C104_library_any env.sq s p hs hp hirr hodd
    rw [e1, Option.some.injEq, e2]
    refine and_congr_right fun D => ?_
    rw [fieldPoly_unique D.field hp]
  constructor
  · rintro ⟨c, k', str, pre, der, post, s, g, d, Q, h1, h2, h3, h4, h5, h6, h7, h8, h9, rfl⟩
    obtain ⟨D, L⟩ := (key c der s h1 (by rw [h5]; simp) h6 g).1 h8
    refine ⟨c, k', str, pre, der, post, s, g, d, Q, h1, h2, h3, h4, h5, h6, h7, D, L, h9, ?_, rfl⟩
    intro hg
    rw [add_public_key_good] at h9
    exact (Option.some.inj h9).symm
  · rintro ⟨c, k', str, pre, der, post, s, g, d, Q, h1, h2, h3, h4, h5, h6, h7, D, L, h9, _, rfl⟩
    exact ⟨c, k', str, pre, der, post, s, g, d, Q, h1, h2, h3, h4, h5, h6, h7, (key c der s h1 (by rw [h5]; simp) h6 g).2 ⟨D, L⟩, h9, rfl⟩

/-- A description of the 163-bit curve meets the hypotheses of `C104_engine`, `C104_library` and `C104_unique`, and is within the limits. -/
theorem described163_of (sq : QuadSolver) (s : CustomCurveSpec) (h1 : group_from_asn1 sq s false = some g163) (h2 : SaneField s) :
    OddField (.custom s) ∧ FieldPoly s g163.p ∧ (s.a = 0 ∨ s.a = 1) ∧ Described .be s g163 ∧ Limits s (fieldDegree g163.p) ∧ EngineLimits .be s := by
  obtain ⟨⟨arr, harr, e⟩, _⟩ := group_from_asn1_some (t := .be) h1
  obtain ⟨q, e1, e2⟩ := C66_described s h2
  rw [C66_same_polynomial _ _ _ harr] at e1
  cases e1
  rw [← e] at e2
  have hr : ∀ e ∈ fieldExponents s, -2 ^ 31 ≤ e ∧ e < 2 ^ 31 := fun e he => ⟨by have := (h2 e he).1; omega, (h2 e he).2⟩
  have hirr := instGoodGroup163.valid.irreducible
  have hodd : fieldDegree g163.p % 2 = 1 := by rw [show fieldDegree g163.p = 163 from numbers163.2.2.2.2.1]
  obtain ⟨D, L, E⟩ := (C104_engine sq .be s _ hr e2 hirr hodd g163).1 h1
  exact ⟨⟨hr, _, e2, hirr, hodd⟩, e2, E.a, D, L, E⟩

/-- There is such a description. -/
theorem described163 (sq : QuadSolver) : ∃ s, OddField (.custom s) ∧ SaneField s ∧ FieldPoly s g163.p ∧ (s.a = 0 ∨ s.a = 1) ∧ Described .be s g163 ∧ Limits s (fieldDegree g163.p) ∧
    EngineLimits .be s ∧ group_from_asn1 sq s false = some g163 ∧ makeECGROUPFromSpec sq s = some (some g163) := by
  obtain ⟨s, h1, h2⟩ := spec163 sq
  obtain ⟨k1, k2, k3, k4, k5, k6⟩ := described163_of sq s h1 h2
  exact ⟨s, k1, h2, k2, k3, k4, k5, k6, h1, C66_same_curve sq s g163 h1⟩

/-- A curve has a point with abscissa 0, so one with `a` = 2 can be described by a base point of zeros. -/
theorem described_two (sq : QuadSolver) (s : CustomCurveSpec) (g : EcGroup) (hs : SaneField s) (hirr : Irreducible (bitPoly g.p)) (hodd : fieldDegree g.p % 2 = 1) (D : Described .be s g)
    (L : Limits s (fieldDegree g.p)) : ∃ g', DescribedAny { s with a := 2, bp := List.replicate s.bp.length 0 } g' ∧ g'.a = 2 ∧
      makeECGROUPFromSpec sq { s with a := 2, bp := List.replicate s.bp.length 0 } = some (some g') := by
  have : Fact (Irreducible (bitPoly g.p)) := ⟨hirr⟩
  have h1 := pgt g.p
  have hm := mpos g.p
  obtain ⟨y, hy1, hy⟩ : ∃ y, y < 2 ^ fieldDegree g.p ∧ GF.ofNat g.p y ^ 2 = GF.ofNat g.p g.b := by
    refine ⟨_, GF.toNat_lt g.p h1 (GF.ofNat g.p g.b ^ 2 ^ (fieldDegree g.p - 1)), ?_⟩
    rw [GF.ofNat_toNat g.p (by omega), ← pow_mul, ← pow_succ, Nat.sub_add_cancel (by omega), GF.frobenius]
  have hz : ∀ n, beValue (List.replicate n (0 : Byte)) = 0 := beValue_replicate
  have hA : DescribedAny { s with a := 2, bp := List.replicate s.bp.length 0 } ⟨g.p, 2, g.b, 0, y, g.n, 1⟩ := by
    have hd : fieldDegree g.p ≠ 1 := by
      intro h
      have hw := weight_card (fun e he => (hs e he).1) D.field
      have hlt := Nat.lt_log2_self (n := g.p)
      unfold fieldDegree at h
      rw [h] at hlt
      have hc := L.exponents
      rw [← hw] at hc
      have w2 : weight 2 = 1 := by decide +kernel
      have w3 : weight 3 = 2 := by decide +kernel
      have hp : g.p = 2 ∨ g.p = 3 := by omega
      rcases hp with hp | hp <;> rw [hp] at hc <;> omega
    have k2 : 2 ^ 2 ≤ 2 ^ fieldDegree g.p := Nat.pow_le_pow_right (by omega) (by omega)
    refine ⟨D.field, by simp only; omega, rfl, D.b_lt, by have := D.b; simp only [numberIn, reduceCtorEq, if_false] at this; exact this, ⟨by simp only; omega, hy1, ?_, ?_⟩, fun _ _ => hz _, D.n, rfl⟩
    · unfold OnCurve
      rw [GF.ofNat_zero, hy]
      ring
    · rw [if_pos (hz _)]
  obtain ⟨r, e1, e2⟩ := C104_library_any sq { s with a := 2, bp := List.replicate s.bp.length 0 } g.p hs D.field hirr hodd
  exact ⟨_, hA, rfl, by rw [e1, (e2 _).2 ⟨hA, ⟨L.exponents, by simpa using L.base, L.n_pos, L.n_lt⟩⟩]⟩

/-- There is such a description. -/
example (sq : QuadSolver) : ∃ (s : CustomCurveSpec) (g : EcGroup), s.a = 2 ∧ DescribedAny s g ∧ g.a = 2 ∧ makeECGROUPFromSpec sq s = some (some g) := by
  obtain ⟨s, _, hs, _, _, D, L, _⟩ := described163 sq
  obtain ⟨g, h⟩ := described_two sq s g163 hs instGoodGroup163.valid.irreducible (by rw [show fieldDegree g163.p = 163 from numbers163.2.2.2.2.1]) D L
  exact ⟨_, g, rfl, h⟩

/-- Attributes with this description and the number 5. -/
example (env : Env) : ∃ der, SecondKeyIn env [⟨some oidCurveAttr, [.seq der]⟩, ⟨some oidKeyAttr, [.octet [0xA0]]⟩]
    ⟨.le, some ⟨some g163, none, some 5, some (affine (-(5 • g163.gen)))⟩⟩ := by
  obtain ⟨s, h1, h2, h3⟩ := spec163_small env.sq
  obtain ⟨k1, k2, k3, k4, k5, _⟩ := described163_of env.sq s h1 h2
  obtain ⟨der, x, d1, _⟩ := attributes_ex (fun _ _ => false) s [] [] [0xA0] h3 (by simp)
  have hlast : LastAttr oidCurveAttr ([⟨some oidCurveAttr, [.seq der]⟩, ⟨some oidKeyAttr, [.octet [0xA0]]⟩].map some) ⟨some oidCurveAttr, [.seq der]⟩ := by
    refine ⟨[], [some ⟨some oidKeyAttr, [.octet [0xA0]]⟩], rfl, rfl, fun a ha => ?_⟩
    simp only [List.mem_singleton, Option.some.injEq] at ha
    subst ha
    exact fun h => absurd (Option.some.inj h) (by decide)
  refine ⟨der, (C104_second_key env _ ?_ _).2 ⟨_, ⟨some oidKeyAttr, [.octet [0xA0]]⟩, [0xA0], [], der, [], s, g163, 5, _, hlast,
    ⟨[some ⟨some oidCurveAttr, [.seq der]⟩], [], rfl, rfl, by simp⟩, ⟨[], _, [], rfl, Or.inl rfl, by simp⟩, fun i => ?_, rfl, (d1 s).2 rfl, by simp, k4, k5, add_public_key_good env g163 5, ?_, rfl⟩⟩
  · intro c der' s' dke dke1 e hc hm hb hp
    have : c = ⟨some oidCurveAttr, [.seq der]⟩ := by
      obtain ⟨pre, post, e1, e2, _⟩ := hc
      have hmem : some c ∈ pre ++ some c :: post := by simp
      rw [← e1] at hmem
      simp only [List.map_cons, List.map_nil, List.mem_cons, List.not_mem_nil, or_false, Option.some.injEq] at hmem
      rcases hmem with rfl | rfl
      · rfl
      · exact absurd (Option.some.inj e2) (by decide)
    subst this
    simp only [List.mem_singleton, AsnVal.seq.injEq] at hm
    subst hm
    rw [(d1 s').1 ⟨dke, dke1, e, hb, hp⟩]
    exact ⟨k3, h2, k1⟩
  · rw [show (5 : Nat) = bin2bn (([0xA0] : List Byte).map swapBits).reverse by decide]
    exact swapped_bit _ i
  · intro _; rfl

/-- Parameters with this description, and the default S-box written out. -/
example (env : Env) : ∃ s, OddField (.custom s) ∧ key_from_asn1 env.sq env.nids env.objs ⟨.custom s, some default_sbox.toList⟩ false = some ⟨some g163, none, none, none⟩ := by
  obtain ⟨s, h1, _, _, _, h2, h3, h4, _⟩ := described163 env.sq
  exact ⟨s, h1, (C104_parameters env .be ⟨.custom s, some default_sbox.toList⟩ h1 _).2 ⟨g163, none, ⟨h2, h3, h4⟩, ⟨rfl, by simp⟩, rfl⟩⟩

/-- With -1 in place of 1 the key library still reads a curve. -/
example (sq : QuadSolver) : ∃ s : CustomCurveSpec, s.a = -1 ∧ makeECGROUPFromSpec sq s = some (some g163) ∧ group_from_asn1 sq s false = none := by
  obtain ⟨s, _, _, _, _, h2, _, _, _, h3⟩ := described163 sq
  have ha : s.a = 1 := by rw [← h2.a, show g163.a = 1 by decide +kernel]; rfl
  obtain ⟨e1, e2⟩ := C104_library_sign sq { s with a := -1 } .be rfl
  refine ⟨{ s with a := -1 }, rfl, ?_, e2⟩
  rw [e1]
  rw [← ha]
  exact h3

/-- A file with the identifier of a curve meets the hypothesis of `C104_private_key`. -/
example : let l := [0x30, 27, 2, 1, 0, 0x30, 19, 6, 11] ++ keyOid .le ++ [0x30, 4, 6, 2, 42, 3, 4, 1, 9]
    ∀ t a p ep kb e, BerPrivateKeyInfo (fun _ _ => false) (keyOid t) ep kb a e → e <+: l → BerParams p ep → OddField p.curve := by
  intro l t a p ep kb e h1 ⟨rest, h2⟩ h3
  have h := (pkcs8_iff (fun _ _ => false) l t ep kb).2 ⟨a, e, rest, h1, params_element _ _ h3, h2.symm⟩
  have hl : d2i_pkcs8 (fun _ _ => false) l = some ⟨some .le, some [0x30, 4, 6, 2, 42, 3], [9]⟩ := rfl
  rw [hl] at h
  cases h
  have hp := (C103_accepts [0x30, 4, 6, 2, 42, 3] [] p).2 ⟨_, h3, (List.append_nil _).symm⟩
  have hv : ber_params [0x30, 4, 6, 2, 42, 3] = some (⟨.named [42, 3], none⟩, []) := rfl
  rw [hv] at hp
  cases hp
  trivial

end Dstu.Props
