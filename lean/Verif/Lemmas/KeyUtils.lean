import Verif.Lemmas.Oid
import Verif.Spec.KeyUtils
import Verif.Spec.Bytes
import Verif.Lemmas.Bytes
import Verif.Lemmas.Pkcs12

/-! Lemmas on keylib/utils.c. -/

namespace Dstu

open Dstu.Spec

theorem swapBits_bit : ∀ (b : BitVec 8) (j : Fin 8), (swapBits b).getLsbD j = b.getLsbD (7 - j) := by decide +kernel

theorem swapLoop_eq (data : List Byte) (n i : Nat) (X T : List Byte) (h : i + n = data.length) (hX : X.length = n)
    (hT : T = ((data.take i).map swapBits).reverse) :
    swapLoop data n i (X ++ T) = some (data.map swapBits).reverse := by
  induction n generalizing i X T with
  | zero =>
    rw [List.length_eq_zero_iff.1 hX, hT]
    simp only [Nat.add_zero] at h
    rw [h, List.take_length]
    rfl
  | succ n ih =>
    have hi : i < data.length := by omega
    obtain ⟨Y, z, rfl⟩ : ∃ Y z, X = Y ++ [z] := by
      rcases List.eq_nil_or_concat X with h | ⟨Y, z, h⟩
      · rw [h] at hX; simp at hX
      · exact ⟨Y, z, by rw [h]; simp⟩
    simp only [List.length_append, List.length_cons, List.length_nil, Nat.zero_add, Nat.add_right_cancel_iff] at hX
    have hidx : data.length - i - 1 = Y.length := by omega
    simp only [swapLoop, List.getElem?_eq_getElem hi]
    rw [if_pos (by simp; omega), hidx]
    have : (Y ++ [z] ++ T).set Y.length (swapBits data[i]) = Y ++ (swapBits data[i] :: T) := by
      simp
    rw [this]
    apply ih (i + 1) Y _ (by omega) hX
    rw [hT, List.take_succ_eq_append_getElem hi, List.map_append, List.reverse_append]
    rfl

theorem leValue_testBit (l : List Byte) (i : Nat) : (leValue l).testBit i = (l.getD (i / 8) 0).getLsbD (i % 8) := by
  induction l generalizing i with
  | nil => simp [leValue]
  | cons b l ih =>
    rw [leValue]
    by_cases hi : i < 8
    · have h1 : i / 8 = 0 := by omega
      have h2 : i % 8 = i := by omega
      rw [h1, h2, Nat.testBit_eq_decide_div_mod_eq, List.getD_cons_zero, BitVec.getLsbD, Nat.testBit_eq_decide_div_mod_eq]
      congr 2
      have h3 : 2 ^ i * 2 * (2 ^ (7 - i)) = 256 := by
        rw [← Nat.pow_succ, ← Nat.pow_add, show i + 1 + (7 - i) = 8 by omega]
      have h4 : 256 * leValue l = 2 ^ i * (2 * (2 ^ (7 - i) * leValue l)) := by
        rw [← Nat.mul_assoc, ← Nat.mul_assoc, ← h3]
      rw [h4, Nat.add_mul_div_left _ _ (Nat.two_pow_pos i), Nat.add_mul_mod_self_left]
    · have h1 : i / 8 = (i - 8) / 8 + 1 := by omega
      have h2 : i % 8 = (i - 8) % 8 := by omega
      rw [h1, h2, List.getD_cons_succ, ← ih, Nat.testBit_eq_decide_div_mod_eq, Nat.testBit_eq_decide_div_mod_eq]
      congr 2
      have h3 : 2 ^ i = 256 * 2 ^ (i - 8) := by rw [show (256 : Nat) = 2 ^ 8 from rfl, ← Nat.pow_add]; congr 1; omega
      rw [h3, ← Nat.div_div_eq_div_mul]
      have hb := b.isLt
      rw [Nat.add_mul_div_left _ _ (by omega), Nat.div_eq_of_lt (a := b.toNat) hb, Nat.zero_add]

theorem swapped_bit (s : List Byte) (i : Nat) : (bin2bn (s.map swapBits).reverse).testBit i = bitAt s i := by
  rw [bin2bn_eq, beValue, List.reverse_reverse, leValue_testBit, bitAt]
  have h0 : swapBits 0 = 0 := by decide
  have h1 : (s.map swapBits).getD (i / 8) 0 = swapBits (s.getD (i / 8) 0) := by
    rw [List.getD_eq_getElem?_getD, List.getD_eq_getElem?_getD, List.getElem?_map]
    cases s[i / 8]? with
    | none => exact h0.symm
    | some b => rfl
  rw [h1]
  exact swapBits_bit _ ⟨i % 8, by omega⟩

theorem findString_none (vals : List AsnVal) : findString vals = none ↔ NoString vals := by
  induction vals with
  | nil => simp [findString, NoString]
  | cons v l ih =>
    cases v with
    | octet b => simp [findString, NoString]; exact ⟨b, by simp⟩
    | bit b => simp [findString, NoString]; exact ⟨b, by simp⟩
    | seq d => simpa [findString, NoString] using ih
    | other => simpa [findString, NoString] using ih

theorem findString_some (vals : List AsnVal) (s : List Byte) : findString vals = some s ↔ FirstString vals s := by
  induction vals with
  | nil => simp [findString, FirstString]
  | cons v l ih =>
    have skip : (∀ t, v ≠ .octet t ∧ v ≠ .bit t) → (FirstString l s ↔ FirstString (v :: l) s) := by
      intro hv
      constructor
      · rintro ⟨pre, w, post, e, hw, hp⟩
        refine ⟨v :: pre, w, post, by rw [e]; rfl, hw, fun t => ?_⟩
        simp only [List.mem_cons, not_or]
        exact ⟨⟨fun h => (hv t).1 h.symm, (hp t).1⟩, ⟨fun h => (hv t).2 h.symm, (hp t).2⟩⟩
      · rintro ⟨pre, w, post, e, hw, hp⟩
        cases pre with
        | nil =>
          cases e
          rcases hw with hw | hw
          · exact absurd hw (hv s).1
          · exact absurd hw (hv s).2
        | cons x pre =>
          cases e
          exact ⟨pre, w, post, rfl, hw, fun t => ⟨fun h => (hp t).1 (by simp [h]), fun h => (hp t).2 (by simp [h])⟩⟩
    have here : ∀ b, (v = .octet b ∨ v = .bit b) → (b = s ↔ FirstString (v :: l) s) := by
      intro b hb
      constructor
      · rintro rfl
        exact ⟨[], v, l, rfl, hb, by simp⟩
      · rintro ⟨pre, w, post, e, hw, hp⟩
        cases pre with
        | nil =>
          cases e
          rcases hb with rfl | rfl <;> rcases hw with hw | hw <;> cases hw <;> rfl
        | cons x pre =>
          cases e
          rcases hb with rfl | rfl
          · exact absurd (by simp) (hp b).1
          · exact absurd (by simp) (hp b).2
    cases v with
    | octet b => rw [← here b (Or.inl rfl)]; simp [findString]
    | bit b => rw [← here b (Or.inr rfl)]; simp [findString]
    | seq d => rw [← skip (by simp), ← ih]; rfl
    | other => rw [← skip (by simp), ← ih]; rfl

theorem getPrivateKeyNum_eq (attr : Attr) :
    getPrivateKeyNum attr = some ((findString attr.values).map fun s => bin2bn (s.map swapBits).reverse) := by
  unfold getPrivateKeyNum
  cases findString attr.values with
  | none => rfl
  | some s =>
    have := swapLoop_eq s s.length 0 (List.replicate s.length 0) [] (by simp) (by simp) (by simp)
    rw [List.append_nil] at this
    simp only [this, Option.map_some]

theorem findSpec_some (env : P8Env) (vals : List AsnVal) (spec : CustomCurveSpec) :
    findSpec env vals = some spec ↔ FirstSpec env vals spec := by
  induction vals with
  | nil => simp [findSpec, FirstSpec]
  | cons v l ih =>
    have skip : (∀ d, v = .seq d → env.unpack_spec d = none) → (FirstSpec env l spec ↔ FirstSpec env (v :: l) spec) := by
      intro hv
      constructor
      · rintro ⟨pre, der, post, e, hs, hp⟩
        refine ⟨v :: pre, der, post, by rw [e]; rfl, hs, fun d hd => ?_⟩
        rcases List.mem_cons.1 hd with h | h
        · exact hv d h.symm
        · exact hp d h
      · rintro ⟨pre, der, post, e, hs, hp⟩
        cases pre with
        | nil =>
          cases e
          rw [hv der rfl] at hs
          cases hs
        | cons x pre =>
          cases e
          exact ⟨pre, der, post, rfl, hs, fun d hd => hp d (by simp [hd])⟩
    cases v with
    | octet b => rw [← skip (by simp), ← ih]; rfl
    | bit b => rw [← skip (by simp), ← ih]; rfl
    | other => rw [← skip (by simp), ← ih]; rfl
    | seq d =>
      rw [findSpec]
      cases hd : env.unpack_spec d with
      | none =>
        rw [← skip (by intro d' h; cases h; exact hd), ← ih]
      | some sp =>
        constructor
        · intro h
          cases h
          exact ⟨[], d, l, rfl, hd, by simp⟩
        · rintro ⟨pre, der, post, e, hs, hp⟩
          cases pre with
          | nil =>
            cases e
            rw [← hs, hd]
          | cons x pre =>
            cases e
            have := hp d (by simp)
            rw [hd] at this
            cases this

/-- Later attributes replace earlier ones. -/
def pickAttr (oid : List Byte) (r : Option Attr) : Option Attr → Option Attr
  | some a => if a.oid = some oid then some a else r
  | none => r

theorem findAttrs_eq (l : List (Option Attr)) (c k : Option Attr) :
    findAttrs l (c, k) = (l.foldl (pickAttr oidCurveAttr) c,
      l.foldl (pickAttr oidKeyAttr) k) := by
  have hne : oidCurveAttr ≠ oidKeyAttr := by decide
  induction l generalizing c k with
  | nil => rfl
  | cons a l ih =>
    cases a with
    | none => simp only [findAttrs, List.foldl_cons, ih, pickAttr]
    | some a =>
      simp only [findAttrs, List.foldl_cons, pickAttr, dstu4145CurveOID_eq, dstu4145KeyOID_eq]
      cases ho : a.oid with
      | none => simp [ih]
      | some oid =>
        by_cases h1 : oid = oidCurveAttr
        · subst h1
          simp [ih, hne]
        · by_cases h2 : oid = oidKeyAttr
          · subst h2
            simp [ih, hne.symm]
          · simp [ih, h1, h2]

theorem foldl_last (oid : List Byte) (l : List (Option Attr)) (r : Option Attr) (a : Attr) :
    l.foldl (pickAttr oid) r = some a ↔
      LastAttr oid l a ∨ (r = some a ∧ ∀ b, some b ∈ l → b.oid ≠ some oid) := by
  induction l generalizing r with
  | nil => simp [LastAttr]
  | cons x l ih =>
    rw [List.foldl_cons, ih]
    have hcons : LastAttr oid (x :: l) a ↔ LastAttr oid l a ∨ (x = some a ∧ a.oid = some oid ∧ ∀ b, some b ∈ l → b.oid ≠ some oid) := by
      constructor
      · rintro ⟨pre, post, e, h1, h2⟩
        cases pre with
        | nil => cases e; exact Or.inr ⟨rfl, h1, h2⟩
        | cons y pre => cases e; exact Or.inl ⟨pre, post, rfl, h1, h2⟩
      · rintro (⟨pre, post, e, h1, h2⟩ | ⟨rfl, h1, h2⟩)
        · exact ⟨x :: pre, post, by rw [e]; rfl, h1, h2⟩
        · exact ⟨[], l, rfl, h1, h2⟩
    rw [hcons, or_assoc]
    apply or_congr Iff.rfl
    cases x with
    | none => simp [pickAttr]
    | some x =>
      rw [pickAttr]
      by_cases hx : x.oid = some oid
      · simp only [hx, if_true]
        constructor
        · rintro ⟨h1, h2⟩
          cases h1
          exact Or.inl ⟨rfl, hx, h2⟩
        · rintro (⟨h1, _, h2⟩ | ⟨_, h2⟩)
          · exact ⟨h1, h2⟩
          · exact absurd hx (h2 x (by simp))
      · simp only [hx, if_false]
        constructor
        · rintro ⟨h1, h2⟩
          refine Or.inr ⟨h1, fun b hb => ?_⟩
          rcases List.mem_cons.1 hb with h | h
          · cases h; exact hx
          · exact h2 b h
        · rintro (⟨h1, h2, _⟩ | ⟨h1, h2⟩)
          · cases h1
            exact absurd h2 hx
          · exact ⟨h1, fun b hb => h2 b (by simp [hb])⟩

theorem makePoly_sane (s : CustomCurveSpec) (h : SaneField s) : makePoly s.m s.poly = some (arr2poly (fieldExponents s ++ [-1])) := by
  have hget : ∀ v : Int, 0 ≤ v → v < 2 ^ 31 → asn1_integer_get v = v := by
    intro v h1 h2
    unfold asn1_integer_get
    rw [if_neg (by omega)]
    apply Int.bmod_eq_of_le <;> simp <;> omega
  have harr : polyExponents s.m s.poly = fieldExponents s ++ [-1] := by
    unfold SaneField fieldExponents at h
    unfold polyExponents fieldExponents
    cases hp : s.poly with
    | trinomial k =>
      rw [hp] at h
      simp only [List.mem_cons, List.not_mem_nil, or_false, forall_eq_or_imp, forall_eq] at h
      simp [hget _ h.1.1 h.1.2, hget _ h.2.1.1 h.2.1.2]
    | pentanomial k j l =>
      rw [hp] at h
      simp only [List.mem_cons, List.not_mem_nil, or_false, forall_eq_or_imp, forall_eq] at h
      simp [hget _ h.1.1 h.1.2, hget _ h.2.1.1 h.2.1.2, hget _ h.2.2.1.1 h.2.2.1.2, hget _ h.2.2.2.1.1 h.2.2.2.1.2]
  unfold makePoly
  simp only [harr]
  rw [if_pos]
  rw [List.all_eq_true]
  intro k hk
  have hm := (List.takeWhile_prefix _).subset hk
  rcases List.mem_append.1 hm with hm | hm
  · simpa using (h k hm).1
  · simp only [List.mem_singleton] at hm
    subst hm
    have := List.all_takeWhile (p := fun x : Int => decide (x ≠ -1)) (l := fieldExponents s ++ [-1])
    rw [List.all_eq_true] at this
    have := this _ hk
    simp at this

theorem cInt_eq (v : Int) : asn1_integer_get v = cInt v := by
  unfold asn1_integer_get cInt
  split
  · rfl
  · simp [Int.bmod]

theorem negative_entry (l : List Int) : ((l.takeWhile (· ≠ -1)).all fun k => decide (0 ≤ k)) = false ↔ ∃ pre e post, l = pre ++ e :: post ∧ e < -1 ∧ ∀ x ∈ pre, x ≠ -1 := by
  induction l with
  | nil => simp
  | cons x l ih =>
    by_cases hx : x = -1
    · subst hx
      simp only [ne_eq, not_true_eq_false, decide_false, Bool.false_eq_true, not_false_eq_true, List.takeWhile_cons_of_neg, List.all_nil, reduceCtorEq, false_iff]
      rintro ⟨pre, e, post, h1, h2, h3⟩
      cases pre with
      | nil =>
        cases h1
        omega
      | cons y pre =>
        cases h1
        exact h3 _ List.mem_cons_self rfl
    · rw [List.takeWhile_cons_of_pos (by simpa using hx), List.all_cons, Bool.and_eq_false_iff, ih]
      constructor
      · rintro (h | ⟨pre, e, post, rfl, h2, h3⟩)
        · have : x < 0 := by simpa using h
          exact ⟨[], x, l, rfl, by omega, by simp⟩
        · exact ⟨x :: pre, e, post, rfl, h2, by simpa [hx] using h3⟩
      · rintro ⟨pre, e, post, h1, h2, h3⟩
        cases pre with
        | nil =>
          cases h1
          left
          simp only [decide_eq_false_iff_not]
          omega
        | cons y pre =>
          cases h1
          exact Or.inr ⟨pre, e, post, rfl, h2, fun x hx => h3 x (List.mem_cons_of_mem _ hx)⟩

theorem polyExponents_eq (s : CustomCurveSpec) : polyExponents s.m s.poly = (fieldExponents s).map cInt ++ [-1] := by
  unfold polyExponents fieldExponents
  have h0 : cInt 0 = 0 := by decide
  cases s.poly <;> simp only [cInt_eq, List.map_cons, List.map_nil, h0, List.cons_append, List.nil_append]

theorem makePoly_none_iff (s : CustomCurveSpec) : makePoly s.m s.poly = none ↔ NegativeField s := by
  have h : makePoly s.m s.poly = none ↔ ((((fieldExponents s).map cInt ++ [-1]).takeWhile (· ≠ -1)).all fun k => decide (0 ≤ k)) = false := by
    unfold makePoly
    rw [polyExponents_eq]
    simp only
    split <;> simp_all
  rw [h, negative_entry]
  unfold NegativeField
  constructor
  · rintro ⟨pre, e, post, h1, h2, h3⟩
    rcases List.eq_nil_or_concat post with rfl | ⟨post', z, rfl⟩
    · have := (List.append_inj' h1 rfl).2
      simp only [List.cons.injEq, and_true] at this
      omega
    · rw [List.concat_eq_append, ← List.cons_append, ← List.append_assoc] at h1
      obtain ⟨h4, _⟩ := List.append_inj' h1 rfl
      obtain ⟨a, b, e1, e2, e3⟩ := List.map_eq_append_iff.1 h4
      obtain ⟨c, d, e4, e5, e6⟩ := List.map_eq_cons_iff.1 e3
      subst e4 e5 e2
      exact ⟨a, c, d, e1, h2, fun x hx => h3 _ (List.mem_map_of_mem hx)⟩
  · rintro ⟨pre, e, post, h1, h2, h3⟩
    refine ⟨pre.map cInt, cInt e, post.map cInt ++ [-1], by rw [h1]; simp, h2, ?_⟩
    intro x hx
    obtain ⟨y, hy, rfl⟩ := List.mem_map.1 hx
    exact h3 y hy

theorem sane_not_negative (s : CustomCurveSpec) (h : SaneField s) : ¬ NegativeField s := by
  rw [← makePoly_none_iff, makePoly_sane s h]
  simp

/-- The curve of a description is defined, unless it has a negative exponent. -/
theorem fromSpec_none_iff (sq : QuadSolver) (s : CustomCurveSpec) : makeECGROUPFromSpec sq s = none ↔ NegativeField s := by
  rw [← makePoly_none_iff]
  unfold makeECGROUPFromSpec
  cases makePoly s.m s.poly with
  | none => simp
  | some p =>
    simp only [reduceCtorEq, iff_false]
    split
    · simp
    · split
      · simp
      · split <;> simp

theorem fromSpec_sane (sq : QuadSolver) (s : CustomCurveSpec) (h : SaneField s) : ∃ r, makeECGROUPFromSpec sq s = some r := by
  unfold makeECGROUPFromSpec
  rw [makePoly_sane s h]
  simp only
  split
  · exact ⟨_, rfl⟩
  · split
    · exact ⟨_, rfl⟩
    · split <;> exact ⟨_, rfl⟩

variable {κ χ : Type}

theorem Reach.newKey {m : ImpMem κ χ} {s : Shelves} (R : Reach m.ks s) (k : κ) : Reach (m.newKey k).ks (s.step (.make .keys)) := by
  obtain ⟨m1, e1, r1⟩ := R.step (.make .keys) ⟨trivial, trivial⟩
  have hm1 : (m.newKey k).ks = m1 := Option.some.inj e1
  rw [hm1]
  exact r1

theorem Reach.newStore {m : KsMem} {s : Shelves} (R : Reach m s) (nk nc : Nat) :
    ∃ m', KeyStoreNew nk nc m = some (m.nextStore, m') ∧ Reach m' (s.step (.new nk nc)) ∧ m'.objs = m.objs ∧ m'.nextObj = m.nextObj := by
  obtain ⟨m', e, r⟩ := R.step (.new nk nc) ⟨trivial, trivial⟩
  have hnew : KeyStoreNew nk nc m = some (m.nextStore, m') ∧ m'.objs = m.objs ∧ m'.nextObj = m.nextObj := by
    simp only [KsMem.step, KeyStoreNew, newBlock_eq] at e ⊢
    cases e
    exact ⟨rfl, rfl, rfl⟩
  exact ⟨m', hnew.1, r, hnew.2⟩

theorem Reach.set {m : KsMem} {s : Shelves} (R : Reach m s) (side : Side) (id pos a : Nat) (h1 : (s.list id side)[pos]? = some none)
    (h2 : s.hand a = some side) :
    ∃ m', KeyStoreSet side id pos (.ptr a) m = some m' ∧ Reach m' (s.step (.set side id pos (some a))) ∧ m'.objs = m.objs ∧ m'.nextObj = m.nextObj := by
  obtain ⟨m2, e2, r2⟩ := R.step (.set side id pos (some a)) ⟨⟨(List.getElem?_eq_some_iff.1 h1).1, by intro a ha; cases ha; exact h2⟩, h1⟩
  have e2 : KeyStoreSet side id pos (.ptr a) m = some m2 := e2
  refine ⟨m2, e2, r2, ?_⟩
  have e2 : m.write id side pos (.ptr a) = some m2 := e2
  unfold KsMem.write at e2
  cases h1 : m.stores id with
  | none => rw [h1] at e2; cases e2
  | some x =>
    rw [h1] at e2
    change (writeCell (x side).cells pos (.ptr a) >>= _) = _ at e2
    cases h2 : writeCell (x side).cells pos (.ptr a) with
    | none => rw [h2] at e2; cases e2
    | some l => rw [h2] at e2; cases e2; exact ⟨rfl, rfl⟩

/-- The store that is made for the keys of a PKCS#8 structure. -/
theorem keysFromPKCS8_fill (keys : List Byte → Option (Option (κ × Option κ))) (data : List Byte) (ks : Option Nat) {m : ImpMem κ χ} {s : Shelves}
    (R : Reach m.ks s) {k1 : κ} {k2 : Option κ} (hk : keys data = some (some (k1, k2))) :
    ∃ m' s', keysFromPKCS8 keys data ks m = some (true, some m.ks.nextStore, m') ∧
      StoreFilling m s m.ks.nextStore ⟨m', 1 + k2.toList.length, 0⟩ s' (k1 :: k2.toList) [] 0 0 := by
  have H := R.holds.1
  have hfresh : ∀ a, m.ks.nextObj ≤ a → s.hand a = none := by
    intro a ha
    cases hh : s.hand a with
    | none => rfl
    | some x =>
      have := H.own a x .hand hh
      rw [H.freshObj _ (by rw [← H.nextObj]; exact ha)] at this
      cases this
  cases k2 with
  | none =>
    have R1 := R.newKey k1
    obtain ⟨m2, e2, R2, o2, n2⟩ := R1.newStore 1 0
    have hst2 : ((s.step (.make .keys)).step (.new 1 0)).store m.ks.nextStore = some fun side => match side with | .keys => [none] | .certs => [] := by
      show (if m.ks.nextStore = s.next then _ else _) = _
      rw [if_pos H.next]
      rfl
    obtain ⟨m3, e3, R3, o3, n3⟩ := R2.set .keys m.ks.nextStore 0 m.ks.nextObj (by rw [list_eq hst2]; rfl) (by
      show (if m.ks.nextObj = s.nextObj then _ else _) = _
      rw [if_pos H.nextObj])
    refine ⟨{ m.newKey k1 with ks := m3 }, _, ?_, ⟨R3, ?_, ?_, ?_, ?_, ?_⟩⟩
    · unfold keysFromPKCS8
      rw [hk]
      simp only
      rw [e2]
      simp only
      show (match KeyStoreSet .keys m.ks.nextStore 0 (.ptr m.ks.nextObj) m2 with | none => none | some mem => _) = _
      rw [e3]
      rfl
    · refine ⟨fun x => if x = .keys then ([none] : List (Option Nat)).set 0 (some m.ks.nextObj) else [], [m.ks.nextObj], [], ?_, rfl, rfl, rfl, rfl, ?_, rfl⟩
      · show (if m.ks.nextStore = m.ks.nextStore then _ else _) = _
        rw [if_pos rfl, hst2]
        simp only [Option.map_some]
        congr 1
        funext x
        cases x <;> rfl
      · simp [ImpMem.newKey]
    · funext a
      show (if some a = some m.ks.nextObj then none else if a = s.nextObj then some .keys else s.hand a) = s.hand a
      rw [← H.nextObj]
      by_cases ha : a = m.ks.nextObj
      · rw [if_pos (by rw [ha]), hfresh a (Nat.le_of_eq ha.symm)]
      · rw [if_neg (by simpa using ha), if_neg ha]
    · intro i hi
      show (if i = m.ks.nextStore then _ else if i = s.next then _ else s.store i) = _
      rw [if_neg hi, if_neg (by rw [← H.next]; exact hi)]
    · intro a ha
      refine ⟨?_, if_neg (Nat.ne_of_lt ha), rfl⟩
      show m3.objs a = _
      rw [o3, o2]
      exact if_neg (Nat.ne_of_lt ha)
    · show m.ks.nextObj ≤ m3.nextObj
      rw [n3, n2]
      exact Nat.le_succ _
  | some k2 =>
    have R1 := (R.newKey k1).newKey k2
    obtain ⟨m2, e2, R2, o2, n2⟩ := R1.newStore 2 0
    have hst2 : (((s.step (.make .keys)).step (.make .keys)).step (.new 2 0)).store m.ks.nextStore = some fun side => match side with | .keys => [none, none] | .certs => [] := by
      show (if m.ks.nextStore = s.next then _ else _) = _
      rw [if_pos H.next]
      rfl
    obtain ⟨m3, e3, R3, o3, n3⟩ := R2.set .keys m.ks.nextStore 0 m.ks.nextObj (by rw [list_eq hst2]; rfl) (by
      show (if m.ks.nextObj = s.nextObj + 1 then _ else if m.ks.nextObj = s.nextObj then _ else _) = _
      rw [H.nextObj, if_neg (by omega), if_pos rfl])
    have hst3 : ((((s.step (.make .keys)).step (.make .keys)).step (.new 2 0)).step (.set .keys m.ks.nextStore 0 (some m.ks.nextObj))).store m.ks.nextStore =
        some fun side => match side with | .keys => [some m.ks.nextObj, none] | .certs => [] := by
      show (if m.ks.nextStore = m.ks.nextStore then _ else _) = _
      rw [if_pos rfl, hst2]
      simp only [Option.map_some]
      congr 1
      funext x
      cases x <;> rfl
    obtain ⟨m4, e4, R4, o4, n4⟩ := R3.set .keys m.ks.nextStore 1 (m.ks.nextObj + 1) (by rw [list_eq hst3]; rfl) (by
      show (if some (m.ks.nextObj + 1) = some m.ks.nextObj then none else if m.ks.nextObj + 1 = s.nextObj + 1 then _ else _) = _
      rw [H.nextObj, if_neg (by simp), if_pos rfl])
    refine ⟨{ (m.newKey k1).newKey k2 with ks := m4 }, _, ?_, ⟨R4, ?_, ?_, ?_, ?_, ?_⟩⟩
    · unfold keysFromPKCS8
      rw [hk]
      simp only
      rw [e2]
      simp only
      show (match KeyStoreSet .keys m.ks.nextStore 0 (.ptr m.ks.nextObj) m2 with | none => none | some mem => _) = _
      rw [e3]
      simp only
      show (match KeyStoreSet .keys m.ks.nextStore 1 (.ptr (m.ks.nextObj + 1)) m3 with | none => none | some mem => _) = _
      rw [e4]
      rfl
    · refine ⟨fun x => match x with | .keys => [some m.ks.nextObj, some (m.ks.nextObj + 1)] | .certs => [], [m.ks.nextObj, m.ks.nextObj + 1], [], ?_, rfl, rfl, rfl, rfl, ?_, rfl⟩
      · show (if m.ks.nextStore = m.ks.nextStore then _ else _) = _
        rw [if_pos rfl, hst3]
        simp only [Option.map_some]
        congr 1
        funext x
        cases x <;> rfl
      · simp [ImpMem.newKey]
    · funext a
      show (if some a = some (m.ks.nextObj + 1) then none else if some a = some m.ks.nextObj then none else
        if a = s.nextObj + 1 then some .keys else if a = s.nextObj then some .keys else s.hand a) = s.hand a
      rw [← H.nextObj]
      by_cases ha : a = m.ks.nextObj + 1
      · rw [if_pos (by rw [ha]), hfresh a (by omega)]
      · by_cases ha' : a = m.ks.nextObj
        · rw [if_neg (by simpa using ha), if_pos (by rw [ha']), hfresh a (by omega)]
        · rw [if_neg (by simpa using ha), if_neg (by simpa using ha'), if_neg ha, if_neg ha']
    · intro i hi
      show (if i = m.ks.nextStore then _ else if i = m.ks.nextStore then _ else if i = s.next then _ else s.store i) = _
      rw [if_neg hi, if_neg hi, if_neg (by rw [← H.next]; exact hi)]
    · intro a ha
      refine ⟨?_, ?_, rfl⟩
      · show m4.objs a = _
        rw [o4, o3, o2]
        show (if a = m.ks.nextObj + 1 then _ else if a = m.ks.nextObj then _ else _) = _
        rw [if_neg (by omega), if_neg (by omega)]
      · show (if a = m.ks.nextObj + 1 then _ else if a = m.ks.nextObj then _ else _) = _
        rw [if_neg (by omega), if_neg (by omega)]
    · show m.ks.nextObj ≤ m4.nextObj
      rw [n4, n3, n2]
      show m.ks.nextObj ≤ m.ks.nextObj + 1 + 1
      omega

end Dstu
