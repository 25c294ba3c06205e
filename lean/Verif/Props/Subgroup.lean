import Verif.Lemmas.Halving
import Verif.Props.Life

/-! C89: is every imported public key in the subgroup of the base point?

Not on any of the ten curves: the encoding of zeros is accepted and stands for the point of order 2.  Apart from it, the
trace check that is part of expansion suffices on the eight curves with `a = 1`, and not on the two with `a = 0`. -/

namespace Dstu.Props

open Spec WeierstrassCurve

/-- There is a private key for the public key `P`. -/
def HasPrivate {p : Nat} [Fact (Irreducible (bitPoly p))] {a b : GF p} (G P : Affine.Point (binCurve a b)) (n : Nat) : Prop :=
  ∃ d, 0 < d ∧ d < n ∧ P = -(d • G)

section
variable {g : EcGroup} [hg : GoodGroup g]

omit hg in
/-- The trace of the abscissa of an expanded point. -/
theorem expand_trace [Fact (Irreducible (bitPoly g.p))] (sq : QuadSolver) (hodd : fieldDegree g.p % 2 = 1) (ha : g.a = 0 ∨ g.a = 1) (c : List Byte) (x y : Nat)
    (h : dstu_point_expand sq c g = some (x, y)) : x = 0 ∨ trace (GF.ofNat g.p x) = trace (GF.ofNat g.p g.a) := by
  have hp := pgt g.p
  obtain ⟨_, hlt, _, _, _⟩ := expand_sound g hp sq c x y h
  have hset : ∀ u v, set_affine g.p g.a g.b u v = some (x, y) → u = x := by
    intro u v huv
    unfold set_affine at huv
    split at huv
    · simp only [Option.some.injEq, Prod.mk.injEq] at huv
      exact huv.1
    · cases huv
  have hone : trace (1 : GF g.p) = 1 := trSum_one_odd _ hodd
  unfold dstu_point_expand expandWith at h
  split at h
  · cases h
  simp only at h
  split at h
  · rename_i hx
    exact Or.inl ((hset _ _ h).symm.trans hx)
  have hcl : clearBit0 (bin2bn c) < 2 ^ fieldDegree g.p := clearBit0_lt hlt
  have hsb : GF.ofNat g.p (setBit0 (clearBit0 (bin2bn c))) = GF.ofNat g.p (clearBit0 (bin2bn c)) + 1 := by
    rw [setBit0_eq, clearBit0_idem, GF.ofNat_xor, GF.ofNat_one]
  split at h
  · cases h
  split at h
  · cases h
  split at h
  · cases h
  right
  rw [← hset _ _ h]
  rcases bn_trace_eq g.p _ hcl with ⟨ht, ht'⟩ | ⟨ht, ht'⟩ <;> rcases ha with ha | ha <;>
    simp only [ht, ha, ne_eq, not_true_eq_false, not_false_eq_true, true_and, false_and, or_self, or_false, false_or, one_ne_zero, zero_ne_one, if_true, if_false, reduceIte]
  · rw [ht', GF.ofNat_zero]; exact (trSum_zero _).symm
  · rw [hsb, GF.ofNat_one]
    refine (trSum_add _ _ _).trans ?_
    change trace _ + trace 1 = _
    rw [ht', zero_add]
  · rw [hsb, GF.ofNat_zero]
    refine (trSum_add _ _ _).trans ?_
    change trace _ + trace 1 = _
    rw [ht', hone, CharTwo.add_self_eq_zero]
    exact (trSum_zero _).symm
  · rw [ht', GF.ofNat_one, hone]

/-- The point of order 2. -/
theorem order_two (g : EcGroup) [hg : GoodGroup g] : ∃ (y : GF g.p) (h : g.curve.Nonsingular 0 y), y ^ 2 = GF.ofNat g.p g.b ∧
    (Affine.Point.some 0 y h : g.Point) + Affine.Point.some 0 y h = 0 := by
  obtain ⟨y, hy⟩ : ∃ y : GF g.p, y ^ 2 = GF.ofNat g.p g.b := by
    refine ⟨GF.ofNat g.p g.b ^ 2 ^ (fieldDegree g.p - 1), ?_⟩
    rw [← pow_mul, ← pow_succ, show fieldDegree g.p - 1 + 1 = fieldDegree g.p by have := mpos g.p; omega, GF.frobenius]
  have hon : OnCurve (GF.ofNat g.p g.a) (GF.ofNat g.p g.b) 0 y := by unfold OnCurve; linear_combination hy
  exact ⟨y, binCurve_nonsingular (goodGroup_b g) hon, hy, Affine.Point.add_of_Y_eq rfl (by rw [binCurve_negY, zero_add])⟩

/-- A point whose abscissa has the right trace has an octet string, unless it is the exception. -/
theorem compressible (sq : QuadSolver) (hodd : fieldDegree g.p % 2 = 1) (ha : g.a = 0 ∨ g.a = 1) (x y : GF g.p)
    (hxy : g.curve.Nonsingular x y) (hx0 : x ≠ 0) (htr : trace x = trace (GF.ofNat g.p g.a)) (hex : ¬ (x = 1 ∧ trace y = 0)) :
    ∃ c, c.length = g.fieldSize ∧ dstu_point_expand sq c g = some (GF.toNat x, GF.toNat y) := by
  have hp := goodGroup_p g
  have hon : OnCurve (GF.ofNat g.p g.a) (GF.ofNat g.p g.b) x y := (binCurve_equation _ _ x y).mp hxy.1
  have hx := GF.toNat_lt g.p hp x
  have hy := GF.toNat_lt g.p hp y
  have ex := GF.ofNat_toNat g.p (by omega) x
  have ey := GF.ofNat_toNat g.p (by omega) y
  have hx0' : GF.toNat x ≠ 0 := fun h => hx0 ((GF.toNat_eq_zero g.p (by omega) x).mp h)
  obtain ⟨hcn, hb⟩ := compressedNum_facts x y hx0 hex
  refine ⟨bytesBE g.fieldSize (compressedNum (p := g.p) (GF.toNat x) (GF.toNat y)), bytesBE_length _ _, ?_⟩
  refine expand_spec g sq _ _ _ (by rw [bytesBE_length]) hodd ha hx hx0' hy ?_ ?_ hb (by rw [hb]; exact hcn)
  · rw [ex, ey]; exact hon
  · rw [ex]; exact htr

/-- A point that is expanded. -/
theorem expanded_point (sq : QuadSolver) (c : List Byte) (xy : Nat × Nat) (h : dstu_point_expand sq c g = some xy) :
    ∃ (hxy : g.curve.Nonsingular (GF.ofNat g.p xy.1) (GF.ofNat g.p xy.2)), affine (Affine.Point.some _ _ hxy : g.Point) = some xy := by
  have hp := goodGroup_p g
  obtain ⟨_, _, hx, hy, hon⟩ := expand_sound g hp sq c xy.1 xy.2 h
  refine ⟨binCurve_nonsingular (goodGroup_b g) hon, ?_⟩
  rw [affine, GF.toNat_ofNat g.p (by omega) _ hx, GF.toNat_ofNat g.p (by omega) _ hy]

end

/-- What decoding a public key amounts to. -/
theorem pub_decode_expand (env : Env) (old pk : EvpPkey) (enc : X509Pubkey) (h : dstu_asn1_pub_decode env old enc = (true, pk)) :
    ∃ key g c xy, pk.key = some key ∧ key.group = some g ∧ dstu_point_expand env.sq c g = some xy ∧ key.pub = some (some xy) := by
  unfold dstu_asn1_pub_decode at h
  split at h
  · cases h
  split at h
  · cases h
  simp only at h
  split at h
  · cases h
  split at h
  · cases h
  split at h
  · cases h
  rename_i key _ g hg
  split at h
  · cases h
  split at h
  · cases h
  split at h
  · cases h
  rename_i xy hxy
  cases h
  exact ⟨_, g, _, xy, rfl, hg, hxy, rfl⟩

/-- Every octet string that can be expanded is the public key of some encoding. -/
theorem pub_decode_accepts (env : Env) (g : EcGroup) [h : GoodGroup g] (hg : EncodableCurve env g) (t : KeyType) (c : List Byte)
    (hc : c ≠ []) (hl : c.length < 2 ^ 28) (xy : Nat × Nat) (hx : dstu_point_expand env.sq c g = some xy) :
    ∃ enc, ∀ old, ∃ s, dstu_asn1_pub_decode env old enc = (true, ⟨t, some ⟨some g, s, none, some (some xy)⟩⟩) := by
  obtain ⟨der, s, h1, h2, h3⟩ := param_round_trip env g hg t ⟨some g, none, none, none⟩ rfl none
  obtain ⟨r, hr1, hr2⟩ := maybeReverse_copy (t = .le) c hc
  have hrl : r.length = c.length := by
    unfold maybeReverse at hr1
    split at hr1
    · rw [reverse_bytes_eq] at hr1
      cases hr1
      simp
    · cases hr1; rfl
  have hdec := env.octet.der r [] (by omega)
  rw [List.append_nil] at hdec
  refine ⟨⟨some t, some der, i2d_octet r⟩, fun old => ⟨s, ?_⟩⟩
  unfold dstu_asn1_pub_decode
  simp only [h2, hdec, hr2, hx]

/-! ### The ten curves -/

theorem tableExps_large : ∀ (i : Fin 10) (m : Nat) (ks : List Nat), tableExps[i.val]? = some (m, ks) → 100 ≤ m := by
  have h : ∀ i : Fin 10, ∀ e ∈ tableExps[i.val]?, 100 ≤ e.1 := by decide
  exact fun i m ks he => h i (m, ks) he

/-- How the order compares with the number of field elements. -/
theorem named_size (nids : CurveNids) (i : Fin 10) (g : EcGroup) [GoodGroup g] (hg : group_from_named_curve nids i = some g) :
    (i ≠ 2 ∧ i ≠ 6 ∧ g.a = 1 ∧ 2 ^ fieldDegree g.p < 3 * g.n) ∨ ((i = 2 ∨ i = 6) ∧ g.a = 0 ∧ 2 ^ fieldDegree g.p < 4 * g.n) := by
  obtain ⟨c, m, ks, hc, hm, he, hge⟩ := named_entry nids i g hg
  obtain ⟨m', ks', hm', hn⟩ := table_cofactor nids i c hc
  rw [hm] at hm'
  cases hm'
  have hd : fieldDegree g.p = m := by
    rw [hge]
    change fieldDegree (arr2poly c.poly) = m
    rw [he.poly]; exact he.log2
  have hgn : g.n = fieldAt c.data m 1 := by rw [hge]; rfl
  have hga : g.a = aOf c.data := by rw [hge]; rfl
  rw [hd, hgn, hga]
  rcases hn with ⟨h1, h2, h3⟩ | ⟨h1, h2, h3⟩
  · exact Or.inl ⟨fun h => h1 (Or.inl (by rw [h]; rfl)), fun h => h1 (Or.inr (by rw [h]; rfl)), h2, h3⟩
  · exact Or.inr ⟨by rcases h1 with h | h; exacts [Or.inl (Fin.ext h), Or.inr (Fin.ext h)], h2, h3⟩

/-- C89, where it holds.  On each of the eight built-in curves with `a = 1`: if an encoded public key is imported, whatever the encoding, and its
abscissa is not zero, then it has a private key.  Missing: abscissa zero, and the two curves with `a = 0`; see the refutations below. -/
theorem C89_import_subgroup_partial (env : Env) (i : Fin 10) (h2 : i ≠ 2) (h6 : i ≠ 6) (g : EcGroup) [hgood : GoodGroup g]
    (hg : group_from_named_curve env.nids i = some g) (old pk : EvpPkey) (enc : X509Pubkey)
    (hdec : dstu_asn1_pub_decode env old enc = (true, pk)) (key : DstuKey) (hkey : pk.key = some key) (hgrp : key.group = some g)
    (hx : ∀ y, key.pub ≠ some (some (0, y))) : ∃ P : g.Point, key.pub = some (affine P) ∧ HasPrivate g.gen P g.n := by
  obtain ⟨key', g', c, xy, hk, hg', hexp, hpub⟩ := pub_decode_expand env old pk enc hdec
  rw [hkey] at hk
  cases hk
  rw [hgrp] at hg'
  cases hg'
  have hD := named_dstu env.nids i g hg
  obtain ⟨hxy, haff⟩ := expanded_point env.sq c xy hexp
  refine ⟨_, hpub.trans (congrArg some haff.symm), ?_⟩
  have htr := (expand_trace env.sq hD.odd hD.a01 c xy.1 xy.2 hexp).resolve_left (fun h => hx xy.2 (by rw [hpub, ← h]))
  obtain ⟨hfin, hcard⟩ := GF.card g.p
  obtain ⟨_, _, ha, hsz⟩ := (named_size env.nids i g hg).resolve_right (fun h => by rcases h.1 with h | h; exacts [h2 h, h6 h])
  obtain ⟨hp, h0, _⟩ := C33_order_prime env.nids i g hg
  obtain ⟨yT, hT, _, hTT⟩ := order_two g
  have hmem : (Affine.Point.some _ _ hxy : g.Point) ∈ doubles (GF.ofNat g.p g.a) (GF.ofNat g.p g.b) :=
    (mem_doubles _ _ _).mpr (halvable (fieldDegree g.p) hD.odd (GF.frobenius g.p) (goodGroup_b g) _ _ hxy htr)
  have hn := doubles_order_one (fieldDegree g.p) (GF.frobenius g.p) (GF.ofNat g.p g.a) (GF.ofNat g.p g.b)
    (by rw [ha, GF.ofNat_one]; exact trSum_one_odd _ hD.odd) _ hTT (Affine.Point.some_ne_zero _) g.gen g.n hp hD.n_odd h0
    (Affine.Point.some_ne_zero _) (by rw [hcard]; exact hsz) _ hmem
  obtain ⟨d, hd, he⟩ := (C33_subgroup env.nids i g hg _).mp hn
  refine ⟨d, ?_, hd, he⟩
  rcases Nat.eq_zero_or_pos d with rfl | h
  · rw [zero_nsmul, neg_zero] at he
    exact absurd he (Affine.Point.some_ne_zero _)
  · exact h

/-- What holds on all ten curves: an imported public key has a private key, or is the point of order 2, or is the
sum of such a public key and the point of order 2. -/
theorem C89_import_coset_partial (env : Env) (i : Fin 10) (g : EcGroup) [hgood : GoodGroup g]
    (hg : group_from_named_curve env.nids i = some g) (old pk : EvpPkey) (enc : X509Pubkey)
    (hdec : dstu_asn1_pub_decode env old enc = (true, pk)) (key : DstuKey) (hkey : pk.key = some key) (hgrp : key.group = some g) :
    ∃ P T : g.Point, key.pub = some (affine P) ∧ T ≠ 0 ∧ T + T = 0 ∧
      (HasPrivate g.gen P g.n ∨ P = T ∨ ∃ Q, HasPrivate g.gen Q g.n ∧ P = Q + T) := by
  obtain ⟨yT, hT, _, hTT⟩ := order_two g
  obtain ⟨key', g', c, xy, hk, hg', hexp, hpub⟩ := pub_decode_expand env old pk enc hdec
  rw [hkey] at hk
  cases hk
  rw [hgrp] at hg'
  cases hg'
  have hD := named_dstu env.nids i g hg
  obtain ⟨hp, h0, _⟩ := C33_order_prime env.nids i g hg
  obtain ⟨hxy, haff⟩ := expanded_point env.sq c xy hexp
  obtain ⟨hfin, hcard⟩ := GF.card g.p
  have hp2 := hpub.trans (congrArg some haff.symm)
  by_cases hx0 : xy.1 = 0
  · refine ⟨_, _, hp2, Affine.Point.some_ne_zero _, hTT, Or.inr (Or.inl ?_)⟩
    apply two_torsion_unique _ _ _ _ _ (Affine.Point.some_ne_zero _) hTT (Affine.Point.some_ne_zero _)
    refine Affine.Point.add_of_Y_eq rfl ?_
    rw [binCurve_negY, hx0, GF.ofNat_zero, zero_add]
  by_cases hi : i ≠ 2 ∧ i ≠ 6
  · obtain ⟨P, hP, hpriv⟩ := C89_import_subgroup_partial env i hi.1 hi.2 g hg old pk enc hdec key hkey hgrp
      (by rintro y hy; rw [hpub] at hy; exact hx0 (congrArg Prod.fst (Option.some.inj (Option.some.inj hy))))
    exact ⟨P, _, hP, Affine.Point.some_ne_zero _, hTT, Or.inl hpriv⟩
  obtain ⟨_, ha, hsz⟩ := (named_size env.nids i g hg).resolve_left (fun h => hi ⟨h.1, h.2.1⟩)
  have htr := (expand_trace env.sq hD.odd hD.a01 c xy.1 xy.2 hexp).resolve_left hx0
  have hmem : (Affine.Point.some _ _ hxy : g.Point) ∈ doubles (GF.ofNat g.p g.a) (GF.ofNat g.p g.b) :=
    (mem_doubles _ _ _).mpr (halvable (fieldDegree g.p) hD.odd (GF.frobenius g.p) (goodGroup_b g) _ _ hxy htr)
  have hmemT : (Affine.Point.some 0 yT hT : g.Point) ∈ doubles (GF.ofNat g.p g.a) (GF.ofNat g.p g.b) :=
    (mem_doubles _ _ _).mpr (halvable (fieldDegree g.p) hD.odd (GF.frobenius g.p) (goodGroup_b g) _ _ hT (by rw [ha, GF.ofNat_zero]))
  have hn := doubles_order_zero (GF.ofNat g.p g.a) (GF.ofNat g.p g.b) _ hTT (Affine.Point.some_ne_zero _) hmemT g.gen g.n hp hD.n_odd h0
    (Affine.Point.some_ne_zero _) (by rw [hcard]; exact hsz) _ hmem
  refine ⟨_, _, hp2, Affine.Point.some_ne_zero _, hTT, ?_⟩
  generalize (Affine.Point.some _ _ hxy : g.Point) = P at *
  have hT0 : (Affine.Point.some 0 yT hT : g.Point) ≠ 0 := Affine.Point.some_ne_zero _
  generalize (Affine.Point.some 0 yT hT : g.Point) = T at *
  have hpriv : ∀ Q : g.Point, g.n • Q = 0 → Q ≠ 0 → HasPrivate g.gen Q g.n := by
    intro Q hQ hQ0
    obtain ⟨d, hd, he⟩ := (C33_subgroup env.nids i g hg Q).mp hQ
    refine ⟨d, ?_, hd, he⟩
    rcases Nat.eq_zero_or_pos d with rfl | h
    · rw [zero_nsmul, neg_zero] at he
      exact absurd he hQ0
    · exact h
  have hnT : g.n • T = T := by
    have hodd := hD.n_odd
    conv_lhs => rw [show g.n = g.n / 2 * 2 + 1 by omega]
    rw [add_nsmul, one_nsmul, mul_comm, mul_nsmul, two_nsmul, hTT, nsmul_zero, zero_add]
  by_cases hz : g.n • P = 0
  · by_cases hP0 : P = 0
    · have : affine P = some xy := haff
      rw [hP0] at this
      cases this
    · exact Or.inl (hpriv P hz hP0)
  · have hnP : g.n • P = T := two_torsion_unique _ _ _ _ (by rw [← two_nsmul]; exact hn) hz hTT hT0
    by_cases hPT : P = T
    · exact Or.inr (Or.inl hPT)
    · refine Or.inr (Or.inr ⟨P + T, hpriv _ (by rw [nsmul_add, hnP, hnT, hTT]) ?_, by rw [add_assoc, hTT, add_zero]⟩)
      intro h
      apply hPT
      rw [eq_neg_of_add_eq_zero_left h, eq_comm]
      exact eq_neg_of_add_eq_zero_left hTT

/-- The point of order 2 has no private key, nor has its sum with a public key that has one. -/
theorem order_two_no_private (nids : CurveNids) (i : Fin 10) (g : EcGroup) [hgood : GoodGroup g]
    (hg : group_from_named_curve nids i = some g) (T Q : g.Point) (hT : T + T = 0) (hT0 : T ≠ 0) (hQ : g.n • Q = 0) :
    ¬ HasPrivate g.gen (Q + T) g.n := by
  rintro ⟨d, _, hd, he⟩
  have hz := (C33_subgroup nids i g hg (Q + T)).mpr ⟨d, hd, he⟩
  have hodd := (named_dstu nids i g hg).n_odd
  have hnT : g.n • T = T := by
    conv_lhs => rw [show g.n = g.n / 2 * 2 + 1 by omega]
    rw [add_nsmul, one_nsmul, mul_comm, mul_nsmul, two_nsmul, hT, nsmul_zero, zero_add]
  rw [nsmul_add, hQ, zero_add, hnT] at hz
  exact hT0 hz

/-- C89 fails on each of the ten curves, for both types of keys: an encoding is accepted whose public key is the point of order 2, which has
no private key.  It is the encoding of zeros. -/
theorem C89_zero_refuted (env : Env) (i : Fin 10) (g : EcGroup) [hgood : GoodGroup g]
    (hg : group_from_named_curve env.nids i = some g) (t : KeyType) :
    ∃ T : g.Point, T ≠ 0 ∧ T + T = 0 ∧ ¬ HasPrivate g.gen T g.n ∧
      ∃ enc, ∀ old, ∃ s, dstu_asn1_pub_decode env old enc = (true, ⟨t, some ⟨some g, s, none, some (affine T)⟩⟩) := by
  have hp := goodGroup_p g
  obtain ⟨y, h, hy, hTT⟩ := order_two g
  have hT0 : (Affine.Point.some 0 y h : g.Point) ≠ 0 := Affine.Point.some_ne_zero _
  refine ⟨_, hT0, hTT, ?_, ?_⟩
  · have := order_two_no_private env.nids i g hg _ 0 hTT hT0 (nsmul_zero _)
    rwa [zero_add] at this
  have hfs0 : 0 < g.fieldSize := by
    have := fieldDegree_pos hp
    unfold EcGroup.fieldSize EcGroup.degree fieldDegree at *
    omega
  have hex : dstu_point_expand env.sq (List.replicate g.fieldSize 0) g = some (0, GF.toNat y) := by
    refine expand_zero g env.sq _ _ (by rw [List.length_replicate]) (GF.toNat_lt g.p hp y) ?_ ?_
    · rw [GF.ofNat_toNat g.p (by omega)]
      exact (binCurve_equation _ _ _ _).mp h.1
    · rw [bin2bn_eq, beValue_replicate]
  obtain ⟨enc, he⟩ := pub_decode_accepts env g (Or.inl ⟨i, hg⟩) t _ (by
      intro h0
      have := congrArg List.length h0
      rw [List.length_replicate, List.length_nil] at this
      omega) (by
      rw [List.length_replicate]
      have := (named_dstu env.nids i g hg).small
      unfold fieldDegree at this
      unfold EcGroup.fieldSize EcGroup.degree
      omega) _ hex
  refine ⟨enc, fun old => ?_⟩
  rw [affine, GF.toNat_zero g.p (by omega)]
  exact he old

/-- C89 fails on the two curves with `a = 0` for other encodings too: for every public key `Q` that has a private key, the sum of `Q` and the point
of order 2 or its opposite is accepted, although neither has one. -/
theorem C89_coset_refuted (env : Env) (i : Fin 10) (hi : i = 2 ∨ i = 6) (g : EcGroup) [hgood : GoodGroup g]
    (hg : group_from_named_curve env.nids i = some g) (t : KeyType) (Q : g.Point) (hQ : HasPrivate g.gen Q g.n) :
    ∃ T P : g.Point, T ≠ 0 ∧ T + T = 0 ∧ (P = Q + T ∨ P = -(Q + T)) ∧ ¬ HasPrivate g.gen P g.n ∧ (∀ y, affine P ≠ some (0, y)) ∧
      ∃ enc, ∀ old, ∃ s, dstu_asn1_pub_decode env old enc = (true, ⟨t, some ⟨some g, s, none, some (affine P)⟩⟩) := by
  have hp := goodGroup_p g
  have hD := named_dstu env.nids i g hg
  obtain ⟨_, ha, _⟩ := (named_size env.nids i g hg).resolve_left (fun h => by rcases hi with h' | h'; exacts [h.1 h', h.2.1 h'])
  obtain ⟨yT, hTn, hyT, hTT⟩ := order_two g
  have hT0 : (Affine.Point.some 0 yT hTn : g.Point) ≠ 0 := Affine.Point.some_ne_zero _
  have hT2 : ∀ S : g.Point, S + S = 0 → S ≠ 0 → S = Affine.Point.some 0 yT hTn := fun S h h0 => two_torsion_unique _ _ _ _ h h0 hTT hT0
  have hTd : ∃ R : g.Point, R + R = Affine.Point.some 0 yT hTn :=
    halvable (fieldDegree g.p) hD.odd (GF.frobenius g.p) (goodGroup_b g) _ _ hTn (by rw [ha, GF.ofNat_zero])
  refine ⟨Affine.Point.some 0 yT hTn, ?_⟩
  obtain ⟨d, hd0, hd, he⟩ := hQ
  have hQn : g.n • Q = 0 := (C33_subgroup env.nids i g hg Q).mpr ⟨d, hd, he⟩
  have hQ0 : Q ≠ 0 := by
    rw [he]
    exact neg_ne_zero.mpr ((C33_order_prime env.nids i g hg).2.2 d hd0 hd)
  have hdbl : ∃ R : g.Point, R + R = Q + Affine.Point.some 0 yT hTn := by
    obtain ⟨R, hR⟩ := hTd
    refine ⟨((g.n + 1) / 2) • Q + R, ?_⟩
    have hodd := hD.n_odd
    rw [add_add_add_comm, hR, ← add_nsmul, show (g.n + 1) / 2 + (g.n + 1) / 2 = g.n + 1 by omega, add_nsmul, hQn, zero_add, one_nsmul]
  have hnp := order_two_no_private env.nids i g hg _ Q hTT hT0 hQn
  have hnp' := order_two_no_private env.nids i g hg _ (-Q) hTT hT0 (by rw [neg_nsmul, hQn, neg_zero])
  have hneg : -(Q + Affine.Point.some 0 yT hTn) = -Q + (Affine.Point.some 0 yT hTn : g.Point) := by
    rw [neg_add, ← eq_neg_of_add_eq_zero_left hTT]
  rcases hP : (Q + Affine.Point.some 0 yT hTn : g.Point) with _ | ⟨x, y, hxy⟩
  · exfalso
    have h1 : Q = -(Affine.Point.some 0 yT hTn : g.Point) := eq_neg_of_add_eq_zero_left hP
    have h2 : Q + Q = 0 := by rw [h1, ← neg_add, hTT, neg_zero]
    have h3 : g.n • Q = Q := by
      have hodd := hD.n_odd
      conv_lhs => rw [show g.n = g.n / 2 * 2 + 1 by omega]
      rw [add_nsmul, one_nsmul, mul_comm, mul_nsmul, two_nsmul, h2, nsmul_zero, zero_add]
    exact hQ0 (h3.symm.trans hQn)
  obtain ⟨R, hR⟩ := hdbl
  have htr : trace x = trace (GF.ofNat g.p g.a) :=
    trace_double (fieldDegree g.p) (GF.frobenius g.p) R x y hxy (hR.trans hP)
  have hx0 : x ≠ 0 := by
    rintro rfl
    have h2 : (Affine.Point.some 0 y hxy : g.Point) + Affine.Point.some 0 y hxy = 0 :=
      Affine.Point.add_of_Y_eq rfl (by rw [binCurve_negY, zero_add])
    have h3 := hT2 _ h2 (Affine.Point.some_ne_zero _)
    rw [h3] at hP
    exact hQ0 (add_eq_right.mp hP)
  have hon : OnCurve (GF.ofNat g.p g.a) (GF.ofNat g.p g.b) x y := (binCurve_equation _ _ x y).mp hxy.1
  -- any point with this abscissa that is not the exception is accepted
  have key : ∀ v : GF g.p, ∀ hv : g.curve.Nonsingular x v, ¬ (x = 1 ∧ trace v = 0) →
      ∃ enc, ∀ old, ∃ s, dstu_asn1_pub_decode env old enc =
        (true, ⟨t, some ⟨some g, s, none, some (affine (Affine.Point.some x v hv : g.Point))⟩⟩) := by
    intro v hv hex
    obtain ⟨c, hlen, hexp⟩ := compressible env.sq hD.odd hD.a01 x v hv hx0 htr hex
    exact pub_decode_accepts env g (Or.inl ⟨i, hg⟩) t c (by
      rintro rfl
      have := fieldDegree_pos hp
      unfold EcGroup.fieldSize EcGroup.degree fieldDegree at *
      simp only [List.length_nil] at hlen
      omega) (by
      rw [hlen]
      have := hD.small
      unfold fieldDegree at this
      unfold EcGroup.fieldSize EcGroup.degree
      omega) _ hexp
  have hxn : ∀ (v : GF g.p) (hv : g.curve.Nonsingular x v) (w : Nat), affine (Affine.Point.some x v hv : g.Point) ≠ some (0, w) := by
    intro v hv w h
    rw [affine] at h
    exact hx0 ((GF.toNat_eq_zero g.p (by omega) x).mp (congrArg Prod.fst (Option.some.inj h)))
  by_cases hex : x = 1 ∧ trace y = 0
  · have hneg2 : -(Affine.Point.some x y hxy : g.Point) = Affine.Point.some x (x + y) (by
        have := (Affine.nonsingular_neg x y).mpr hxy
        rwa [binCurve_negY] at this) := by
      rw [Affine.Point.neg_some]
      simp only [binCurve_negY]
    refine ⟨_, hT0, hTT, Or.inr rfl, ?_, ?_, ?_⟩
    · rw [← hP, hneg]; exact hnp'
    · rw [hneg2]; exact hxn _ _
    · rw [hneg2]
      refine key _ _ ?_
      rintro ⟨h1, h2⟩
      rw [hex.1] at h2
      have h3 : trace ((1 : GF g.p) + y) = trace 1 + trace y := trSum_add _ _ _
      rw [h3, hex.2, add_zero] at h2
      have h4 : trace (1 : GF g.p) = 1 := trSum_one_odd _ hD.odd
      rw [h4] at h2
      exact one_ne_zero h2
  · refine ⟨_, hT0, hTT, Or.inl rfl, ?_, hxn _ _, key _ _ hex⟩
    rw [← hP]; exact hnp

/-- What a user sees of this: under the public key of order 2, which anyone can send, everyone can sign without any secret.  For every digest
and every `s`: if the number `r` computed from the digest and `s G` is even and not zero, every signature of `r` and `s` is accepted. -/
theorem C89_zero_forgery {g : EcGroup} [GoodGroup g] (dec : OctetDecoder) (type : KeyType) (key : EcKey g) (T : g.Point) (hT : T + T = 0)
    (hkey : key.pub = some T) (tbs : List Byte) (htbs : tbs ≠ [] ∧ (leValue tbs % 2 ^ fieldDegree g.p ≠ 0 ∨ leValue tbs = 0))
    (s : Nat) (hs0 : 0 < s) (hs : s < g.n) (x y : GF g.p) (hxy : g.curve.Nonsingular x y) (hsG : s • g.gen = Affine.Point.some x y hxy)
    (r : Nat) (hr : r = elemToInt g.n (GF.ofNat g.p (digestElem (fieldDegree g.p) tbs) * x)) (hr0 : r ≠ 0) (heven : r % 2 = 0) (sig : List Byte)
    (hl : (body dec sig).length % 2 = 0 ∧ 2 * numBytes g.n ≤ (body dec sig).length) (hsr : rOf dec type sig = r) (hss : sOf dec type sig = s) :
    dstu_pkey_verify dec type g key sig tbs = true := by
  rw [C29_verify_iff_equation]
  refine ⟨hl.1, hl.2, htbs.1, htbs.2, T, hkey, ?_⟩
  rw [hsr, hss]
  refine ⟨by omega, ?_, hs0, hs, x, y, hxy, ?_, hr⟩
  · rw [hr]
    unfold elemToInt
    have h1 := Nat.mod_lt (GF.toNat (GF.ofNat g.p (digestElem (fieldDegree g.p) tbs) * x)) (Nat.two_pow_pos g.n.log2)
    exact lt_of_lt_of_le h1 (Nat.log2_self_le (by omega))
  · rw [show r = r / 2 * 2 by omega, mul_comm, mul_nsmul, two_nsmul, hT, nsmul_zero, add_zero, hsG]

/-- This occurs on each of the ten curves: there is a digest and a signature, computed from public values, that is accepted. -/
theorem C89_zero_forgery_occurs (nids : CurveNids) (i : Fin 10) (g : EcGroup) [hgood : GoodGroup g]
    (hg : group_from_named_curve nids i = some g) (dec : OctetDecoder) (key : EcKey g) (T : g.Point) (hT : T + T = 0) (hkey : key.pub = some T) :
    ∃ tbs sig, dstu_pkey_verify dec .be g key sig tbs = true := by
  have hp := goodGroup_p g
  have hD := named_dstu nids i g hg
  obtain ⟨hpr, h0, hmin⟩ := C33_order_prime nids i g hg
  have hns : g.curve.Nonsingular (GF.ofNat g.p g.gx) (GF.ofNat g.p g.gy) := binCurve_nonsingular (goodGroup_b g) hgood.valid.onCurve
  have hgen : g.gen = Affine.Point.some _ _ hns := rfl
  have hx0 : GF.ofNat g.p g.gx ≠ 0 := by
    intro hz
    have h2 : g.gen + g.gen = 0 := by
      rw [hgen]
      exact Affine.Point.add_of_Y_eq rfl (by rw [binCurve_negY, hz, zero_add])
    have := hmin 2 (by omega) (by have := hpr.two_le; have := hD.n_odd; omega)
    rw [two_nsmul] at this
    exact this h2
  have hm := mpos g.p
  -- the digest for which `r` is 2
  have hsz := named_size nids i g hg
  have hbig : 2 ^ 10 < g.n ∧ 3 ≤ fieldDegree g.p := by
    obtain ⟨c, m, ks, hc, hm, he, hge⟩ := named_entry nids i g hg
    have hd : fieldDegree g.p = m := by
      rw [hge]
      change fieldDegree (arr2poly c.poly) = m
      rw [he.poly]; exact he.log2
    have hmm : 100 ≤ m := tableExps_large i m ks hm
    have : 2 ^ 100 ≤ 2 ^ m := Nat.pow_le_pow_right (by omega) hmm
    rw [hd] at hsz ⊢
    omega
  have hlog : 2 ≤ g.n.log2 := (Nat.le_log2 (by omega)).mpr (by omega)
  obtain ⟨h, hh⟩ : ∃ h : GF g.p, h = GF.ofNat g.p 2 * (GF.ofNat g.p g.gx)⁻¹ := ⟨_, rfl⟩
  have h4 : 2 ^ 3 ≤ 2 ^ fieldDegree g.p := Nat.pow_le_pow_right (by omega) hbig.2
  have h20 : GF.ofNat g.p 2 ≠ 0 := by
    intro hz
    have := GF.toNat_ofNat g.p (by omega) 2 (by omega)
    rw [hz, GF.toNat_zero g.p (by omega)] at this
    omega
  have hne : h ≠ 0 := by rw [hh]; exact mul_ne_zero h20 (inv_ne_zero hx0)
  have hhn : GF.toNat h ≠ 0 := fun hz => hne ((GF.toNat_eq_zero g.p (by omega) h).mp hz)
  have hhl := GF.toNat_lt g.p hp h
  let tbs := (bytesBE (fieldDegree g.p) (GF.toNat h)).reverse
  have hval : leValue tbs = GF.toNat h := by
    have h8 : GF.toNat h < 256 ^ fieldDegree g.p := lt_of_lt_of_le hhl (Nat.pow_le_pow_left (by omega) _)
    change beValue (bytesBE (fieldDegree g.p) (GF.toNat h)) = GF.toNat h
    rw [beValue_bytesBE, Nat.mod_eq_of_lt h8]
  have hmod : leValue tbs % 2 ^ fieldDegree g.p = GF.toNat h := by rw [hval, Nat.mod_eq_of_lt hhl]
  have hde : digestElem (fieldDegree g.p) tbs = GF.toNat h := by rw [digestElem, hmod, if_neg hhn]
  have hnl := order_lt g
  obtain ⟨e1, e2⟩ := halves (numBytes g.n) 1 2 (by omega) (by omega)
  rw [drop_take_half _ (by rw [List.length_append, bytesBE_length, bytesBE_length]; omega)] at e2
  have hl : (bytesBE (numBytes g.n) 1 ++ bytesBE (numBytes g.n) 2).length = 2 * numBytes g.n := by
    rw [List.length_append, bytesBE_length, bytesBE_length]; omega
  have hsmall : 2 * numBytes g.n < 2 ^ 28 := by
    have hb := hD.n_ok.2
    have hs := hD.small
    rw [Int.toNat_natCast] at hb
    unfold fieldDegree at hs
    unfold numBytes
    unfold numBits at hb ⊢
    split at hb <;> split <;> split at hb <;> omega
  have hb : body dec (i2d_octet (bytesBE (numBytes g.n) 1 ++ bytesBE (numBytes g.n) 2)) =
      bytesBE (numBytes g.n) 1 ++ bytesBE (numBytes g.n) 2 := by
    have := dec.der (bytesBE (numBytes g.n) 1 ++ bytesBE (numBytes g.n) 2) [] (by omega)
    rw [List.append_nil] at this
    rw [body, this, Option.getD_some]
  refine ⟨tbs, i2d_octet (bytesBE (numBytes g.n) 1 ++ bytesBE (numBytes g.n) 2), ?_⟩
  refine C89_zero_forgery dec .be key T hT hkey tbs ⟨?_, Or.inl (by rw [hmod]; exact hhn)⟩ 1 (by omega) (by omega) _ _ hns
    (by rw [one_nsmul, hgen]) 2 ?_ (by omega) rfl _ ?_ ?_ ?_
  · intro hz
    have : leValue tbs = 0 := by rw [hz]; rfl
    omega
  · rw [hde, GF.ofNat_toNat g.p (by omega), hh, mul_assoc, inv_mul_cancel₀ hx0, mul_one, elemToInt,
      GF.toNat_ofNat g.p (by omega) 2 (by omega), Nat.mod_eq_of_lt]
    have : 2 ^ 2 ≤ 2 ^ g.n.log2 := Nat.pow_le_pow_right (by omega) hlog
    omega
  · rw [hb, hl]; omega
  · rw [rOf, bodyBE, if_neg (by simp), hb]; exact e2
  · rw [sOf, bodyBE, if_neg (by simp), hb]; exact e1

/-- An import that meets the hypotheses of `C89_import_subgroup_partial`: the exported public half of a generated key on the curve of degree 431. -/
theorem import_ex (env : Env) : ∃ g, ∃ _ : GoodGroup g, group_from_named_curve env.nids (9 : Fin 10) = some g ∧
    ∃ old pk enc key, dstu_asn1_pub_decode env old enc = (true, pk) ∧ pk.key = some key ∧ key.group = some g ∧
      ∀ y, key.pub ≠ some (some (0, y)) := by
  obtain ⟨c, g, _, hg, hv, _, _⟩ := C33_curve_table_sound env.nids 9
  have hgood : GoodGroup g := ⟨hv⟩
  have hp := goodGroup_p g
  obtain ⟨hpr, h0, hmin⟩ := C33_order_prime env.nids 9 g hg
  obtain ⟨enc, s, _, _, h3, _⟩ := C41_builtin env 9 (by decide) (by decide) g hg .be ⟨some g, none, none, some (affine g.gen)⟩ rfl g.gen rfl
    (Affine.Point.some_ne_zero _) h0 ⟨.be, none⟩
  refine ⟨g, hgood, hg, _, _, enc, _, h3, rfl, rfl, fun y hy => ?_⟩
  have hx : GF.toNat (GF.ofNat g.p g.gx) = 0 := congrArg Prod.fst (Option.some.inj (Option.some.inj hy))
  have hz := (GF.toNat_eq_zero g.p (by omega) _).mp hx
  have h2 : g.gen + g.gen = 0 := Affine.Point.add_of_Y_eq rfl (by rw [binCurve_negY, hz, zero_add])
  have := hmin 2 (by omega) (by have := hpr.two_le; have := (named_dstu env.nids 9 g hg).n_odd; omega)
  rw [two_nsmul] at this
  exact this h2

/-! ### C90 -/

/-- The number of points of each built-in curve: twice the order of the base point if `a = 1`, four times if `a = 0`. -/
theorem C90_points_partial (nids : CurveNids) (i : Fin 10) (g : EcGroup) [hgood : GoodGroup g]
    (hg : group_from_named_curve nids i = some g) : Nat.card g.Point = (if i = 2 ∨ i = 6 then 4 else 2) * g.n := by
  have hD := named_dstu nids i g hg
  obtain ⟨hp, h0, _⟩ := C33_order_prime nids i g hg
  obtain ⟨hfin, hcard⟩ := GF.card g.p
  obtain ⟨yT, hT, _, hTT⟩ := order_two g
  have hT0 : (Affine.Point.some 0 yT hT : g.Point) ≠ 0 := Affine.Point.some_ne_zero _
  have hpts := points_eq (GF.ofNat g.p g.a) (GF.ofNat g.p g.b) _ hTT hT0
  rcases named_size nids i g hg with ⟨h2, h6, ha, hsz⟩ | ⟨hi, ha, hsz⟩
  · have hc := doubles_card_one (fieldDegree g.p) (GF.frobenius g.p) (GF.ofNat g.p g.a) (GF.ofNat g.p g.b)
      (by rw [ha, GF.ofNat_one]; exact trSum_one_odd _ hD.odd) _ hTT hT0 g.gen g.n hp hD.n_odd h0
      (Affine.Point.some_ne_zero _) (by rw [hcard]; exact hsz)
    rw [if_neg (by rintro (h | h); exacts [h2 h, h6 h])]
    exact hpts.trans (by rw [hc])
  · have hmemT : (Affine.Point.some 0 yT hT : g.Point) ∈ doubles (GF.ofNat g.p g.a) (GF.ofNat g.p g.b) :=
      (mem_doubles _ _ _).mpr (halvable (fieldDegree g.p) hD.odd (GF.frobenius g.p) (goodGroup_b g) _ _ hT (by rw [ha, GF.ofNat_zero]))
    have hc := doubles_card_zero (GF.ofNat g.p g.a) (GF.ofNat g.p g.b) _ hTT hT0 hmemT g.gen g.n hp hD.n_odd h0
      (Affine.Point.some_ne_zero _) (by rw [hcard]; exact hsz)
    rw [if_pos hi]
    exact hpts.trans (by rw [hc]; ring)

/-- C90 fails on each of the ten curves: the recorded cofactor is 1. -/
theorem C90_cofactor_refuted (nids : CurveNids) (i : Fin 10) (g : EcGroup) [hgood : GoodGroup g]
    (hg : group_from_named_curve nids i = some g) : g.h = 1 ∧ Nat.card g.Point ≠ g.h * g.n := by
  have hD := named_dstu nids i g hg
  refine ⟨hD.cofactor, ?_⟩
  rw [hD.cofactor, C90_points_partial nids i g hg]
  have := (C33_order_prime nids i g hg).1.pos
  split <;> omega

/-- The theorems at the 163-bit curve. -/
example (env : Env) (t : KeyType) := C89_zero_refuted env 0 g163 (g163_named _) t
example (nids : CurveNids) : Nat.card g163.Point = 2 * g163.n := C90_points_partial nids 0 g163 (g163_named _)
example (nids : CurveNids) := C90_cofactor_refuted nids 0 g163 (g163_named _)
example (env : Env) : ∃ (T : g163.Point) (tbs sig : List Byte), T ≠ 0 ∧ T + T = 0 ∧ dstu_pkey_verify octetDecoder .be g163 ⟨none, some T⟩ sig tbs = true := by
  obtain ⟨T, h0, h1, _⟩ := C89_zero_refuted env 0 g163 (g163_named _) .be
  obtain ⟨tbs, sig, h⟩ := C89_zero_forgery_occurs env.nids 0 g163 (g163_named _) octetDecoder ⟨none, some T⟩ T h1 rfl
  exact ⟨T, tbs, sig, h0, h1, h⟩
example (env : Env) : ∃ g, ∃ _ : GoodGroup g, ∃ Q T P : g.Point, HasPrivate g.gen Q g.n ∧ T + T = 0 ∧ (P = Q + T ∨ P = -(Q + T)) ∧ ¬ HasPrivate g.gen P g.n := by
  obtain ⟨c, g, _, hg, hv, _, _⟩ := C33_curve_table_sound env.nids 2
  have hgood : GoodGroup g := ⟨hv⟩
  have h2 := (named_prime env.nids 2 g hg).two_le
  obtain ⟨T, P, _, h3, h4, h5, _⟩ := C89_coset_refuted env 2 (Or.inl rfl) g hg .be (-(1 • g.gen)) ⟨1, by omega, by omega, rfl⟩
  exact ⟨g, hgood, _, T, P, ⟨1, by omega, by omega, rfl⟩, h3, h4, h5⟩

/-- The two theorems on imported keys at that import. -/
example (env : Env) : ∃ g, ∃ _ : GoodGroup g, ∃ old enc pk key, dstu_asn1_pub_decode env old enc = (true, pk) ∧ pk.key = some key ∧
    (∃ P : g.Point, key.pub = some (affine P) ∧ HasPrivate g.gen P g.n) ∧ ∃ T : g.Point, T ≠ 0 ∧ T + T = 0 := by
  obtain ⟨g, hgood, hg, old, pk, enc, key, h1, h2, h3, h4⟩ := import_ex env
  obtain ⟨P, T, _, t0, t1, _⟩ := C89_import_coset_partial env 9 g hg old pk enc h1 key h2 h3
  exact ⟨g, hgood, old, enc, pk, key, h1, h2, C89_import_subgroup_partial env 9 (by decide) (by decide) g hg old pk enc h1 key h2 h3 h4, T, t0, t1⟩

end Dstu.Props
