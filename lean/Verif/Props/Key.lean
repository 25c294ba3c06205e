import Verif.Lemmas.Key
import Verif.Lemmas.Asn1
import Verif.Props.Compress
import Verif.Props.Curves

/-! Key parameters: C35, C36, C37, C38. -/

namespace Dstu.Props

open Spec WeierstrassCurve

/-- The S-box a key stands for: its own, or the default one when it has none. -/
def effectiveSbox (s : Option (Bytes 64)) : Bytes 64 := s.getD default_sbox

/-- The curves of DSTU 4145 as OpenSSL groups: valid parameters, a field polynomial that is a trinomial
or a pentanomial of odd degree, `a` in {0, 1}, an odd order that OpenSSL accepts, cofactor field 1. -/
structure DstuCurve (g : EcGroup) : Prop where
  good : GoodGroup g
  odd : fieldDegree g.p % 2 = 1
  small : fieldDegree g.p < 2 ^ 20
  poly : weight g.p = 3 ∨ weight g.p = 5
  a01 : g.a = 0 ∨ g.a = 1
  n_odd : g.n % 2 = 1
  n_ok : set_generator_ok g.p g.n
  cofactor : g.h = 1

/-- The base point is the one point that cannot be compressed. -/
def BadBase (g : EcGroup) [GoodGroup g] : Prop := g.gx = 1 ∧ trace (GF.ofNat g.p g.gy) = 0

theorem affine_gen (g : EcGroup) [h : GoodGroup g] : affine g.gen = some (g.gx, g.gy) := by
  have hp := goodGroup_p g
  rw [EcGroup.gen, affine, GF.toNat_ofNat g.p (by omega) _ h.valid.x_lt, GF.toNat_ofNat g.p (by omega) _ h.valid.y_lt]

theorem custom_group_round_trip (sq : QuadSolver) (g : EcGroup) [h : GoodGroup g] (hg : DstuCurve g) (hb : ¬ BadBase g)
    (le : Bool) : ∃ spec, custom_from_group g le = some spec ∧ spec.m = (fieldDegree g.p : Int) ∧
      group_from_asn1 sq spec le = some g ∧ (⟨.custom spec, none⟩ : AlgorithmParameters).Small := by
  have hp := goodGroup_p g
  have hirr := h.valid.irreducible
  have hd := hg.small
  have hdeg : g.p.log2 < 2 ^ 31 := lt_of_lt_of_le hd (by norm_num)
  obtain ⟨poly, arr, hf, ha, hpoly⟩ := field_round_trip hirr hg.poly hdeg
  have hfs : (((g.p.log2 : Int) + 7) / 8).toNat = g.fieldSize := by unfold EcGroup.fieldSize EcGroup.degree; omega
  have hfit := fits g g.b h.valid.b_lt
  have hpos : 0 < fieldDegree g.p := fieldDegree_pos hp
  have hfs0 : 0 < g.fieldSize := by unfold EcGroup.fieldSize EcGroup.degree fieldDegree at *; omega
  have hbl : bytesBE g.fieldSize g.b ≠ [] := by
    intro h0
    have := bytesBE_length g.fieldSize g.b
    rw [h0] at this
    simp at this
    omega
  obtain ⟨br, hb1, hb2⟩ := maybeReverse_copy le _ hbl
  have hns := binCurve_nonsingular (goodGroup_b g) h.valid.onCurve
  obtain ⟨c, hc1, hc2, hc3⟩ := C31_round_trip_partial sq hg.odd hg.a01 hg.n_odd _ _ hns (h.valid.order hns)
    (by
      rintro ⟨h1, h2⟩
      apply hb
      refine ⟨?_, h2⟩
      have := GF.toNat_ofNat g.p (by omega) _ h.valid.x_lt
      rw [← this, h1, GF.toNat_one g.p hp]) g.fieldSize (le_refl _)
  have haff : affine (Affine.Point.some _ _ hns : g.Point) = some (g.gx, g.gy) := affine_gen g
  rw [haff] at hc1 hc3
  have hcl : c ≠ [] := by rintro rfl; simp at hc2; omega
  obtain ⟨cr, hr1, hr2⟩ := maybeReverse_copy le _ hcl
  have hbnum : numBytes g.b ≠ 0 := by
    have := (numBytes_pos g.b).mpr h.valid.b_ne
    omega
  have hlen : ∀ l r, maybeReverse le l = some r → r.length = l.length := by
    intro l r hr
    unfold maybeReverse at hr
    split at hr
    · rw [reverse_bytes_eq] at hr
      cases hr
      simp
    · cases hr; rfl
  have hn0 : 0 < (g.n : Int) := hg.n_ok.1
  refine ⟨⟨g.p.log2, poly, g.a, br, g.n, cr⟩, ?_, rfl, ?_, ?_⟩
  · unfold custom_from_group
    rw [hf]
    simp only [hfs, bn_encode_fits _ _ hfit, hb1, hc1, hr1]
  · unfold group_from_asn1
    have hmod : ∀ x, x < 2 ^ fieldDegree g.p → gf2m_mod g.p x = x := fun x hx => GF.toNat_ofNat g.p (by omega) x hx
    have hnc : new_curve_GF2m g.p g.a g.b = some (g.p, g.a, g.b) := by
      rw [new_curve_GF2m, if_pos hg.poly, hmod _ h.valid.a_lt, hmod _ h.valid.b_lt]
    have hbb : bin2bn (bytesBE g.fieldSize g.b) = g.b := by
      rw [bin2bn_eq, beValue_bytesBE, Nat.mod_eq_of_lt hfit]
    have ha' : ¬ ((g.a : Int) ≠ 1 ∧ (g.a : Int) ≠ 0) := by rcases hg.a01 with h | h <;> rw [h] <;> decide
    have hexp : dstu_point_expand sq c ⟨g.p, g.a, g.b, 0, 0, 0, 0⟩ = some (g.gx, g.gy) := hc3
    simp only [ha, hpoly, ha', if_false, hb2, hbb, Int.toNat_natCast, hnc, hr2, hexp, hg.n_ok, if_true]
    rw [← hg.cofactor]
  · refine ⟨⟨?_, ?_, ?_, ?_, ?_, ?_⟩, fun _ h => by cases h⟩
    · simp only [Int.natAbs_natCast]
      omega
    · rcases weight_cases hirr hg.poly with ⟨k, h1, h2, he⟩ | ⟨k, j, l, h1, h2, h3, h4, he⟩
      · rw [poly2arr_eq g.p (by rw [he]; simp), he] at hf
        simp [fieldSpec] at hf
        subst hf
        simp
        omega
      · rw [poly2arr_eq g.p (by rw [he]; simp), he] at hf
        simp only [fieldSpec] at hf
        rw [if_neg, if_pos] at hf
        · simp at hf
          subst hf
          simp
          omega
        · simp
        · simp
    · rcases hg.a01 with h | h <;> simp [h]
    · have := hlen _ _ hb1
      rw [bytesBE_length] at this
      unfold EcGroup.fieldSize EcGroup.degree at this
      unfold fieldDegree at hd
      simp only
      omega
    · have h2 := hg.n_ok.2
      rw [Int.toNat_natCast, numBits_le] at h2
      have h3 : numBits g.p = fieldDegree g.p + 1 := by
        unfold numBits fieldDegree
        rw [if_neg (by omega)]
      rw [h3] at h2
      simp only [Int.natAbs_natCast]
      refine lt_of_lt_of_le h2 ?_
      rw [show (256 : Nat) = 2 ^ 8 by norm_num, ← pow_mul]
      exact Nat.pow_le_pow_right (by omega) (by omega)
    · have := hlen _ _ hr1
      rw [hc2] at this
      unfold EcGroup.fieldSize EcGroup.degree at this
      unfold fieldDegree at hd
      simp only
      omega

theorem bytes64_toList (s : Bytes 64) : bytes64 s.toList = some s := by
  unfold bytes64
  rw [dif_pos (by simp)]
  congr 1

theorem is_default_iff (s : Bytes 64) : is_default_sbox s = true ↔ s = default_sbox := by
  unfold is_default_sbox
  rw [beq_iff_eq]
  exact eq_comm

/-- Decoding what was encoded gives a key with the group and the same effective S-box. -/
theorem key_from_encoded (env : Env) (curve : CurveSpec) (s : Option (Bytes 64)) (le : Bool) (g : EcGroup)
    (hg : curveGroup env.sq env.nids env.objs curve le = some g) :
    ∃ s', key_from_asn1 env.sq env.nids env.objs ⟨curve, encodedSbox s⟩ le = some ⟨some g, s', none, none⟩ ∧
      effectiveSbox s' = effectiveSbox s ∧ s' ≠ some default_sbox := by
  unfold key_from_asn1
  cases s with
  | none =>
    simp only [encodedSbox, hg]
    exact ⟨none, rfl, rfl, by simp⟩
  | some s =>
    by_cases hd : is_default_sbox s = true
    · simp only [encodedSbox, hd, if_true, hg]
      exact ⟨none, rfl, by rw [(is_default_iff s).mp hd]; rfl, by simp⟩
    · simp only [encodedSbox, hd, hg, bytes64_toList, if_false, Bool.false_eq_true]
      refine ⟨some s, rfl, rfl, ?_⟩
      intro hc
      exact hd ((is_default_iff s).mpr (Option.some.inj hc))

theorem encodedSbox_small (s : Option (Bytes 64)) (l : List Byte) (h : encodedSbox s = some l) : l.length < 2 ^ 20 := by
  unfold encodedSbox at h
  split at h
  · cases h
  · split at h
    · cases h
    · cases h
      simp

/-! ### C35 -/

/-- C35.  For every built-in curve, every key on it (any S-box, with or without private and public
parts) and both key types: its parameters are encoded, and decoding the encoding, whatever follows it
and whatever the receiving key held before, gives a key on the same curve with the same effective S-box
and nothing else. -/
theorem C35_named_round_trip (env : Env) (i : Fin 10) (g : EcGroup) (hg : group_from_named_curve env.nids i = some g)
    (t : KeyType) (key : DstuKey) (hkey : key.group = some g) (old : Option DstuKey) (rest : List Byte) :
    ∃ der s, dstu_asn1_param_encode env ⟨t, some key⟩ = some der ∧
      dstu_asn1_param_decode env ⟨t, old⟩ (der ++ rest) = (true, ⟨t, some ⟨some g, s, none, none⟩⟩) ∧
      effectiveSbox s = effectiveSbox key.sbox := by
  obtain ⟨g', h1, h2⟩ := C34_identifier_round_trip env.nids i
  have : g' = g := by
    rw [group_from_nid_uacurve, hg] at h1
    exact (Option.some.inj h1).symm
  subst this
  have hne := env.nids.defined i
  obtain ⟨s, hs, hs', _⟩ := key_from_encoded env (.named (env.objs.nid2obj (env.nids.uacurve i))) key.sbox (t = .le) g'
    (by simp only [curveGroup, env.objs.inv, h1])
  refine ⟨env.codec.i2d ⟨.named (env.objs.nid2obj (env.nids.uacurve i)), encodedSbox key.sbox⟩, s, ?_, ?_, hs'⟩
  · simp only [dstu_asn1_param_encode, asn1_from_key, hkey, h2, NID_undef, hne, if_false]
  · have hsm : (⟨.named (env.objs.nid2obj (env.nids.uacurve i)), encodedSbox key.sbox⟩ : AlgorithmParameters).Small :=
      ⟨env.objs.valid i, fun l hl => encodedSbox_small _ _ hl⟩
    have hd := env.codec.inv _ rest hsm
    simp only [dstu_asn1_param_decode]
    rw [hd]
    simp only [hs]

/-! ### C36 -/

/-- C36, where it holds: for every DSTU 4145 curve that is not built in, whose base point is not the
exceptional one, every key on it and both key types: its parameters are encoded, and decoding the
encoding gives a key whose group has the same field polynomial, coefficients, order and base point, and
the same effective S-box.  Missing: the exceptional base point, see `C36_custom_round_trip_refuted`. -/
theorem C36_custom_round_trip_partial (env : Env) (g : EcGroup) [GoodGroup g] (hg : DstuCurve g) (hb : ¬ BadBase g)
    (hnew : ∀ i : Fin 10, group_from_named_curve env.nids i ≠ some g)
    (t : KeyType) (key : DstuKey) (hkey : key.group = some g) (old : Option DstuKey) (rest : List Byte) :
    ∃ der s, dstu_asn1_param_encode env ⟨t, some key⟩ = some der ∧
      dstu_asn1_param_decode env ⟨t, old⟩ (der ++ rest) = (true, ⟨t, some ⟨some g, s, none, none⟩⟩) ∧
      effectiveSbox s = effectiveSbox key.sbox := by
  obtain ⟨spec, h1, _, h3, h4⟩ := custom_group_round_trip env.sq g hg hb (t = .le)
  have hn : curve_nid_from_group env.nids g = NID_undef :=
    C34_otherwise_undefined env.nids g (fun i => by rw [group_from_nid_uacurve]; exact hnew i)
  obtain ⟨s, hs, hs', _⟩ := key_from_encoded env (.custom spec) key.sbox (t = .le) g h3
  refine ⟨env.codec.i2d ⟨.custom spec, encodedSbox key.sbox⟩, s, ?_, ?_, hs'⟩
  · simp only [dstu_asn1_param_encode, asn1_from_key, hkey, hn, if_true, h1]
  · have hsm : (⟨.custom spec, encodedSbox key.sbox⟩ : AlgorithmParameters).Small :=
      ⟨h4.1, fun l hl => encodedSbox_small _ _ hl⟩
    have hd := env.codec.inv _ rest hsm
    simp only [dstu_asn1_param_decode]
    rw [hd]
    simp only [hs]

/-! The built-in curve of degree 163 with another base point is a curve that is not built in. -/

theorem g163_named (nids : CurveNids) : group_from_named_curve nids 0 = some g163 := by
  have h0 : (dstu_curves nids)[0]? = some ⟨nids.uacurve 0, [163, 7, 6, 3, 0, -1], data163⟩ := rfl
  have he := entry_group (entry163 (nids.uacurve 0))
  unfold group_from_named_curve
  rw [h0]
  exact he

set_option maxRecDepth 20000 in
theorem numbers163' : (weight g163.p = 3 ∨ weight g163.p = 5) ∧ set_generator_ok g163.p g163.n ∧ g163.h = 1 ∧
    g163.gx ≠ 0 ∧ g163.gy < 2 ^ 163 ∧ g163.gx < 2 ^ 163 := by
  decide +kernel

/-- The curve of degree 163 with base point `(x, y)`. -/
def g163with (x y : Nat) : EcGroup := { g163 with gx := x, gy := y }

theorem g163with_good (x y : Nat) (hx : x < 2 ^ 163) (hy : y < 2 ^ 163)
    (hon : OnCurve (GF.ofNat g163.p g163.a) (GF.ofNat g163.p g163.b) (GF.ofNat g163.p x) (GF.ofNat g163.p y))
    (hn : ∀ hns : g163.curve.Nonsingular (GF.ofNat g163.p x) (GF.ofNat g163.p y),
      g163.n • (Affine.Point.some _ _ hns : g163.Point) = 0) : DstuCurve (g163with x y) := by
  obtain ⟨_, _, _, _, hd, _, hodd, ha, _, _⟩ := numbers163
  obtain ⟨hw, hok, hh, _, _, _⟩ := numbers163'
  have hfd : fieldDegree g163.p = 163 := hd
  have hv := instGoodGroup163.valid
  refine ⟨⟨⟨hv.irreducible, hv.a_lt, hv.b_lt, ?_, ?_, hv.b_ne, hv.n_gt, hon, fun h => hn h⟩⟩, ?_, ?_, hw, ha, hodd, hok, hh⟩
  · exact lt_of_lt_of_eq hx (by rw [← hfd]; rfl)
  · exact lt_of_lt_of_eq hy (by rw [← hfd]; rfl)
  · show fieldDegree g163.p % 2 = 1
    rw [hfd]
  · show fieldDegree g163.p < 2 ^ 20
    rw [hfd]
    norm_num

theorem g163with_new (nids : CurveNids) (x y : Nat) (h : (x, y) ≠ (g163.gx, g163.gy)) (i : Fin 10) :
    group_from_named_curve nids i ≠ some (g163with x y) := by
  intro hi
  obtain ⟨c, g, hc, hg, _, _, hd⟩ := C33_curve_table_sound nids i
  obtain ⟨c', g', hc', hg', _, _, hd'⟩ := C33_curve_table_sound nids 0
  have h1 : group_from_named_curve nids ((0 : Fin 10) : Nat) = some g163 := g163_named nids
  rw [hg] at hi
  rw [hg'] at h1
  cases hi
  cases h1
  have he : i = 0 := C33_degrees_identifiers_distinct nids i 0 c c' hc hc' (Or.inl (by rw [hd, hd']; rfl))
  subst he
  rw [hg] at hg'
  have := Option.some.inj hg'
  apply h
  rw [← this]
  rfl

theorem custom_from_group_none (g : EcGroup) (le : Bool)
    (h : ∀ L, (dstu_point_compress g (some (g.gx, g.gy)) L).1 = false) : custom_from_group g le = none := by
  unfold custom_from_group
  cases fieldSpec (poly2arr g.p) with
  | none => rfl
  | some mp =>
    obtain ⟨m, poly⟩ := mp
    simp only
    rcases hc : dstu_point_compress g (some (g.gx, g.gy)) ((m + 7) / 8).toNat with ⟨r, w⟩
    have := h ((m + 7) / 8).toNat
    rw [hc] at this
    simp only at this
    subst this
    repeat' split
    all_goals first | rfl | (rename_i heq _; cases heq)
    all_goals simp_all

/-- C36 fails for the exceptional base point: there is a DSTU 4145 curve, not built in, such that the
parameters of no key on it can be encoded. -/
theorem C36_custom_round_trip_refuted (env : Env) : ∃ g, DstuCurve g ∧
    (∀ i : Fin 10, group_from_named_curve env.nids i ≠ some g) ∧
    ∀ t key, key.group = some g → dstu_asn1_param_encode env ⟨t, some key⟩ = none := by
  obtain ⟨_, hy, _, h1, _, _, _, _, _, hgx⟩ := numbers163
  obtain ⟨hon, _, hn⟩ := exceptional163
  have hnew := g163with_new env.nids 1 y163 (by intro h; exact hgx (Prod.mk.inj h).1.symm)
  have hgood := g163with_good 1 y163 h1 hy hon hn
  refine ⟨g163with 1 y163, hgood, hnew, ?_⟩
  intro t key hkey
  have hnid : curve_nid_from_group env.nids (g163with 1 y163) = NID_undef :=
    C34_otherwise_undefined env.nids _ (fun i => by rw [group_from_nid_uacurve]; exact hnew i)
  have hc : ∀ le, custom_from_group (g163with 1 y163) le = none := by
    intro le
    exact custom_from_group_none _ le exceptional163_compress
  simp only [dstu_asn1_param_encode, asn1_from_key, hkey, hnid, if_true, hc]

/-- The identifiers of the curves, 1.2.804.2.1.1.1.1.3.1.1.2.i. -/
def objsEx : ObjTable nidsEx where
  nid2obj n := [0x2a, 0x86, 0x24, 0x02, 0x01, 0x01, 0x01, 0x01, 0x03, 0x01, 0x01, 0x02, BitVec.ofNat 8 (n - 1149)]
  obj2nid l := 1149 + (l.getD 12 0).toNat
  inv i := by fin_cases i <;> rfl
  valid i := by
    refine ⟨by simp, by simp, by simp, ?_, ?_⟩
    · fin_cases i <;> simp [nidsEx]
    · intro k b c hb hc _
      have hk : k < 12 := by
        by_contra hk
        rw [List.getElem?_eq_none (by simp; omega)] at hc
        cases hc
      interval_cases k <;> simp at hb hc <;> subst hc <;> first | decide | (fin_cases i <;> decide)

/-- An environment, to show that the assumptions about it can be met. -/
noncomputable def envEx : Env := ⟨quadSolver, nidsEx, objsEx, derCodec, octetDecoder, fun _ _ => none⟩

/-- A key on the curve of degree 163 with an S-box of its own. -/
noncomputable def keyEx163 (g : EcGroup) : DstuKey := ⟨some g, some (Vector.replicate 64 0x5a), some 5, none⟩

example : ∃ der s, dstu_asn1_param_encode envEx ⟨.le, some (keyEx163 g163)⟩ = some der ∧
    dstu_asn1_param_decode envEx ⟨.le, none⟩ der = (true, ⟨.le, some ⟨some g163, s, none, none⟩⟩) ∧
    effectiveSbox s = Vector.replicate 64 0x5a := by
  have := C35_named_round_trip envEx 0 g163 (g163_named _) .le (keyEx163 g163) rfl none []
  simp only [List.append_nil] at this
  exact this

theorem neg_base (g : EcGroup) [hg : GoodGroup g]
    (h : g.curve.Nonsingular (GF.ofNat g.p g.gx) (GF.ofNat g.p g.gx + GF.ofNat g.p g.gy)) :
    g.n • (Affine.Point.some _ _ h : g.Point) = 0 := by
  have hns := binCurve_nonsingular (goodGroup_b g) hg.valid.onCurve
  have e : (Affine.Point.some _ _ h : g.Point) = -(Affine.Point.some _ _ hns) := by
    rw [Affine.Point.neg_some]
    congr 1
    rw [binCurve_negY]
  have := hg.valid.order hns
  rw [e, neg_nsmul, this, neg_zero]

/-- The opposite of the base point. -/
theorem negGen163 : DstuCurve (g163with g163.gx (g163.gx ^^^ g163.gy)) := by
  obtain ⟨_, _, _, _, hgy, hgx⟩ := numbers163'
  have hv := instGoodGroup163.valid
  have hns := binCurve_nonsingular (goodGroup_b g163) hv.onCurve
  have hneg := (Affine.nonsingular_neg ..).mpr hns
  rw [binCurve_negY] at hneg
  refine g163with_good _ _ hgx (Nat.xor_lt_two_pow hgx hgy) ?_ ?_
  · rw [GF.ofNat_xor]
    exact (binCurve_equation _ _ _ _).mp hneg.1
  · rw [GF.ofNat_xor]
    exact neg_base g163

instance : GoodGroup (g163with g163.gx (g163.gx ^^^ g163.gy)) := negGen163.good

example : ∃ der s, dstu_asn1_param_encode envEx ⟨.le, some (keyEx163 (g163with g163.gx (g163.gx ^^^ g163.gy)))⟩ = some der ∧
    dstu_asn1_param_decode envEx ⟨.le, none⟩ der =
      (true, ⟨.le, some ⟨some (g163with g163.gx (g163.gx ^^^ g163.gy)), s, none, none⟩⟩) ∧
    effectiveSbox s = Vector.replicate 64 0x5a := by
  obtain ⟨_, _, _, _, _, _, _, _, _, h1⟩ := numbers163
  obtain ⟨_, _, _, h0, _, _⟩ := numbers163'
  have := C36_custom_round_trip_partial envEx (g163with g163.gx (g163.gx ^^^ g163.gy)) negGen163
    (fun h => h1 h.1) (g163with_new _ _ _ (by
      intro h
      have := (Prod.mk.inj h).2
      have h2 : g163.gx ^^^ g163.gy ^^^ g163.gy = g163.gy ^^^ g163.gy := by rw [this]
      rw [Nat.xor_assoc, Nat.xor_self, Nat.xor_zero] at h2
      exact h0 h2)) .le (keyEx163 (g163with g163.gx (g163.gx ^^^ g163.gy))) rfl none []
  simp only [List.append_nil] at this
  exact this

/-! ### C37 -/

/-- All integers of the field description fit into a C `int`. -/
def IntRange (s : CustomCurveSpec) : Prop :=
  (-2 ^ 31 ≤ s.m ∧ s.m < 2 ^ 31) ∧
    match s.poly with
    | .trinomial k => -2 ^ 31 ≤ k ∧ k < 2 ^ 31
    | .pentanomial k j l => (-2 ^ 31 ≤ k ∧ k < 2 ^ 31) ∧ (-2 ^ 31 ≤ j ∧ j < 2 ^ 31) ∧ (-2 ^ 31 ≤ l ∧ l < 2 ^ 31)

/-- The degree or an exponent of the field description is not positive. -/
def NonPositive (s : CustomCurveSpec) : Prop :=
  s.m ≤ 0 ∨
    match s.poly with
    | .trinomial k => k ≤ 0
    | .pentanomial k j l => k ≤ 0 ∨ j ≤ 0 ∨ l ≤ 0

/-- The value of a string of bytes in the byte order of a key type. -/
def valueIn (t : KeyType) (l : List Byte) : Nat := if t = .le then leValue l else beValue l

/-- The defects a user expects to be rejected: an S-box that is not 64 bytes long, a non-positive degree
or exponent, a coefficient `a` other than 0 and 1, a non-positive order. -/
def Malformed (p : AlgorithmParameters) : Prop :=
  (∃ s, p.sbox = some s ∧ s.length ≠ 64) ∨
  ∃ s, p.curve = .custom s ∧ (NonPositive s ∨ (s.a ≠ 0 ∧ s.a ≠ 1) ∨ s.n ≤ 0)

theorem get_range (v : Int) (h : -2 ^ 31 ≤ v ∧ v < 2 ^ 31) : asn1_integer_get v = v := by
  unfold asn1_integer_get
  rw [if_neg (by omega)]
  apply Int.bmod_eq_of_le <;> norm_num <;> omega

/-- The exponents after the first. -/
def TailOk (poly : PolySpec) (tail : List Int) : Prop :=
  match poly with
  | .trinomial k => 0 < asn1_integer_get k ∧ tail = [asn1_integer_get k, 0, -1]
  | .pentanomial k j l => 0 < asn1_integer_get k ∧ 0 < asn1_integer_get j ∧ 0 < asn1_integer_get l ∧
    tail = [asn1_integer_get l, asn1_integer_get j, asn1_integer_get k, 0, -1]

theorem polyArray_some {m : Int} {poly : PolySpec} {arr : List Int} (h : polyArray m poly = some arr) :
    0 < asn1_integer_get m ∧ ∃ tail, arr = asn1_integer_get m :: tail ∧ TailOk poly tail := by
  unfold polyArray at h
  simp only at h
  split at h
  · cases h
  · rename_i h0
    refine ⟨by omega, ?_⟩
    cases poly with
    | trinomial k =>
      simp only at h ⊢
      split at h
      · cases h
      · cases h
        exact ⟨_, rfl, by omega, rfl⟩
    | pentanomial k j l =>
      simp only at h ⊢
      split at h
      · cases h
      · split at h
        · cases h
        · split at h
          · cases h
          · cases h
            exact ⟨_, rfl, by omega, by omega, by omega, rfl⟩

/-- What a successful reading of a custom curve means. -/
theorem group_from_asn1_some {sq : QuadSolver} {spec : CustomCurveSpec} {t : KeyType} {g : EcGroup}
    (h : group_from_asn1 sq spec (t = .le) = some g) :
    (∃ arr, polyArray spec.m spec.poly = some arr ∧ g.p = arr2poly arr) ∧ (spec.a = 1 ∨ spec.a = 0) ∧
      (weight g.p = 3 ∨ weight g.p = 5) ∧
      g.a = gf2m_mod g.p spec.a.toNat ∧ g.b = gf2m_mod g.p (valueIn t spec.b) ∧ set_generator_ok g.p spec.n ∧
      (g.n : Int) = spec.n ∧ g.h = 1 ∧ ∃ c, bin2bn c = valueIn t spec.bp ∧ c.length = spec.bp.length ∧
        dstu_point_expand sq c g = some (g.gx, g.gy) := by
  unfold group_from_asn1 at h
  have hrev : ∀ l r, maybeReverseCopy (decide (t = .le)) l = some r → bin2bn r = valueIn t l ∧ r.length = l.length := by
    intro l r hr
    unfold maybeReverseCopy at hr
    unfold valueIn
    by_cases ht : t = .le
    · simp only [ht, decide_true, if_true] at hr ⊢
      split at hr
      · cases hr
      · rw [reverse_bytes_copy_eq] at hr
        cases hr
        refine ⟨?_, by simp⟩
        rw [bin2bn_eq, beValue, List.reverse_reverse]
    · simp only [ht, decide_false, if_false, Bool.false_eq_true] at hr ⊢
      cases hr
      exact ⟨bin2bn_eq _, rfl⟩
  split at h
  · cases h
  · rename_i arr harr
    simp only at h
    split at h
    · cases h
    · rename_i ha
      split at h
      · cases h
      · rename_i bb hbb
        split at h
        · cases h
        · rename_i p a b hnc
          split at h
          · cases h
          · rename_i bp hbp
            split at h
            · cases h
            · rename_i x y hxy
              split at h
              · rename_i hok
                cases h
                unfold new_curve_GF2m at hnc
                split at hnc
                · rename_i hw
                  cases hnc
                  obtain ⟨h1, _⟩ := hrev _ _ hbb
                  obtain ⟨h2, h3⟩ := hrev _ _ hbp
                  refine ⟨⟨arr, harr, rfl⟩, by tauto, hw, rfl, by simp only [h1], hok, ?_, rfl, bp, h2, h3, hxy⟩
                  have := hok.1
                  simp only
                  omega
                · cases hnc
              · cases h

/-- C37, where it holds: if the integers of the field description fit into a C `int`, malformed
parameters are rejected and the key is left as it was.  Missing: larger integers, see
`C37_malformed_refuted`. -/
theorem C37_malformed_rejected_partial (env : Env) (pk : EvpPkey) (der : List Byte) (params : AlgorithmParameters)
    (hd : env.codec.d2i der = some params) (hr : ∀ s, params.curve = .custom s → IntRange s) (hm : Malformed params) :
    dstu_asn1_param_decode env pk der = (false, pk) := by
  have : key_from_asn1 env.sq env.nids env.objs params (pk.type = .le) = none := by
    rcases hm with ⟨s, hs, hl⟩ | ⟨s, hs, hbad⟩
    · unfold key_from_asn1
      have : bytes64 s = none := by unfold bytes64; rw [dif_neg hl]
      simp only [hs, this]
    · have hg : curveGroup env.sq env.nids env.objs params.curve (pk.type = .le) = none := by
        rw [hs]
        simp only [curveGroup]
        cases hgg : group_from_asn1 env.sq s (pk.type = .le) with
        | none => rfl
        | some g =>
          exfalso
          obtain ⟨⟨arr, harr, _⟩, ha, _, _, _, hok, _⟩ := group_from_asn1_some hgg
          obtain ⟨h0, _, _, h1⟩ := polyArray_some harr
          obtain ⟨r0, r1⟩ := hr s hs
          rw [get_range _ r0] at h0
          rcases hbad with hb | hb | hb
          · rcases hb with hb | hb
            · omega
            · cases hp : s.poly with
              | trinomial k =>
                simp only [hp, TailOk] at hb r1 h1
                rw [get_range _ r1] at h1
                omega
              | pentanomial k j l =>
                simp only [hp, TailOk] at hb r1 h1
                rw [get_range _ r1.1, get_range _ r1.2.1, get_range _ r1.2.2] at h1
                omega
          · tauto
          · have := hok.1
            omega
      unfold key_from_asn1
      simp only [hg]
      split
      · rfl
      · split <;> rfl
  simp only [dstu_asn1_param_decode, hd, this]

/-- C37: a failed decoding leaves the key as it was. -/
theorem C37_failure_changes_nothing (env : Env) (pk pk' : EvpPkey) (der : List Byte)
    (h : dstu_asn1_param_decode env pk der = (false, pk')) : pk' = pk := by
  unfold dstu_asn1_param_decode at h
  split at h
  · exact (Prod.mk.inj h).2.symm
  · split at h
    · exact (Prod.mk.inj h).2.symm
    · cases (Prod.mk.inj h).1

/-- The exponents of the field polynomial that is described, in any order. -/
def exponents (s : CustomCurveSpec) : List Int :=
  match s.poly with
  | .trinomial k => [s.m, k, 0]
  | .pentanomial k j l => [s.m, k, j, l, 0]

/-- C37, the other side: if decoding succeeds then the input was decoded to parameters, the key has a
group, and no private or public part; an S-box has 64 bytes and is the effective one of the key; and for
a custom curve `a` is 0 or 1 and the one of the group, the order is positive and the one of the group,
`b` is the given element of the field, and the base point is a point of the curve. -/
theorem C37_accepted_sound (env : Env) (pk pk' : EvpPkey) (der : List Byte)
    (h : dstu_asn1_param_decode env pk der = (true, pk')) :
    ∃ params g s, env.codec.d2i der = some params ∧ pk' = ⟨pk.type, some ⟨some g, s, none, none⟩⟩ ∧
      (params.sbox = none → s = none) ∧
      (∀ l, params.sbox = some l → (effectiveSbox s).toList = l) ∧
      ∀ spec, params.curve = .custom spec →
        (spec.a = 0 ∨ spec.a = 1) ∧ (g.a : Int) = spec.a ∧ 0 < spec.n ∧ (g.n : Int) = spec.n ∧
        GF.ofNat g.p g.b = GF.ofNat g.p (valueIn pk.type spec.b) ∧ g.b < 2 ^ fieldDegree g.p ∧
        OnCurve (GF.ofNat g.p g.a) (GF.ofNat g.p g.b) (GF.ofNat g.p g.gx) (GF.ofNat g.p g.gy) ∧
        g.gx < 2 ^ fieldDegree g.p ∧ g.gy < 2 ^ fieldDegree g.p ∧ valueIn pk.type spec.bp < 2 ^ fieldDegree g.p ∧
        (IntRange spec → ∀ i : Nat, g.p.testBit i = true ↔ (i : Int) ∈ exponents spec) := by
  unfold dstu_asn1_param_decode at h
  split at h
  · cases (Prod.mk.inj h).1
  rename_i params hparams
  split at h
  · cases (Prod.mk.inj h).1
  rename_i key hkey
  have hpk := (Prod.mk.inj h).2
  have hcurve : ∀ g, curveGroup env.sq env.nids env.objs params.curve (pk.type = .le) = some g →
      ∀ spec, params.curve = .custom spec →
        (spec.a = 0 ∨ spec.a = 1) ∧ (g.a : Int) = spec.a ∧ 0 < spec.n ∧ (g.n : Int) = spec.n ∧
        GF.ofNat g.p g.b = GF.ofNat g.p (valueIn pk.type spec.b) ∧ g.b < 2 ^ fieldDegree g.p ∧
        OnCurve (GF.ofNat g.p g.a) (GF.ofNat g.p g.b) (GF.ofNat g.p g.gx) (GF.ofNat g.p g.gy) ∧
        g.gx < 2 ^ fieldDegree g.p ∧ g.gy < 2 ^ fieldDegree g.p ∧ valueIn pk.type spec.bp < 2 ^ fieldDegree g.p ∧
        (IntRange spec → ∀ i : Nat, g.p.testBit i = true ↔ (i : Int) ∈ exponents spec) := by
    intro g hg spec hspec
    rw [hspec] at hg
    simp only [curveGroup] at hg
    obtain ⟨⟨arr, harr, hp⟩, ha, hw, hga, hgb, hok, hn, _, c, hc, _, hexp⟩ := group_from_asn1_some hg
    obtain ⟨h0, tail, htail, h1⟩ := polyArray_some harr
    have hbit : g.p.testBit (asn1_integer_get spec.m).toNat = true := by
      rw [hp, htail]
      unfold arr2poly
      rw [List.takeWhile_cons_of_pos (by simp; omega), List.foldr_cons, Nat.testBit_or, Nat.testBit_two_pow_self]
      rfl
    have hgp : 1 < g.p := by
      have := Nat.ge_two_pow_of_testBit hbit
      have h2 : 2 ^ 1 ≤ 2 ^ (asn1_integer_get spec.m).toNat := Nat.pow_le_pow_right (by omega) (by omega)
      omega
    obtain ⟨_, e2, e3, e4, e5⟩ := expand_sound g hgp env.sq c _ _ hexp
    have hd := fieldDegree_pos hgp
    refine ⟨by tauto, ?_, hok.1, hn, ?_, ?_, e5, e3, e4, by rw [← hc]; exact e2, ?_⟩
    · have h1lt : spec.a.toNat < 2 ^ fieldDegree g.p := by
        have : 2 ^ 1 ≤ 2 ^ fieldDegree g.p := Nat.pow_le_pow_right (by omega) hd
        rcases ha with ha | ha <;> rw [ha] <;> simp <;> omega
      rw [hga, gf2m_mod, GF.toNat_ofNat g.p (by omega) _ h1lt]
      rcases ha with ha | ha <;> rw [ha] <;> rfl
    · rw [hgb, gf2m_mod, GF.ofNat_toNat g.p (by omega)]
    · rw [hgb, gf2m_mod]
      exact GF.toNat_lt g.p hgp _
    · intro hr i
      obtain ⟨r0, r1⟩ := hr
      rw [get_range _ r0] at h0 htail
      rw [hp, htail]
      unfold exponents
      obtain ⟨m', hm'⟩ := Int.eq_ofNat_of_zero_le (le_of_lt h0)
      cases hpoly : spec.poly with
      | trinomial k =>
        simp only [hpoly, TailOk] at r1 h1
        rw [get_range _ r1] at h1
        obtain ⟨k', hk'⟩ := Int.eq_ofNat_of_zero_le (le_of_lt h1.1)
        rw [h1.2, hm', hk']
        have := arr2poly_testBit [m', k', 0] i
        simp only [List.map_cons, List.map_nil, List.cons_append, List.nil_append] at this
        rw [show ([(m' : Int), (k' : Int), 0, -1] : List Int) = [Int.ofNat m', Int.ofNat k', Int.ofNat 0, -1] from rfl, this]
        simp
      | pentanomial k j l =>
        simp only [hpoly, TailOk] at r1 h1
        rw [get_range _ r1.1, get_range _ r1.2.1, get_range _ r1.2.2] at h1
        obtain ⟨k', hk'⟩ := Int.eq_ofNat_of_zero_le (le_of_lt h1.1)
        obtain ⟨j', hj'⟩ := Int.eq_ofNat_of_zero_le (le_of_lt h1.2.1)
        obtain ⟨l', hl'⟩ := Int.eq_ofNat_of_zero_le (le_of_lt h1.2.2.1)
        rw [h1.2.2.2, hm', hk', hj', hl']
        have := arr2poly_testBit [m', l', j', k', 0] i
        simp only [List.map_cons, List.map_nil, List.cons_append, List.nil_append] at this
        rw [show ([(m' : Int), (l' : Int), (j' : Int), (k' : Int), 0, -1] : List Int) =
          [Int.ofNat m', Int.ofNat l', Int.ofNat j', Int.ofNat k', Int.ofNat 0, -1] from rfl, this]
        simp
        tauto
  unfold key_from_asn1 at hkey
  simp only at hkey
  split at hkey
  · rename_i hs
    split at hkey
    · cases hkey
    · rename_i g hg
      cases hkey
      refine ⟨params, g, none, hparams, hpk.symm, fun _ => rfl, fun l hl => ?_, hcurve g hg⟩
      rw [hs] at hl
      cases hl
  · rename_i sb hs
    split at hkey
    · cases hkey
    · rename_i s64 hs64
      split at hkey
      · cases hkey
      · rename_i g hg
        cases hkey
        refine ⟨params, g, _, hparams, hpk.symm, fun h0 => ?_, fun l hl => ?_, hcurve g hg⟩
        · rw [hs] at h0
          cases h0
        · rw [hs] at hl
          cases hl
          have hl64 : s64.toList = sb := by
            unfold bytes64 at hs64
            split at hs64
            · cases hs64
              rfl
            · cases hs64
          by_cases hd : is_default_sbox s64 = true
          · rw [if_pos hd, effectiveSbox, Option.getD_none, ← (is_default_iff s64).mp hd]
            exact hl64
          · rw [if_neg hd]
            exact hl64

/-- C37 fails for integers that do not fit into a C `int`: for every key type there are parameters with
a negative degree whose encoding is accepted. -/
theorem C37_malformed_refuted (env : Env) (t : KeyType) (old : Option DstuKey) : ∃ s : CustomCurveSpec, s.m < 0 ∧
    Malformed ⟨.custom s, none⟩ ∧ env.codec.d2i (env.codec.i2d ⟨.custom s, none⟩) = some ⟨.custom s, none⟩ ∧
    ∃ key, dstu_asn1_param_decode env ⟨t, old⟩ (env.codec.i2d ⟨.custom s, none⟩) = (true, ⟨t, some key⟩) := by
  obtain ⟨_, _, _, _, hd, _, _, _, _, h1⟩ := numbers163
  obtain ⟨spec, _, hm, hg, hsm⟩ := custom_group_round_trip env.sq (g163with g163.gx (g163.gx ^^^ g163.gy)) negGen163
    (fun h => h1 h.1) (t = .le)
  have hm' : spec.m = 163 := by
    rw [hm]
    have : fieldDegree (g163with g163.gx (g163.gx ^^^ g163.gy)).p = 163 := hd
    rw [this]
    rfl
  have hneg : (163 : Int) - 2 ^ 32 < 0 := by norm_num
  have hd2 : env.codec.d2i (env.codec.i2d ⟨.custom { spec with m := 163 - 2 ^ 32 }, none⟩) =
      some ⟨.custom { spec with m := 163 - 2 ^ 32 }, none⟩ := by
    have := env.codec.inv ⟨.custom { spec with m := 163 - 2 ^ 32 }, none⟩ [] ⟨⟨show ((163 : Int) - 2 ^ 32).natAbs < 2 ^ 64 by decide, hsm.1.2⟩, fun _ h => by cases h⟩
    rw [List.append_nil] at this
    exact this
  refine ⟨{ spec with m := 163 - 2 ^ 32 }, hneg, Or.inr ⟨_, rfl, Or.inl (Or.inl (le_of_lt hneg))⟩, hd2, ?_⟩
  have hpa : polyArray (163 - 2 ^ 32) spec.poly = polyArray spec.m spec.poly := by
    have : asn1_integer_get (163 - 2 ^ 32) = asn1_integer_get 163 := by decide
    unfold polyArray
    rw [hm', this]
  have hg' : group_from_asn1 env.sq { spec with m := 163 - 2 ^ 32 } (t = .le) =
      some (g163with g163.gx (g163.gx ^^^ g163.gy)) := by
    rw [← hg]
    unfold group_from_asn1
    rw [hpa]
  simp only [dstu_asn1_param_decode, hd2, key_from_asn1, curveGroup, hg']
  exact ⟨_, rfl⟩

/-- The hypotheses of the rejection are met, e.g. by a named curve with an S-box of 3 bytes, and by a
trinomial field of degree 0. -/
example : Malformed ⟨.named [0x2a], some [1, 2, 3]⟩ ∧
    Malformed ⟨.custom ⟨0, .trinomial 1, 1, [1], 5, [1]⟩, none⟩ ∧ IntRange ⟨0, .trinomial 1, 1, [1], 5, [1]⟩ := by
  refine ⟨Or.inl ⟨_, rfl, by decide⟩, Or.inr ⟨_, rfl, Or.inl (Or.inl (le_refl _))⟩, ?_⟩
  unfold IntRange
  norm_num

example : dstu_asn1_param_decode envEx ⟨.be, none⟩ (derParams ⟨.custom ⟨0, .trinomial 1, 1, [1], 5, [1]⟩, none⟩) =
    (false, ⟨.be, none⟩) := by
  apply C37_malformed_rejected_partial envEx _ _ ⟨.custom ⟨0, .trinomial 1, 1, [1], 5, [1]⟩, none⟩
  · have := derCodec.inv ⟨.custom ⟨0, .trinomial 1, 1, [1], 5, [1]⟩, none⟩ []
      ⟨⟨by decide, by decide, by decide, by decide, lt_of_lt_of_le (show (5 : Int).natAbs < 256 ^ 1 by decide)
        (Nat.pow_le_pow_right (by omega) (by norm_num)), by decide⟩, fun _ h => by cases h⟩
    rw [List.append_nil] at this
    exact this
  · intro s hs
    cases hs
    unfold IntRange
    norm_num
  · exact Or.inr ⟨_, rfl, Or.inl (Or.inl (le_refl _))⟩

/-! ### C38 -/

/-- C38, where it holds.  Comparing keys that have groups: the result is 1 iff the groups agree in every
parameter and the keys both lack an S-box or have the same one. -/
theorem cmp_iff (t u : KeyType) (k l : DstuKey) (g h : EcGroup) (hk : k.group = some g) (hl : l.group = some h) :
    dstu_asn1_param_cmp ⟨t, some k⟩ ⟨u, some l⟩ = some (if g = h ∧ k.sbox = l.sbox then 1 else 0) := by
  unfold dstu_asn1_param_cmp
  simp only [hk, hl]
  cases hs : k.sbox with
  | none => cases hr : l.sbox <;> simp <;> split <;> rfl
  | some s =>
    cases hr : l.sbox with
    | none => simp
    | some r =>
      by_cases he : s = r
      · subst he
        simp
        split <;> rfl
      · simp [he]

/-- Two keys whose parameters are reported equal. -/
def ParamEq (a b : EvpPkey) : Prop := dstu_asn1_param_cmp a b = some 1

/-- A key with a group. -/
def HasGroup (a : EvpPkey) : Prop := ∃ k g, a.key = some k ∧ k.group = some g

/-- C38, first part: on keys with groups, parameter comparison is reflexive, symmetric and transitive,
and never undefined. -/
theorem C38_equivalence (a b c : EvpPkey) (ha : HasGroup a) (hb : HasGroup b) (hc : HasGroup c) :
    ParamEq a a ∧ (ParamEq a b → ParamEq b a) ∧ (ParamEq a b → ParamEq b c → ParamEq a c) ∧
      dstu_asn1_param_cmp a b ≠ none := by
  obtain ⟨ta, ka⟩ := a
  obtain ⟨tb, kb⟩ := b
  obtain ⟨tc, kc⟩ := c
  obtain ⟨k, g, rfl, hg⟩ := ha
  obtain ⟨l, h, rfl, hh⟩ := hb
  obtain ⟨m, i, rfl, hi⟩ := hc
  unfold ParamEq
  rw [cmp_iff _ _ _ _ _ _ hg hg, cmp_iff _ _ _ _ _ _ hg hh, cmp_iff _ _ _ _ _ _ hh hg, cmp_iff _ _ _ _ _ _ hh hi,
    cmp_iff _ _ _ _ _ _ hg hi]
  have one : ∀ P : Prop, ∀ [Decidable P], (some (if P then (1 : Int) else 0) = some 1 ↔ P) := by
    intro P _
    split <;> simp_all
  simp only [one]
  refine ⟨by simp, fun h => ⟨h.1.symm, h.2.symm⟩, fun h1 h2 => ⟨h1.1.trans h2.1, h1.2.trans h2.2⟩, by simp⟩

/-- C38, for all keys with a curve: what is compared is the curve and the S-box as it is stored, where no S-box and a copy of the default one are
different. -/
theorem C38_exactly (t u : KeyType) (k l : DstuKey) (g h : EcGroup) (hk : k.group = some g) (hl : l.group = some h) :
    (dstu_asn1_param_cmp ⟨t, some k⟩ ⟨u, some l⟩ = some 1 ↔ g = h ∧ k.sbox = l.sbox) ∧
    (dstu_asn1_param_cmp ⟨t, some k⟩ ⟨u, some l⟩ = some 0 ↔ ¬ (g = h ∧ k.sbox = l.sbox)) := by
  rw [cmp_iff t u k l g h hk hl]
  by_cases e : g = h ∧ k.sbox = l.sbox
  · simp [e]
  · rw [if_neg e]
    exact ⟨⟨fun h => (by cases h), fun h => absurd h e⟩, fun _ => e, fun _ => rfl⟩

/-- C38, second part, where it holds: for keys of which neither carries an explicit copy of the default
S-box, comparison reports equality iff curve and effective S-box agree.  Missing: explicit copies, see
`C38_effective_refuted`. -/
theorem C38_effective_partial (a b : EvpPkey) (k l : DstuKey) (g h : EcGroup) (ha : a.key = some k) (hb : b.key = some l)
    (hk : k.group = some g) (hl : l.group = some h) (nk : k.sbox ≠ some default_sbox) (nl : l.sbox ≠ some default_sbox) :
    ParamEq a b ↔ g = h ∧ effectiveSbox k.sbox = effectiveSbox l.sbox := by
  obtain ⟨ta, ka⟩ := a
  obtain ⟨tb, kb⟩ := b
  simp only at ha hb
  subst ha hb
  unfold ParamEq
  rw [cmp_iff _ _ _ _ _ _ hk hl]
  have hs : k.sbox = l.sbox ↔ effectiveSbox k.sbox = effectiveSbox l.sbox := by
    unfold effectiveSbox
    cases hs : k.sbox with
    | none =>
      cases hr : l.sbox with
      | none => simp
      | some r =>
        rw [hr] at nl
        simp only [Option.getD_none, Option.getD_some, reduceCtorEq, false_iff]
        intro h
        exact nl (by rw [h])
    | some s =>
      cases hr : l.sbox with
      | none =>
        rw [hs] at nk
        simp only [Option.getD_none, Option.getD_some, reduceCtorEq, false_iff]
        intro h
        exact nk (by rw [h])
      | some r => simp
  rw [← hs]
  split <;> simp_all

/-- Keys with different S-boxes on the curve of degree 163 meet the hypotheses and are told apart. -/
example : ParamEq ⟨.le, some ⟨some g163, none, none, none⟩⟩ ⟨.be, some ⟨some g163, none, some 5, none⟩⟩ ∧
    ¬ ParamEq ⟨.le, some ⟨some g163, none, none, none⟩⟩ ⟨.le, some (keyEx163 g163)⟩ := by
  have hne : (Vector.replicate 64 0x5a : Vector Byte 64) ≠ default_sbox := by decide +kernel
  constructor
  · exact (C38_effective_partial _ _ ⟨some g163, none, none, none⟩ ⟨some g163, none, some 5, none⟩ g163 g163 rfl rfl rfl rfl
      (by simp) (by simp)).mpr ⟨rfl, rfl⟩
  · intro h
    have := ((C38_effective_partial _ _ ⟨some g163, none, none, none⟩ (keyEx163 g163) g163 g163 rfl rfl rfl rfl
      (by simp) (fun h => hne (Option.some.inj h))).mp h).2
    exact hne this.symm

/-- C38 fails for explicit copies of the default S-box: on every built-in curve there is a key that is
reported different from the key one gets by encoding and decoding its parameters, although curve and
effective S-box are the same. -/
theorem C38_effective_refuted (env : Env) (i : Fin 10) (t : KeyType) : ∃ k l : DstuKey, ∃ der, k.group = l.group ∧
    effectiveSbox k.sbox = effectiveSbox l.sbox ∧ dstu_asn1_param_encode env ⟨t, some k⟩ = some der ∧
    dstu_asn1_param_decode env ⟨t, none⟩ der = (true, ⟨t, some l⟩) ∧
    dstu_asn1_param_cmp ⟨t, some k⟩ ⟨t, some l⟩ = some 0 := by
  obtain ⟨c, g, _, hg, _⟩ := C33_curve_table_sound env.nids i
  obtain ⟨g', h1, h2⟩ := C34_identifier_round_trip env.nids i
  have : g' = g := by
    rw [group_from_nid_uacurve, hg] at h1
    exact (Option.some.inj h1).symm
  subst this
  have hne := env.nids.defined i
  have hdef : is_default_sbox default_sbox = true := (is_default_iff _).mpr rfl
  have hsm : (⟨.named (env.objs.nid2obj (env.nids.uacurve i)), none⟩ : AlgorithmParameters).Small :=
    ⟨env.objs.valid i, fun l hl => by cases hl⟩
  have hd := env.codec.inv _ [] hsm
  rw [List.append_nil] at hd
  refine ⟨⟨some g', some default_sbox, none, none⟩, ⟨some g', none, none, none⟩,
    env.codec.i2d ⟨.named (env.objs.nid2obj (env.nids.uacurve i)), none⟩, rfl, rfl, ?_, ?_, ?_⟩
  · simp only [dstu_asn1_param_encode, asn1_from_key, h2, NID_undef, hne, if_false, encodedSbox, hdef, if_true]
  · simp only [dstu_asn1_param_decode]
    rw [hd]
    simp only [key_from_asn1, curveGroup, env.objs.inv, h1]
    rfl
  · rw [cmp_iff _ _ _ _ _ _ rfl rfl]
    simp

/-- `C37_accepted_sound`: the encoded parameters of a key on the 163-bit curve are accepted. -/
example : ∃ der params g s, dstu_asn1_param_encode envEx ⟨.le, some (keyEx163 g163)⟩ = some der ∧ envEx.codec.d2i der = some params ∧
    dstu_asn1_param_decode envEx ⟨.le, none⟩ der = (true, ⟨.le, some ⟨some g, s, none, none⟩⟩) ∧ (∀ l, params.sbox = some l → (effectiveSbox s).toList = l) := by
  obtain ⟨der, s, h1, h2, h3⟩ := C35_named_round_trip envEx 0 g163 (g163_named _) .le (keyEx163 g163) rfl none []
  rw [List.append_nil] at h2
  obtain ⟨params, g, s', h4, h5, _, h6, _⟩ := C37_accepted_sound envEx _ _ der h2
  rw [h5] at h2
  exact ⟨der, params, g, s', h1, h4, h2, h6⟩

/-- Parameters that differ in the S-box only. -/
example : dstu_asn1_param_cmp ⟨.le, some ⟨some g163, none, none, none⟩⟩ ⟨.be, some ⟨some g163, some default_sbox, none, none⟩⟩ = some 0 :=
  (C38_exactly .le .be _ _ g163 g163 rfl rfl).2.mpr (by simp)

/-- An empty encoding is refused by a decoder that refuses it. -/
example (env : Env) (h : env.codec.d2i [] = none) (pk : EvpPkey) : (dstu_asn1_param_decode env pk []).2 = pk := by
  refine C37_failure_changes_nothing env pk _ [] ?_
  unfold dstu_asn1_param_decode
  rw [h]

end Dstu.Props
