import Verif.Model.ImportFaults
import Verif.Props.KeyFaults
import Verif.Props.Builtin

/-! Property C127: failures of library calls and the keys that are imported. -/

namespace Dstu.Props

open Spec Flt

/-! ### Built-in curves -/

/-- A group from an entry of the table, with the coefficient `a` given. -/
noncomputable def entryWith (c : NamedCurve) (a : Nat) : Option EcGroup := do
  let bytesize := ((c.poly.headD 0).toNat + 7) / 8
  guard (1 + 4 * bytesize ≤ c.data.length)
  let p := arr2poly c.poly
  let data := c.data.drop 1
  let b := bin2bn (data.take bytesize)
  let data := data.drop bytesize
  let (p, a, b) ← new_curve_GF2m p a b
  let N := bin2bn (data.take bytesize)
  let data := data.drop bytesize
  let Px := bin2bn (data.take bytesize)
  let data := data.drop bytesize
  let Py := bin2bn (data.take bytesize)
  let (x, y) ← set_affine p a b Px Py
  return ⟨p, a, b, x, y, N, 1⟩

theorem entry_cases (c : NamedCurve) (w : Nat → Bool) (t t' : Ticks) (g : EcGroup) (h : Dstu.Faulty.groupOfEntry c w t = (.done g, t')) :
    (groupOfEntry c = some g ∧ t'.faults = t.faults) ∨ (c.data.headD 0 ≠ 0 ∧ entryWith c 0 = some g) := by
  unfold Dstu.Faulty.groupOfEntry at h
  simp only at h
  by_cases hl : 1 + 4 * (((c.poly.headD 0).toNat + 7) / 8) ≤ c.data.length
  · rw [if_pos hl] at h
    obtain ⟨_, t1, e1, e2⟩ := bind_done h
    have f1 := checks_done e1
    obtain ⟨one, t2, e3, e4⟩ := bind_done e2
    obtain ⟨_, t3, e5, e6⟩ := bind_done e4
    have f3 := checks_done e5
    obtain ⟨⟨p, a, b⟩, t4, e7, e8⟩ := bind_done e6
    obtain ⟨v1, v2⟩ := value_done e7
    obtain ⟨_, t5, e9, e10⟩ := bind_done e8
    have f5 := checks_done e9
    obtain ⟨⟨x, y⟩, t6, e11, e12⟩ := bind_done e10
    obtain ⟨v3, v4⟩ := value_done e11
    obtain ⟨_, t7, e13, e14⟩ := bind_done e12
    have f7 := check_done e13
    obtain ⟨p1, p2⟩ := pure_done (α := EcGroup) e14
    have hf : t'.faults = t2.faults := by rw [← p2, f7, ← v4, f5, ← v2, f3]
    have key : entryWith c (if one then 1 else 0) = some g := by
      unfold entryWith
      simp only [hl, guard_true, Option.pure_def, Option.bind_eq_bind, Option.bind_some]
      simp only at v3
      rw [v1]
      simp only [Option.bind_some]
      rw [v3, ← p1]
      rfl
    unfold Dstu.Faulty.setOne at e3
    by_cases h0 : c.data.headD 0 ≠ 0
    · rw [if_pos h0] at e3
      rcases ask_cases e3 with ⟨rfl, f2⟩ | ⟨rfl, f2⟩
      · left
        refine ⟨?_, by rw [hf, f2, f1]⟩
        unfold groupOfEntry
        unfold entryWith at key
        rw [if_pos h0]
        exact key
      · exact Or.inr ⟨h0, key⟩
    · rw [if_neg h0] at e3
      obtain ⟨q1, q2⟩ := pure_done (α := Bool) e3
      left
      refine ⟨?_, by rw [hf, ← q2, f1]⟩
      unfold groupOfEntry
      unfold entryWith at key
      rw [if_neg h0]
      rw [← q1] at key
      exact key
  · rw [if_neg hl] at h
    exact (err_done h).elim

theorem gen_x_ne (g : EcGroup) [h : GoodGroup g] (hn : g.n % 2 = 1) : GF.ofNat g.p g.gx ≠ 0 := by
  intro h0
  have hns := binCurve_nonsingular (goodGroup_b g) h.valid.onCurve
  obtain ⟨_, _, hx, _⟩ := round_trip_facts hn _ _ hns (h.valid.order hns) (by
    rintro ⟨h1, _⟩
    rw [h0] at h1
    exact zero_ne_one h1)
  exact hx h0

/-- A group from the table is the right one, and nothing failed. -/
theorem entry_done (nids : CurveNids) (i : Nat) (hi : i < 10) (c : NamedCurve) (v3 : (dstu_curves nids)[i]? = some c) (w : Nat → Bool) (t2 t' : Ticks)
    (g : EcGroup) (e4 : Dstu.Faulty.groupOfEntry c w t2 = (.done g, t')) : groupOfEntry c = some g ∧ t'.faults = t2.faults := by
  rcases entry_cases c w t2 t' g e4 with hk | ⟨k1, k2⟩
  · exact hk
  · exfalso
    obtain ⟨m, ks, hm, he⟩ := table_check nids (⟨i, hi⟩ : Fin 10) c v3
    have hg := entry_group he
    have hgn : group_from_named_curve nids ((⟨i, hi⟩ : Fin 10) : Nat) = some (entryGroup c m) := by
      unfold group_from_named_curve
      simp only
      rw [v3]
      exact hg
    have hD := named_dstu nids ⟨i, hi⟩ _ hgn
    have := hD.good
    have hx := gen_x_ne (entryGroup c m) hD.n_odd
    have hone := hD.good.valid.onCurve
    unfold groupOfEntry at hg
    unfold entryWith at k2
    rw [if_pos k1] at hg
    simp only [he.head, Int.toNat_natCast, he.length, guard_true, Option.pure_def, Option.bind_eq_bind, Option.bind_some] at hg k2
    generalize bin2bn ((c.data.drop 1).take ((m + 7) / 8)) = b at hg k2
    generalize bin2bn ((((c.data.drop 1).drop ((m + 7) / 8)).drop ((m + 7) / 8)).take ((m + 7) / 8)) = x at hg k2
    generalize bin2bn (((((c.data.drop 1).drop ((m + 7) / 8)).drop ((m + 7) / 8)).drop ((m + 7) / 8)).take ((m + 7) / 8)) = y at hg k2
    unfold new_curve_GF2m at hg k2
    by_cases hw : weight (arr2poly c.poly) = 3 ∨ weight (arr2poly c.poly) = 5
    · rw [if_pos hw] at hg k2
      simp only [Option.bind_some] at hg k2
      unfold set_affine at hg k2
      split at k2
      · rename_i hc0
        split at hg
        · rename_i hc1
          simp only [Option.bind_some, Option.some.injEq] at hg
          have ex : x = (entryGroup c m).gx := by rw [← hg]
          have hir : Irreducible (bitPoly (arr2poly c.poly)) := hD.good.valid.irreducible
          have : Fact (Irreducible (bitPoly (arr2poly c.poly))) := ⟨hir⟩
          have hx' : GF.ofNat (arr2poly c.poly) x ≠ 0 := by
            rw [ex]
            exact hx
          have hp : arr2poly c.poly ≠ 0 := by have := irreducible_pos _ hir; omega
          have hpos : 0 < fieldDegree (arr2poly c.poly) := by
            unfold fieldDegree
            rw [he.poly, he.log2]
            exact he.prime.pos
          have e1 : gf2m_mod (arr2poly c.poly) 1 = 1 := gf2m_mod_eq _ _ hp (Nat.one_lt_two_pow hpos.ne')
          have e0 : gf2m_mod (arr2poly c.poly) 0 = 0 := gf2m_mod_eq _ _ hp (Nat.two_pow_pos _)
          rw [e0, GF.ofNat_zero] at hc0
          rw [e1, GF.ofNat_one] at hc1
          unfold OnCurve at hc0 hc1
          have : GF.ofNat (arr2poly c.poly) x ^ 2 = 0 := by linear_combination hc0 - hc1
          exact hx' (pow_eq_zero_iff (by norm_num) |>.mp this)
        · simp at hg
      · simp at k2
    · rw [if_neg hw] at hg
      simp at hg

/-- C127, built-in curves: whatever calls fail, also the one for the coefficient that is not checked, a group that is returned is the one returned when
nothing fails, and nothing failed. -/
theorem C127_named (nids : CurveNids) (nid : Nat) (w : Nat → Bool) (t t' : Ticks) (g : EcGroup)
    (h : Dstu.Faulty.group_from_nid nids nid w t = (.done g, t')) : group_from_nid nids nid = some g ∧ t'.faults = t.faults := by
  unfold Dstu.Faulty.group_from_nid at h
  obtain ⟨i, t1, e1, e2⟩ := bind_done h
  obtain ⟨v1, v2⟩ := value_done e1
  obtain ⟨c, t2, e3, e4⟩ := bind_done e2
  obtain ⟨v3, v4⟩ := value_done e3
  have hi : i < 10 := by
    have := (List.getElem?_eq_some_iff.mp v3).1
    exact this
  have hgo : group_from_nid nids nid = groupOfEntry c := by
    unfold group_from_nid group_from_named_curve
    rw [v1]
    simp only [Option.bind_eq_bind, Option.bind_some]
    rw [v3]
    rfl
  obtain ⟨k1, k2⟩ := entry_done nids i hi c v3 w t2 t' g e4
  exact ⟨by rw [hgo, k1], by rw [k2, ← v4, ← v2]⟩

/-! ### Curves that are given by their parameters -/

/-- C127, other curves: whatever calls fail, if a group is returned then nothing failed and it is the one returned when nothing fails, or exactly one call
failed, in the expansion of the base point, and everything but the base point is as it should be. -/
theorem C127_custom_partial (sq : QuadSolver) (spec : CustomCurveSpec) (le : Bool) (w : Nat → Bool) (t t' : Ticks) (g : EcGroup)
    (h : Dstu.Faulty.group_from_asn1 sq spec le w t = (.done g, t')) :
    (group_from_asn1 sq spec le = some g ∧ t'.faults = t.faults) ∨
      (t'.faults = t.faults + 1 ∧ ∃ bp, maybeReverseCopy le spec.bp = some bp ∧ bin2bn bp ≠ 0 ∧
        expandWith sq (fun _ _ => -1) bp ⟨g.p, g.a, g.b, 0, 0, 0, 0⟩ = some (g.gx, g.gy) ∧
        ∀ x y, dstu_point_expand sq bp ⟨g.p, g.a, g.b, 0, 0, 0, 0⟩ = some (x, y) → group_from_asn1 sq spec le = some { g with gx := x, gy := y }) := by
  unfold Dstu.Faulty.group_from_asn1 at h
  unfold group_from_asn1
  obtain ⟨poly, t1, e1, e2⟩ := bind_done h
  obtain ⟨v1, v2⟩ := value_done e1
  rw [v1]
  obtain ⟨_, t2, e3, e4⟩ := bind_done e2
  have f2 := checks_done e3
  simp only at e4 ⊢
  by_cases ha : spec.a ≠ 1 ∧ spec.a ≠ 0
  · rw [if_pos ha] at e4
    exact (err_done e4).elim
  rw [if_neg ha] at e4 ⊢
  obtain ⟨_, t3, e5, e6⟩ := bind_done e4
  have f3 := checks_done e5
  obtain ⟨bb, t4, e7, e8⟩ := bind_done e6
  obtain ⟨v3, v4⟩ := value_done e7
  rw [v3]
  obtain ⟨_, t5, e9, e10⟩ := bind_done e8
  have f5 := checks_done e9
  obtain ⟨⟨p, a, b⟩, t6, e11, e12⟩ := bind_done e10
  obtain ⟨v5, v6⟩ := value_done e11
  simp only at e12 ⊢
  rw [v5]
  obtain ⟨_, t7, e13, e14⟩ := bind_done e12
  have f7 := checks_done e13
  obtain ⟨bp, t8, e15, e16⟩ := bind_done e14
  obtain ⟨v7, v8⟩ := value_done e15
  simp only
  rw [v7]
  obtain ⟨⟨x, y⟩, t9, e17, e18⟩ := bind_done e16
  obtain ⟨_, t10, e19, e20⟩ := bind_done e18
  have f10 := check_done e19
  simp only at e20 ⊢
  by_cases hs : set_generator_ok p spec.n
  · rw [if_pos hs] at e20
    obtain ⟨p1, p2⟩ := pure_done (α := EcGroup) e20
    have hf : t8.faults = t.faults := by rw [← v8, f7, ← v6, f5, ← v4, f3, f2, ← v2]
    rcases expand_cases sq bp _ w t8 t9 (x, y) e17 with ⟨k1, k2⟩ | ⟨k1, k2, k3⟩
    · left
      rw [k1]
      exact ⟨by simp only [if_pos hs, p1], by rw [← p2, f10, k2, hf]⟩
    · right
      subst p1
      refine ⟨by rw [← p2, f10, k3, hf], bp, rfl, k2, k1, fun x' y' hxy => ?_⟩
      simp only at hxy
      rw [hxy]
      simp only [if_pos hs]
  · rw [if_neg hs] at e20
    exact (err_done e20).elim

/-! ### Parameters -/

theorem sbox_done (sbox : Option (List Byte)) (w : Nat → Bool) (t t' : Ticks) (s : Option (Bytes 64))
    (h : Dstu.Faulty.keySbox sbox w t = (.done s, t')) :
    t'.faults = t.faults ∧ ((sbox = none ∧ s = none) ∨ ∃ l b, sbox = some l ∧ bytes64 l = some b ∧ s = if is_default_sbox b then none else some b) := by
  unfold Dstu.Faulty.keySbox at h
  cases sbox with
  | none =>
    obtain ⟨p1, p2⟩ := pure_done (α := Option (Bytes 64)) h
    exact ⟨by rw [p2], Or.inl ⟨rfl, p1.symm⟩⟩
  | some l =>
    obtain ⟨b, t1, e1, e2⟩ := bind_done h
    obtain ⟨v1, v2⟩ := value_done e1
    by_cases hd : is_default_sbox b = true
    · rw [if_pos hd] at e2
      obtain ⟨p1, p2⟩ := pure_done (α := Option (Bytes 64)) e2
      exact ⟨by rw [← p2, v2], Or.inr ⟨l, b, rfl, v1, by rw [if_pos hd, p1]⟩⟩
    · rw [if_neg hd] at e2
      obtain ⟨_, t2, e3, e4⟩ := bind_done e2
      have f2 := check_done e3
      obtain ⟨p1, p2⟩ := pure_done (α := Option (Bytes 64)) e4
      exact ⟨by rw [← p2, f2, v2], Or.inr ⟨l, b, rfl, v1, by rw [if_neg hd, p1]⟩⟩

theorem key_from_asn1_of (sq : QuadSolver) (nids : CurveNids) (objs : ObjTable nids) (params : AlgorithmParameters) (le : Bool) (s : Option (Bytes 64))
    (g : EcGroup) (hs : (params.sbox = none ∧ s = none) ∨ ∃ l b, params.sbox = some l ∧ bytes64 l = some b ∧ s = if is_default_sbox b then none else some b)
    (hg : curveGroup sq nids objs params.curve le = some g) :
    key_from_asn1 sq nids objs params le = some ⟨some g, s, none, none⟩ := by
  unfold key_from_asn1
  rcases hs with ⟨h1, h2⟩ | ⟨l, b, h1, h2, h3⟩
  · simp only [h1, h2, hg]
    rfl
  · simp only [h1, h2, h3, hg]
    rfl

theorem key_group {sq : QuadSolver} {nids : CurveNids} {objs : ObjTable nids} {params : AlgorithmParameters} {le : Bool} {k : DstuKey}
    (h : key_from_asn1 sq nids objs params le = some k) : curveGroup sq nids objs params.curve le = k.group := by
  unfold key_from_asn1 at h
  cases hg : curveGroup sq nids objs params.curve le with
  | none =>
    rw [hg] at h
    simp only at h
    split at h
    · cases h
    · split at h <;> cases h
  | some g =>
    rw [hg] at h
    simp only at h
    split at h
    · cases h
      rfl
    · split at h <;> cases h
      rfl

/-- The groups of known identifiers are valid. -/
theorem nid_good (nids : CurveNids) (nid : Nat) (g : EcGroup) (h : group_from_nid nids nid = some g) : GoodGroup g := by
  unfold group_from_nid at h
  cases hi : (dstu_curves nids).findIdx? (fun c => nid = c.nid) with
  | none => simp [hi] at h
  | some i =>
    rw [hi] at h
    simp only [Option.bind_eq_bind, Option.bind_some] at h
    have hlt : i < 10 := by
      by_contra hge
      unfold group_from_named_curve at h
      rw [List.getElem?_eq_none (by exact Nat.le_of_not_lt hge)] at h
      simp at h
    exact (named_dstu nids ⟨i, hlt⟩ g h).good

/-- C127, parameters: whatever calls fail, if parameters are imported then the key has a group and an S-box only, the S-box that is given, and for a
built-in curve nothing failed and the key is the one made when nothing fails; for another curve at most one call failed, and if none then the key
is the one made when nothing fails. -/
theorem C127_params (env : Env) (type : KeyType) (old : Option DstuKey) (der : List Byte) (params : AlgorithmParameters)
    (hd : env.codec.d2i der = some params) (w : Nat → Bool) (t t' : Ticks)
    (key : DstuKey) (h : Dstu.Faulty.dstu_asn1_param_decode env type der w t = (.done key, t')) :
    (∃ g s, key = ⟨some g, s, none, none⟩ ∧ (params.sbox = none → s = none) ∧ ∀ l, params.sbox = some l → (effectiveSbox s).toList = l) ∧
    ((dstu_asn1_param_decode env ⟨type, old⟩ der = (true, ⟨type, some key⟩) ∧ t'.faults = t.faults) ∨
      (t'.faults = t.faults + 1 ∧ ∃ spec, params.curve = .custom spec)) := by
  unfold Dstu.Faulty.dstu_asn1_param_decode at h
  obtain ⟨_, t1, e1, e2⟩ := bind_done h
  have f1 := check_done e1
  obtain ⟨ps, t2, e3, e4⟩ := bind_done e2
  obtain ⟨v1, v2⟩ := value_done e3
  rw [hd, Option.some.injEq] at v1
  subst v1
  obtain ⟨key', t3, e5, e6⟩ := bind_done e4
  obtain ⟨_, t4, e7, e8⟩ := bind_done e6
  have f4 := check_done e7
  obtain ⟨p1, p2⟩ := pure_done (α := DstuKey) e8
  subst p1
  unfold Dstu.Faulty.key_from_asn1 at e5
  obtain ⟨_, u1, d1, d2⟩ := bind_done e5
  have g1 := checks_done d1
  obtain ⟨s, u2, d3, d4⟩ := bind_done d2
  obtain ⟨g2, hs⟩ := sbox_done _ w u1 u2 s d3
  obtain ⟨g, u3, d5, d6⟩ := bind_done d4
  obtain ⟨_, u4, d7, d8⟩ := bind_done d6
  have g4 := check_done d7
  obtain ⟨q1, q2⟩ := pure_done (α := DstuKey) d8
  have hk : key' = ⟨some g, s, none, none⟩ := by rw [← q1]; rfl
  have hfin : t'.faults = u3.faults := by rw [← p2, f4, ← q2, g4]
  have hstart : u2.faults = t.faults := by rw [g2, g1, ← v2, f1]
  refine ⟨⟨g, s, hk, ?_, ?_⟩, ?_⟩
  · intro hn
    rcases hs with ⟨_, h2⟩ | ⟨l, b, h1, _⟩
    · exact h2
    · rw [hn] at h1
      cases h1
  · intro l hl
    rcases hs with ⟨h1, _⟩ | ⟨l', b, h1, h2, h3⟩
    · rw [hl] at h1
      cases h1
    · rw [hl, Option.some.injEq] at h1
      subst h1
      have hb : b.toList = l := by
        unfold bytes64 at h2
        split at h2
        · cases h2
          rfl
        · cases h2
      rw [h3]
      split
      · rename_i hdef
        rw [← hb, (is_default_iff b).mp hdef]
        rfl
      · exact hb
  · have fin : curveGroup env.sq env.nids env.objs params.curve (type = .le) = some g → u3.faults = u2.faults →
        dstu_asn1_param_decode env ⟨type, old⟩ der = (true, ⟨type, some key'⟩) ∧ t'.faults = t.faults := by
      intro hg hu
      refine ⟨?_, by rw [hfin, hu, hstart]⟩
      unfold dstu_asn1_param_decode
      simp only [hd]
      rw [key_from_asn1_of env.sq env.nids env.objs params _ s g hs hg, hk]
    cases hcu : params.curve with
    | named oid =>
      rw [hcu] at d5 fin
      obtain ⟨k1, k2⟩ := C127_named env.nids _ w u2 u3 g d5
      exact Or.inl (fin k1 k2)
    | custom spec =>
      rw [hcu] at d5 fin
      rcases C127_custom_partial env.sq spec _ w u2 u3 g d5 with ⟨k1, k2⟩ | ⟨k1, _⟩
      · exact Or.inl (fin k1 k2)
      · exact Or.inr ⟨by rw [hfin, k1, hstart], spec, rfl⟩

/-! ### Private keys -/

/-- C127, private keys: whatever calls fail, if a private key is imported then it is the one imported when nothing fails and nothing failed, or exactly one
call failed and the curve is given by its parameters. -/
theorem C127_private (env : Env) (old : EvpPkey) (p8 : Pkcs8) (der : List Byte) (params : AlgorithmParameters) (hp : p8.params = some der)
    (hd : env.codec.d2i der = some params) (w : Nat → Bool) (t t' : Ticks) (pk : EvpPkey)
    (h : Dstu.Faulty.dstu_asn1_priv_decode env p8 w t = (.done pk, t')) :
    (dstu_asn1_priv_decode env old p8 = (true, pk) ∧ t'.faults = t.faults) ∨ (t'.faults = t.faults + 1 ∧ ∃ spec, params.curve = .custom spec) := by
  unfold Dstu.Faulty.dstu_asn1_priv_decode at h
  obtain ⟨_, t1, e1, e2⟩ := bind_done h
  have f1 := check_done e1
  obtain ⟨ty, t2, e3, e4⟩ := bind_done e2
  obtain ⟨v1, v2⟩ := value_done e3
  obtain ⟨_, t3, e5, e6⟩ := bind_done e4
  have f3 := check_done e5
  obtain ⟨pr, t4, e7, e8⟩ := bind_done e6
  obtain ⟨v3, v4⟩ := value_done e7
  rw [hp, Option.some.injEq] at v3
  subst v3
  obtain ⟨key, t5, e9, e10⟩ := bind_done e8
  obtain ⟨⟨g, s, hkey, _⟩, hrest⟩ := C127_params env ty none der params hd w t4 t5 key e9
  subst hkey
  by_cases h0 : p8.prk.length = 0
  · rw [if_pos h0] at e10
    exact (err_done e10).elim
  rw [if_neg h0] at e10
  obtain ⟨_, t6, e11, e12⟩ := bind_done e10
  have f6 := checks_done e11
  obtain ⟨bytes, t7, e13, e14⟩ := bind_done e12
  obtain ⟨v5, v6⟩ := value_done e13
  obtain ⟨_, t8, e15, e16⟩ := bind_done e14
  have f8 := check_done e15
  obtain ⟨g', t9, e17, e18⟩ := bind_done e16
  obtain ⟨v7, v8⟩ := value_done e17
  simp only [Option.some.injEq] at v7
  subst v7
  obtain ⟨_, t10, e19, e20⟩ := bind_done e18
  have f10 := checks_done e19
  obtain ⟨Q, t11, e21, e22⟩ := bind_done e20
  obtain ⟨v9, v10⟩ := value_done e21
  obtain ⟨p1, p2⟩ := pure_done (α := EvpPkey) e22
  have hfin : t'.faults = t5.faults := by rw [← p2, ← v10, f10, ← v8, f8, ← v6, f6]
  have hstart : t4.faults = t.faults := by rw [← v4, f3, ← v2, f1]
  rcases hrest with ⟨k1, k2⟩ | ⟨k1, k2⟩
  · left
    refine ⟨?_, by rw [hfin, k2, hstart]⟩
    unfold dstu_asn1_priv_decode
    simp only [v1, hp]
    rw [k1]
    simp only [if_neg h0, v5, v9]
    rw [← p1]
  · exact Or.inr ⟨by rw [hfin, k1, hstart], k2⟩

/-! ### Public keys -/

/-- C127, public keys on built-in curves: whatever calls fail, if a public key is imported then it is the one imported when nothing fails and nothing
failed, or, after exactly one failure, the key is the same but for the ordinate of the public point, which is the right one or that of the
opposite point. -/
theorem C127_public_partial (env : Env) (old : EvpPkey) (pub : X509Pubkey) (der : List Byte) (oid : List Byte) (sbox : Option (List Byte))
    (hp : pub.params = some der) (hd : env.codec.d2i der = some ⟨.named oid, sbox⟩) (w : Nat → Bool) (t t' : Ticks) (pk : EvpPkey)
    (h : Dstu.Faulty.dstu_asn1_pub_decode env pub w t = (.done pk, t')) :
    (dstu_asn1_pub_decode env old pub = (true, pk) ∧ t'.faults = t.faults) ∨
      (t'.faults = t.faults + 1 ∧ ∃ ty g s x y y0, pk = ⟨ty, some ⟨some g, s, none, some (some (x, y))⟩⟩ ∧
        dstu_asn1_pub_decode env old pub = (true, ⟨ty, some ⟨some g, s, none, some (some (x, y0))⟩⟩) ∧
        (y = y0 ∨ GF.ofNat g.p y = GF.ofNat g.p x + GF.ofNat g.p y0)) := by
  unfold Dstu.Faulty.dstu_asn1_pub_decode at h
  obtain ⟨_, t1, e1, e2⟩ := bind_done h
  have f1 := check_done e1
  obtain ⟨pr, t2, e3, e4⟩ := bind_done e2
  obtain ⟨v1, v2⟩ := value_done e3
  rw [hp, Option.some.injEq] at v1
  subst v1
  obtain ⟨ty, t3, e5, e6⟩ := bind_done e4
  obtain ⟨v3, v4⟩ := value_done e5
  obtain ⟨_, t4, e7, e8⟩ := bind_done e6
  have f4 := check_done e7
  obtain ⟨key, t5, e9, e10⟩ := bind_done e8
  obtain ⟨⟨g, s, hkey, _⟩, hrest⟩ := C127_params env ty none der _ hd w t4 t5 key e9
  subst hkey
  rcases hrest with ⟨k1, k2⟩ | ⟨_, spec, k⟩
  swap
  · cases k
  obtain ⟨g', t6, e11, e12⟩ := bind_done e10
  obtain ⟨v5, v6⟩ := value_done e11
  simp only [Option.some.injEq] at v5
  subst v5
  obtain ⟨_, t7, e13, e14⟩ := bind_done e12
  have f7 := checks_done e13
  obtain ⟨pkb, t8, e15, e16⟩ := bind_done e14
  obtain ⟨v7, v8⟩ := value_done e15
  obtain ⟨_, t9, e17, e18⟩ := bind_done e16
  have f9 := checks_done e17
  obtain ⟨cm, t10, e19, e20⟩ := bind_done e18
  obtain ⟨v9, v10⟩ := value_done e19
  obtain ⟨⟨x, y⟩, t11, e21, e22⟩ := bind_done e20
  obtain ⟨_, t12, e23, e24⟩ := bind_done e22
  have f12 := check_done e23
  obtain ⟨p1, p2⟩ := pure_done (α := EvpPkey) e24
  have hstart : t10.faults = t.faults := by rw [← v10, f9, ← v8, f7, ← v6, k2, f4, ← v4, ← v2, f1]
  have hfin : t'.faults = t11.faults := by rw [← p2, f12]
  have hdec : ∀ q, dstu_point_expand env.sq cm g = some q →
      dstu_asn1_pub_decode env old pub = (true, ⟨ty, some ⟨some g, s, none, some (some q)⟩⟩) := by
    intro q hq
    unfold dstu_asn1_pub_decode
    simp only [hp, v3]
    rw [k1]
    simp only [v7, v9, hq]
  have hgood : GoodGroup g := by
    unfold dstu_asn1_param_decode at k1
    simp only [hd] at k1
    split at k1
    · cases k1
    · rename_i k' hk'
      simp only [Prod.mk.injEq, true_and, EvpPkey.mk.injEq, Option.some.injEq] at k1
      rw [k1] at hk'
      exact nid_good env.nids _ g (key_group hk')
  rcases C126_expand_partial (g := g) env.sq cm w t10 t11 x y e21 with ⟨m1, m2⟩ | ⟨y0, m1, m2, m3⟩
  · left
    exact ⟨by rw [hdec _ m1, ← p1], by rw [hfin, m2, hstart]⟩
  · right
    exact ⟨by rw [hfin, m2, hstart], ty, g, s, x, y, y0, p1.symm, hdec _ m1, m3⟩

/-! ### When nothing fails -/

/-- If the calls made succeed, of which there are `K`, the result is `a`. -/
def Runs {α : Type} (f : Dstu.Faulty α) (K : Nat) (a : α) : Prop :=
  ∀ w s n, (∀ j, s ≤ j → j < s + K → w j = true) → f w ⟨s, n⟩ = (.done a, ⟨s + K, n⟩)

section
variable {α β : Type}

theorem runs_pure (a : α) : Runs (pure a : Dstu.Faulty α) 0 a := fun _ _ _ _ => rfl

theorem runs_bind {f : Dstu.Faulty α} {k : α → Dstu.Faulty β} {K L : Nat} {a : α} {b : β} (h1 : Runs f K a) (h2 : Runs (k a) L b) :
    Runs (f >>= k) (K + L) b := by
  intro w s n h
  have e1 := h1 w s n (fun j h3 h4 => h j h3 (by omega))
  have e2 := h2 w (s + K) n (fun j h3 h4 => h j (by omega) (by omega))
  change Dstu.Faulty.bind f k w ⟨s, n⟩ = _
  unfold Dstu.Faulty.bind
  rw [e1]
  simp only
  rw [e2, Nat.add_assoc]

theorem runs_ask : Runs Dstu.Faulty.ask 1 true := by
  intro w s n h
  have h0 := h s le_rfl (by omega)
  simp [Dstu.Faulty.ask, h0]

theorem runs_check : Runs Dstu.Faulty.check 1 () := by
  intro w s n h
  have h0 := h s le_rfl (by omega)
  simp [Dstu.Faulty.check, h0]

theorem runs_checks : ∀ k, Runs (Dstu.Faulty.checks k) k ()
  | 0 => runs_pure ()
  | k + 1 => by
    have := runs_bind (k := fun _ => Dstu.Faulty.checks k) runs_check (runs_checks k)
    rw [Nat.add_comm 1 k] at this
    exact this

theorem runs_value {o : Option α} {a : α} (h : o = some a) : Runs (Dstu.Faulty.value o) 0 a := by
  subst h
  exact runs_pure a

theorem Runs.none {f : Dstu.Faulty α} {K : Nat} {a : α} (h : Runs f K a) (t : Ticks) : ∃ t', f noFault t = (.done a, t') ∧ t'.faults = t.faults :=
  ⟨_, h noFault t.tick t.faults fun _ _ _ => rfl, rfl⟩

end

/-- There is a number of calls such that, if they succeed, the result is `a`. -/
def Run {α : Type} (f : Dstu.Faulty α) (a : α) : Prop := ∃ K, Runs f K a

theorem run_pure {α : Type} (a : α) : Run (pure a : Dstu.Faulty α) a := ⟨_, runs_pure a⟩

theorem run_bind {α β : Type} {f : Dstu.Faulty α} {k : α → Dstu.Faulty β} {a : α} {b : β} (h1 : Run f a) (h2 : Run (k a) b) : Run (f >>= k) b :=
  ⟨_, runs_bind h1.choose_spec h2.choose_spec⟩

theorem run_check : Run Dstu.Faulty.check () := ⟨_, runs_check⟩

theorem run_checks (k : Nat) : Run (Dstu.Faulty.checks k) () := ⟨_, runs_checks k⟩

theorem run_value {α : Type} {o : Option α} {a : α} (h : o = some a) : Run (Dstu.Faulty.value o) a := ⟨_, runs_value h⟩

theorem runs_trace (bn p : Nat) : Runs (Dstu.Faulty.bn_trace bn p) (1 + 2 * (numBits p - 2)) (bn_trace bn p) := by
  intro w s n h
  have e : (Dstu.Faulty.bn_trace bn p >>= pure) w ⟨s, n⟩ = _ := trace_pass bn p (fun v => (pure v : Dstu.Faulty Int)) w s n (fun j h1 h2 => h j h1 (by omega))
  have e' : (Dstu.Faulty.bn_trace bn p >>= pure) w ⟨s, n⟩ = Dstu.Faulty.bn_trace bn p w ⟨s, n⟩ := by
    change Dstu.Faulty.bind (Dstu.Faulty.bn_trace bn p) pure w ⟨s, n⟩ = _
    unfold Dstu.Faulty.bind
    cases hr : Dstu.Faulty.bn_trace bn p w ⟨s, n⟩ with
    | mk r t1 => cases r <;> rfl
  rw [← e', e, Nat.add_assoc]
  rfl

theorem run_trace (bn p : Nat) : Run (Dstu.Faulty.bn_trace bn p) (bn_trace bn p) := ⟨_, runs_trace bn p⟩

theorem Run.none {α : Type} {f : Dstu.Faulty α} {a : α} (h : Run f a) (t : Ticks) : ∃ t', f noFault t = (.done a, t') ∧ t'.faults = t.faults :=
  h.choose_spec.none t

theorem run_expandEnd (sq : QuadSolver) (g : EcGroup) (k x x2 y : Nat) (q : Nat × Nat) (h : expandTail sq bn_trace g k x x2 y = some q) :
    Run (Dstu.Faulty.expandEnd sq g k x x2 y) q := by
  unfold Dstu.Faulty.expandEnd
  unfold expandTail at h
  cases hi : gf2m_inv g.p x2 with
  | none => simp [hi] at h
  | some xi =>
    simp only [hi] at h ⊢
    cases hs : sq.solve g.p (gf2m_mul g.p y xi) with
    | none => simp [hs] at h
    | some z =>
      simp only [hs] at h ⊢
      exact run_bind run_check (run_bind run_check (run_bind run_check (run_bind (run_trace _ _) (run_bind (run_checks _)
        (run_bind run_check (run_bind run_check (run_value h)))))))

theorem run_expand (sq : QuadSolver) (c : List Byte) (g : EcGroup) (q : Nat × Nat) (h : dstu_point_expand sq c g = some q) :
    Run (Dstu.Faulty.dstu_point_expand sq c g) q := by
  unfold Dstu.Faulty.dstu_point_expand
  unfold dstu_point_expand expandWith at h
  by_cases hl : c.length < g.fieldSize
  · simp [hl] at h
  rw [if_neg hl] at h ⊢
  simp only at h ⊢
  by_cases hx : bin2bn c = 0
  · rw [if_pos hx] at h ⊢
    exact run_bind (run_checks 9) (run_bind run_check (run_bind run_check (run_value h)))
  rw [if_neg hx] at h ⊢
  by_cases h1 : bn_trace (clearBit0 (bin2bn c)) g.p = -1
  · simp [h1] at h
  rw [if_neg h1] at h
  refine run_bind (run_checks 9) (run_bind run_check (run_bind (run_trace _ _) ?_))
  rw [if_neg h1]
  exact run_bind (run_checks _) (run_bind run_check (run_bind run_check (run_bind (run_checks _) (run_bind run_check (run_expandEnd sq g _ _ _ _ q h)))))

theorem run_entry (c : NamedCurve) (g : EcGroup) (h : groupOfEntry c = some g) : Run (Dstu.Faulty.groupOfEntry c) g := by
  unfold groupOfEntry at h
  unfold Dstu.Faulty.groupOfEntry
  simp only at h ⊢
  by_cases hl : 1 + 4 * (((c.poly.headD 0).toNat + 7) / 8) ≤ c.data.length
  · simp only [hl, guard_true, Option.pure_def, Option.bind_eq_bind, Option.bind_some] at h
    rw [if_pos hl]
    have hK0 : Run (Dstu.Faulty.setOne (c.data.headD 0)) (decide (c.data.headD 0 ≠ 0)) := by
      unfold Dstu.Faulty.setOne
      by_cases h0 : c.data.headD 0 ≠ 0
      · rw [if_pos h0, decide_eq_true h0]
        exact ⟨_, runs_ask⟩
      · rw [if_neg h0, decide_eq_false h0]
        exact run_pure _
    rw [Option.bind_eq_some_iff] at h
    obtain ⟨⟨p, a, b⟩, h1, h2⟩ := h
    rw [Option.bind_eq_some_iff] at h2
    obtain ⟨⟨x, y⟩, h3, h4⟩ := h2
    simp only [Option.some.injEq] at h4
    rw [← h4]
    refine run_bind (run_checks 8) (run_bind hK0 (run_bind (run_checks 2) (run_bind (a := (p, a, b)) (run_value ?_) (run_bind (run_checks 5)
      (run_bind (run_value h3) (run_bind run_check (run_pure _)))))))
    simp only [decide_eq_true_eq]
    exact h1
  · simp only [guard, hl, if_false] at h
    cases h

theorem run_named (nids : CurveNids) (nid : Nat) (g : EcGroup) (h : group_from_nid nids nid = some g) :
    Run (Dstu.Faulty.group_from_nid nids nid) g := by
  unfold group_from_nid at h
  cases hi : (dstu_curves nids).findIdx? (fun c => nid = c.nid) with
  | none => simp [hi] at h
  | some i =>
    rw [hi] at h
    simp only [Option.bind_eq_bind, Option.bind_some] at h
    unfold group_from_named_curve at h
    cases hc : (dstu_curves nids)[i]? with
    | none => simp [hc] at h
    | some c =>
      simp only [hc, Option.bind_eq_bind, Option.bind_some] at h
      refine run_bind (run_value hi) (run_bind (run_value hc) (run_entry c g h))

theorem run_custom (sq : QuadSolver) (spec : CustomCurveSpec) (le : Bool) (g : EcGroup) (h : group_from_asn1 sq spec le = some g) :
    Run (Dstu.Faulty.group_from_asn1 sq spec le) g := by
  unfold group_from_asn1 at h
  unfold Dstu.Faulty.group_from_asn1
  cases h1 : polyArray spec.m spec.poly with
  | none => simp [h1] at h
  | some poly =>
    simp only [h1] at h
    by_cases ha : spec.a ≠ 1 ∧ spec.a ≠ 0
    · rw [if_pos ha] at h
      cases h
    rw [if_neg ha] at h
    cases h2 : maybeReverseCopy le spec.b with
    | none => simp [h2] at h
    | some bb =>
      simp only [h2] at h
      cases h3 : new_curve_GF2m (arr2poly poly) spec.a.toNat (bin2bn bb) with
      | none => simp [h3] at h
      | some r =>
        obtain ⟨p, a, b⟩ := r
        simp only [h3] at h
        cases h4 : maybeReverseCopy le spec.bp with
        | none => simp [h4] at h
        | some bp =>
          simp only [h4] at h
          cases h5 : dstu_point_expand sq bp ⟨p, a, b, 0, 0, 0, 0⟩ with
          | none => simp [h5] at h
          | some q =>
            obtain ⟨x, y⟩ := q
            simp only [h5] at h
            by_cases h6 : set_generator_ok p spec.n
            · rw [if_pos h6, Option.some.injEq] at h
              have hK := run_expand sq bp _ _ h5
              refine run_bind (run_value rfl) (run_bind (run_checks 7) ?_)
              simp only
              rw [if_neg ha]
              refine run_bind (run_checks _) (run_bind (run_value rfl) (run_bind (run_checks 2) (run_bind (run_value h3)
                (run_bind (run_checks _) (run_bind (run_value rfl) (run_bind hK (run_bind run_check ?_)))))))
              simp only
              rw [if_pos h6, ← h]
              exact run_pure _
            · rw [if_neg h6] at h
              cases h

theorem run_sbox (sbox : Option (List Byte)) (s : Option (Bytes 64))
    (h : (sbox = none ∧ s = none) ∨ ∃ l b, sbox = some l ∧ bytes64 l = some b ∧ s = if is_default_sbox b then none else some b) :
    Run (Dstu.Faulty.keySbox sbox) s := by
  unfold Dstu.Faulty.keySbox
  rcases h with ⟨rfl, rfl⟩ | ⟨l, b, rfl, h2, rfl⟩
  · exact run_pure _
  · refine run_bind (run_value h2) ?_
    by_cases hdef : is_default_sbox b = true
    · rw [if_pos hdef, if_pos hdef]
      exact run_pure _
    · rw [if_neg hdef, if_neg hdef]
      exact run_bind run_check (run_pure _)

theorem key_from_asn1_iff {sq : QuadSolver} {nids : CurveNids} {objs : ObjTable nids} {params : AlgorithmParameters} {le : Bool} {k : DstuKey}
    (h : key_from_asn1 sq nids objs params le = some k) : ∃ g s, k = ⟨some g, s, none, none⟩ ∧ curveGroup sq nids objs params.curve le = some g ∧
      ((params.sbox = none ∧ s = none) ∨ ∃ l b, params.sbox = some l ∧ bytes64 l = some b ∧ s = if is_default_sbox b then none else some b) := by
  unfold key_from_asn1 at h
  cases hg : curveGroup sq nids objs params.curve le with
  | none =>
    rw [hg] at h
    simp only at h
    split at h
    · cases h
    · split at h <;> cases h
  | some g =>
    rw [hg] at h
    simp only at h
    cases hs : params.sbox with
    | none =>
      simp only [hs, Option.some.injEq] at h
      exact ⟨g, none, h.symm, rfl, Or.inl ⟨rfl, rfl⟩⟩
    | some l =>
      simp only [hs] at h
      cases hb : bytes64 l with
      | none => simp [hb] at h
      | some b =>
        simp only [hb, Option.some.injEq] at h
        exact ⟨g, _, h.symm, rfl, Or.inr ⟨l, b, rfl, hb, rfl⟩⟩

theorem run_params (env : Env) (type : KeyType) (old : Option DstuKey) (der : List Byte) (pk : EvpPkey)
    (h : dstu_asn1_param_decode env ⟨type, old⟩ der = (true, pk)) :
    ∃ g s, pk = ⟨type, some ⟨some g, s, none, none⟩⟩ ∧ Run (Dstu.Faulty.dstu_asn1_param_decode env type der) ⟨some g, s, none, none⟩ := by
  unfold dstu_asn1_param_decode at h
  cases hd : env.codec.d2i der with
  | none => simp [hd] at h
  | some params =>
    simp only [hd] at h
    cases hk : key_from_asn1 env.sq env.nids env.objs params (type = .le) with
    | none => simp [hk] at h
    | some key =>
      simp only [hk, Prod.mk.injEq, true_and] at h
      obtain ⟨g, s, rfl, hg, hs⟩ := key_from_asn1_iff hk
      have hr2 : Run (Dstu.Faulty.curveGroup env.sq env.nids env.objs params.curve (type = .le)) g := by
        cases hc : params.curve with
        | named oid =>
          rw [hc] at hg
          exact run_named env.nids _ g hg
        | custom spec =>
          rw [hc] at hg
          exact run_custom env.sq spec _ g hg
      exact ⟨g, s, h.symm, run_bind run_check (run_bind (run_value hd) (run_bind (run_bind (run_checks 2) (run_bind (run_sbox _ s hs) (run_bind hr2
        (run_bind run_check (run_pure _))))) (run_bind run_check (run_pure _))))⟩

/-- C127: when nothing fails, parameters are imported as in the model without failures. -/
theorem C127_params_nothing_fails (env : Env) (type : KeyType) (old : Option DstuKey) (der : List Byte) (pk : EvpPkey)
    (h : dstu_asn1_param_decode env ⟨type, old⟩ der = (true, pk)) (t : Ticks) :
    ∃ key t', pk = ⟨type, some key⟩ ∧ Dstu.Faulty.dstu_asn1_param_decode env type der noFault t = (.done key, t') := by
  obtain ⟨g, s, h1, h2⟩ := run_params env type old der pk h
  obtain ⟨t', h3, _⟩ := h2.none t
  exact ⟨_, t', h1, h3⟩

/-- C127: when nothing fails, private keys are imported as in the model without failures. -/
theorem C127_private_nothing_fails (env : Env) (old pk : EvpPkey) (p8 : Pkcs8) (h : dstu_asn1_priv_decode env old p8 = (true, pk)) (t : Ticks) :
    ∃ t', Dstu.Faulty.dstu_asn1_priv_decode env p8 noFault t = (.done pk, t') := by
  suffices hs : Run (Dstu.Faulty.dstu_asn1_priv_decode env p8) pk by
    obtain ⟨t', h3, _⟩ := hs.none t
    exact ⟨t', h3⟩
  unfold dstu_asn1_priv_decode at h
  cases ha : p8.alg with
  | none => simp [ha] at h
  | some ty =>
    simp only [ha] at h
    cases hp : p8.params with
    | none => simp [hp] at h
    | some der =>
      simp only [hp] at h
      rcases hd : dstu_asn1_param_decode env ⟨ty, none⟩ der with ⟨r, pk1⟩
      cases r with
      | false => simp [hd] at h
      | true =>
        obtain ⟨g, s, rfl, h2⟩ := run_params env ty none der pk1 hd
        simp only [hd] at h
        by_cases h0 : p8.prk.length = 0
        · simp [h0] at h
        rw [if_neg h0] at h
        cases hr : reverse_bytes_copy p8.prk p8.prk.length with
        | none => simp [hr] at h
        | some bytes =>
          simp only [hr] at h
          cases hq : add_public_key env g (bin2bn bytes) with
          | none => simp [hq] at h
          | some Q =>
            simp only [hq, Prod.mk.injEq, true_and] at h
            unfold Dstu.Faulty.dstu_asn1_priv_decode
            refine run_bind run_check (run_bind (run_value ha) (run_bind run_check (run_bind (run_value hp) (run_bind h2 ?_))))
            rw [if_neg h0, ← h]
            exact run_bind (run_checks 2) (run_bind (run_value hr) (run_bind run_check (run_bind (run_value rfl) (run_bind (run_checks 4)
              (run_bind (run_value hq) (run_pure _))))))

/-- C127: when nothing fails, public keys are imported as in the model without failures. -/
theorem C127_public_nothing_fails (env : Env) (old pk : EvpPkey) (pub : X509Pubkey) (h : dstu_asn1_pub_decode env old pub = (true, pk)) (t : Ticks) :
    ∃ t', Dstu.Faulty.dstu_asn1_pub_decode env pub noFault t = (.done pk, t') := by
  suffices hs : Run (Dstu.Faulty.dstu_asn1_pub_decode env pub) pk by
    obtain ⟨t', h3, _⟩ := hs.none t
    exact ⟨t', h3⟩
  unfold dstu_asn1_pub_decode at h
  cases hp : pub.params with
  | none => simp [hp] at h
  | some der =>
    simp only [hp] at h
    cases ha : pub.alg with
    | none => simp [ha] at h
    | some ty =>
      simp only [ha] at h
      rcases hd : dstu_asn1_param_decode env ⟨ty, none⟩ der with ⟨r, pk1⟩
      cases r with
      | false => simp [hd] at h
      | true =>
        obtain ⟨g, s, rfl, h2⟩ := run_params env ty none der pk1 hd
        simp only [hd] at h
        cases ho : env.octet.d2i pub.pbk with
        | none => simp [ho] at h
        | some pb =>
          simp only [ho] at h
          cases hm : maybeReverseCopy (ty = .le) pb with
          | none => simp [hm] at h
          | some cm =>
            simp only [hm] at h
            cases hx : dstu_point_expand env.sq cm g with
            | none => simp [hx] at h
            | some xy =>
              simp only [hx, Prod.mk.injEq, true_and] at h
              unfold Dstu.Faulty.dstu_asn1_pub_decode
              rw [← h]
              exact run_bind run_check (run_bind (run_value hp) (run_bind (run_value ha) (run_bind run_check (run_bind h2 (run_bind (run_value rfl)
                (run_bind (run_checks 2) (run_bind (run_value ho) (run_bind (run_checks _) (run_bind (run_value hm)
                (run_bind (run_expand env.sq cm g xy hx) (run_bind run_check (run_pure _))))))))))))

/-! ### The opposite key -/

theorem bind_step {α β : Type} {f : Dstu.Faulty α} {k : α → Dstu.Faulty β} {w : Nat → Bool} {t t1 : Ticks} {a : α} (h : f w t = (.done a, t1)) :
    (f >>= k) w t = k a w t1 := by
  change Dstu.Faulty.bind f k w t = _
  unfold Dstu.Faulty.bind
  rw [h]

/-- C127 fails for public keys: on every built-in curve, for every public key of C31, there is a way to solve quadratic equations with which the exported
key is imported as the opposite key, which is another one, with success reported, when one call fails. -/
theorem C127_public_refuted (env : Env) (i : Fin 10) (g : EcGroup) [GoodGroup g] (hg : group_from_named_curve env.nids i = some g) (x y : GF g.p)
    (hxy : g.curve.Nonsingular x y) (hP : g.n • (WeierstrassCurve.Affine.Point.some x y hxy : g.Point) = 0) (hex : ¬ (x = 1 ∧ Spec.trace y = 0)) :
    ∃ sq enc T k q,
      dstu_asn1_pub_encode { env with sq := sq } ⟨.be, some ⟨some g, none, none, some (affine (WeierstrassCurve.Affine.Point.some x y hxy : g.Point))⟩⟩ = some enc ∧
      (∀ old, dstu_asn1_pub_decode { env with sq := sq } old enc =
        (true, ⟨.be, some ⟨some g, none, none, some (affine (WeierstrassCurve.Affine.Point.some x y hxy : g.Point))⟩⟩)) ∧
      Dstu.Faulty.dstu_asn1_pub_decode { env with sq := sq } enc (fun j => decide (j ≠ T)) ⟨0, 0⟩ =
        (.done ⟨.be, some ⟨some g, none, none, some (some q)⟩⟩, ⟨k, 1⟩) ∧
      affine (-(WeierstrassCurve.Affine.Point.some x y hxy : g.Point)) = some q ∧
      affine (WeierstrassCurve.Affine.Point.some x y hxy : g.Point) ≠ some q := by
  have hD := named_dstu env.nids i g hg
  obtain ⟨sq, c, h1, h2, h3, h4⟩ := C76_wrong_point_refuted hD.odd hD.a01 hD.n_odd x y hxy hP hex
  obtain ⟨q, hq⟩ : ∃ q, affine (-(WeierstrassCurve.Affine.Point.some x y hxy : g.Point)) = some q := by
    rw [WeierstrassCurve.Affine.Point.neg_some]
    exact ⟨_, rfl⟩
  rw [hq] at h3 h4
  have hc : bin2bn c ≠ 0 := by
    intro h0
    have e : expandWith sq (fun _ _ => -1) c g = dstu_point_expand sq c g := by
      unfold dstu_point_expand expandWith
      simp [h0]
    rw [h3, h2] at e
    exact h4 e
  obtain ⟨g', n1, n2⟩ := C34_identifier_round_trip env.nids i
  have hgg : g' = g := by
    rw [group_from_nid_uacurve, hg] at n1
    exact (Option.some.inj n1).symm
  subst hgg
  have hne := env.nids.defined i
  have hcl : c.length < 2 ^ 28 := by
    obtain ⟨c', m1, m2, _⟩ := C31_round_trip_partial sq hD.odd hD.a01 hD.n_odd x y hxy hP hex _ le_rfl
    rw [h1, Prod.mk.injEq, Option.some.injEq] at m1
    have hs := hD.small
    have hfs : g'.fieldSize = (fieldDegree g'.p + 7) / 8 := rfl
    rw [m1.2, m2, hfs]
    omega
  obtain ⟨env', henv⟩ : ∃ env' : Env, env' = { env with sq := sq } := ⟨_, rfl⟩
  have hparams : dstu_asn1_param_encode env' ⟨.be, some ⟨some g', none, none, some (affine (WeierstrassCurve.Affine.Point.some x y hxy : g'.Point))⟩⟩ =
      some (env.codec.i2d ⟨.named (env.objs.nid2obj (env.nids.uacurve i)), none⟩) := by
    subst henv
    simp only [dstu_asn1_param_encode, asn1_from_key, n2, NID_undef, hne, if_false, encodedSbox]
  have hsm : (⟨.named (env.objs.nid2obj (env.nids.uacurve i)), none⟩ : AlgorithmParameters).Small :=
    ⟨env.objs.valid i, fun l hl => by cases hl⟩
  have hdp := env.codec.inv _ [] hsm
  rw [List.append_nil] at hdp
  have hdec : ∀ old, dstu_asn1_param_decode env' ⟨.be, old⟩ (env.codec.i2d ⟨.named (env.objs.nid2obj (env.nids.uacurve i)), none⟩) =
      (true, ⟨.be, some ⟨some g', none, none, none⟩⟩) := by
    intro old
    subst henv
    simp only [dstu_asn1_param_decode, hdp, key_from_asn1, curveGroup, env.objs.inv, n1]
    rfl
  have hoct := env.octet.der c [] hcl
  rw [List.append_nil] at hoct
  have hoct' : env'.octet.d2i (i2d_octet c) = some c := by
    subst henv
    exact hoct
  obtain ⟨g2, s2, k1, K, hK⟩ := run_params env' .be none _ _ (hdec none)
  simp only [EvpPkey.mk.injEq, true_and, Option.some.injEq, DstuKey.mk.injEq, and_true] at k1
  obtain ⟨rfl, rfl⟩ := k1
  obtain ⟨T, k, h5, hT1, hT2⟩ := expand_run sq c g' q (2 + K + 2) hc h3
  refine ⟨sq, ⟨some .be, some (env.codec.i2d ⟨.named (env.objs.nid2obj (env.nids.uacurve i)), none⟩), i2d_octet c⟩, T, k + 1, q, ?_, ?_, ?_, hq,
    fun e => h4 e.symm⟩
  · rw [← henv]
    unfold dstu_asn1_pub_encode
    rw [hparams]
    have h1' : dstu_point_compress g' (affine (WeierstrassCurve.Affine.Point.some x y hxy : g'.Point)) ((g'.degree + 7) / 8) = (true, some c) := h1
    simp only [h1', maybeReverse]
    rfl
  · intro old
    rw [← henv]
    unfold dstu_asn1_pub_decode
    simp only [hdec, hoct', maybeReverseCopy]
    have h2' : dstu_point_expand env'.sq c g' = affine (WeierstrassCurve.Affine.Point.some x y hxy : g'.Point) := by
      subst henv
      exact h2
    simp only [reduceCtorEq, decide_false, Bool.false_eq_true, if_false, h2']
    rfl
  · rw [← henv]
    obtain ⟨w, hw⟩ : ∃ w : Nat → Bool, w = fun j => decide (j ≠ T) := ⟨_, rfl⟩
    rw [← hw] at h5 ⊢
    have ht : ∀ j, j ≠ T → w j = true := fun j hj => by rw [hw]; exact decide_eq_true hj
    unfold Dstu.Faulty.dstu_asn1_pub_decode
    rw [check_pass _ w 0 0 (ht _ (by omega)), bind_step (a := _) (t1 := ⟨0 + 1, 0⟩) rfl, bind_step (a := .be) (t1 := ⟨0 + 1, 0⟩) rfl,
      check_pass _ w _ 0 (ht _ (by omega)), bind_step (hK w (0 + 1 + 1) 0 (fun j _ _ => ht j (by omega))),
      bind_step (a := g') (t1 := ⟨0 + 1 + 1 + K, 0⟩) rfl, checks_pass _ w 2 _ 0 (fun j _ _ => ht j (by omega)), hoct',
      bind_step (a := c) (t1 := ⟨0 + 1 + 1 + K + 2, 0⟩) rfl]
    have h5' : Dstu.Faulty.dstu_point_expand env'.sq c g' w ⟨0 + 1 + 1 + K + 2, 0⟩ = (.done q, ⟨k, 1⟩) := by
      subst henv
      exact h5
    rw [bind_step (a := ()) (t1 := ⟨0 + 1 + 1 + K + 2, 0⟩) rfl, bind_step (a := c) (t1 := ⟨0 + 1 + 1 + K + 2, 0⟩) rfl, bind_step h5',
      check_pass _ w k 1 (ht _ (by omega))]
    rfl

/-- The hypotheses are met by the base point of the built-in curve of degree 163. -/
example (env : Env) : ∃ sq enc T k q, dstu_asn1_pub_encode { env with sq := sq } ⟨.be, some ⟨some g163, none, none, some (affine g163.gen)⟩⟩ = some enc ∧
    (∀ old, dstu_asn1_pub_decode { env with sq := sq } old enc = (true, ⟨.be, some ⟨some g163, none, none, some (affine g163.gen)⟩⟩)) ∧
    Dstu.Faulty.dstu_asn1_pub_decode { env with sq := sq } enc (fun j => decide (j ≠ T)) ⟨0, 0⟩ =
      (.done ⟨.be, some ⟨some g163, none, none, some (some q)⟩⟩, ⟨k, 1⟩) ∧ affine (-g163.gen) = some q ∧ affine g163.gen ≠ some q := by
  obtain ⟨ha, hy, hw, h1, hd, hpoly, hn, haa, hfs, hgx⟩ := numbers163
  have hp := goodGroup_p g163
  exact C127_public_refuted env 0 g163 (g163_named env.nids) _ _
    (binCurve_nonsingular (goodGroup_b g163) instGoodGroup163.valid.onCurve) (instGoodGroup163.valid.order _)
    (by
      rintro ⟨h, _⟩
      have hx := GF.toNat_ofNat g163.p (by omega) g163.gx instGoodGroup163.valid.x_lt
      rw [h, GF.toNat_one g163.p hp] at hx
      exact hgx hx.symm)

/-- The hypotheses are met: the built-in groups are returned when nothing fails. -/
example (nids : CurveNids) (i : Fin 10) : ∃ g t', Dstu.Faulty.group_from_nid nids (nids.uacurve i) noFault ⟨0, 0⟩ = (.done g, t') := by
  obtain ⟨g, h1, _⟩ := C34_identifier_round_trip nids i
  obtain ⟨t', h2, _⟩ := (run_named nids _ g h1).none ⟨0, 0⟩
  exact ⟨g, t', h2⟩

/-- C127 with C40: a private key on a built-in curve that was exported is, whatever calls fail, imported as it was, with the public key that belongs to it,
or not at all; if it is imported, nothing failed. -/
theorem C127_private_kept (env : Env) (i : Fin 10) (g : EcGroup) [GoodGroup g] (hi : group_from_named_curve env.nids i = some g) (type : KeyType)
    (key : DstuKey) (d : Nat) (hkey : key.group = some g) (hpriv : key.priv = some d) (hd : d ≠ 0) (p8 : Pkcs8)
    (he : dstu_asn1_priv_encode env ⟨type, some key⟩ = some p8) (w : Nat → Bool) (t t' : Ticks) (pk : EvpPkey)
    (h : Dstu.Faulty.dstu_asn1_priv_decode env p8 w t = (.done pk, t')) :
    t'.faults = t.faults ∧ ∃ s, pk = ⟨type, some ⟨some g, s, some d, some (affine (-(d • g.gen)))⟩⟩ ∧ effectiveSbox s = effectiveSbox key.sbox := by
  obtain ⟨p8', s, Q, k1, k2, k3, k4, k5⟩ := C40_builtin_round_trip env i g hi type key d hkey hpriv hd pk
  rw [he, Option.some.injEq] at k1
  subst k1
  obtain ⟨g', n1, n2⟩ := C34_identifier_round_trip env.nids i
  have hgg : g' = g := by
    rw [group_from_nid_uacurve, hi] at n1
    exact (Option.some.inj n1).symm
  subst hgg
  have hne := env.nids.defined i
  have hparams : dstu_asn1_param_encode env ⟨type, some key⟩ =
      some (env.codec.i2d ⟨.named (env.objs.nid2obj (env.nids.uacurve i)), encodedSbox key.sbox⟩) := by
    simp only [dstu_asn1_param_encode, asn1_from_key, hkey, n2, NID_undef, hne, if_false]
  have hsm : (⟨.named (env.objs.nid2obj (env.nids.uacurve i)), encodedSbox key.sbox⟩ : AlgorithmParameters).Small :=
    ⟨env.objs.valid i, fun l hl => encodedSbox_small _ _ hl⟩
  have hdp := env.codec.inv _ [] hsm
  rw [List.append_nil] at hdp
  have hp : p8.params = some (env.codec.i2d ⟨.named (env.objs.nid2obj (env.nids.uacurve i)), encodedSbox key.sbox⟩) := by
    unfold dstu_asn1_priv_encode at he
    rw [hparams] at he
    simp only [hpriv] at he
    split at he
    · cases he
    · split at he
      · cases he
      · simp only [Option.some.injEq] at he
        rw [← he]
  rcases C127_private env pk p8 _ _ hp hdp w t t' pk h with ⟨m1, m2⟩ | ⟨_, spec, m⟩
  · rw [k3, Prod.mk.injEq] at m1
    refine ⟨m2, s, ?_, k4⟩
    rw [← m1.2, k5]
  · cases m

/-- The hypotheses are met: a private key that was exported is imported when nothing fails. -/
example (env : Env) (type : KeyType) : ∃ p8 pk t', dstu_asn1_priv_encode env ⟨type, some ⟨some g163, none, some 5, none⟩⟩ = some p8 ∧
    Dstu.Faulty.dstu_asn1_priv_decode env p8 noFault ⟨0, 0⟩ = (.done pk, t') := by
  obtain ⟨p8, s, Q, k1, _, k3, _⟩ := C40_builtin_round_trip env 0 g163 (g163_named env.nids) type ⟨some g163, none, some 5, none⟩ 5 rfl rfl (by decide)
    ⟨.le, none⟩
  obtain ⟨t', h⟩ := C127_private_nothing_fails env _ _ p8 k3 ⟨0, 0⟩
  exact ⟨p8, _, t', k1, h⟩

end Dstu.Props
