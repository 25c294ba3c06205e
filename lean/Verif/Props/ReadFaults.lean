import Verif.Model.ReadFaults
import Verif.Spec.ReadFaults
import Verif.Props.ExportFaults
import Verif.Props.KeyUtils
import Verif.Props.Expand

/-! Property C129: failures of library calls and the keys read from PKCS#8 structures. -/

namespace Dstu.Props

open Spec Flt

theorem toBn_done {v r : Int} {w : Nat → Bool} {t t' : Ticks} (h : Dstu.Faulty.toBn v w t = (.done r, t')) :
    (r = v ∧ t'.faults = t.faults) ∨ (r = 0 ∧ t'.faults = t.faults + 1) := by
  unfold Dstu.Faulty.toBn at h
  obtain ⟨ok, t1, e1, e2⟩ := bind_done h
  obtain ⟨p1, p2⟩ := pure_done (α := Int) e2
  rcases ask_cases e1 with ⟨rfl, f⟩ | ⟨rfl, f⟩
  · exact Or.inl ⟨p1.symm, by rw [← p2, f]⟩
  · exact Or.inr ⟨p1.symm, by rw [← p2, f]⟩

theorem fromSpec_done (sq : QuadSolver) (spec : CustomCurveSpec) (w : Nat → Bool) (t t' : Ticks) (g : EcGroup)
    (h : Dstu.Faulty.makeECGROUPFromSpec sq spec w t = (.done g, t')) :
    MadeFrom spec g ∧ t.faults ≤ t'.faults ∧ (t'.faults = t.faults → makeECGROUPFromSpec sq spec = some (some g)) := by
  unfold Dstu.Faulty.makeECGROUPFromSpec at h
  obtain ⟨p, t1, e1, h⟩ := bind_done h
  obtain ⟨v1, v2⟩ := value_done e1
  obtain ⟨a, t2, e2, h⟩ := bind_done h
  obtain ⟨_, t3, e3, h⟩ := bind_done h
  have f3 := check_done e3
  obtain ⟨⟨p', a', b'⟩, t4, e4, h⟩ := bind_done h
  obtain ⟨v3, v4⟩ := value_done e4
  obtain ⟨⟨x, y⟩, t5, e5, h⟩ := bind_done h
  have f5 := expand_cases _ _ _ _ _ _ _ e5
  obtain ⟨o, t6, e6, h⟩ := bind_done h
  have f6 := ask_cases e6
  obtain ⟨n, t7, e7, h⟩ := bind_done h
  have f7 := toBn_done e7
  obtain ⟨_, t8, e8, h⟩ := bind_done h
  have f8 := check_done e8
  have f2 := toBn_done e2
  by_cases hs : set_generator_ok p' n
  · simp only [if_pos hs] at h
    obtain ⟨p1, p2⟩ := pure_done (α := EcGroup) h
    have hn : n = spec.n := by
      rcases f7 with ⟨k, _⟩ | ⟨k, _⟩
      · exact k
      · rw [k] at hs
        exact absurd hs.1 (by omega)
    have hle5 : t4.faults ≤ t5.faults := by rcases f5 with k | k <;> omega
    have hle6 : t5.faults ≤ t6.faults := by rcases f6 with k | k <;> omega
    have hle7 : t6.faults ≤ t7.faults := by rcases f7 with k | k <;> omega
    have hle2 : t1.faults ≤ t2.faults := by rcases f2 with k | k <;> omega
    rw [← p2, v2]
    refine ⟨⟨p, a, v1, f2.imp And.left And.left, ?_, ?_, ?_⟩, by rw [v4] at f3; omega, fun hf => ?_⟩
    · rw [← p1]
      exact v3
    · rw [← p1, hn]
      have := hs.1
      simp only
      omega
    · rw [← p1]
    · rw [v4] at f3
      have ha : a = spec.a := by
        rcases f2 with ⟨k, _⟩ | ⟨_, k⟩
        · exact k
        · omega
      have hx : dstu_point_expand sq spec.bp ⟨p', a', b', 0, 0, 0, 0⟩ = some (x, y) := by
        rcases f5 with ⟨k, _⟩ | ⟨_, _, k⟩
        · exact k
        · omega
      unfold makeECGROUPFromSpec
      rw [← ha, ← hn, v1]
      simp only [v3, hx, if_pos hs, p1]
  · simp only [if_neg hs] at h
    exact (err_done (w := w) h).elim

theorem findSpec_done (env : P8Env) (w : Nat → Bool) (spec : CustomCurveSpec) : ∀ (vals : List AsnVal) (t t' : Ticks),
    Dstu.Faulty.findSpec env vals w t = (.done spec, t') →
      (∃ der, .seq der ∈ vals ∧ env.unpack_spec der = some spec) ∧ t.faults ≤ t'.faults ∧ (t'.faults = t.faults → findSpec env vals = some spec)
  | [], t, t', h => (err_done (w := w) h).elim
  | .octet b :: l, t, t', h => by
    obtain ⟨⟨der, h1, h2⟩, h3, h4⟩ := findSpec_done env w spec l t t' h
    exact ⟨⟨der, List.mem_cons_of_mem _ h1, h2⟩, h3, h4⟩
  | .bit b :: l, t, t', h => by
    obtain ⟨⟨der, h1, h2⟩, h3, h4⟩ := findSpec_done env w spec l t t' h
    exact ⟨⟨der, List.mem_cons_of_mem _ h1, h2⟩, h3, h4⟩
  | .other :: l, t, t', h => by
    obtain ⟨⟨der, h1, h2⟩, h3, h4⟩ := findSpec_done env w spec l t t' h
    exact ⟨⟨der, List.mem_cons_of_mem _ h1, h2⟩, h3, h4⟩
  | .seq d :: l, t, t', h => by
    unfold Dstu.Faulty.findSpec at h
    obtain ⟨o, t1, e1, e2⟩ := bind_done h
    unfold Dstu.Faulty.unpackSpec at e1
    obtain ⟨ok, t2, e3, e4⟩ := bind_done e1
    obtain ⟨p1, p2⟩ := pure_done (α := Option CustomCurveSpec) e4
    rw [p2] at e3
    cases o with
    | some s =>
      obtain ⟨q1, q2⟩ := pure_done (α := CustomCurveSpec) e2
      rcases ask_cases e3 with ⟨rfl, f⟩ | ⟨rfl, f⟩
      · rw [if_pos rfl] at p1
        rw [q1] at p1
        refine ⟨⟨d, List.mem_cons_self, p1⟩, by rw [← q2, f], fun _ => ?_⟩
        simp only [findSpec, p1]
      · simp at p1
    | none =>
      simp only at e2
      obtain ⟨⟨der, h1, h2⟩, h3, h4⟩ := findSpec_done env w spec l t1 t' e2
      refine ⟨⟨der, List.mem_cons_of_mem _ h1, h2⟩, by rcases ask_cases e3 with k | k <;> omega, fun hf => ?_⟩
      rcases ask_cases e3 with ⟨rfl, f⟩ | ⟨rfl, f⟩
      · rw [if_pos rfl] at p1
        simp only [findSpec, p1]
        exact h4 (by omega)
      · omega

theorem fromAttributes_done (env : P8Env) (attrs : List (Option Attr)) (w : Nat → Bool) (t t' : Ticks) (k : EvpPkey)
    (h : Dstu.Faulty.pkeyFromAttributes env attrs w t = (.done k, t')) :
    SecondKeySafe env attrs k ∧ t.faults ≤ t'.faults ∧ (t'.faults = t.faults → SecondKey env attrs k) := by
  unfold Dstu.Faulty.pkeyFromAttributes at h
  rw [findAttrs_eq] at h
  have hl := fun oid a => foldl_last oid attrs none a
  simp only [reduceCtorEq, false_and, or_false] at hl
  cases hc : attrs.foldl (pickAttr oidCurveAttr) none with
  | none =>
    rw [hc] at h
    exact (err_done (w := w) h).elim
  | some c =>
    cases hk : attrs.foldl (pickAttr oidKeyAttr) none with
    | none =>
      rw [hc, hk] at h
      exact (err_done (w := w) h).elim
    | some ka =>
      rw [hc, hk] at h
      simp only at h
      have hc' := (hl _ _).1 hc
      have hk' := (hl _ _).1 hk
      unfold Dstu.Faulty.makePKey at h
      obtain ⟨d, t1, e1, h⟩ := bind_done h
      unfold Dstu.Faulty.getPrivateKeyNum at e1
      obtain ⟨num, t2, e2, e1⟩ := bind_done e1
      obtain ⟨v1, v2⟩ := value_done e2
      obtain ⟨d', t3, e3, e1⟩ := bind_done e1
      obtain ⟨v3, v4⟩ := value_done e3
      obtain ⟨_, t4, e4, e1⟩ := bind_done e1
      have f4 := check_done e4
      obtain ⟨p1, p2⟩ := pure_done (α := Nat) e1
      obtain ⟨spec, t5, e5, h⟩ := bind_done h
      obtain ⟨⟨der, s1, s2⟩, s3, s4⟩ := findSpec_done env w spec _ _ _ e5
      obtain ⟨g, t6, e6, h⟩ := bind_done h
      obtain ⟨g1, g2, g3⟩ := fromSpec_done _ _ _ _ _ _ e6
      obtain ⟨_, t7, e7, h⟩ := bind_done h
      have f7 := checks_done e7
      obtain ⟨Q, t8, e8, h⟩ := bind_done h
      obtain ⟨v5, v6⟩ := value_done e8
      obtain ⟨_, t9, e9, h⟩ := bind_done h
      have f9 := checks_done e9
      obtain ⟨q1, q2⟩ := pure_done (α := EvpPkey) h
      have ht : t1.faults = t.faults := by rw [← p2, f4, ← v4, ← v2]
      have ht' : t'.faults = t6.faults := by rw [← q2, f9, ← v6, f7]
      rw [getPrivateKeyNum_eq] at v1
      cases hs : findString ka.values with
      | none =>
        rw [hs] at v1
        simp only [Option.map_none, Option.some.injEq] at v1
        rw [← v1] at v3
        cases v3
      | some s =>
        rw [hs] at v1
        simp only [Option.map_some, Option.some.injEq] at v1
        rw [← v1, Option.some.injEq] at v3
        have hb : ∀ i, Nat.testBit d i = bitAt s i := by
          rw [← p1, ← v3]
          exact swapped_bit s
        have hs' := (findString_some _ _).1 hs
        refine ⟨⟨c, ka, s, der, spec, g, d, Q, hc', hk', hs', hb, s1, s2, g1, v5, q1.symm⟩, by omega, fun hf => ?_⟩
        exact ⟨c, ka, s, spec, g, d, Q, hc', hk', hs', hb, (findSpec_some env _ spec).1 (s4 (by omega)), g3 (by omega), v5, q1.symm⟩

/-- C129: whatever calls fail, the first key that is read is the right one, and if there is a second one and nothing failed, it is the right one. -/
theorem C129_keys (env : P8Env) (data : List Byte) (w : Nat → Bool) (t t' : Ticks) (k1 : EvpPkey) (r : Option EvpPkey)
    (h : Dstu.Faulty.pkcs8Keys env data w t = (.done (k1, r), t')) :
    ∃ p8 attrs, env.d2i_PKCS8 data = some (p8, attrs) ∧ env.pkcs82pkey p8 = some k1 ∧
      ∀ k2, r = some k2 → t'.faults = t.faults → SecondKey env attrs k2 := by
  unfold Dstu.Faulty.pkcs8Keys at h
  obtain ⟨_, t1, e1, h⟩ := bind_done h
  have f1 := check_done e1
  obtain ⟨⟨p8, attrs⟩, t2, e2, h⟩ := bind_done h
  obtain ⟨v1, v2⟩ := value_done e2
  obtain ⟨_, t3, e3, h⟩ := bind_done h
  have f3 := check_done e3
  obtain ⟨pk, t4, e4, h⟩ := bind_done h
  obtain ⟨v3, v4⟩ := value_done e4
  obtain ⟨o, t5, e5, h⟩ := bind_done h
  obtain ⟨q1, q2⟩ := pure_done (α := EvpPkey × Option EvpPkey) h
  cases q1
  refine ⟨p8, attrs, v1, v3, fun k2 hk hf => ?_⟩
  rcases attempt_done e5 with k | ⟨a, k, e6⟩
  · rw [k] at hk
    cases hk
  · rw [k] at hk
    cases hk
    refine (fromAttributes_done env attrs w t4 t5 _ e6).2.2 ?_
    rw [q2, hf, ← v4, f3, ← v2, f1]

/-- C129, what is left of it for the second key: whatever calls fail, a second key has the right number, the field, the coefficient `b` and the order of a curve of
the attribute, and a public key that belongs to it.  Missing: that it is there, that the coefficient `a` is the right one, that the base point is not the opposite
one, and that the curve is the first one of the attribute; see the refutations and C126. -/
theorem C129_second_partial (env : P8Env) (data : List Byte) (w : Nat → Bool) (t t' : Ticks) (k1 k2 : EvpPkey)
    (h : Dstu.Faulty.pkcs8Keys env data w t = (.done (k1, some k2), t')) :
    ∃ p8 attrs, env.d2i_PKCS8 data = some (p8, attrs) ∧ SecondKeySafe env attrs k2 := by
  unfold Dstu.Faulty.pkcs8Keys at h
  obtain ⟨_, t1, e1, h⟩ := bind_done h
  obtain ⟨⟨p8, attrs⟩, t2, e2, h⟩ := bind_done h
  obtain ⟨v1, v2⟩ := value_done e2
  obtain ⟨_, t3, e3, h⟩ := bind_done h
  obtain ⟨pk, t4, e4, h⟩ := bind_done h
  obtain ⟨o, t5, e5, h⟩ := bind_done h
  obtain ⟨q1, q2⟩ := pure_done (α := EvpPkey × Option EvpPkey) h
  cases q1
  refine ⟨p8, attrs, v1, ?_⟩
  rcases attempt_done e5 with k | ⟨a, k, e6⟩
  · cases k
  · cases k
    exact (fromAttributes_done env attrs w t4 t5 _ e6).1

/-! ### When nothing fails -/

theorem run_toBn (v : Int) : Run (Dstu.Faulty.toBn v) v := run_bind run_ask (run_pure _)

theorem run_fromSpec (sq : QuadSolver) (spec : CustomCurveSpec) (g : EcGroup) (h : makeECGROUPFromSpec sq spec = some (some g)) :
    Run (Dstu.Faulty.makeECGROUPFromSpec sq spec) g ∧
      ∀ p, makePoly spec.m spec.poly = some p → ∃ p' a b x y, new_curve_GF2m p spec.a.natAbs (bin2bn spec.b) = some (p', a, b) ∧
        dstu_point_expand sq spec.bp ⟨p', a, b, 0, 0, 0, 0⟩ = some (x, y) ∧ set_generator_ok p' spec.n ∧ g = ⟨p', a, b, x, y, spec.n.toNat, 1⟩ := by
  unfold makeECGROUPFromSpec at h
  cases h1 : makePoly spec.m spec.poly with
  | none =>
    rw [h1] at h
    cases h
  | some p =>
    rw [h1] at h
    simp only at h
    cases h2 : new_curve_GF2m p spec.a.natAbs (bin2bn spec.b) with
    | none =>
      rw [h2] at h
      cases h
    | some q =>
      obtain ⟨p', a, b⟩ := q
      rw [h2] at h
      simp only at h
      cases h3 : dstu_point_expand sq spec.bp ⟨p', a, b, 0, 0, 0, 0⟩ with
      | none =>
        rw [h3] at h
        cases h
      | some q =>
        obtain ⟨x, y⟩ := q
        rw [h3] at h
        simp only at h
        by_cases h4 : set_generator_ok p' spec.n
        · rw [if_pos h4] at h
          cases h
          constructor
          · unfold Dstu.Faulty.makeECGROUPFromSpec
            refine run_bind (run_value h1) (run_bind (run_toBn _) (run_bind run_check (run_bind (run_value h2) (run_bind (run_expand _ _ _ _ h3)
              (run_bind run_ask (run_bind (run_toBn _) (run_bind run_check ?_)))))))
            simp only [if_pos h4]
            exact run_pure _
          · intro p1 hp1
            cases hp1
            exact ⟨p', a, b, x, y, h2, h3, h4, rfl⟩
        · rw [if_neg h4] at h
          cases h

theorem run_findSpec (env : P8Env) (spec : CustomCurveSpec) : ∀ vals : List AsnVal, findSpec env vals = some spec → Run (Dstu.Faulty.findSpec env vals) spec
  | [], h => by cases h
  | .octet b :: l, h => run_findSpec env spec l h
  | .bit b :: l, h => run_findSpec env spec l h
  | .other :: l, h => run_findSpec env spec l h
  | .seq d :: l, h => by
    unfold Dstu.Faulty.findSpec
    refine run_bind (a := env.unpack_spec d) (run_bind run_ask (run_pure _)) ?_
    unfold findSpec at h
    cases hd : env.unpack_spec d with
    | some s =>
      rw [hd] at h
      cases h
      exact run_pure _
    | none =>
      rw [hd] at h
      exact run_findSpec env spec l h

theorem run_number (attr : Attr) (d : Nat) (h : getPrivateKeyNum attr = some (some d)) : Runs (Dstu.Faulty.getPrivateKeyNum attr) 1 d := by
  intro w s n hw
  have h0 := hw s le_rfl (by omega)
  unfold Dstu.Faulty.getPrivateKeyNum
  rw [bind_step (a := some d) (t1 := ⟨s, n⟩) (by rw [h]; rfl), bind_step (a := d) (t1 := ⟨s, n⟩) rfl, check_pass _ w s n h0]
  rfl

/-- The parts of a second key. -/
theorem second_parts (env : P8Env) (attrs : List (Option Attr)) (k : EvpPkey) (h : SecondKey env attrs k) :
    ∃ c ka spec g d Q, findAttrs attrs (none, none) = (some c, some ka) ∧ getPrivateKeyNum ka = some (some d) ∧ findSpec env c.values = some spec ∧
      makeECGROUPFromSpec env.sq spec = some (some g) ∧ add_public_key env.toEnv g d = some Q ∧ k = ⟨.le, some ⟨some g, none, some d, some Q⟩⟩ := by
  obtain ⟨c, ka, s, spec, g, d, Q, h1, h2, h3, h4, h5, h6, h7, h8⟩ := h
  have hl := fun oid a => foldl_last oid attrs none a
  simp only [reduceCtorEq, false_and, or_false] at hl
  obtain ⟨n, hn, hb⟩ := C63_number ka s h3
  have hd : n = d := Nat.eq_of_testBit_eq fun i => by rw [hb, h4]
  rw [hd] at hn
  refine ⟨c, ka, spec, g, d, Q, ?_, hn, (findSpec_some env _ _).2 h5, h6, h7, h8⟩
  rw [findAttrs_eq, (hl _ _).2 h1, (hl _ _).2 h2]

/-- C129: when nothing fails, both keys that are described are read. -/
theorem C129_nothing_fails (env : P8Env) (data p8 : List Byte) (attrs : List (Option Attr)) (k1 k2 : EvpPkey) (hd : env.d2i_PKCS8 data = some (p8, attrs))
    (hk : env.pkcs82pkey p8 = some k1) (h2 : SecondKey env attrs k2) (t : Ticks) :
    ∃ t', Dstu.Faulty.pkcs8Keys env data noFault t = (.done (k1, some k2), t') ∧ t'.faults = t.faults := by
  refine Run.none ?_ t
  obtain ⟨c, ka, spec, g, d, Q, e1, e2, e3, e4, e5, rfl⟩ := second_parts env attrs k2 h2
  unfold Dstu.Faulty.pkcs8Keys
  refine run_bind run_check (run_bind (run_value hd) (run_bind run_check (run_bind (run_value hk) (run_bind (run_attempt ?_) (run_pure _)))))
  unfold Dstu.Faulty.pkeyFromAttributes
  rw [e1]
  simp only
  unfold Dstu.Faulty.makePKey
  exact run_bind ⟨_, run_number ka d e2⟩ (run_bind (run_findSpec env spec _ e3) (run_bind (run_fromSpec _ _ _ e4).1
    (run_bind (run_checks 9) (run_bind (run_value e5) (run_bind (run_checks 2) (run_pure _))))))

/-! ### Where it fails -/

/-- The first steps. -/
theorem pkcs8_steps (env : P8Env) (data p8 : List Byte) (attrs : List (Option Attr)) (k1 : EvpPkey) (hd : env.d2i_PKCS8 data = some (p8, attrs))
    (hk : env.pkcs82pkey p8 = some k1) (w : Nat → Bool) (h0 : w 0 = true) (h1 : w 1 = true) (r : Option EvpPkey) (t : Ticks)
    (h : Dstu.Faulty.attempt (Dstu.Faulty.pkeyFromAttributes env attrs) w ⟨2, 0⟩ = (.done r, t)) :
    Dstu.Faulty.pkcs8Keys env data w ⟨0, 0⟩ = (.done (k1, r), t) := by
  unfold Dstu.Faulty.pkcs8Keys
  rw [check_pass _ w 0 0 h0, bind_step (a := (p8, attrs)) (t1 := ⟨1, 0⟩) (by rw [hd]; rfl)]
  simp only
  rw [check_pass _ w 1 0 h1, bind_step (a := k1) (t1 := ⟨2, 0⟩) (by rw [hk]; rfl), bind_step h]
  rfl

/-- C129 fails: for every structure with two keys one call that fails makes the second key disappear, and success is reported. -/
theorem C129_lost_refuted (env : P8Env) (data p8 : List Byte) (attrs : List (Option Attr)) (k1 k2 : EvpPkey) (hd : env.d2i_PKCS8 data = some (p8, attrs))
    (hk : env.pkcs82pkey p8 = some k1) (h2 : SecondKey env attrs k2) :
    ∃ T n, Dstu.Faulty.pkcs8Keys env data (fun j => decide (j ≠ T)) ⟨0, 0⟩ = (.done (k1, none), ⟨n, 1⟩) := by
  obtain ⟨c, ka, spec, g, d, Q, e1, e2, e3, e4, e5, rfl⟩ := second_parts env attrs k2 h2
  refine ⟨2, 3, pkcs8_steps env data p8 attrs k1 hd hk _ rfl rfl _ _ ?_⟩
  unfold Dstu.Faulty.attempt Dstu.Faulty.pkeyFromAttributes
  rw [e1]
  simp only
  unfold Dstu.Faulty.makePKey Dstu.Faulty.getPrivateKeyNum
  rw [e2]
  rfl

/-- C129 fails: if the description with 0 for the coefficient `a` describes a curve, too, one call that fails makes the second key one on that curve, and success is
reported. -/
theorem C129_curve_refuted (env : P8Env) (data p8 : List Byte) (attrs : List (Option Attr)) (k1 : EvpPkey) (hd : env.d2i_PKCS8 data = some (p8, attrs))
    (hk : env.pkcs82pkey p8 = some k1) (curveAttr keyAttr : Attr) (s : List Byte) (spec : CustomCurveSpec) (g0 : EcGroup) (d : Nat) (Q0 : Option (Nat × Nat))
    (hc : LastAttr oidCurveAttr attrs curveAttr) (hka : LastAttr oidKeyAttr attrs keyAttr) (hs : FirstString keyAttr.values s)
    (hb : ∀ i, Nat.testBit d i = bitAt s i) (hsp : FirstSpec env curveAttr.values spec)
    (hg : makeECGROUPFromSpec env.sq { spec with a := 0 } = some (some g0)) (hQ : add_public_key env.toEnv g0 d = some Q0) :
    ∃ T n, Dstu.Faulty.pkcs8Keys env data (fun j => decide (j ≠ T)) ⟨0, 0⟩ =
      (.done (k1, some ⟨.le, some ⟨some g0, none, some d, some Q0⟩⟩), ⟨n, 1⟩) := by
  have hl := fun oid a => foldl_last oid attrs none a
  simp only [reduceCtorEq, false_and, or_false] at hl
  have e1 : findAttrs attrs (none, none) = (some curveAttr, some keyAttr) := by
    rw [findAttrs_eq, (hl _ _).2 hc, (hl _ _).2 hka]
  obtain ⟨d', e2, hb'⟩ := C63_number keyAttr s hs
  have hdd : d' = d := Nat.eq_of_testBit_eq fun i => by rw [hb', hb]
  rw [hdd] at e2
  obtain ⟨K, hK⟩ := run_findSpec env spec _ ((findSpec_some env _ _).2 hsp)
  obtain ⟨w, hw⟩ : ∃ w : Nat → Bool, w = fun j => decide (j ≠ 3 + K) := ⟨_, rfl⟩
  have ht : ∀ j, j ≠ 3 + K → w j = true := fun j hj => by rw [hw]; exact decide_eq_true hj
  have hf : w (3 + K) = false := by rw [hw]; simp
  have hp : ∃ p, makePoly spec.m spec.poly = some p := by
    cases hp : makePoly spec.m spec.poly with
    | none =>
      unfold makeECGROUPFromSpec at hg
      simp only [hp] at hg
      cases hg
    | some p => exact ⟨p, rfl⟩
  obtain ⟨p, hp⟩ := hp
  obtain ⟨p', a, b, x, y, c1, c2, c3, rfl⟩ := (run_fromSpec _ _ _ hg).2 p hp
  simp only at c1 c2 c3
  obtain ⟨L, hL⟩ := run_expand _ _ _ _ c2
  refine ⟨3 + K, 3 + K + 1 + 1 + L + 1 + 1 + 1 + 9 + 2, ?_⟩
  rw [← hw]
  refine pkcs8_steps env data p8 attrs k1 hd hk _ (ht _ (by omega)) (ht _ (by omega)) _ _ ?_
  have hto : Dstu.Faulty.toBn spec.a w ⟨3 + K, 0⟩ = (.done 0, ⟨3 + K + 1, 1⟩) := by
    unfold Dstu.Faulty.toBn
    rw [bind_step (a := false) (t1 := ⟨3 + K + 1, 1⟩) (by simp [Dstu.Faulty.ask, hf])]
    rfl
  have hgr : Dstu.Faulty.makeECGROUPFromSpec env.sq spec w ⟨3 + K, 0⟩ =
      (.done ⟨p', a, b, x, y, spec.n.toNat, 1⟩, ⟨3 + K + 1 + 1 + L + 1 + 1 + 1, 1⟩) := by
    unfold Dstu.Faulty.makeECGROUPFromSpec
    rw [bind_step (a := p) (t1 := ⟨3 + K, 0⟩) (by rw [hp]; rfl), bind_step hto, check_pass _ w _ 1 (ht _ (by omega)),
      bind_step (a := (p', a, b)) (t1 := ⟨3 + K + 1 + 1, 1⟩) (by rw [c1]; rfl)]
    simp only
    rw [bind_step (hL w _ 1 (fun j _ _ => ht j (by omega)))]
    simp only
    rw [ask_pass _ w _ 1 (ht _ (by omega))]
    have hton : Dstu.Faulty.toBn spec.n w ⟨3 + K + 1 + 1 + L + 1, 1⟩ = (.done spec.n, ⟨3 + K + 1 + 1 + L + 1 + 1, 1⟩) := by
      unfold Dstu.Faulty.toBn
      rw [ask_pass _ w _ 1 (ht _ (by omega))]
      rfl
    rw [bind_step hton, check_pass _ w _ 1 (ht _ (by omega)), if_pos c3]
    rfl
  have hpk : Dstu.Faulty.pkeyFromAttributes env attrs w ⟨2, 0⟩ =
      (.done ⟨.le, some ⟨some ⟨p', a, b, x, y, spec.n.toNat, 1⟩, none, some d, some Q0⟩⟩, ⟨3 + K + 1 + 1 + L + 1 + 1 + 1 + 9 + 2, 1⟩) := by
    unfold Dstu.Faulty.pkeyFromAttributes
    rw [e1]
    simp only
    unfold Dstu.Faulty.makePKey
    rw [bind_step (run_number keyAttr d e2 w 2 0 (fun j _ _ => ht j (by omega))), bind_step (hK w 3 0 (fun j _ _ => ht j (by omega))),
      bind_step hgr, checks_pass _ w 9 _ 1 (fun j _ _ => ht j (by omega)),
      bind_step (a := Q0) (t1 := ⟨3 + K + 1 + 1 + L + 1 + 1 + 1 + 9, 1⟩) (by rw [hQ]; rfl), checks_pass _ w 2 _ 1 (fun j _ _ => ht j (by omega))]
    rfl
  unfold Dstu.Faulty.attempt
  rw [hpk]

/-! ### The curve of degree 163 -/

/-- Of the two points with an abscissa one has the trace that is wanted. -/
theorem stands_exists (p a b v x y : Nat) [Fact (Irreducible (bitPoly p))] (hodd : fieldDegree p % 2 = 1) (hv : v ≠ 0) (hvx : v / 2 = x / 2) (hx0 : x ≠ 0)
    (hx : x < 2 ^ fieldDegree p) (hy : y < 2 ^ fieldDegree p) (ht : trace (GF.ofNat p x) = trace (GF.ofNat p a))
    (hon : OnCurve (GF.ofNat p a) (GF.ofNat p b) (GF.ofNat p x) (GF.ofNat p y)) : ∃ y', StandsFor p a b v x y' := by
  have hone : trace (1 : GF p) = 1 := trSum_one_odd _ hodd
  have hX : GF.ofNat p x ≠ 0 := fun h => hx0 ((ofNat_eq_zero p hx).mp h)
  have h11 : (1 : GF p) + 1 = 0 := CharTwo.add_self_eq_zero 1
  have hz : GF.ofNat p y * (GF.ofNat p x)⁻¹ * GF.ofNat p x = GF.ofNat p y := by rw [mul_assoc, inv_mul_cancel₀ hX, mul_one]
  generalize GF.ofNat p y * (GF.ofNat p x)⁻¹ = z at hz
  have hon' : OnCurve (GF.ofNat p a) (GF.ofNat p b) (GF.ofNat p x) (GF.ofNat p (x ^^^ y)) := by
    rw [GF.ofNat_xor]
    unfold OnCurve at hon ⊢
    have h2 : GF.ofNat p x ^ 2 + GF.ofNat p x ^ 2 = 0 := CharTwo.add_self_eq_zero _
    have h3 : GF.ofNat p x * GF.ofNat p y + GF.ofNat p x * GF.ofNat p y = 0 := CharTwo.add_self_eq_zero _
    linear_combination hon + h2 + h3
  have hz' : (z + 1) * GF.ofNat p x = GF.ofNat p (x ^^^ y) := by
    rw [GF.ofNat_xor, add_mul, hz, one_mul, add_comm]
  have htz : trace (z + 1) = trace z + 1 := by rw [tr_add, hone]
  have hxy : x ^^^ y < 2 ^ fieldDegree p := Nat.xor_lt_two_pow hx hy
  rcases tr_cases p z with h0 | h1
  · by_cases hb : v % 2 = 1
    · refine ⟨x ^^^ y, hx, hxy, hon', ?_⟩
      rw [if_neg hv]
      exact ⟨z + 1, hx0, hvx, ht, hz', by rw [if_pos hb, htz, h0, zero_add]⟩
    · refine ⟨y, hx, hy, hon, ?_⟩
      rw [if_neg hv]
      exact ⟨z, hx0, hvx, ht, hz, by rw [if_neg hb, h0]⟩
  · by_cases hb : v % 2 = 1
    · refine ⟨y, hx, hy, hon, ?_⟩
      rw [if_neg hv]
      exact ⟨z, hx0, hvx, ht, hz, by rw [if_pos hb, h1]⟩
    · refine ⟨x ^^^ y, hx, hxy, hon', ?_⟩
      rw [if_neg hv]
      exact ⟨z + 1, hx0, hvx, ht, hz', by rw [if_neg hb, htz, h1, h11]⟩

/-- The curve of degree 163 of the standard, described as attributes describe curves. -/
def attrSpec163 : CustomCurveSpec :=
  ⟨163, .pentanomial 7 6 3, 1, bytesBE 21 (fieldAt data163 163 0), fieldAt data163 163 1, bytesBE 21 (fieldAt data163 163 2)⟩

/-- A point of the curve with 0 for `a`, and a number `w` with `w² + w` equal to its abscissa. -/
def x163z : Nat := 0x2e2f85f5dd74ce983a5c4237229daf8a3f35823bf
def y163z : Nat := 0x18cb4ce7729e5c12e9cdba0585648696a48481d00
def w163z : Nat := 0x33851c433398ad01b3b26184c7eabb7f76dc9b2cf

set_option maxRecDepth 20000 in
theorem check163z : slotMul slotW 163 [7, 6, 3, 0] (slotMask slotW (2 * 163)) (spread slotW 163 y163z) (spread slotW 163 y163z) ^^^
    slotMul slotW 163 [7, 6, 3, 0] (slotMask slotW (2 * 163)) (spread slotW 163 x163z) (spread slotW 163 y163z) =
    slotMul slotW 163 [7, 6, 3, 0] (slotMask slotW (2 * 163)) (slotMul slotW 163 [7, 6, 3, 0] (slotMask slotW (2 * 163)) (spread slotW 163 x163z)
      (spread slotW 163 x163z)) (spread slotW 163 x163z) ^^^ spread slotW 163 (fieldAt data163 163 0) := by
  decide +kernel

set_option maxRecDepth 20000 in
theorem trace163z : traceZeroCheck 163 [7, 6, 3, 0] w163z x163z = true := by decide +kernel

set_option maxRecDepth 20000 in
theorem numbers163z : x163z < 2 ^ 163 ∧ y163z < 2 ^ 163 ∧ x163z ^^^ 1 = g163.gx ∧ x163z ≠ 0 ∧ g163.gx ≠ 0 ∧ g163.gx / 2 = x163z / 2 ∧ g163.a = 1 ∧
    makePoly 163 (.pentanomial 7 6 3) = some g163.p ∧ (weight g163.p = 3 ∨ weight g163.p = 5) ∧ g163.gx < 256 ^ 21 ∧ g163.b < 256 ^ 21 ∧
    set_generator_ok g163.p g163.n ∧ x163z ≠ g163.gx := by
  refine ⟨?_, ?_, ?_, ?_, ?_, ?_, ?_, ?_, ?_, ?_, ?_, ?_, ?_⟩ <;> decide +kernel

theorem fromSpec_of (sq : QuadSolver) (spec : CustomCurveSpec) (p p' a b x y : Nat) (h1 : makePoly spec.m spec.poly = some p)
    (h2 : new_curve_GF2m p spec.a.natAbs (bin2bn spec.b) = some (p', a, b)) (h3 : dstu_point_expand sq spec.bp ⟨p', a, b, 0, 0, 0, 0⟩ = some (x, y))
    (h4 : set_generator_ok p' spec.n) : makeECGROUPFromSpec sq spec = some (some ⟨p', a, b, x, y, spec.n.toNat, 1⟩) := by
  unfold makeECGROUPFromSpec
  simp only [h1, h2, h3, if_pos h4]

/-- C129 fails on a curve of the standard: its description in an attribute describes a curve with 0 for the coefficient `a`, too, and this one has another base point. -/
theorem C129_curve_163 (sq : QuadSolver) : ∃ g g0, makeECGROUPFromSpec sq attrSpec163 = some (some g) ∧ makeECGROUPFromSpec sq { attrSpec163 with a := 0 } = some (some g0) ∧
    g.p = g163.p ∧ g.a = g163.a ∧ g.b = g163.b ∧ g.n = g163.n ∧ g.gx = g163.gx ∧ g0.a ≠ g.a ∧ g0.gx ≠ g.gx := by
  obtain ⟨hx, hy, hxx, hx0, hg0, hhalf, ha, hpoly, hwt, hgl, hbl, hgen, hne⟩ := numbers163z
  obtain ⟨_, _, _, _, hd, hbits, _, _, hfs, _⟩ := numbers163
  have hfd : fieldDegree g163.p = 163 := hd
  have hc := entry163x_check
  have hV := instGoodGroup163.valid
  have : Fact (Irreducible (bitPoly g163.p)) := ⟨hV.irreducible⟩
  have hp0 : g163.p ≠ 0 := by have := goodGroup_p g163; omega
  have hlog : g163.p.log2 = 163 := hd
  have hodd : fieldDegree g163.p % 2 = 1 := by rw [hfd]
  have hone : trace (1 : GF g163.p) = 1 := trSum_one_odd _ hodd
  have hz : trace (GF.ofNat g163.p x163z) = 0 := by
    rw [← (traceZeroCheck_sound 163 [7, 6, 3, 0] (by decide) hc.small hc.exps trace163z g163.p hbits).2]
    exact trSum_sq_add _ (GF.frobenius g163.p) _
  have hgx : trace (GF.ofNat g163.p g163.gx) = 1 := by
    rw [← hxx, GF.ofNat_xor, GF.ofNat_one, tr_add, hz, hone, zero_add]
  have hon0 : OnCurve (GF.ofNat g163.p 0) (GF.ofNat g163.p g163.b) (GF.ofNat g163.p x163z) (GF.ofNat g163.p y163z) := by
    have key : ∀ q, q = bitsOf [163, 7, 6, 3, 0] → OnCurve (GF.ofNat q 0) (GF.ofNat q g163.b) (GF.ofNat q x163z) (GF.ofNat q y163z) := by
      rintro q rfl
      have rm := slotRel_mul 163 [7, 6, 3, 0] (by decide) hc.small hc.exps
      have ra := slotRel_add 163 [7, 6, 3, 0]
      have rX := slotRel_spread 163 [7, 6, 3, 0] x163z hx
      have rY := slotRel_spread 163 [7, 6, 3, 0] y163z hy
      have rB := slotRel_spread 163 [7, 6, 3, 0] (fieldAt data163 163 0) hc.b_lt
      have l := ra _ _ _ _ (rm _ _ _ _ rY rY) (rm _ _ _ _ rX rY)
      have r := ra _ _ _ _ (rm _ _ _ _ (rm _ _ _ _ rX rX) rX) rB
      rw [check163z] at l
      have e := l.2.symm.trans r.2
      rw [OnCurve, GF.ofNat_zero, zero_mul, add_zero, pow_two, pow_succ, pow_two]
      exact e
    exact key _ hbits
  have hvx : beValue (bytesBE 21 g163.gx) = g163.gx := by
    rw [beValue_bytesBE]
    exact Nat.mod_eq_of_lt hgl
  have hvb : bin2bn (bytesBE 21 g163.b) = g163.b := by
    rw [bin2bn_eq, beValue_bytesBE]
    exact Nat.mod_eq_of_lt hbl
  obtain ⟨y1, hs1⟩ := stands_exists g163.p 1 g163.b g163.gx g163.gx g163.gy hodd hg0 rfl hg0 hV.x_lt hV.y_lt (by rw [hgx, GF.ofNat_one, hone])
    (by have := hV.onCurve; rwa [ha] at this)
  obtain ⟨y0, hs0⟩ := stands_exists g163.p 0 g163.b g163.gx x163z y163z hodd hg0 hhalf hx0 (by rw [hfd]; exact hx) (by rw [hfd]; exact hy)
    (by rw [hz, GF.ofNat_zero]; unfold trace; simp) hon0
  have hlen : (fieldDegree g163.p + 7) / 8 ≤ (bytesBE 21 g163.gx).length := by rw [bytesBE_length, hfd]
  have ex1 : dstu_point_expand sq (bytesBE 21 g163.gx) ⟨g163.p, 1, g163.b, 0, 0, 0, 0⟩ = some (g163.gx, y1) :=
    (C32_expand_iff (g := ⟨g163.p, 1, g163.b, 0, 0, 0, 0⟩) sq hodd (Or.inr rfl) _ _ _).2 ⟨hlen, by rw [hvx]; exact hs1⟩
  have ex0 : dstu_point_expand sq (bytesBE 21 g163.gx) ⟨g163.p, 0, g163.b, 0, 0, 0, 0⟩ = some (x163z, y0) :=
    (C32_expand_iff (g := ⟨g163.p, 0, g163.b, 0, 0, 0, 0⟩) sq hodd (Or.inl rfl) _ _ _).2 ⟨hlen, by rw [hvx]; exact hs0⟩
  have n1 : new_curve_GF2m g163.p 1 (bin2bn (bytesBE 21 g163.b)) = some (g163.p, 1, g163.b) := by
    unfold new_curve_GF2m
    rw [if_pos hwt, hvb, gf2m_mod_eq _ 1 hp0 (by rw [hlog]; exact Nat.one_lt_two_pow (by decide)), gf2m_mod_eq _ _ hp0 hV.b_lt]
  have n0 : new_curve_GF2m g163.p 0 (bin2bn (bytesBE 21 g163.b)) = some (g163.p, 0, g163.b) := by
    unfold new_curve_GF2m
    rw [if_pos hwt, hvb, gf2m_mod_eq _ 0 hp0 (Nat.two_pow_pos _), gf2m_mod_eq _ _ hp0 hV.b_lt]
  refine ⟨⟨g163.p, 1, g163.b, g163.gx, y1, g163.n, 1⟩, ⟨g163.p, 0, g163.b, x163z, y0, g163.n, 1⟩, ?_, ?_, rfl, ha.symm, rfl, rfl, rfl, zero_ne_one, ?_⟩
  · exact fromSpec_of sq attrSpec163 _ _ _ _ _ _ hpoly n1 ex1 hgen
  · exact fromSpec_of sq { attrSpec163 with a := 0 } _ _ _ _ _ _ hpoly n0 ex0 hgen
  · exact hne

/-- C129 fails on a curve of the standard: a structure with a second key on the curve of degree 163 of the standard is read with success, but after one call that fails
the second key has another coefficient and another base point.  `hQ`: public keys can be computed. -/
theorem C129_standard_refuted (base : Env) (k1 : EvpPkey) (hQ : ∀ g, ∃ Q, add_public_key base g 5 = some Q) :
    ∃ (env : P8Env) (data p8 : List Byte) (attrs : List (Option Attr)) (g g0 : EcGroup) (Q Q0 : Option (Nat × Nat)) (T n : Nat),
      env.toEnv = base ∧ env.d2i_PKCS8 data = some (p8, attrs) ∧ env.pkcs82pkey p8 = some k1 ∧
      g.p = g163.p ∧ g.a = g163.a ∧ g.b = g163.b ∧ g.n = g163.n ∧ g.gx = g163.gx ∧ g0.a ≠ g.a ∧ g0.gx ≠ g.gx ∧
      SecondKey env attrs ⟨.le, some ⟨some g, none, some 5, some Q⟩⟩ ∧
      Dstu.Faulty.pkcs8Keys env data (fun j => decide (j ≠ T)) ⟨0, 0⟩ = (.done (k1, some ⟨.le, some ⟨some g0, none, some 5, some Q0⟩⟩), ⟨n, 1⟩) := by
  obtain ⟨g, g0, h1, h2, hr⟩ := C129_curve_163 base.sq
  obtain ⟨Q, hq⟩ := hQ g
  obtain ⟨Q0, hq0⟩ := hQ g0
  let attrs : List (Option Attr) := [some ⟨some oidCurveAttr, [.seq []]⟩, none, some ⟨some oidKeyAttr, [.bit [0xA0]]⟩]
  let env : P8Env := ⟨base, fun _ => some ([], attrs), fun _ => some attrSpec163, fun _ => some k1⟩
  have ha1 : LastAttr oidCurveAttr attrs ⟨some oidCurveAttr, [.seq []]⟩ :=
    ⟨[], [none, some ⟨some oidKeyAttr, [.bit [0xA0]]⟩], rfl, rfl, by
      intro a ha
      simp only [List.mem_cons, reduceCtorEq, Option.some.injEq, List.not_mem_nil, or_false, false_or] at ha
      rw [ha]
      decide⟩
  have ha2 : LastAttr oidKeyAttr attrs ⟨some oidKeyAttr, [.bit [0xA0]]⟩ :=
    ⟨[some ⟨some oidCurveAttr, [.seq []]⟩, none], [], rfl, rfl, by simp⟩
  have hs : FirstString [.bit [0xA0]] [0xA0] := ⟨[], .bit [0xA0], [], rfl, Or.inr rfl, by simp⟩
  have hb : ∀ i, Nat.testBit 5 i = bitAt [0xA0] i := by
    obtain ⟨n, hn, hb⟩ := C63_number ⟨none, [.bit [0xA0]]⟩ [0xA0] hs
    have h5 : getPrivateKeyNum ⟨none, [.bit [0xA0]]⟩ = some (some 5) := by decide
    rw [h5] at hn
    cases hn
    exact hb
  have hf : FirstSpec env [.seq []] attrSpec163 := ⟨[], [], [], rfl, rfl, by simp⟩
  obtain ⟨T, n, hT⟩ := C129_curve_refuted env [] [] attrs k1 rfl rfl _ _ _ attrSpec163 g0 5 Q0 ha1 ha2 hs hb hf h2 hq0
  exact ⟨env, [], [], attrs, g, g0, Q, Q0, T, n, rfl, rfl, rfl, hr.1, hr.2.1, hr.2.2.1, hr.2.2.2.1, hr.2.2.2.2.1, hr.2.2.2.2.2.1, hr.2.2.2.2.2.2,
    ⟨_, _, _, attrSpec163, g, 5, Q, ha1, ha2, hs, hb, hf, h1, hq, rfl⟩, hT⟩

/-- There are libraries as `C129_standard_refuted` wants them. -/
theorem public_computed (base : Env) (g : EcGroup) : ∃ Q, add_public_key { base with badGroup := fun _ _ => some none } g 5 = some Q := by
  unfold add_public_key
  split
  · exact ⟨_, rfl⟩
  · exact ⟨_, rfl⟩

/-- The hypotheses of the other theorems are met, by the structure of `C129_standard_refuted`: with nothing failing both keys are read, and with one failing call the
second is not. -/
example (base : Env) (k1 : EvpPkey) : ∃ (env : P8Env) (data : List Byte) (k2 : EvpPkey),
    (∃ t', Dstu.Faulty.pkcs8Keys env data noFault ⟨0, 0⟩ = (.done (k1, some k2), t') ∧ t'.faults = 0) ∧
    ∃ T n, Dstu.Faulty.pkcs8Keys env data (fun j => decide (j ≠ T)) ⟨0, 0⟩ = (.done (k1, none), ⟨n, 1⟩) := by
  obtain ⟨env, data, p8, attrs, g, g0, Q, Q0, T, n, _, hd, hk, _, _, _, _, _, _, _, h2, _⟩ := C129_standard_refuted _ k1 (public_computed base)
  exact ⟨env, data, _, C129_nothing_fails env data p8 attrs k1 _ hd hk h2 ⟨0, 0⟩, C129_lost_refuted env data p8 attrs k1 _ hd hk h2⟩

end Dstu.Props
