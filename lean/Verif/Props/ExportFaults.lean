import Verif.Model.ExportFaults
import Verif.Props.ImportFaults

/-! Property C128: failures of library calls and the keys that are exported. -/

namespace Dstu.Props

open Spec Flt WeierstrassCurve

theorem attempt_done {α : Type} {f : Dstu.Faulty α} {o : Option α} {w : Nat → Bool} {t t' : Ticks} (h : Dstu.Faulty.attempt f w t = (.done o, t')) :
    o = none ∨ ∃ a, o = some a ∧ f w t = (.done a, t') := by
  unfold Dstu.Faulty.attempt at h
  cases hf : f w t with
  | mk r t1 =>
    rw [hf] at h
    cases r with
    | done a =>
      simp only [Prod.mk.injEq, Drawn.done.injEq] at h
      right
      exact ⟨a, h.1.symm, by rw [h.2]⟩
    | failed =>
      simp only [Prod.mk.injEq, Drawn.done.injEq] at h
      exact Or.inl h.1.symm
    | waiting => simp at h

/-- The identifier found is the right one, or none. -/
theorem nid_done (nids : CurveNids) (g : EcGroup) (w : Nat → Bool) (t t' : Ticks) (nid : Nat)
    (h : Dstu.Faulty.curve_nid_from_group nids g w t = (.done nid, t')) : nid = curve_nid_from_group nids g ∨ nid = NID_undef := by
  unfold Dstu.Faulty.curve_nid_from_group at h
  unfold curve_nid_from_group
  cases hi : (dstu_curves nids).findIdx? (fun c => (g.degree : Int) = c.poly.headD 0) with
  | none =>
    rw [hi] at h
    exact Or.inr (pure_done h).1.symm
  | some i =>
    rw [hi] at h
    simp only at h ⊢
    obtain ⟨c, t1, e1, e2⟩ := bind_done h
    obtain ⟨v1, v2⟩ := value_done e1
    obtain ⟨o, t2, e3, e4⟩ := bind_done e2
    rcases attempt_done e3 with rfl | ⟨std, rfl, k1⟩
    · exact Or.inr (pure_done e4).1.symm
    · have hlt : i < 10 := (List.getElem?_eq_some_iff.mp v1).1
      obtain ⟨m1, _⟩ := entry_done nids i hlt c v1 w t1 t2 std k1
      have hn : group_from_named_curve nids i = some std := by
        unfold group_from_named_curve
        rw [v1]
        exact m1
      unfold Dstu.Faulty.sameNid at e4
      obtain ⟨same, t3, e5, e6⟩ := bind_done e4
      have hp := (pure_done (α := Nat) e6).1
      rw [hn]
      simp only [v1, Option.map_some, Option.getD_some]
      by_cases hs : same = true ∧ g = std
      · rw [if_pos hs] at hp
        rw [if_pos hs.2]
        exact Or.inl hp.symm
      · rw [if_neg hs] at hp
        exact Or.inr hp.symm

theorem encodeB_some {b size : Nat} {l : List Byte} (h : Dstu.Faulty.encodeB b size = some l) : ∃ k, k ≠ 0 ∧ bn_encode b size = (k, some l) := by
  unfold Dstu.Faulty.encodeB at h
  split at h
  · cases h
  · rename_i k bytes hne he
    subst h
    exact ⟨k, fun h0 => hne h0, he⟩

theorem custom_done (g : EcGroup) (le : Bool) (w : Nat → Bool) (t t' : Ticks) (spec : CustomCurveSpec)
    (h : Dstu.Faulty.custom_from_group g le w t = (.done spec, t')) : custom_from_group g le = some spec := by
  unfold Dstu.Faulty.custom_from_group at h
  unfold custom_from_group
  obtain ⟨_, t1, e1, e2⟩ := bind_done h
  obtain ⟨⟨m, poly⟩, t2, e3, e4⟩ := bind_done e2
  obtain ⟨v1, _⟩ := value_done e3
  obtain ⟨_, t3, e5, e6⟩ := bind_done e4
  obtain ⟨_, t4, e7, e8⟩ := bind_done e6
  obtain ⟨b, t5, e9, e10⟩ := bind_done e8
  obtain ⟨v2, _⟩ := value_done e9
  obtain ⟨b', t6, e11, e12⟩ := bind_done e10
  obtain ⟨v3, _⟩ := value_done e11
  obtain ⟨_, t7, e13, e14⟩ := bind_done e12
  obtain ⟨bp, t8, e15, e16⟩ := bind_done e14
  obtain ⟨c1, _⟩ := C126_compress g _ _ w t7 t8 bp e15
  obtain ⟨bp', t9, e17, e18⟩ := bind_done e16
  obtain ⟨v4, _⟩ := value_done e17
  obtain ⟨_, t10, e19, e20⟩ := bind_done e18
  have hp := (pure_done (α := CustomCurveSpec) e20).1
  obtain ⟨k, hk, hb⟩ := encodeB_some v2
  rw [v1]
  simp only at c1 ⊢
  rw [hb]
  cases k with
  | zero => exact absurd rfl hk
  | succ k =>
    simp only [v3, c1, v4]
    rw [← hp]

/-- The parameters are those written when nothing fails, or a description of the same group. -/
theorem from_key_done (nids : CurveNids) (objs : ObjTable nids) (key : DstuKey) (le : Bool) (w : Nat → Bool) (t t' : Ticks) (params : AlgorithmParameters)
    (h : Dstu.Faulty.asn1_from_key nids objs key le w t = (.done params, t')) : ∃ g, key.group = some g ∧ params.sbox = encodedSbox key.sbox ∧
      (asn1_from_key nids objs key le = some params ∨ ∃ spec, custom_from_group g le = some spec ∧ params.curve = .custom spec) := by
  unfold Dstu.Faulty.asn1_from_key at h
  obtain ⟨g, t1, e1, e2⟩ := bind_done h
  obtain ⟨v1, _⟩ := value_done e1
  obtain ⟨_, t2, e3, e4⟩ := bind_done e2
  obtain ⟨nid, t3, e5, e6⟩ := bind_done e4
  have hn := nid_done nids g w t2 t3 nid e5
  obtain ⟨curve, t4, e7, e8⟩ := bind_done e6
  have hp := (pure_done (α := AlgorithmParameters) e8).1
  refine ⟨g, v1, by rw [← hp], ?_⟩
  unfold Dstu.Faulty.curveSpec at e7
  by_cases h0 : nid = NID_undef
  · rw [if_pos h0] at e7
    obtain ⟨spec, t5, e9, e10⟩ := bind_done e7
    have hq := (pure_done (α := CurveSpec) e10).1
    exact Or.inr ⟨spec, custom_done g le w t3 t5 spec e9, by rw [← hp, ← hq]⟩
  · rw [if_neg h0] at e7
    obtain ⟨_, t5, e9, e10⟩ := bind_done e7
    have hq := (pure_done (α := CurveSpec) e10).1
    left
    rcases hn with hn | hn
    · unfold asn1_from_key
      simp only [v1]
      rw [← hn, if_neg h0, ← hp, ← hq]
    · exact absurd hn h0

/-! ### The base points of the built-in curves can be compressed -/

theorem table_gx (nids : CurveNids) (i : Nat) (c : NamedCurve) (hc : (dstu_curves nids)[i]? = some c) :
    ∃ m ks, tableExps[i]? = some (m, ks) ∧ fieldAt c.data m 2 ≠ 1 := by
  match i with
  | 0 => simp only [dstu_curves, List.getElem?_cons_zero, Option.some.injEq] at hc; subst hc; refine ⟨_, _, rfl, ?_⟩; dsimp only; decide +kernel
  | 1 => simp only [dstu_curves, List.getElem?_cons_succ, List.getElem?_cons_zero, Option.some.injEq] at hc; subst hc; refine ⟨_, _, rfl, ?_⟩; dsimp only; decide +kernel
  | 2 => simp only [dstu_curves, List.getElem?_cons_succ, List.getElem?_cons_zero, Option.some.injEq] at hc; subst hc; refine ⟨_, _, rfl, ?_⟩; dsimp only; decide +kernel
  | 3 => simp only [dstu_curves, List.getElem?_cons_succ, List.getElem?_cons_zero, Option.some.injEq] at hc; subst hc; refine ⟨_, _, rfl, ?_⟩; dsimp only; decide +kernel
  | 4 => simp only [dstu_curves, List.getElem?_cons_succ, List.getElem?_cons_zero, Option.some.injEq] at hc; subst hc; refine ⟨_, _, rfl, ?_⟩; dsimp only; decide +kernel
  | 5 => simp only [dstu_curves, List.getElem?_cons_succ, List.getElem?_cons_zero, Option.some.injEq] at hc; subst hc; refine ⟨_, _, rfl, ?_⟩; dsimp only; decide +kernel
  | 6 => simp only [dstu_curves, List.getElem?_cons_succ, List.getElem?_cons_zero, Option.some.injEq] at hc; subst hc; refine ⟨_, _, rfl, ?_⟩; dsimp only; decide +kernel
  | 7 => simp only [dstu_curves, List.getElem?_cons_succ, List.getElem?_cons_zero, Option.some.injEq] at hc; subst hc; refine ⟨_, _, rfl, ?_⟩; dsimp only; decide +kernel
  | 8 => simp only [dstu_curves, List.getElem?_cons_succ, List.getElem?_cons_zero, Option.some.injEq] at hc; subst hc; refine ⟨_, _, rfl, ?_⟩; dsimp only; decide +kernel
  | 9 => simp only [dstu_curves, List.getElem?_cons_succ, List.getElem?_cons_zero, Option.some.injEq] at hc; subst hc; refine ⟨_, _, rfl, ?_⟩; dsimp only; decide +kernel
  | i + 10 => simp [dstu_curves] at hc

theorem named_base (nids : CurveNids) (i : Fin 10) (g : EcGroup) (hg : group_from_named_curve nids i = some g) : g.gx ≠ 1 := by
  obtain ⟨c, m, ks, hc, hm, _, rfl⟩ := named_entry nids i g hg
  obtain ⟨m', ks', hm', hn⟩ := table_gx nids i c hc
  rw [hm] at hm'
  cases hm'
  exact hn

/-- Curves whose parameters survive are described as other curves, too. -/
theorem encodable_dstu (env : Env) (g : EcGroup) (hg : EncodableCurve env g) : ∃ h : DstuCurve g, ¬ @BadBase g h.good := by
  rcases hg with ⟨i, hi⟩ | h
  · have hD := named_dstu env.nids i g hi
    exact ⟨hD, fun hb => named_base env.nids i g hi hb.1⟩
  · exact h

/-! ### Parameters -/

/-- C128, parameters: whatever calls fail, parameters that are exported, of a built-in curve or of another curve of C36, are imported, when nothing
fails, as the same group and the same effective S-box. -/
theorem C128_params (env : Env) (g : EcGroup) (hg : EncodableCurve env g) (t : KeyType) (key : DstuKey) (hkey : key.group = some g)
    (w : Nat → Bool) (u u' : Ticks) (der : List Byte) (h : Dstu.Faulty.dstu_asn1_param_encode env ⟨t, some key⟩ w u = (.done (some der), u'))
    (old : Option DstuKey) (rest : List Byte) :
    ∃ s, dstu_asn1_param_decode env ⟨t, old⟩ (der ++ rest) = (true, ⟨t, some ⟨some g, s, none, none⟩⟩) ∧ effectiveSbox s = effectiveSbox key.sbox := by
  unfold Dstu.Faulty.dstu_asn1_param_encode at h
  obtain ⟨key', t1, e1, e2⟩ := bind_done h
  obtain ⟨v1, _⟩ := value_done e1
  simp only [Option.some.injEq] at v1
  subst v1
  obtain ⟨params, t2, e3, e4⟩ := bind_done e2
  obtain ⟨enc, t3, e5, e6⟩ := bind_done e4
  have hp := (pure_done (α := Option (List Byte)) e6).1
  cases enc with
  | false => simp at hp
  | true =>
    simp only [if_true, Option.some.injEq] at hp
    obtain ⟨g', k1, k2, k3⟩ := from_key_done env.nids env.objs key (decide (t = .le)) w t1 t2 params e3
    rw [hkey, Option.some.injEq] at k1
    subst k1
    obtain ⟨hD, hb⟩ := encodable_dstu env g hg
    rcases k3 with k3 | ⟨spec, k3, k4⟩
    · have henc : dstu_asn1_param_encode env ⟨t, some key⟩ = some der := by
        simp only [dstu_asn1_param_encode, k3, hp]
      by_cases hn : ∃ i : Fin 10, group_from_named_curve env.nids i = some g
      · obtain ⟨i, hi⟩ := hn
        obtain ⟨der', s, m1, m2, m3⟩ := C35_named_round_trip env i g hi t key hkey old rest
        rw [henc, Option.some.injEq] at m1
        subst m1
        exact ⟨s, m2, m3⟩
      · obtain ⟨der', s, m1, m2, m3⟩ := @C36_custom_round_trip_partial env g hD.good hD hb (fun i hi => hn ⟨i, hi⟩) t key hkey old rest
        rw [henc, Option.some.injEq] at m1
        subst m1
        exact ⟨s, m2, m3⟩
    · obtain ⟨spec', h1, _, h3, h4⟩ := @custom_group_round_trip env.sq g hD.good hD hb (decide (t = .le))
      rw [k3, Option.some.injEq] at h1
      subst h1
      obtain ⟨s, hs, hs', _⟩ := key_from_encoded env (.custom spec) key.sbox (decide (t = .le)) g h3
      have hpar : params = ⟨.custom spec, encodedSbox key.sbox⟩ := by
        cases params
        simp only at k2 k4
        rw [k2, k4]
      refine ⟨s, ?_, hs'⟩
      have hsm : (⟨.custom spec, encodedSbox key.sbox⟩ : AlgorithmParameters).Small := ⟨h4.1, fun l hl => encodedSbox_small _ _ hl⟩
      have hd := env.codec.inv _ rest hsm
      simp only [dstu_asn1_param_decode]
      rw [← hp, hpar, hd]
      simp only [hs]

/-! ### Private keys -/

/-- C128, private keys, where it holds: whatever calls fail, a private key that is exported with its parameters is imported, when nothing fails, as the same
private key, with the same group, the same effective S-box and the public key that belongs to it.  Missing: see `C128_private_refuted`. -/
theorem C128_private_partial (env : Env) (g : EcGroup) [GoodGroup g] (hg : EncodableCurve env g) (t : KeyType) (key : DstuKey) (hkey : key.group = some g)
    (w : Nat → Bool) (u u' : Ticks) (p8 : Pkcs8) (h : Dstu.Faulty.dstu_asn1_priv_encode env ⟨t, some key⟩ w u = (.done p8, u')) (hp : p8.params ≠ none)
    (old : EvpPkey) :
    ∃ d s, key.priv = some d ∧ dstu_asn1_priv_decode env old p8 = (true, ⟨t, some ⟨some g, s, some d, some (affine (-(d • g.gen)))⟩⟩) ∧
      effectiveSbox s = effectiveSbox key.sbox := by
  unfold Dstu.Faulty.dstu_asn1_priv_encode at h
  obtain ⟨_, t1, e1, e2⟩ := bind_done h
  obtain ⟨params, t2, e3, e4⟩ := bind_done e2
  obtain ⟨key', t3, e5, e6⟩ := bind_done e4
  obtain ⟨v1, _⟩ := value_done e5
  simp only [Option.some.injEq] at v1
  subst v1
  obtain ⟨d, t4, e7, e8⟩ := bind_done e6
  obtain ⟨v2, _⟩ := value_done e7
  obtain ⟨_, t5, e9, e10⟩ := bind_done e8
  by_cases h0 : numBytes d = 0
  · rw [if_pos h0] at e10
    exact (err_done e10).elim
  rw [if_neg h0] at e10
  obtain ⟨prk, t6, e11, e12⟩ := bind_done e10
  obtain ⟨v3, _⟩ := value_done e11
  obtain ⟨_, t7, e13, e14⟩ := bind_done e12
  have hq := (pure_done (α := Pkcs8) e14).1
  subst hq
  cases params with
  | none => exact absurd rfl hp
  | some der =>
    obtain ⟨s, m1, m2⟩ := C128_params env g hg t key hkey w t1 t2 der e3 none []
    rw [List.append_nil] at m1
    refine ⟨d, s, v2, ?_, m2⟩
    have hrev : reverse_bytes (bn2bin d) (numBytes d) = some (bn2bin d).reverse := by
      rw [← bn2bin_length d, reverse_bytes_eq]
    rw [hrev, Option.some.injEq] at v3
    subst v3
    unfold dstu_asn1_priv_decode
    have hl : ((bn2bin d).reverse).length ≠ 0 := by rw [List.length_reverse, bn2bin_length]; exact h0
    simp only [m1, hl, if_false]
    rw [reverse_bytes_copy_eq, List.reverse_reverse]
    simp only [bin2bn_eq, beValue_bn2bin, add_public_key_good]

/-! ### Public keys -/

/-- C128, public keys: whatever calls fail, a public key of C41 that is exported is imported, when nothing fails, as the same public key, with the same group
and the same effective S-box. -/
theorem C128_public (env : Env) (g : EcGroup) [GoodGroup g] (hg : EncodableCurve env g) (t : KeyType) (key : DstuKey) (hkey : key.group = some g)
    (x y : GF g.p) (hxy : g.curve.Nonsingular x y) (hpub : key.pub = some (affine (Affine.Point.some x y hxy : g.Point)))
    (hP : g.n • (Affine.Point.some x y hxy : g.Point) = 0) (hex : ¬ (x = 1 ∧ trace y = 0))
    (w : Nat → Bool) (u u' : Ticks) (enc : X509Pubkey) (h : Dstu.Faulty.dstu_asn1_pub_encode env ⟨t, some key⟩ w u = (.done enc, u')) (old : EvpPkey) :
    ∃ s, dstu_asn1_pub_decode env old enc = (true, ⟨t, some ⟨some g, s, none, some (affine (Affine.Point.some x y hxy : g.Point))⟩⟩) ∧
      effectiveSbox s = effectiveSbox key.sbox := by
  unfold Dstu.Faulty.dstu_asn1_pub_encode at h
  obtain ⟨_, t1, e1, e2⟩ := bind_done h
  obtain ⟨params, t2, e3, e4⟩ := bind_done e2
  obtain ⟨der, t3, e5, e6⟩ := bind_done e4
  obtain ⟨v1, _⟩ := value_done e5
  subst v1
  obtain ⟨key', t4, e7, e8⟩ := bind_done e6
  obtain ⟨v2, _⟩ := value_done e7
  simp only [Option.some.injEq] at v2
  subst v2
  obtain ⟨g', t5, e9, e10⟩ := bind_done e8
  obtain ⟨v3, _⟩ := value_done e9
  rw [hkey, Option.some.injEq] at v3
  subst v3
  obtain ⟨point, t6, e11, e12⟩ := bind_done e10
  obtain ⟨v4, _⟩ := value_done e11
  rw [hpub, Option.some.injEq] at v4
  subst v4
  obtain ⟨_, t7, e13, e14⟩ := bind_done e12
  obtain ⟨c, t8, e15, e16⟩ := bind_done e14
  obtain ⟨c1, _⟩ := C126_compress g _ _ w t7 t8 c e15
  obtain ⟨r, t9, e17, e18⟩ := bind_done e16
  obtain ⟨v5, _⟩ := value_done e17
  obtain ⟨_, t10, e19, e20⟩ := bind_done e18
  have hq := (pure_done (α := X509Pubkey) e20).1
  subst hq
  obtain ⟨hc, _⟩ := encodable_dstu env g hg
  obtain ⟨s, m1, m2⟩ := C128_params env g hg t key hkey w t1 t2 der (by rw [e3]) none []
  rw [List.append_nil] at m1
  obtain ⟨c', hc1, hc2, hc3⟩ := C31_round_trip_partial env.sq hc.odd hc.a01 hc.n_odd x y hxy hP hex g.fieldSize (le_refl _)
  have hfs : (g.degree + 7) / 8 = g.fieldSize := rfl
  rw [hfs, hc1, Prod.mk.injEq, Option.some.injEq] at c1
  obtain rfl := c1.2
  have hp := goodGroup_p g
  have hfs0 : 0 < g.fieldSize := by
    have := fieldDegree_pos hp
    unfold EcGroup.fieldSize EcGroup.degree fieldDegree at *
    omega
  have hcl : c' ≠ [] := by rintro rfl; simp at hc2; omega
  obtain ⟨r', hr1, hr2⟩ := maybeReverse_copy (t = .le) c' hcl
  rw [hr1, Option.some.injEq] at v5
  subst v5
  have hrl : r'.length = c'.length := by
    unfold maybeReverse at hr1
    split at hr1
    · rw [reverse_bytes_eq] at hr1
      cases hr1
      simp
    · cases hr1; rfl
  have hrs : r'.length < 2 ^ 28 := by
    rw [hrl, hc2]
    have := hc.small
    unfold fieldDegree at this
    unfold EcGroup.fieldSize EcGroup.degree
    omega
  have hdec := env.octet.der r' [] hrs
  rw [List.append_nil] at hdec
  refine ⟨s, ?_, m2⟩
  unfold dstu_asn1_pub_decode
  simp only [m1, hdec, hr2, hc3, affine]

/-! ### When nothing fails -/

theorem run_attempt {α : Type} {f : Dstu.Faulty α} {a : α} (h : Run f a) : Run (Dstu.Faulty.attempt f) (some a) := by
  obtain ⟨K, hK⟩ := h
  refine ⟨K, fun w s n hw => ?_⟩
  unfold Dstu.Faulty.attempt
  rw [hK w s n hw]

theorem run_ask : Run Dstu.Faulty.ask true := ⟨_, runs_ask⟩

theorem run_compress (g : EcGroup) (point : Option (Nat × Nat)) (len : Nat) (c : List Byte) (h : dstu_point_compress g point len = (true, some c)) :
    Run (Dstu.Faulty.dstu_point_compress g point len) c := by
  unfold Dstu.Faulty.dstu_point_compress
  unfold dstu_point_compress at h
  by_cases hl : len < g.fieldSize
  · simp [hl] at h
  rw [if_neg hl] at h ⊢
  cases point with
  | none => simp at h
  | some q =>
    obtain ⟨x, y⟩ := q
    refine run_bind (run_checks 7) ?_
    simp only at h ⊢
    by_cases hx : x = 0
    · rw [if_pos hx, Prod.mk.injEq, Option.some.injEq] at h
      rw [if_pos hx, h.2]
      exact run_pure _
    rw [if_neg hx] at h ⊢
    cases hi : gf2m_inv g.p x with
    | none => simp [hi] at h
    | some xi =>
      simp only [hi] at h ⊢
      refine run_bind run_check (run_bind run_check (run_bind (run_trace _ _) ?_))
      by_cases h1 : bn_trace (gf2m_mul g.p y xi) g.p = -1
      · simp [h1] at h
      rw [if_neg h1] at h ⊢
      refine run_bind run_check ?_
      simp only [Prod.mk.injEq, decide_eq_true_eq] at h ⊢
      rw [if_pos h.1, h.2]
      exact run_pure _

theorem run_nid (nids : CurveNids) (g : EcGroup) : Run (Dstu.Faulty.curve_nid_from_group nids g) (curve_nid_from_group nids g) := by
  unfold Dstu.Faulty.curve_nid_from_group curve_nid_from_group
  cases hi : (dstu_curves nids).findIdx? (fun c => (g.degree : Int) = c.poly.headD 0) with
  | none => exact run_pure _
  | some i =>
    simp only
    have hlt : i < 10 := (List.findIdx?_eq_some_iff_getElem.mp hi).1
    obtain ⟨c, std, hc, hstd, _⟩ := C33_curve_table_sound nids ⟨i, hlt⟩
    simp only at hc hstd
    have hgo : groupOfEntry c = some std := by
      unfold group_from_named_curve at hstd
      rw [hc] at hstd
      exact hstd
    refine run_bind (run_value hc) (run_bind (run_attempt (run_entry c std hgo)) ?_)
    unfold Dstu.Faulty.sameNid
    refine run_bind run_ask ?_
    rw [hstd]
    simp only [hc, true_and, Option.map_some, Option.getD_some]
    exact run_pure _

theorem run_custom_export (g : EcGroup) (le : Bool) (spec : CustomCurveSpec) (h : custom_from_group g le = some spec) :
    Run (Dstu.Faulty.custom_from_group g le) spec := by
  unfold custom_from_group at h
  unfold Dstu.Faulty.custom_from_group
  split at h
  · cases h
  rename_i m poly hf
  simp only at h
  split at h
  · cases h
  · cases h
  rename_i k b hk hb
  split at h
  · cases h
  rename_i b' hb'
  split at h
  · cases h
  · cases h
  rename_i bp hbp
  split at h
  · cases h
  rename_i bp' hbp'
  cases h
  refine run_bind (run_checks 4) (run_bind (run_value hf) ?_)
  have he : Dstu.Faulty.encodeB g.b ((m + 7) / 8).toNat = some b := by
    unfold Dstu.Faulty.encodeB
    rw [hb]
    split
    · rename_i heq
      simp only [Prod.mk.injEq] at heq
      exact absurd heq.1 hk
    · rename_i heq
      simp only [Prod.mk.injEq] at heq
      exact heq.2.symm
  exact run_bind (run_checks _) (run_bind (run_checks 3) (run_bind (run_value he) (run_bind (run_value hb') (run_bind run_check
    (run_bind (run_compress g _ _ bp hbp) (run_bind (run_value hbp') (run_bind run_check (run_pure _))))))))

theorem run_from_key (nids : CurveNids) (objs : ObjTable nids) (key : DstuKey) (le : Bool) (params : AlgorithmParameters)
    (h : asn1_from_key nids objs key le = some params) : Run (Dstu.Faulty.asn1_from_key nids objs key le) params := by
  unfold asn1_from_key at h
  unfold Dstu.Faulty.asn1_from_key
  split at h
  · cases h
  rename_i g hg
  simp only at h
  refine run_bind (run_value hg) (run_bind (run_checks _) (run_bind (run_nid nids g) ?_))
  unfold Dstu.Faulty.curveSpec
  by_cases h0 : curve_nid_from_group nids g = NID_undef
  · rw [if_pos h0] at h ⊢
    split at h
    · cases h
    rename_i spec hs
    cases h
    exact run_bind (run_bind (run_custom_export g le spec hs) (run_pure _)) (run_pure _)
  · rw [if_neg h0] at h ⊢
    cases h
    exact run_bind (run_bind run_check (run_pure _)) (run_pure _)

theorem run_param_encode (env : Env) (pk : EvpPkey) (der : List Byte) (h : dstu_asn1_param_encode env pk = some der) :
    Run (Dstu.Faulty.dstu_asn1_param_encode env pk) (some der) := by
  unfold dstu_asn1_param_encode at h
  unfold Dstu.Faulty.dstu_asn1_param_encode
  split at h
  · cases h
  rename_i key hk
  split at h
  · cases h
  rename_i params hp
  cases h
  exact run_bind (run_value hk) (run_bind (run_from_key _ _ _ _ _ hp) (run_bind run_ask (run_pure _)))

/-- C128: when nothing fails, parameters are exported as in the model without failures. -/
theorem C128_params_nothing_fails (env : Env) (pk : EvpPkey) (der : List Byte) (h : dstu_asn1_param_encode env pk = some der) (t : Ticks) :
    ∃ t', Dstu.Faulty.dstu_asn1_param_encode env pk noFault t = (.done (some der), t') ∧ t'.faults = t.faults := (run_param_encode env pk der h).none t

/-- C128: when nothing fails, private keys are exported as in the model without failures. -/
theorem C128_private_nothing_fails (env : Env) (pk : EvpPkey) (p8 : Pkcs8) (h : dstu_asn1_priv_encode env pk = some p8) (t : Ticks) :
    ∃ t', Dstu.Faulty.dstu_asn1_priv_encode env pk noFault t = (.done p8, t') ∧ t'.faults = t.faults := by
  suffices hs : Run (Dstu.Faulty.dstu_asn1_priv_encode env pk) p8 from hs.none t
  unfold dstu_asn1_priv_encode at h
  unfold Dstu.Faulty.dstu_asn1_priv_encode
  split at h
  · cases h
  rename_i der hder
  split at h
  · cases h
  rename_i key hk
  split at h
  · cases h
  rename_i d hd
  split at h
  · cases h
  rename_i h0
  split at h
  · cases h
  rename_i prk hprk
  cases h
  refine run_bind run_check (run_bind (run_param_encode env pk der hder) (run_bind (run_value hk) (run_bind (run_value hd) (run_bind run_check ?_))))
  rw [if_neg h0]
  exact run_bind (run_value hprk) (run_bind run_check (run_pure _))

/-- C128: when nothing fails, public keys are exported as in the model without failures. -/
theorem C128_public_nothing_fails (env : Env) (pk : EvpPkey) (enc : X509Pubkey) (h : dstu_asn1_pub_encode env pk = some enc) (t : Ticks) :
    ∃ t', Dstu.Faulty.dstu_asn1_pub_encode env pk noFault t = (.done enc, t') ∧ t'.faults = t.faults := by
  suffices hs : Run (Dstu.Faulty.dstu_asn1_pub_encode env pk) enc from hs.none t
  unfold dstu_asn1_pub_encode at h
  unfold Dstu.Faulty.dstu_asn1_pub_encode
  split at h
  · cases h
  rename_i der hder
  split at h
  · cases h
  rename_i key hk
  split at h
  · cases h
  rename_i g hg
  simp only at h
  split at h
  · cases h
  rename_i point hpt
  split at h
  · cases h
  · cases h
  rename_i c hc
  split at h
  · cases h
  rename_i r hr
  cases h
  exact run_bind run_check (run_bind (run_param_encode env pk der hder) (run_bind (run_value rfl) (run_bind (run_value hk) (run_bind (run_value hg)
    (run_bind (run_value hpt) (run_bind run_check (run_bind (run_compress g point _ c hc) (run_bind (run_value hr) (run_bind (run_checks 3) (run_pure _))))))))))

/-! ### What goes wrong -/

/-- C128 fails for the form of the parameters: for every built-in curve and every key on it, when one call fails, which is the first one that is made for the
comparison with the table, the parameters are exported with success as those of a curve that is not built in; other programs, which know the curve by its
identifier only, may not accept that. -/
theorem C128_params_refuted (env : Env) (i : Fin 10) (g : EcGroup) (hi : group_from_named_curve env.nids i = some g) (t : KeyType) (key : DstuKey)
    (hkey : key.group = some g) :
    ∃ T k der der' oid spec, dstu_asn1_param_encode env ⟨t, some key⟩ = some der ∧ env.codec.d2i der = some ⟨.named oid, encodedSbox key.sbox⟩ ∧
      Dstu.Faulty.dstu_asn1_param_encode env ⟨t, some key⟩ (fun j => decide (j ≠ T)) ⟨0, 0⟩ = (.done (some der'), ⟨k, 1⟩) ∧
      env.codec.d2i der' = some ⟨.custom spec, encodedSbox key.sbox⟩ ∧ der ≠ der' := by
  have hD := named_dstu env.nids i g hi
  have hgood := hD.good
  obtain ⟨g', n1, n2⟩ := C34_identifier_round_trip env.nids i
  have hgg : g' = g := by
    rw [group_from_nid_uacurve, hi] at n1
    exact (Option.some.inj n1).symm
  subst hgg
  have hne := env.nids.defined i
  have hsm : (⟨.named (env.objs.nid2obj (env.nids.uacurve i)), encodedSbox key.sbox⟩ : AlgorithmParameters).Small :=
    ⟨env.objs.valid i, fun l hl => encodedSbox_small _ _ hl⟩
  have hdp := env.codec.inv _ [] hsm
  rw [List.append_nil] at hdp
  obtain ⟨spec, h1, _, h3, h4⟩ := custom_group_round_trip env.sq g' hD (fun hb => named_base env.nids i g' hi hb.1) (decide (t = .le))
  have hsm' : (⟨.custom spec, encodedSbox key.sbox⟩ : AlgorithmParameters).Small := ⟨h4.1, fun l hl => encodedSbox_small _ _ hl⟩
  have hdp' := env.codec.inv _ [] hsm'
  rw [List.append_nil] at hdp'
  obtain ⟨c, m, ks, hc, hm, he, hge⟩ := named_entry env.nids i g' hi
  obtain ⟨K, hK⟩ := run_custom_export g' (decide (t = .le)) spec h1
  obtain ⟨T, hT⟩ : ∃ T, T = (if (encodedSbox key.sbox).isSome then 2 else 0) := ⟨_, rfl⟩
  obtain ⟨w, hw⟩ : ∃ w : Nat → Bool, w = fun j => decide (j ≠ T) := ⟨_, rfl⟩
  have ht : ∀ j, j ≠ T → w j = true := fun j hj => by rw [hw]; exact decide_eq_true hj
  have hf : w T = false := by rw [hw]; simp
  refine ⟨T, T + 1 + K + 1, _, env.codec.i2d ⟨.custom spec, encodedSbox key.sbox⟩, _, spec, ?_, hdp, ?_, hdp', ?_⟩
  · simp only [dstu_asn1_param_encode, asn1_from_key, hkey, n2, NID_undef, hne, if_false]
  · rw [← hw]
    have hent : Dstu.Faulty.groupOfEntry c w ⟨T, 0⟩ = (.failed, ⟨T + 1, 1⟩) := by
      unfold Dstu.Faulty.groupOfEntry
      simp only
      rw [if_pos (by rw [he.head, Int.toNat_natCast]; exact he.length)]
      change Dstu.Faulty.bind (Dstu.Faulty.checks 8) _ w ⟨T, 0⟩ = _
      have hch : Dstu.Faulty.checks 8 w ⟨T, 0⟩ = (.failed, ⟨T + 1, 1⟩) := by
        change Dstu.Faulty.bind Dstu.Faulty.check (fun _ => Dstu.Faulty.checks 7) w ⟨T, 0⟩ = _
        unfold Dstu.Faulty.bind Dstu.Faulty.check
        simp [hf]
      unfold Dstu.Faulty.bind
      rw [hch]
    have hnid : Dstu.Faulty.curve_nid_from_group env.nids g' w ⟨T, 0⟩ = (.done NID_undef, ⟨T + 1, 1⟩) := by
      unfold Dstu.Faulty.curve_nid_from_group
      rw [findIdx_degree env.nids i g' hi]
      simp only [hc]
      rw [bind_step (a := c) (t1 := ⟨T, 0⟩) rfl, bind_step (a := none) (t1 := ⟨T + 1, 1⟩)]
      · rfl
      · unfold Dstu.Faulty.attempt
        rw [hent]
    have hfk : Dstu.Faulty.asn1_from_key env.nids env.objs key (decide (t = .le)) w ⟨0, 0⟩ =
        (.done ⟨.custom spec, encodedSbox key.sbox⟩, ⟨T + 1 + K, 1⟩) := by
      unfold Dstu.Faulty.asn1_from_key
      rw [bind_step (a := g') (t1 := ⟨0, 0⟩) (by rw [hkey]; rfl), ← hT, checks_pass _ w T 0 0 (fun j _ _ => ht j (by omega)), Nat.zero_add,
        bind_step hnid, bind_step (a := .custom spec) (t1 := ⟨T + 1 + K, 1⟩)]
      · rfl
      · unfold Dstu.Faulty.curveSpec
        rw [if_pos rfl, bind_step (hK w (T + 1) 1 (fun j _ _ => ht j (by omega)))]
        rfl
    unfold Dstu.Faulty.dstu_asn1_param_encode
    rw [bind_step (a := key) (t1 := ⟨0, 0⟩) rfl]
    simp only
    rw [bind_step hfk, ask_pass _ w _ 1 (ht _ (by omega))]
    rfl
  · intro heq
    rw [heq] at hdp
    rw [hdp] at hdp'
    simp at hdp'

/-- C128 fails for private keys: for every private key of C40, when the last call made for the parameters fails, success is reported, but the parameters are
missing, and what was exported cannot be imported. -/
theorem C128_private_refuted (env : Env) (g : EcGroup) (hg : EncodableCurve env g) (t : KeyType) (key : DstuKey) (hkey : key.group = some g) (d : Nat)
    (hpriv : key.priv = some d) (hd : d ≠ 0) :
    ∃ T k p8, dstu_asn1_priv_encode env ⟨t, some key⟩ = some p8 ∧ p8.params ≠ none ∧
      Dstu.Faulty.dstu_asn1_priv_encode env ⟨t, some key⟩ (fun j => decide (j ≠ T)) ⟨0, 0⟩ = (.done { p8 with params := none }, ⟨k, 1⟩) ∧
      ∀ old, (dstu_asn1_priv_decode env old { p8 with params := none }).1 = false := by
  obtain ⟨der, s, h1, h2, h3⟩ := param_round_trip env g hg t key hkey none
  have hnb : numBytes d ≠ 0 := by
    have := (numBytes_pos d).mpr hd
    omega
  have hrev : reverse_bytes (bn2bin d) (numBytes d) = some (bn2bin d).reverse := by
    rw [← bn2bin_length d, reverse_bytes_eq]
  have h1' := h1
  unfold dstu_asn1_param_encode at h1'
  simp only at h1'
  split at h1'
  · cases h1'
  rename_i params hparams
  obtain ⟨K, hK⟩ := run_from_key env.nids env.objs key (decide (t = .le)) params hparams
  obtain ⟨w, hw⟩ : ∃ w : Nat → Bool, w = fun j => decide (j ≠ 1 + K) := ⟨_, rfl⟩
  have ht : ∀ j, j ≠ 1 + K → w j = true := fun j hj => by rw [hw]; exact decide_eq_true hj
  have hf : w (1 + K) = false := by rw [hw]; simp
  refine ⟨1 + K, 1 + K + 1 + 1 + 1, ⟨some t, some der, (bn2bin d).reverse⟩, ?_, by simp, ?_, fun old => rfl⟩
  · unfold dstu_asn1_priv_encode
    simp only [h1, hpriv, hnb, if_false, hrev]
  · rw [← hw]
    have henc : Dstu.Faulty.dstu_asn1_param_encode env ⟨t, some key⟩ w ⟨1, 0⟩ = (.done none, ⟨1 + K + 1, 1⟩) := by
      unfold Dstu.Faulty.dstu_asn1_param_encode
      rw [bind_step (a := key) (t1 := ⟨1, 0⟩) rfl]
      simp only
      rw [bind_step (hK w 1 0 (fun j _ _ => ht j (by omega))), bind_step (a := false) (t1 := ⟨1 + K + 1, 1⟩)]
      · rfl
      · unfold Dstu.Faulty.ask
        simp [hf]
    unfold Dstu.Faulty.dstu_asn1_priv_encode
    rw [check_pass _ w 0 0 (ht _ (by omega)), Nat.zero_add, bind_step henc, bind_step (a := key) (t1 := ⟨1 + K + 1, 1⟩) rfl,
      bind_step (a := d) (t1 := ⟨1 + K + 1, 1⟩) (by rw [hpriv]; rfl), check_pass _ w _ 1 (ht _ (by omega)), if_neg hnb,
      bind_step (a := (bn2bin d).reverse) (t1 := ⟨1 + K + 1 + 1, 1⟩) (by rw [hrev]; rfl), check_pass _ w _ 1 (ht _ (by omega))]
    rfl

/-! ### Examples on the built-in curve of degree 163 -/

/-- The hypotheses of `C128_params`, with a call that fails, are met by `C128_params_refuted`. -/
example (env : Env) (t : KeyType) : ∃ w u' der s, Dstu.Faulty.dstu_asn1_param_encode env ⟨t, some ⟨some g163, none, some 5, none⟩⟩ w ⟨0, 0⟩ =
    (.done (some der), u') ∧ u'.faults = 1 ∧ dstu_asn1_param_decode env ⟨t, none⟩ der = (true, ⟨t, some ⟨some g163, s, none, none⟩⟩) := by
  obtain ⟨T, k, der, der', oid, spec, h1, h2, h3, h4, h5⟩ := C128_params_refuted env 0 g163 (g163_named env.nids) t ⟨some g163, none, some 5, none⟩ rfl
  obtain ⟨s, h6, _⟩ := C128_params env g163 (Or.inl ⟨0, g163_named env.nids⟩) t _ rfl _ _ _ der' h3 none []
  rw [List.append_nil] at h6
  exact ⟨_, _, der', s, h3, rfl, h6⟩

example (env : Env) (t : KeyType) : ∃ p8 u' s, Dstu.Faulty.dstu_asn1_priv_encode env ⟨t, some ⟨some g163, none, some 5, none⟩⟩ noFault ⟨0, 0⟩ =
    (.done p8, u') ∧ dstu_asn1_priv_decode env ⟨t, none⟩ p8 = (true, ⟨t, some ⟨some g163, s, some 5, some (affine (-(5 • g163.gen)))⟩⟩) := by
  obtain ⟨p8, s, Q, h1, h2, h3, h4, h5⟩ := C40_private_round_trip_partial env g163 (Or.inl ⟨0, g163_named env.nids⟩) t ⟨some g163, none, some 5, none⟩ 5 rfl rfl
    (by decide) ⟨t, none⟩
  obtain ⟨u', k1, _⟩ := C128_private_nothing_fails env _ p8 h1 ⟨0, 0⟩
  have hp : p8.params ≠ none := by
    intro h0
    unfold dstu_asn1_priv_decode at h3
    rw [h2, h0] at h3
    simp at h3
  obtain ⟨d, s', m1, m2, _⟩ := C128_private_partial env g163 (Or.inl ⟨0, g163_named env.nids⟩) t ⟨some g163, none, some 5, none⟩ rfl _ _ _ p8 k1 hp ⟨t, none⟩
  cases m1
  exact ⟨p8, u', s', k1, m2⟩

example (env : Env) := C128_private_refuted env g163 (Or.inl ⟨0, g163_named env.nids⟩) .be ⟨some g163, none, some 5, none⟩ rfl 5 rfl (by decide)

/-- A public key: the base point of the default curve. -/
example (env : Env) (old : EvpPkey) : ∃ g, ∃ _ : GoodGroup g, group_from_named_curve env.nids 6 = some g ∧ ∃ enc u' s,
    Dstu.Faulty.dstu_asn1_pub_encode env ⟨.le, some ⟨some g, none, none, some (affine g.gen)⟩⟩ noFault ⟨0, 0⟩ = (.done enc, u') ∧
      dstu_asn1_pub_decode env old enc = (true, ⟨.le, some ⟨some g, s, none, some (affine g.gen)⟩⟩) := by
  obtain ⟨c, g, _, hg, hv, _, _⟩ := C33_curve_table_sound env.nids 6
  haveI hgood : GoodGroup g := ⟨hv⟩
  obtain ⟨enc, s, h1, _, h2, _⟩ := C41_builtin env 6 (by decide) (by decide) g hg .le ⟨some g, none, none, some (affine g.gen)⟩ rfl g.gen rfl
    (Affine.Point.some_ne_zero _) (hv.order _) old
  obtain ⟨u', k1, _⟩ := C128_public_nothing_fails env _ enc h1 ⟨0, 0⟩
  have hns := binCurve_nonsingular (goodGroup_b g) hv.onCurve
  obtain ⟨s', m1, _⟩ := C128_public env g (Or.inl ⟨6, hg⟩) .le ⟨some g, none, none, some (affine g.gen)⟩ rfl _ _ hns rfl (hv.order hns)
    (fun h => named_no_exception env.nids 6 (by decide) (by decide) g hg _ _ hns (hv.order hns) h.1) _ _ _ enc k1 old
  exact ⟨g, hgood, hg, enc, u', s', k1, m1⟩

end Dstu.Props
