import Verif.Lemmas.FailLib
import Verif.Props.Compress

/-! Failures of allocations and of library calls in dstulib: C75 and C76. -/

namespace Dstu.Props

open Res Fail Spec WeierstrassCurve

/-- No objects. -/
def start : Cells := ⟨0, 0, 0, 0⟩

/-- Symbolic execution of a run. -/
macro "run" "[" l:Lean.Parser.Tactic.simpLemma,* "]" : tactic =>
  `(tactic| simp [Res.get, getTrace, weakly, num, ub, ask, alloc, free, use, calls, bind, Res.bind, pure, Res.pure, start, $l,*])

/-! ### C75 -/

/-- C75.  Whatever fails while a built-in group is made: all that remains is the group that is returned, if any, and nothing is used or released that does
not exist. -/
theorem C75_builtin_group : Safe Any Fail.group_from_named_curve 0 own := safe_group_from_named_curve

theorem C75_builtin_group_by_nid : Safe Any Fail.group_from_nid 0 own := safe_group_from_nid

/-- The search for a built-in group leaves nothing. -/
theorem C75_search : Safe Any Fail.curve_nid_from_group 0 fun _ => 0 := safe_curve_nid_from_group

/-- With every call successful, the group is the second object made, and the only one left. -/
example : Fail.group_from_named_curve (fun _ _ => true) start = some (some 1, ⟨{1}, 3, 16, 0⟩) := by
  run [Fail.group_from_named_curve, namedBody]

/-- With the last call failing nothing is left. -/
example : Fail.group_from_named_curve (fun _ n => n ≠ 15) start = some (none, ⟨0, 3, 16, 1⟩) := by
  run [Fail.group_from_named_curve, namedBody]

/-- C75, key pairs: however often a zero is drawn, and whatever fails. -/
theorem C75_key_pair (n : Nat) : Safe Any (Fail.dstu_generate_key n) 0 fun _ => 0 := safe_dstu_generate_key n

theorem C75_public_key : Safe Any Fail.dstu_add_public_key 0 fun _ => 0 := safe_dstu_add_public_key

example : Fail.dstu_generate_key 3 (fun k _ => k ≠ .data) start = some (true, ⟨0, 2, 14, 0⟩) := by
  run [Fail.dstu_generate_key, generateBody, randRounds, Fail.dstu_add_public_key, addPublic]

/-- C75, keys. -/
theorem C75_new_key : Safe Any Fail.DSTU_KEY_new 0 keyOwn := safe_DSTU_KEY_new

theorem C75_free_key (k : KeyPtr) (hk : k.self ≠ none) : Safe Any (Fail.DSTU_KEY_free (some k)) (keyOwn (some k)) fun _ => 0 := by
  obtain ⟨p, hp⟩ := Option.ne_none_iff_exists'.mp hk
  exact safe_DSTU_KEY_free hp

example := C75_free_key ⟨some 0, some 1, none⟩ (by simp)

example : (⟨some 0, some 1, none⟩ : KeyPtr).self ≠ none := by simp

/-- What is replaced in a key is released. -/
theorem C75_set_key (k : KeyPtr) (hk : k.self ≠ none) (ec sbox : Option Nat) :
    Safe Any (Fail.DSTU_KEY_set k ec sbox) (keyOwn (some k) + (own ec + own sbox)) fun r => keyOwn (some r) := by
  obtain ⟨p, hp⟩ := Option.ne_none_iff_exists'.mp hk
  obtain ⟨s, e, b⟩ := k
  subst hp
  exact safe_DSTU_KEY_set p e b ec sbox

example := C75_set_key ⟨some 0, some 1, some 2⟩ (by simp) none (some 3)

example : Fail.DSTU_KEY_set ⟨some 0, some 1, some 2⟩ none (some 3) (fun _ _ => true) ⟨{0, 1, 2, 3}, 4, 0, 0⟩ =
    some (⟨some 0, some 1, some 3⟩, ⟨{0, 1, 3}, 4, 0, 0⟩) := by
  run [Fail.DSTU_KEY_set, keySetSbox]

/-- C75, contexts: a copy leaves the original as it is. -/
theorem C75_copy_context (k : CtxPtr) (hk : k.self ≠ none) : Safe Any (Fail.DSTU_KEY_CTX_copy k) (ctxOwn (some k)) fun r => ctxOwn (some k) + ctxOwn r := by
  obtain ⟨p, hp⟩ := Option.ne_none_iff_exists'.mp hk
  obtain ⟨s, g, b⟩ := k
  subst hp
  exact Safe.framed (safe_DSTU_KEY_CTX_copy p g b) (own g + own b) rfl fun r => by simp only [ctxOwn, own_some]; abel

example := C75_copy_context ⟨some 0, some 1, some 2⟩ (by simp)

/-- What is replaced in a context is released. -/
theorem C75_set_context (k : CtxPtr) (hk : k.self ≠ none) (group sbox : Option Nat) :
    Safe Any (Fail.DSTU_KEY_CTX_set k group sbox) (ctxOwn (some k) + (own group + own sbox)) fun r => ctxOwn (some r) := by
  obtain ⟨p, hp⟩ := Option.ne_none_iff_exists'.mp hk
  obtain ⟨s, g, b⟩ := k
  subst hp
  exact safe_DSTU_KEY_CTX_set p g b group sbox

example := C75_set_context ⟨some 0, some 1, some 2⟩ (by simp) (some 3) (some 4)

theorem C75_free_context (k : CtxPtr) (hk : k.self ≠ none) : Safe Any (Fail.DSTU_KEY_CTX_free (some k)) (ctxOwn (some k)) fun _ => 0 := by
  obtain ⟨p, hp⟩ := Option.ne_none_iff_exists'.mp hk
  exact safe_DSTU_KEY_CTX_free hp

example := C75_free_context ⟨some 0, some 1, some 2⟩ (by simp)

/-- A copy of a context with a group and an S-box, when there is no memory for the S-box. -/
example : Fail.DSTU_KEY_CTX_copy ⟨some 0, some 1, some 2⟩ (fun _ n => n ≠ 2) ⟨{0, 1, 2}, 3, 0, 0⟩ = some (none, ⟨{0, 1, 2}, 5, 3, 1⟩) := by
  run [Fail.DSTU_KEY_CTX_copy, Fail.DSTU_KEY_CTX_new, Fail.copy_sbox, Fail.DSTU_KEY_CTX_free]

/-- C75, for the points, where it holds: when the number for the trace (`getTrace`, the only call there of the kind `weak`) is not refused; every other call may fail.  Missing: see `C75_points_refuted`. -/
theorem C75_compress_partial (n : Nat) : Safe (Never .weak) (Fail.dstu_point_compress n) 0 fun _ => 0 := safe_dstu_point_compress (fun _ h => h) n

theorem C75_expand_partial (n : Nat) : Safe (Never .weak) (Fail.dstu_point_expand n) 0 fun _ => 0 := safe_dstu_point_expand (fun _ h => h) n

/-- C75, for the decoding of parameters, where it holds. -/
theorem C75_decode_group_partial (little : Bool) (n : Nat) : Safe (Never .weak) (Fail.group_from_asn1 little n) 0 own := safe_group_from_asn1 (fun _ h => h) little n

theorem C75_decode_key_partial (little : Bool) (n : Nat) : Safe (Never .weak) (Fail.key_from_asn1 little n) 0 keyOwn := safe_key_from_asn1 (fun _ h => h) little n

/-- C75, for the encoding of parameters, where it holds: when in addition the structure for the parameters and the context, of the same kind, are not refused.
Missing: see `C75_encode_refuted`. -/
theorem C75_encode_partial (m n : Nat) : Safe (Never .weak) (Fail.asn1_from_key m n) 0 own := safe_asn1_from_key (fun _ h => h) m n

/-- Everything succeeds: a key is left, with the group released. -/
example : (Fail.key_from_asn1 true 2 (fun k n => k ≠ .data ∨ 4 ≤ n) start).map (fun r => (r.1.map (·.self), r.2.live)) = some (some (some 0), {1, 0}) := by
  run [Fail.key_from_asn1, Fail.DSTU_KEY_new, keyBody, Fail.group_from_nid, Fail.group_from_named_curve, namedBody]

example : Never .weak (fun k n => k ≠ .data ∨ 4 ≤ n) := fun _ => by simp

/-- C75 fails for points: when there is no memory for the number needed for the trace, NULL is dereferenced; whatever the field. -/
theorem C75_points_refuted (n : Nat) : ∃ w, Fail.dstu_point_compress n w start = none ∧ ∃ w, Fail.dstu_point_expand n w start = none := by
  refine ⟨fun k _ => k ≠ .data ∧ k ≠ .weak, ?_, fun k _ => k ≠ .data ∧ k ≠ .weak, ?_⟩
  · run [Fail.dstu_point_compress, compressBody, Fail.bn_trace]
  · run [Fail.dstu_point_expand, expandBody, expandNonzero, Fail.bn_trace]

/-- C75 fails for the encoding: when the structure for the parameters cannot be made, NULL is dereferenced. -/
theorem C75_encode_refuted (m n : Nat) : ∃ w, Fail.asn1_from_key m n w start = none :=
  ⟨fun k t => k ≠ .weak ∧ (k = .data → 0 < t), by run [Fail.asn1_from_key, asn1Body]⟩

/-! ### C76 -/

/-- C76.  A group, a key pair, a key, a copy or a compressed point is only returned when no call has failed. -/
theorem C76_builtin_group : Reports Fail.group_from_named_curve fun r => r ≠ none := reports_group_from_named_curve

theorem C76_key_pair (n : Nat) : Reports (Fail.dstu_generate_key n) fun b => b = true := reports_dstu_generate_key n

theorem C76_public_key : Reports Fail.dstu_add_public_key fun b => b = true := reports_dstu_add_public_key

theorem C76_copy_context (k : CtxPtr) : Reports (Fail.DSTU_KEY_CTX_copy k) fun r => r ≠ none := reports_DSTU_KEY_CTX_copy k

theorem C76_compress (n : Nat) : Reports (Fail.dstu_point_compress n) fun b => b = true := reports_dstu_point_compress n

example : (Fail.dstu_point_compress 4 (fun k _ => k ≠ .data) start).map (·.1) = some false ∧
    (Fail.dstu_point_compress 4 (fun k t => k ≠ .data ∨ 10 < t) start).map (·.1) = some true := by
  constructor <;> run [Fail.dstu_point_compress, compressBody, Fail.bn_trace, traceRounds]

/-- C76 fails for the expansion: it succeeds although a call failed. -/
theorem C76_expand_refuted : ∃ w c, Fail.dstu_point_expand 1 w start = some (true, c) ∧ c.faults ≠ 0 := by
  refine ⟨fun k t => if k = .data then t = 17 else t ≠ 27, ?_⟩
  run [Fail.dstu_point_expand, expandBody, expandNonzero, Fail.bn_trace, traceRounds]

open Classical in
/-- A solver of quadratic equations that prefers solutions of trace zero. -/
noncomputable def evenSolver : QuadSolver where
  solve p a :=
    if h : ∃ z, GF.ofNat p z ^ 2 + GF.ofNat p z = GF.ofNat p a ∧ z < 2 ^ fieldDegree p ∧ Spec.trace (GF.ofNat p z) = 0 then some h.choose
    else quadSolver.solve p a
  sound p a z h := by
    split at h
    · rename_i hex
      cases h
      exact ⟨hex.choose_spec.1, hex.choose_spec.2.1⟩
    · exact quadSolver.sound p a z h
  complete p a hirr ho he := by
    split
    · rfl
    · exact quadSolver.complete p a hirr ho he

open Classical in
theorem evenSolver_even {p a z : Nat} (h : evenSolver.solve p a = some z) (he : ∃ z, GF.ofNat p z ^ 2 + GF.ofNat p z = GF.ofNat p a ∧ z < 2 ^ fieldDegree p ∧ Spec.trace (GF.ofNat p z) = 0) :
    Spec.trace (GF.ofNat p z) = 0 := by
  have h : (if h : ∃ z, GF.ofNat p z ^ 2 + GF.ofNat p z = GF.ofNat p a ∧ z < 2 ^ fieldDegree p ∧ Spec.trace (GF.ofNat p z) = 0 then some h.choose
    else quadSolver.solve p a) = some z := h
  rw [dif_pos he] at h
  cases h
  exact he.choose_spec.2.2

/-- What becomes of it: for every point of C31 there is a way to solve quadratic equations with which the compressed point expands to the point if all
goes well, and to the opposite point, which is another one, with success reported, when memory runs out in the second computation of a trace. -/
theorem C76_wrong_point_refuted {g : EcGroup} [GoodGroup g] (hodd : fieldDegree g.p % 2 = 1) (ha : g.a = 0 ∨ g.a = 1)
    (hn : g.n % 2 = 1) (x y : GF g.p) (hxy : g.curve.Nonsingular x y)
    (hP : g.n • (Affine.Point.some x y hxy : g.Point) = 0) (hex : ¬ (x = 1 ∧ Spec.trace y = 0)) :
    ∃ sq c, dstu_point_compress g (affine (Affine.Point.some x y hxy : g.Point)) g.fieldSize = (true, some c) ∧
      dstu_point_expand sq c g = affine (Affine.Point.some x y hxy : g.Point) ∧
      expandWith sq (fun _ _ => -1) c g = affine (-(Affine.Point.some x y hxy : g.Point)) ∧
      affine (-(Affine.Point.some x y hxy : g.Point)) ≠ affine (Affine.Point.some x y hxy : g.Point) := by
  obtain ⟨hon, htr, hx0, hx0', hcn, hb⟩ := round_trip_facts hn x y hxy hP hex
  have hp := goodGroup_p g
  have hx := GF.toNat_lt g.p hp x
  have hy := GF.toNat_lt g.p hp y
  have hy' := GF.toNat_lt g.p hp (x + y)
  have ex := GF.ofNat_toNat g.p (by omega) x
  have ey := GF.ofNat_toNat g.p (by omega) y
  have ey' := GF.ofNat_toNat g.p (by omega) (x + y)
  have hone : Spec.trace (1 : GF g.p) = 1 := trSum_one_odd _ hodd
  have h11 : (1 : GF g.p) + 1 = 0 := CharTwo.add_self_eq_zero 1
  have hneg : affine (-(Affine.Point.some x y hxy : g.Point)) = some (GF.toNat x, GF.toNat (x + y)) := by
    rw [Affine.Point.neg_some, affine, binCurve_negY]
  refine ⟨evenSolver, bytesBE g.fieldSize (compressedNum (p := g.p) (GF.toNat x) (GF.toNat y)), ?_, ?_, ?_, ?_⟩
  · rw [affine, compress_spec g _ _ g.fieldSize le_rfl hx hx0', decide_eq_true hcn]
  · rw [affine]
    refine expand_spec g _ _ _ _ (by rw [bytesBE_length]) hodd ha hx hx0' hy ?_ ?_ hb (by rw [hb]; exact hcn)
    · rw [ex, ey]; exact hon
    · rw [ex]; exact htr
  · rw [hneg]
    refine expand_spec_with g _ _ _ _ (GF.toNat y) _ (by rw [bytesBE_length]) hodd ha hx hx0' ?_ ?_ hb (by rw [hb]; exact hcn) hy' ?_ ?_
    · rw [ex, ey]; exact hon
    · rw [ex]; exact htr
    · rw [ex, ey']
      unfold OnCurve at hon ⊢
      have t : (2 : GF g.p) = 0 := CharTwo.two_eq_zero
      linear_combination hon + (x * y + x ^ 2) * t
    · rw [ex, ey, ey']
      intro w z hz hw hk t ht
      subst ht
      rw [hk]
      obtain ⟨q, hq⟩ : ∃ q, q = y * x⁻¹ := ⟨_, rfl⟩
      have hq' : (x + y) * x⁻¹ = q + 1 := by
        rw [add_mul, mul_inv_cancel₀ hx0, ← hq, add_comm]
      rw [← hq] at hw ⊢
      rw [hq']
      obtain ⟨hz1, hz2⟩ := evenSolver.sound g.p w z hz
      have hzz := quad_unique (hz1.trans hw)
      have hev : Spec.trace (GF.ofNat g.p z) = 0 := by
        apply evenSolver_even hz
        rcases tr_cases g.p (GF.ofNat g.p z) with h | h
        · exact ⟨z, hz1, hz2, h⟩
        · refine ⟨z ^^^ 1, ?_, Nat.xor_lt_two_pow hz2 (Nat.one_lt_two_pow (by have := mpos g.p; omega)), ?_⟩
          · rw [GF.ofNat_xor, GF.ofNat_one, ← hz1]
            have t : (2 : GF g.p) = 0 := CharTwo.two_eq_zero
            linear_combination (GF.ofNat g.p z + 1) * t
          · rw [GF.ofNat_xor, GF.ofNat_one, tr_add, h, hone, h11]
      rcases tr_cases g.p q with h | h
      · rw [if_pos h, if_pos (by simp), GF.ofNat_xor, GF.ofNat_one]
        rcases hzz with h' | h'
        · rw [h']
        · rw [h', tr_add, h, hone, zero_add] at hev
          exact absurd hev one_ne_zero
      · rw [if_neg (show ¬ Spec.trace q = 0 by rw [h]; exact one_ne_zero), if_neg (by simp)]
        rcases hzz with h' | h'
        · rw [h', h] at hev
          exact absurd hev one_ne_zero
        · exact h'
  · rw [hneg, affine]
    intro h
    simp only [Option.some.injEq, Prod.mk.injEq, true_and] at h
    have : x + y = y := ey'.symm.trans (h ▸ ey)
    exact hx0 (by simpa using this)

/-- The hypotheses are met by the base point of the built-in curve of degree 163. -/
example : ∃ sq c, dstu_point_compress g163 (affine g163.gen) g163.fieldSize = (true, some c) ∧ dstu_point_expand sq c g163 = affine g163.gen ∧
    expandWith sq (fun _ _ => -1) c g163 = affine (-g163.gen) ∧ affine (-g163.gen) ≠ affine g163.gen := by
  obtain ⟨ha, hy, hw, h1, hd, hpoly, hn, haa, hfs, hgx⟩ := numbers163
  have hfd : fieldDegree g163.p = 163 := hd
  have hp := goodGroup_p g163
  exact C76_wrong_point_refuted (g := g163) (by rw [hfd]) haa hn _ _
    (binCurve_nonsingular (goodGroup_b g163) instGoodGroup163.valid.onCurve) (instGoodGroup163.valid.order _)
    (by
      rintro ⟨h, _⟩
      have hx := GF.toNat_ofNat g163.p (by omega) g163.gx instGoodGroup163.valid.x_lt
      rw [h, GF.toNat_one g163.p hp] at hx
      exact hgx hx.symm)

end Dstu.Props
