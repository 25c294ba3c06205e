import Verif.Lemmas.CurveData

/-! Properties of the table of named curves: C33, C34. -/

namespace Dstu.Props

open Spec

/-- An assignment of identifiers, used for the examples (these are the numbers of OpenSSL 1.1.1). -/
def nidsEx : CurveNids := ⟨fun i => 1149 + i.val, fun i j h => by
  apply Fin.ext; simpa using h, fun i => by simp⟩

theorem curves_length (nids : CurveNids) : (dstu_curves nids).length = 10 := rfl

/-- C33.  For each of the ten entries the function that builds its group succeeds, and the group has
an irreducible field polynomial, a non-singular curve, and a base point on that curve which is
annihilated by the order stored in the table; the degree of the field is the one in the table. -/
theorem C33_curve_table_sound (nids : CurveNids) (i : Fin 10) :
    ∃ c g, (dstu_curves nids)[i.val]? = some c ∧ group_from_named_curve nids i = some g ∧
      ValidCurve g.p g.a g.b g.gx g.gy g.n ∧ c.nid = nids.uacurve i ∧ c.poly.headD 0 = g.degree := by
  have hlt : i.val < (dstu_curves nids).length := i.isLt
  have hc : (dstu_curves nids)[i.val]? = some (dstu_curves nids)[i.val] := List.getElem?_eq_getElem hlt
  obtain ⟨m, ks, hm, he⟩ := table_check nids i _ hc
  refine ⟨_, entryGroup (dstu_curves nids)[i.val] m, hc, ?_, entry_valid he, ?_, ?_⟩
  · rw [group_from_named_curve, hc]
    exact entry_group he
  · revert i
    simp only [dstu_curves]
    intro i
    fin_cases i <;> intros <;> rfl
  · rw [he.head, EcGroup.degree, entryGroup]
    simp only
    rw [he.poly, he.log2]

/-- C33, second part: no two entries have the same degree or the same identifier. -/
theorem C33_degrees_identifiers_distinct (nids : CurveNids) (i j : Fin 10) (ci cj : NamedCurve)
    (hi : (dstu_curves nids)[i.val]? = some ci) (hj : (dstu_curves nids)[j.val]? = some cj)
    (h : ci.poly.headD 0 = cj.poly.headD 0 ∨ ci.nid = cj.nid) : i = j := by
  rcases h with h | h
  · have hdeg : ∀ k : Fin 10, ((dstu_curves nids)[k.val]?).map (fun c => c.poly.headD 0) =
        [163, 167, 173, 179, 191, 233, 257, 307, 367, 431][k.val]? := by
      intro k; fin_cases k <;> rfl
    have h1 := hdeg i
    have h2 := hdeg j
    rw [hi] at h1
    rw [hj] at h2
    simp only [Option.map_some, h] at h1 h2
    have h3 := h1.symm.trans h2
    clear h1 h2 h hi hj hdeg
    revert i j
    decide
  · have hn : ∀ k : Fin 10, ((dstu_curves nids)[k.val]?).map (·.nid) = some (nids.uacurve k) := by
      intro k; fin_cases k <;> rfl
    have h1 := hn i
    have h2 := hn j
    rw [hi] at h1
    rw [hj] at h2
    simp only [Option.map_some, Option.some.injEq] at h1 h2
    exact nids.distinct (by rw [← h1, ← h2, h])

/-- The hypotheses of the two statements are met, e.g. by the default curve (index 6, degree 257). -/
example : ∃ g, group_from_named_curve nidsEx 6 = some g ∧ g.degree = 257 ∧
    ValidCurve g.p g.a g.b g.gx g.gy g.n := by
  obtain ⟨c, g, hc, hg, hv, _, hd⟩ := C33_curve_table_sound nidsEx 6
  refine ⟨g, hg, ?_, hv⟩
  have : c.poly.headD 0 = 257 := by
    have h6 : (dstu_curves nidsEx)[(6 : Fin 10).val]? = some ⟨nidsEx.uacurve 6, [257, 12, 0, -1, 0, 0], data257⟩ := rfl
    rw [h6] at hc
    cases hc
    rfl
  omega

/-- The group of an identifier. -/
theorem group_from_nid_uacurve (nids : CurveNids) (i : Fin 10) :
    group_from_nid nids (nids.uacurve i) = group_from_named_curve nids i := by
  have h : (dstu_curves nids).findIdx? (fun c => nids.uacurve i = c.nid) = some i.val := by
    rw [List.findIdx?_eq_some_iff_getElem]
    have hn : ∀ (k : Nat) (hk : k < 10) (hk' : k < (dstu_curves nids).length),
        (dstu_curves nids)[k].nid = nids.uacurve ⟨k, hk⟩ := by
      intro k hk hk'
      have : ∀ (k : Fin 10) (hk' : k.val < (dstu_curves nids).length),
          (dstu_curves nids)[k.val].nid = nids.uacurve k := by
        intro k hk'; fin_cases k <;> rfl
      exact this ⟨k, hk⟩ hk'
    refine ⟨by rw [curves_length]; exact i.isLt, ?_, ?_⟩
    · rw [hn i.val i.isLt]; simp
    · intro j hj
      have : j < 10 := by omega
      simp only [hn j this, decide_eq_true_eq]
      intro h
      have := nids.distinct h
      rw [this] at hj
      simp at hj
  rw [group_from_nid, h]
  rfl

theorem findIdx_degree (nids : CurveNids) (i : Fin 10) (g : EcGroup) (hg : group_from_named_curve nids i = some g) :
    (dstu_curves nids).findIdx? (fun c => (g.degree : Int) = c.poly.headD 0) = some i.val := by
  obtain ⟨c, g', hc, hg', _, _, hd⟩ := C33_curve_table_sound nids i
  have : g = g' := by rw [hg] at hg'; exact Option.some.inj hg'
  subst this
  rw [List.findIdx?_eq_some_iff_getElem]
  have hlt : i.val < (dstu_curves nids).length := i.isLt
  have hci : (dstu_curves nids)[i.val] = c := by
    rw [List.getElem?_eq_getElem hlt] at hc
    exact Option.some.inj hc
  refine ⟨hlt, ?_, ?_⟩
  · rw [hci, hd]; exact decide_eq_true rfl
  · intro j hj
    have hjl : j < 10 := by omega
    simp only [decide_eq_true_eq]
    intro h
    have := C33_degrees_identifiers_distinct nids i ⟨j, hjl⟩ c (dstu_curves nids)[j] hc
      (List.getElem?_eq_getElem (by rw [curves_length]; exact hjl)) (Or.inl (by rw [hd]; exact h))
    rw [this] at hj
    simp at hj

/-- C34.  Building a group from the identifier of a built-in curve succeeds and asking the group for
its identifier gives that identifier back. -/
theorem C34_identifier_round_trip (nids : CurveNids) (i : Fin 10) :
    ∃ g, group_from_nid nids (nids.uacurve i) = some g ∧ curve_nid_from_group nids g = nids.uacurve i := by
  obtain ⟨c, g, hc, hg, _, hn, _⟩ := C33_curve_table_sound nids i
  refine ⟨g, by rw [group_from_nid_uacurve, hg], ?_⟩
  rw [curve_nid_from_group, findIdx_degree nids i g hg]
  simp only [hg, if_true, hc, Option.map_some, Option.getD_some, hn]

/-- C34, second part: an identifier that is not in the table gives no group. -/
theorem C34_unknown_identifier (nids : CurveNids) (nid : Nat) (h : ∀ i, nids.uacurve i ≠ nid) :
    group_from_nid nids nid = none := by
  have : (dstu_curves nids).findIdx? (fun c => nid = c.nid) = none := by
    rw [List.findIdx?_eq_none_iff]
    intro c hc
    simp only [dstu_curves, List.mem_cons, List.not_mem_nil, or_false] at hc
    simp only [decide_eq_false_iff_not]
    rintro rfl
    rcases hc with rfl | rfl | rfl | rfl | rfl | rfl | rfl | rfl | rfl | rfl <;>
      simp only [ne_eq] at h <;>
      first
        | exact h 0 rfl | exact h 1 rfl | exact h 2 rfl | exact h 3 rfl | exact h 4 rfl
        | exact h 5 rfl | exact h 6 rfl | exact h 7 rfl | exact h 8 rfl | exact h 9 rfl
  rw [group_from_nid, this]
  rfl

/-- C34, third part: a group is given the identifier of a built-in curve exactly when it equals the
group of that curve in every parameter. -/
theorem C34_identified_iff_equal (nids : CurveNids) (g : EcGroup) (i : Fin 10) :
    curve_nid_from_group nids g = nids.uacurve i ↔ group_from_nid nids (nids.uacurve i) = some g := by
  constructor
  · intro h
    rw [curve_nid_from_group] at h
    split at h
    · exact absurd h.symm (nids.defined i)
    · rename_i k hk
      split at h
      · exact absurd h.symm (nids.defined i)
      · rename_i std hstd
        split at h
        · rename_i he
          subst he
          have hk10 : k < 10 := by
            rw [List.findIdx?_eq_some_iff_getElem] at hk
            obtain ⟨hk, _⟩ := hk
            exact hk
          obtain ⟨c, g', hc, hg', _, hn, _⟩ := C33_curve_table_sound nids ⟨k, hk10⟩
          simp only at hc
          rw [hc] at h
          simp only [Option.map_some, Option.getD_some, hn] at h
          have := nids.distinct h
          subst this
          rw [group_from_nid_uacurve]
          exact hstd
        · exact absurd h.symm (nids.defined i)
  · intro h
    obtain ⟨g', hg', hn⟩ := C34_identifier_round_trip nids i
    rw [h] at hg'
    rw [Option.some.inj hg']
    exact hn

/-- C34: every other group is reported as having no identifier. -/
theorem C34_otherwise_undefined (nids : CurveNids) (g : EcGroup)
    (h : ∀ i, group_from_nid nids (nids.uacurve i) ≠ some g) : curve_nid_from_group nids g = NID_undef := by
  by_contra hne
  rw [curve_nid_from_group] at hne
  split at hne
  · exact hne rfl
  · rename_i k hk
    split at hne
    · exact hne rfl
    · rename_i std hstd
      split at hne
      · rename_i he
        subst he
        have hk10 : k < 10 := by
          rw [List.findIdx?_eq_some_iff_getElem] at hk
          obtain ⟨hk, _⟩ := hk
          exact hk
        refine h ⟨k, hk10⟩ ?_
        rw [group_from_nid_uacurve]
        exact hstd
      · exact hne rfl

/-- A number that is no identifier, and a group that is none of the built-in ones. -/
example : (∀ i, nidsEx.uacurve i ≠ 7) ∧
    ∀ i, group_from_nid nidsEx (nidsEx.uacurve i) ≠ some ⟨0, 0, 0, 0, 0, 0, 0⟩ := by
  refine ⟨fun i => by simp only [nidsEx]; omega, fun i h => ?_⟩
  obtain ⟨_, g, _, hg, hv, _, _⟩ := C33_curve_table_sound nidsEx i
  rw [group_from_nid_uacurve, hg] at h
  have := hv.n_gt
  rw [Option.some.inj h] at this
  simp at this

example : group_from_nid nidsEx 7 = none := C34_unknown_identifier nidsEx 7 (fun i => by simp only [nidsEx]; omega)

example (i j : Fin 10) (ci cj : NamedCurve) (hi : (dstu_curves nidsEx)[i.val]? = some ci) (hj : (dstu_curves nidsEx)[j.val]? = some cj)
    (h : ci.nid = cj.nid) : i = j := C33_degrees_identifiers_distinct nidsEx i j ci cj hi hj (Or.inr h)

/-- A group that is none of the built-in ones. -/
example : curve_nid_from_group nidsEx ⟨0, 0, 0, 0, 0, 0, 0⟩ = NID_undef := by
  refine C34_otherwise_undefined nidsEx _ fun i h => ?_
  obtain ⟨_, g, _, hg, hv, _, _⟩ := C33_curve_table_sound nidsEx i
  rw [group_from_nid_uacurve, hg] at h
  have := hv.n_gt
  rw [Option.some.inj h] at this
  simp at this

end Dstu.Props
