import Verif.Props.Binding
import Mathlib.Data.Fintype.Pi
import Mathlib.Order.Interval.Finset.Nat

/-! C26: how many nonces can be used.  On the built-in curves about half of them at least, for every private key and every
usable digest, so signing rarely needs many draws. -/

namespace Dstu.Props

open Spec WeierstrassCurve

/-- The nonces, between 1 and the order, that give no signature. -/
def unusableNonces (g : EcGroup) [GoodGroup g] (d h : Nat) : Set Nat :=
  {e | 0 < e ∧ e < g.n ∧ ∀ r s, ¬ Signs g.gen g.n d h e r s}

section
variable (nids : CurveNids) (i : Fin 10) (g : EcGroup) [hgood : GoodGroup g] (hg : group_from_named_curve nids i = some g)
include hg

/-- Of a nonce and its negative, one can be used, unless `r` is zero. -/
theorem nonce_or_negative (d h e : Nat) (he0 : 0 < e) (hen : e < g.n) (x y : GF g.p) (hxy : g.curve.Nonsingular x y)
    (heG : e • g.gen = Affine.Point.some x y hxy) (hr : elemToInt g.n (GF.ofNat g.p h * x) ≠ 0) :
    (∃ r s, Signs g.gen g.n d h e r s) ∨ ∃ r s, Signs g.gen g.n d h (g.n - e) r s := by
  obtain ⟨hpr, hG, _⟩ := C33_order_prime nids i g hg
  have hodd := (named_dstu nids i g hg).n_odd
  have hx := accepts_abscissa g.n h _ (Nat.pos_of_ne_zero hr) x rfl
  generalize hrr : elemToInt g.n (GF.ofNat g.p h * x) = r at *
  have hneg : (g.n - e) • g.gen = Affine.Point.some x _ ((Affine.nonsingular_neg ..).mpr hxy) := by
    rw [← Affine.Point.neg_some hxy, ← heG]
    apply eq_neg_of_add_eq_zero_left
    rw [← add_nsmul, Nat.sub_add_cancel hen.le, hG]
  by_cases hs : (e + d * r) % g.n = 0
  · by_cases hs' : (g.n - e + d * r) % g.n = 0
    · exfalso
      have h1 := Nat.dvd_of_mod_eq_zero hs
      have h2 := Nat.dvd_of_mod_eq_zero hs'
      have h3 : g.n ∣ 2 * e := by
        have h4 : g.n ∣ (e + d * r) + g.n := Dvd.dvd.add h1 dvd_rfl
        have h5 : 2 * e = (e + d * r) + g.n - (g.n - e + d * r) := by omega
        rw [h5]
        exact Nat.dvd_sub h4 h2
      rcases hpr.dvd_mul.mp h3 with h4 | h4
      · have h5 := Nat.le_of_dvd (by omega) h4
        have := hpr.two_le
        omega
      · have := Nat.le_of_dvd he0 h4
        omega
    · exact Or.inr ⟨r, _, ⟨x, _, _, hneg, hx, hrr.symm⟩, rfl, hr, hs'⟩
  · exact Or.inl ⟨r, _, ⟨x, y, hxy, heG, hx, hrr.symm⟩, rfl, hr, hs⟩

/-- C26: on each of the ten curves, for every private key and every digest, at most half of the nonces and four more give no signature. -/
theorem C26_half_usable (d : Nat) (tbs : List Byte) :
    (unusableNonces g d (digestElem (fieldDegree g.p) tbs)).Finite ∧
      2 * (unusableNonces g d (digestElem (fieldDegree g.p) tbs)).ncard ≤ g.n + 7 := by
  classical
  obtain ⟨hpr, hG, hmin⟩ := C33_order_prime nids i g hg
  have hp := goodGroup_p g
  have hlost := named_lost_bits nids i g hg
  generalize hh : digestElem (fieldDegree g.p) tbs = h
  have hH : GF.ofNat g.p h ≠ 0 := hh ▸ digestElem_ne tbs
  let N := Finset.Ioo 0 g.n
  let A := N.filter fun e => ∃ r s, Signs g.gen g.n d h e r s
  let U := N.filter fun e => ¬ ∃ r s, Signs g.gen g.n d h e r s
  let Z := N.filter fun e => ∃ x y hxy, e • g.gen = Affine.Point.some x y hxy ∧ 0 = elemToInt g.n (GF.ofNat g.p h * x)
  have hU : unusableNonces g d h = ↑U := by
    ext e
    simp only [unusableNonces, Set.mem_ofPred_eq, U, N, Finset.coe_filter, Finset.mem_Ioo, not_exists, and_assoc]
  have hinj : ∀ s t, s < g.n → t < g.n → s • g.gen = t • g.gen → s ≤ t := by
    intro s t hs ht hst
    by_contra hlt
    refine hmin (s - t) (by omega) (by omega) ?_
    have h1 : (s - t) • g.gen + t • g.gen = t • g.gen := by rw [← add_nsmul, Nat.sub_add_cancel (by omega), hst]
    exact left_eq_add.mp (by rw [add_comm]; exact h1.symm)
  have hZ : Z.card ≤ 8 := by
    have := points_count (a := GF.ofNat g.p g.a) (b := GF.ofNat g.p g.b) hp g.n 0 (named_order_lt nids i g hg) hpr.ne_zero _ hH (Z : Set Nat)
      (fun e => e • g.gen)
      (by
        intro s hs t ht hst
        have hs := (Finset.mem_Ioo.mp (Finset.mem_filter.mp (Finset.mem_coe.mp hs)).1).2
        have ht := (Finset.mem_Ioo.mp (Finset.mem_filter.mp (Finset.mem_coe.mp ht)).1).2
        exact le_antisymm (hinj s t hs ht hst) (hinj t s ht hs hst.symm))
      (by
        intro s hs
        exact (Finset.mem_filter.mp (Finset.mem_coe.mp hs)).2)
    rw [Set.ncard_coe_finset] at this
    omega
  have hUZ : (U \ Z).card ≤ A.card := by
    apply Finset.card_le_card_of_injOn (fun e => g.n - e)
    · intro e he
      simp only [U, Z, N, Finset.coe_sdiff, Finset.coe_filter, Set.mem_sdiff, Set.mem_ofPred_eq, Finset.mem_Ioo] at he
      obtain ⟨⟨⟨he0, hen⟩, hu⟩, hz⟩ := he
      have hne := hmin e he0 hen
      simp only [A, N, Finset.coe_filter, Set.mem_ofPred_eq, Finset.mem_Ioo]
      refine ⟨by omega, ?_⟩
      cases hP : e • g.gen with
      | zero => exact absurd hP hne
      | some x y hxy =>
        have hr : elemToInt g.n (GF.ofNat g.p h * x) ≠ 0 := fun h0 => hz ⟨⟨he0, hen⟩, x, y, hxy, hP, h0.symm⟩
        exact (nonce_or_negative nids i g hg d h e he0 hen x y hxy hP hr).resolve_left hu
    · intro e he e' he' hee
      simp only [U, Z, N, Finset.coe_sdiff, Finset.coe_filter, Set.mem_sdiff, Set.mem_ofPred_eq, Finset.mem_Ioo] at he he'
      simp only at hee
      omega
  have hsum : A.card + U.card = N.card := Finset.card_filter_add_card_filter_not _
  have hN : N.card = g.n - 1 := by simp only [N, Nat.card_Ioo]; omega
  have hle : U.card ≤ (U \ Z).card + Z.card := by
    have := Finset.card_le_card_sdiff_add_card (s := U) (t := Z)
    omega
  rw [hU]
  refine ⟨U.finite_toSet, ?_⟩
  rw [Set.ncard_coe_finset]
  have := hpr.two_le
  omega

/-- C26: signing rarely waits.  On each of the ten curves, for every private key and every usable digest: of the `n ^ k` sequences of `k` draws below the order `n`, at most
`((n + 7) / 2) ^ k` leave signing without a result. -/
theorem C26_rarely_waits (key : EcKey g) (d : Nat) (hd : key.priv = some d) (tbs : List Byte) (ht : UsableDigest (fieldDegree g.p) tbs) (k : Nat) :
    2 ^ k * {f : Fin k → Fin g.n | dstu_do_sign g key tbs (List.ofFn fun j => some (f j).val) = .waiting}.ncard ≤ (g.n + 7) ^ k := by
  classical
  obtain ⟨hfin, hcard⟩ := C26_half_usable nids i g hg d tbs
  let U : Finset (Fin g.n) := Finset.univ.filter fun e => e.val ∈ unusableNonces g d (digestElem (fieldDegree g.p) tbs)
  have hU : U.card ≤ (unusableNonces g d (digestElem (fieldDegree g.p) tbs)).ncard := by
    rw [← Set.ncard_coe_finset]
    exact Set.ncard_le_ncard_of_injOn (fun e : Fin g.n => e.val) (fun e he => (Finset.mem_filter.mp (Finset.mem_coe.mp he)).2)
      (fun a _ b _ hab => Fin.ext hab) hfin
  have hzero : ∀ draws, some 0 ∈ draws → signLoop g d (digestElem (fieldDegree g.p) tbs) draws ≠ .waiting := by
    intro draws
    induction draws with
    | nil => simp
    | cons x rest ih =>
      intro hm
      cases x with
      | none => simp [signLoop]
      | some e' =>
        unfold signLoop
        cases hst : signStep g d (digestElem (fieldDegree g.p) tbs) e' with
        | waiting =>
          simp only
          apply ih
          simp only [List.mem_cons, Option.some.injEq] at hm
          rcases hm with h | h
          · rw [← h] at hst
            simp only [signStep, ec_mul, zero_nsmul] at hst
            cases hst
          · exact h
        | failed => simp
        | done a => simp
  have hsub : {f : Fin k → Fin g.n | dstu_do_sign g key tbs (List.ofFn fun j => some (f j).val) = .waiting} ⊆
      ↑(Fintype.piFinset fun _ : Fin k => U) := by
    intro f hf
    simp only [Set.mem_ofPred_eq] at hf
    refine Finset.mem_coe.mpr (Fintype.mem_piFinset.mpr fun j => Finset.mem_filter.mpr ⟨Finset.mem_univ _, ?_⟩)
    have hmem : some (f j).val ∈ List.ofFn fun j => some (f j).val := List.mem_ofFn.mpr ⟨j, rfl⟩
    refine ⟨?_, (f j).isLt, ?_⟩
    · rcases Nat.eq_zero_or_pos (f j).val with h0 | h0
      · exfalso
        rw [h0] at hmem
        have hl := hzero _ hmem
        unfold dstu_do_sign at hf
        simp only [hd, usable_hash tbs ht] at hf
        split at hf
        · rename_i h; exact hl h
        · cases hf
        · split at hf
          · cases hf
          · cases hf
          · split at hf <;> cases hf
      · exact h0
    · intro r s hs
      exact C26_returns key d hd tbs ht _ _ r s hmem (f j).isLt hs hf
  have h1 := Set.ncard_le_ncard hsub (Finset.finite_toSet _)
  rw [Set.ncard_coe_finset, Fintype.card_piFinset_const] at h1
  calc 2 ^ k * _ ≤ 2 ^ k * U.card ^ k := Nat.mul_le_mul_left _ h1
    _ = (2 * U.card) ^ k := (mul_pow ..).symm
    _ ≤ (g.n + 7) ^ k := Nat.pow_le_pow_left (by omega) k

end

/-- The default curve, private key 1 and the digest `01`: the nonce 1 can be used, nearly half of all at least, and four draws suffice in all but about a sixteenth of the cases. -/
example : (1 ∉ unusableNonces gEx 1 1) ∧ 2 * (unusableNonces gEx 1 1).ncard ≤ gEx.n + 7 ∧
    2 ^ 4 * {f : Fin 4 → Fin gEx.n | dstu_do_sign gEx keyEx [1] (List.ofFn fun j => some (f j).val) = .waiting}.ncard ≤ (gEx.n + 7) ^ 4 := by
  have hdeg : fieldDegree gEx.p = 257 := gEx_numbers.2.2.2.2.2
  have hd : digestElem (fieldDegree gEx.p) [1] = 1 := by rw [hdeg]; decide
  refine ⟨fun h => h.2.2 _ _ signsEx, ?_, C26_rarely_waits nidsEx 6 gEx gEx_named keyEx 1 rfl [1] ⟨by simp, Or.inl (by rw [hdeg]; decide)⟩ 4⟩
  have := (C26_half_usable nidsEx 6 gEx gEx_named 1 [1]).2
  rwa [hd] at this

end Dstu.Props
