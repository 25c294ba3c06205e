import Verif.Model.Sign
import Verif.Spec.Dstu4145
import Verif.Lemmas.Bytes

/-! Lemmas about the signature model. -/

namespace Dstu

open Spec WeierstrassCurve

theorem clear_top (bn : Nat) (h : bn ≠ 0) : bn ^^^ 2 ^ (numBits bn - 1) = bn % 2 ^ (numBits bn - 1) := by
  have h1 := two_pow_numBits bn h
  have h2 := lt_two_pow_numBits bn
  have h3 : 0 < numBits bn := (numBits_pos bn).mpr h
  apply Nat.eq_of_testBit_eq
  intro i
  rw [Nat.testBit_xor, Nat.testBit_mod_two_pow, Nat.testBit_two_pow]
  by_cases hi : i < numBits bn - 1
  · have : ¬ numBits bn - 1 = i := by omega
    simp [hi, this]
  · by_cases he : i = numBits bn - 1
    · subst he
      have hb : bn.testBit (numBits bn - 1) = true := by
        rw [Nat.testBit_eq_decide_div_mod_eq]
        have : bn / 2 ^ (numBits bn - 1) = 1 := by
          apply Nat.div_eq_of_lt_le
          · omega
          · have : 2 ^ numBits bn = (1 + 1) * 2 ^ (numBits bn - 1) := by
              conv_lhs => rw [show numBits bn = (numBits bn - 1) + 1 by omega]
              rw [pow_succ]; ring
            omega
        rw [this]; rfl
      simp [hb]
    · have hb : bn.testBit i = false :=
        Nat.testBit_lt_two_pow (lt_of_lt_of_le h2 (Nat.pow_le_pow_right (by omega) (by omega)))
      have : ¬ numBits bn - 1 = i := by omega
      simp [hb, hi, this]

theorem truncLoop_spec (fuel bn k : Nat) (hf : numBits bn ≤ fuel) :
    truncLoop fuel bn k = some (bn % 2 ^ k) := by
  induction fuel generalizing bn with
  | zero =>
    have h0 : numBits bn = 0 := by omega
    have : bn = 0 := by
      by_contra h
      have := (numBits_pos bn).mpr h
      omega
    subst this
    simp [truncLoop, h0]
  | succ fuel ih =>
    unfold truncLoop
    by_cases hgt : (numBits bn : Int) > k
    · have hgt' : k < numBits bn := by omega
      have hne : bn ≠ 0 := (numBits_pos bn).mp (by omega)
      rw [if_pos hgt, if_neg hne, clear_top bn hne, ih]
      · congr 1
        exact Nat.mod_mod_of_dvd _ (Nat.pow_dvd_pow 2 (by omega))
      · have : bn % 2 ^ (numBits bn - 1) < 2 ^ (numBits bn - 1) := Nat.mod_lt _ (by positivity)
        have := (numBits_le _ _).mpr this
        omega
    · rw [if_neg hgt]
      have : numBits bn ≤ k := by omega
      rw [Nat.mod_eq_of_lt ((numBits_le _ _).mp this)]

theorem bn_truncate_bits_eq (bn k : Nat) : bn_truncate_bits bn k = some (bn % 2 ^ k) :=
  truncLoop_spec _ _ _ (le_refl _)

theorem numBits_sub_one (n : Nat) (h : n ≠ 0) : (numBits n : Int) - 1 = (n.log2 : Nat) := by
  unfold numBits
  rw [if_neg h]
  omega

theorem field_to_bn_eq (fe n : Nat) (h : n ≠ 0) : field_to_bn fe n = some (fe % 2 ^ n.log2) := by
  rw [field_to_bn, numBits_sub_one n h, bn_truncate_bits_eq]

theorem hash_to_field_eq (hash : List Byte) (m : Nat) :
    hash_to_field hash m =
      if hash = [] then none else some ((if leValue hash = 0 then 1 else leValue hash) % 2 ^ m) := by
  unfold hash_to_field
  split
  · rfl
  · simp only [bn_truncate_bits_eq, bin2bn_eq, beValue, List.reverse_reverse]

/-- The field element the code uses. -/
theorem hash_elem (hash : List Byte) (m : Nat) (hm : 0 < m) (h : leValue hash % 2 ^ m ≠ 0 ∨ leValue hash = 0) :
    (if leValue hash = 0 then 1 else leValue hash) % 2 ^ m = digestElem m hash := by
  unfold digestElem
  by_cases h0 : leValue hash = 0
  · rw [if_pos h0, h0]
    simp [Nat.mod_eq_of_lt (Nat.one_lt_two_pow (n := m) (by omega))]
  · rw [if_neg h0]
    rcases h with h | h
    · rw [if_neg h]
    · exact absurd h h0

variable {g : EcGroup} [hg : GoodGroup g]

theorem goodGroup_n (g : EcGroup) [hg : GoodGroup g] : 1 < g.n := hg.valid.n_gt

omit hg in
theorem affine_some (P : g.Point) (x y : Nat) :
    affine P = some (x, y) ↔ ∃ x' y' h, P = Affine.Point.some x' y' h ∧ x = GF.toNat x' ∧ y = GF.toNat y' := by
  cases P with
  | zero => simp [affine]
  | some x' y' h =>
    simp only [affine, Option.some.injEq, Prod.mk.injEq, Affine.Point.some.injEq]
    constructor
    · rintro ⟨rfl, rfl⟩; exact ⟨x', y', h, ⟨rfl, rfl⟩, rfl, rfl⟩
    · rintro ⟨_, _, _, ⟨rfl, rfl⟩, rfl, rfl⟩; exact ⟨rfl, rfl⟩

theorem gf2m_mul_toNat (h : Nat) (x : GF g.p) :
    gf2m_mul g.p h (GF.toNat x) = GF.toNat (GF.ofNat g.p h * x) := by
  have hp := goodGroup_p g
  rw [gf2m_mul, GF.ofNat_toNat g.p (by omega)]

theorem order_gen : g.n • g.gen = 0 := hg.valid.order _

theorem mod_nsmul (k : Nat) : (k % g.n) • g.gen = k • g.gen := by
  conv_rhs => rw [← Nat.div_add_mod k g.n, add_nsmul, mul_nsmul, order_gen, nsmul_zero, zero_add]

theorem mod_add_quick_eq (a b m : Nat) (ha : a < m) (hb : b < m) : mod_add_quick a b m = (a + b) % m := by
  unfold mod_add_quick
  split
  · rename_i h
    rw [Nat.mod_eq_sub_mod h, Nat.mod_eq_of_lt (by omega)]
  · rename_i h
    rw [Nat.mod_eq_of_lt (by omega)]

theorem signStep_done (d h e r s : Nat) (he : e < g.n) :
    signStep g d h e = .done (r, s) ↔ Signs g.gen g.n d h e r s := by
  have hp := goodGroup_p g
  have hn := goodGroup_n g
  unfold signStep Signs
  simp only [ec_mul]
  cases hP : e • g.gen with
  | zero => simp [affine]
  | some x y hxy =>
    simp only [affine]
    by_cases hx : x = 0
    · subst hx
      simp [GF.toNat_zero g.p (by omega : g.p ≠ 0)]
    · have hx' : GF.toNat x ≠ 0 := fun h0 => hx ((GF.toNat_eq_zero g.p (by omega) x).mp h0)
      simp only [hx', if_false, field_to_bn_eq _ _ (by omega : g.n ≠ 0), gf2m_mul_toNat]
      have hs : ∀ r', mod_add_quick (d * r' % g.n) e g.n = (e + d * r') % g.n := by
        intro r'
        rw [mod_add_quick_eq _ _ _ (Nat.mod_lt _ (by omega)) he, Nat.mod_add_mod, Nat.add_comm]
      simp only [hs]
      constructor
      · intro hd
        split at hd
        · cases hd
        · split at hd
          · cases hd
          · rename_i h1 h2
            simp only [Drawn.done.injEq, Prod.mk.injEq] at hd
            obtain ⟨rfl, rfl⟩ := hd
            exact ⟨⟨x, y, hxy, rfl, hx, rfl⟩, rfl, h1, h2⟩
      · rintro ⟨⟨x', y', hxy', hEq, _, hr⟩, hs', hr0, hs0⟩
        simp only [Affine.Point.some.injEq] at hEq
        obtain ⟨rfl, rfl⟩ := hEq
        unfold elemToInt at hr
        rw [← hr, if_neg hr0, ← hs', if_neg hs0]

theorem elemToInt_lt {p : Nat} (n : Nat) (hn : n ≠ 0) (x : GF p) : elemToInt n x < n := by
  unfold elemToInt
  exact lt_of_lt_of_le (Nat.mod_lt _ (by positivity)) (Nat.log2_self_le hn)

/-- The signature equation implies the verification equation. -/
theorem signs_accepts (d h e r s : Nat) (hs : Signs g.gen g.n d h e r s) :
    Accepts g.gen (-(d • g.gen)) g.n h r s := by
  have hn := goodGroup_n g
  obtain ⟨⟨x, y, hxy, hP, hx, hr⟩, hs, hr0, hs0⟩ := hs
  refine ⟨by omega, ?_, by omega, ?_, x, y, hxy, ?_, hr⟩
  · rw [hr]; exact elemToInt_lt _ (by omega) _
  · rw [hs]; exact Nat.mod_lt _ (by omega)
  · rw [hs, mod_nsmul, add_nsmul, neg_nsmul, mul_nsmul, hP, add_assoc, add_neg_cancel, add_zero]

/-- Verification is the equation. -/
theorem do_verify_iff (key : EcKey g) (tbs sig : List Byte) :
    dstu_do_verify g key tbs sig = true ↔
      ∃ Q h, key.pub = some Q ∧ hash_to_field tbs g.degree = some h ∧
        Accepts g.gen Q g.n h (beValue ((sig.drop (sig.length / 2)).take (sig.length / 2)))
          (beValue (sig.take (sig.length / 2))) := by
  have hn := goodGroup_n g
  unfold dstu_do_verify
  cases hQ : key.pub with
  | none => simp
  | some Q =>
    cases hh : hash_to_field tbs g.degree with
    | none => simp
    | some h =>
      simp only [bin2bn_eq, Option.some.injEq, exists_eq_left', exists_and_left]
      generalize beValue ((sig.drop (sig.length / 2)).take (sig.length / 2)) = r
      generalize beValue (sig.take (sig.length / 2)) = s
      unfold Accepts
      simp only [ec_mul]
      split
      · rename_i h0
        simp only [Bool.false_eq_true, false_iff]
        rintro ⟨_, _, _⟩
        omega
      · split
        · rename_i h1
          simp only [Bool.false_eq_true, false_iff]
          rintro ⟨_, _, _, _, _⟩
          omega
        · rename_i h0 h1
          cases hP : s • g.gen + r • Q with
          | zero => simp [affine]
          | some x y hxy =>
            simp only [affine, field_to_bn_eq _ _ (by omega : g.n ≠ 0), gf2m_mul_toNat, decide_eq_true_eq]
            constructor
            · intro hr
              exact ⟨by omega, by omega, by omega, by omega, x, y, hxy, rfl, hr⟩
            · rintro ⟨_, _, _, _, x', y', hxy', hEq, hr⟩
              simp only [Affine.Point.some.injEq] at hEq
              obtain ⟨rfl, rfl⟩ := hEq
              exact hr

/-- The loop returns the first usable nonce. -/
theorem signLoop_done (d h : Nat) (draws : List (Option Nat)) (r s : Nat)
    (hr : signLoop g d h draws = .done (r, s)) : ∃ e, some e ∈ draws ∧ signStep g d h e = .done (r, s) := by
  induction draws with
  | nil => simp [signLoop] at hr
  | cons x rest ih =>
    cases x with
    | none => simp [signLoop] at hr
    | some e =>
      unfold signLoop at hr
      split at hr
      · obtain ⟨e', h1, h2⟩ := ih hr
        exact ⟨e', by simp [h1], h2⟩
      · cases hr
      · rename_i rs hs
        cases hr
        exact ⟨e, by simp, hs⟩

theorem order_lt (g : EcGroup) : g.n < 256 ^ numBytes g.n := (numBytes_le _ _).mp (le_refl _)

theorem do_sign_done (key : EcKey g) (tbs : List Byte) (draws : List (Option Nat))
    (hdraws : ∀ e, some e ∈ draws → e < g.n) (sig : List Byte) (h : dstu_do_sign g key tbs draws = .done sig) :
    ∃ d hv e r s, key.priv = some d ∧ hash_to_field tbs g.degree = some hv ∧ some e ∈ draws ∧
      signLoop g d hv draws = .done (r, s) ∧ Signs g.gen g.n d hv e r s ∧
      sig = bytesBE (numBytes g.n) s ++ bytesBE (numBytes g.n) r := by
  have hn := order_lt g
  unfold dstu_do_sign at h
  cases hd : key.priv with
  | none => simp [hd] at h
  | some d =>
    cases hh : hash_to_field tbs g.degree with
    | none => simp [hd, hh] at h
    | some hv =>
      simp only [hd, hh] at h
      cases hl : signLoop g d hv draws with
      | waiting => simp [hl] at h
      | failed => simp [hl] at h
      | done rs =>
        obtain ⟨r, s⟩ := rs
        obtain ⟨e, he, hst⟩ := signLoop_done d hv draws r s hl
        have hsg := (signStep_done d hv e r s (hdraws e he)).mp hst
        obtain ⟨hr1, hr2, hs1, hs2, _⟩ := signs_accepts d hv e r s hsg
        simp only [hl, bn_encode_fits s _ (lt_trans hs2 hn), bn_encode_fits r _ (lt_trans hr2 hn)] at h
        have e1 : numBytes s ≠ 0 := by have := (numBytes_pos s).mpr (by omega); omega
        have e2 : numBytes r ≠ 0 := by have := (numBytes_pos r).mpr (by omega); omega
        obtain ⟨k1, hk1⟩ := Nat.exists_eq_succ_of_ne_zero e1
        obtain ⟨k2, hk2⟩ := Nat.exists_eq_succ_of_ne_zero e2
        rw [hk1, hk2] at h
        simp only [Drawn.done.injEq] at h
        exact ⟨d, hv, e, r, s, rfl, rfl, he, hl, hsg, h.symm⟩

theorem halves (k s r : Nat) (hs : s < 256 ^ k) (hr : r < 256 ^ k) :
    let sig := bytesBE k s ++ bytesBE k r
    beValue (sig.take (sig.length / 2)) = s ∧
      beValue ((sig.drop (sig.length / 2)).take (sig.length / 2)) = r := by
  have hl : (bytesBE k s ++ bytesBE k r).length / 2 = k := by
    simp only [List.length_append, bytesBE_length]; omega
  simp only
  rw [hl, List.take_left' (bytesBE_length k s), List.drop_left' (bytesBE_length k s),
    List.take_of_length_le (by rw [bytesBE_length]), beValue_bytesBE, beValue_bytesBE,
    Nat.mod_eq_of_lt hs, Nat.mod_eq_of_lt hr]
  exact ⟨rfl, rfl⟩

end Dstu
