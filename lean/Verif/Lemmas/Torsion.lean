import Verif.Lemmas.Ecpp

/-! On a curve over a small enough finite field the points of prime order `q` form one cyclic group. -/

namespace Dstu

open WeierstrassCurve

/-- If a nonzero point `P` has prime order `q` and the field has fewer than `q (q - 1) / 2` elements, each
point annihilated by `q` is a multiple of `P`. -/
theorem torsion_cyclic {F : Type*} [Field F] [DecidableEq F] [Fintype F] {W : WeierstrassCurve.Affine F} (P Q : W.Point)
    (h0 : P ≠ 0) (q : Nat) (hq : q.Prime) (hP : q • P = 0) (hQ : q • Q = 0) (hc : Fintype.card F < q * ((q - 1) / 2)) :
    ∃ k, k < q ∧ Q = k • P := by
  have : Fact q.Prime := ⟨hq⟩
  have hord : addOrderOf P = q := addOrderOf_eq_prime hP h0
  have hinj : ∀ i j, i < q → j < q → i • P = j • P → i = j := by
    intro i j hi hj he
    exact nsmul_injOn_Iio_addOrderOf (by rw [hord]; exact hi) (by rw [hord]; exact hj) he
  by_contra hno
  have hno' : ∀ k : ℤ, Q ≠ k • P := by
    intro k hk
    apply hno
    have hq0 : (q : ℤ) ≠ 0 := by exact_mod_cast hq.ne_zero
    have hpos : 0 ≤ k % (q : ℤ) := Int.emod_nonneg _ hq0
    have hlt : k % (q : ℤ) < q := Int.emod_lt_of_pos _ (by exact_mod_cast hq.pos)
    refine ⟨(k % (q : ℤ)).toNat, by omega, ?_⟩
    rw [← natCast_zsmul, Int.toNat_of_nonneg hpos, hk]
    conv_lhs => rw [← Int.emod_add_mul_ediv k (q : ℤ), add_zsmul, mul_comm, mul_zsmul, natCast_zsmul, hP, zsmul_zero, add_zero]
  -- a multiple of `Q` inside the group of `P` is a multiple by a multiple of `q`
  have hdvd : ∀ (u v : ℤ), u • Q = v • P → (q : ℤ) ∣ u := by
    intro u v huv
    by_contra hnd
    have hcop : IsCoprime u (q : ℤ) := by
      rw [isCoprime_comm]
      exact (Nat.prime_iff_prime_int.mp hq).coprime_iff_not_dvd.mpr hnd
    obtain ⟨a, b, hab⟩ := hcop
    apply hno' (a * v)
    calc Q = (a * u + b * q) • Q := by rw [hab, one_zsmul]
      _ = a • (u • Q) + b • ((q : ℤ) • Q) := by rw [add_zsmul, mul_zsmul, mul_zsmul]
      _ = (a * v) • P := by rw [huv, natCast_zsmul, hQ, zsmul_zero, add_zero, mul_zsmul]
  let pt : Fin q × Fin ((q - 1) / 2) → W.Point := fun ab => (ab.2.val + 1) • Q + ab.1.val • P
  have hpt : ∀ ab, pt ab ≠ 0 := by
    intro ab he
    have hb := ab.2.isLt
    have := hdvd (ab.2.val + 1 : ℕ) (-(ab.1.val : ℤ)) (by
      rw [neg_zsmul, natCast_zsmul, natCast_zsmul]; exact eq_neg_of_add_eq_zero_left he)
    have := Nat.le_of_dvd (by omega) (Int.natCast_dvd_natCast.mp this)
    omega
  let f : Fin q × Fin ((q - 1) / 2) → F := fun ab =>
    match pt ab with
    | .zero => 0
    | .some x _ _ => x
  have hf : Function.Injective f := by
    intro ab cd he
    have hb := ab.2.isLt
    have hd := cd.2.isLt
    have hsame : pt ab = pt cd ∨ pt ab = -pt cd := by
      have h1 := hpt ab
      have h2 := hpt cd
      simp only [f] at he
      rcases hPi : pt ab with _ | ⟨x1, y1, n1⟩
      · exact absurd hPi h1
      · rcases hPj : pt cd with _ | ⟨x2, y2, n2⟩
        · exact absurd hPj h2
        · rw [hPi, hPj] at he
          simp only at he
          subst he
          rcases Affine.Y_eq_of_X_eq n1.1 n2.1 rfl with hy | hy
          · subst hy
            exact Or.inl rfl
          · subst hy
            exact Or.inr (by rw [Affine.Point.neg_some])
    rcases hsame with hs | hs
    · have hz : ((ab.2.val + 1 : ℕ) - (cd.2.val + 1 : ℕ) : ℤ) • Q = ((cd.1.val : ℤ) - (ab.1.val : ℤ)) • P := by
        rw [sub_zsmul, sub_zsmul, natCast_zsmul, natCast_zsmul, natCast_zsmul, natCast_zsmul]
        simp only [pt] at hs
        rw [← sub_eq_add_neg, ← sub_eq_add_neg, sub_eq_sub_iff_add_eq_add, hs, add_comm]
      have hdv := hdvd _ _ hz
      have hbd : ab.2.val = cd.2.val := by
        by_contra hne
        have := Nat.le_of_dvd (by omega) (Int.natCast_dvd.mp hdv)
        omega
      have hac : ab.1.val = cd.1.val := by
        simp only [pt, hbd] at hs
        exact hinj _ _ ab.1.isLt cd.1.isLt (add_left_cancel hs)
      exact Prod.ext (Fin.ext hac) (Fin.ext hbd)
    · exfalso
      have hz : ((ab.2.val + 1 + (cd.2.val + 1) : ℕ) : ℤ) • Q = (-((cd.1.val : ℤ) + (ab.1.val : ℤ))) • P := by
        rw [neg_zsmul, add_zsmul, natCast_zsmul, natCast_zsmul, natCast_zsmul, add_nsmul]
        simp only [pt] at hs
        rw [eq_neg_iff_add_eq_zero] at hs ⊢
        rw [← hs]
        abel
      have := Nat.le_of_dvd (by omega) (Int.natCast_dvd_natCast.mp (hdvd _ _ hz))
      omega
  have := Fintype.card_le_of_injective f hf
  rw [Fintype.card_prod, Fintype.card_fin, Fintype.card_fin] at this
  omega

end Dstu
