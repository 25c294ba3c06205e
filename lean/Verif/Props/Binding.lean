import Verif.Lemmas.Binding
import Verif.Props.Subgroup

/-! What an accepted signature is bound to: the signer (C107), and the digest and the number `s` (C108). -/

namespace Dstu.Props

open Spec WeierstrassCurve

theorem named_order_lt (nids : CurveNids) (i : Fin 10) (g : EcGroup) [GoodGroup g] (hg : group_from_named_curve nids i = some g) :
    g.n < 2 ^ fieldDegree g.p := by
  obtain ⟨c, m, ks, hc, hm, he, hge⟩ := named_entry nids i g hg
  obtain ⟨m', ks', hm', hn⟩ := table_order_lt nids i c hc
  rw [hm] at hm'
  cases hm'
  have hd : fieldDegree g.p = m := by
    rw [hge]
    change fieldDegree (arr2poly c.poly) = m
    rw [he.poly]; exact he.log2
  have hgn : g.n = fieldAt c.data m 1 := by rw [hge]; rfl
  rw [hd, hgn]
  exact hn

/-- At most two bits of a field element are lost when it is converted to a number. -/
theorem named_lost_bits (nids : CurveNids) (i : Fin 10) (g : EcGroup) [GoodGroup g] (hg : group_from_named_curve nids i = some g) :
    2 ^ (fieldDegree g.p - g.n.log2) ≤ 4 := by
  have hsz : 2 ^ fieldDegree g.p < 4 * g.n := by rcases named_size nids i g hg with h | h <;> omega
  have hn0 : g.n ≠ 0 := by
    intro h0
    rw [h0] at hsz
    exact absurd hsz (by simp)
  have h1 : g.n < 2 ^ (g.n.log2 + 1) := Nat.lt_log2_self
  have h2 : 2 ^ fieldDegree g.p < 2 ^ (g.n.log2 + 3) := by
    rw [show g.n.log2 + 3 = (g.n.log2 + 1) + 2 by omega, pow_add]
    omega
  have h3 := (Nat.pow_lt_pow_iff_right (by omega : 1 < 2)).mp h2
  calc 2 ^ (fieldDegree g.p - g.n.log2) ≤ 2 ^ 2 := Nat.pow_le_pow_right (by omega) (by omega)
    _ = 4 := rfl

theorem digestElem_bounds (m : Nat) (hm : 0 < m) (tbs : List Byte) : 0 < digestElem m tbs ∧ digestElem m tbs < 2 ^ m := by
  have h1 := Nat.mod_lt (leValue tbs) (Nat.two_pow_pos m)
  have h2 : 2 ^ 1 ≤ 2 ^ m := Nat.pow_le_pow_right (by omega) hm
  unfold digestElem
  split <;> omega

section
variable {g : EcGroup} [hgood : GoodGroup g]

theorem digestElem_ne (tbs : List Byte) : GF.ofNat g.p (digestElem (fieldDegree g.p) tbs) ≠ 0 := by
  have hp := goodGroup_p g
  obtain ⟨h1, h2⟩ := digestElem_bounds _ (mpos g.p) tbs
  intro h0
  have := GF.toNat_ofNat g.p (by omega) _ h2
  rw [h0, GF.toNat_zero g.p (by omega)] at this
  omega

/-- A finite point whose negative is itself has abscissa zero. -/
theorem double_zero_abscissa (x y : GF g.p) (hxy : g.curve.Nonsingular x y)
    (h : (Affine.Point.some x y hxy : g.Point) = -Affine.Point.some x y hxy) : x = 0 := by
  rw [Affine.Point.neg_some, Affine.Point.some.injEq, binCurve_negY] at h
  have h2 : y + x = y + 0 := by rw [add_zero]; first | exact h.2.symm | (rw [add_comm]; exact h.2.symm)
  exact add_left_cancel h2

/-- The abscissa in an accepted equation is not zero. -/
theorem accepts_abscissa (n h r : Nat) (hr : 0 < r) (x : GF g.p) (he : r = elemToInt n (GF.ofNat g.p h * x)) : x ≠ 0 := by
  rintro rfl
  rw [mul_zero, elemToInt, GF.toNat_zero g.p (by have := goodGroup_p g; omega), Nat.zero_mod] at he
  omega

end

section
variable (nids : CurveNids) (i : Fin 10) (g : EcGroup) [hgood : GoodGroup g] (hg : group_from_named_curve nids i = some g)
include hg

omit hgood in
/-- Every pair of numbers below the order is sent by some signature, in both byte orders. -/
theorem pair_sig (dec : OctetDecoder) (type : KeyType) (r s : Nat) (hr : r < g.n) (hs : s < g.n) :
    ∃ sig, (body dec sig).length % 2 = 0 ∧ 2 * numBytes g.n ≤ (body dec sig).length ∧ rOf dec type sig = r ∧ sOf dec type sig = s := by
  have hD := named_dstu nids i g hg
  have hnl := order_lt g
  obtain ⟨e1, e2⟩ := halves (numBytes g.n) s r (by omega) (by omega)
  have hl : (bytesBE (numBytes g.n) s ++ bytesBE (numBytes g.n) r).length = 2 * numBytes g.n := by
    rw [List.length_append, bytesBE_length, bytesBE_length]; omega
  rw [drop_take_half _ (by rw [hl]; omega)] at e2
  have hsmall : 2 * numBytes g.n < 2 ^ 28 := by
    have hb := hD.n_ok.2
    have hs := hD.small
    rw [Int.toNat_natCast] at hb
    unfold fieldDegree at hs
    unfold numBytes
    unfold numBits at hb ⊢
    split at hb <;> split <;> split at hb <;> omega
  have hb : ∀ l : List Byte, l.length = 2 * numBytes g.n → body dec (i2d_octet l) = l := by
    intro l hll
    have := dec.der l [] (by omega)
    rw [List.append_nil] at this
    rw [body, this, Option.getD_some]
  cases type with
  | be =>
    refine ⟨i2d_octet (bytesBE (numBytes g.n) s ++ bytesBE (numBytes g.n) r), ?_, ?_, ?_, ?_⟩
    · rw [hb _ hl, hl]; omega
    · rw [hb _ hl, hl]
    · rw [rOf, bodyBE, if_neg (by simp), hb _ hl]; exact e2
    · rw [sOf, bodyBE, if_neg (by simp), hb _ hl]; exact e1
  | le =>
    refine ⟨i2d_octet (bytesBE (numBytes g.n) s ++ bytesBE (numBytes g.n) r).reverse, ?_, ?_, ?_, ?_⟩
    · rw [hb _ (by rw [List.length_reverse, hl]), List.length_reverse, hl]; omega
    · rw [hb _ (by rw [List.length_reverse, hl]), List.length_reverse, hl]
    · rw [rOf, bodyBE, if_pos rfl, hb _ (by rw [List.length_reverse, hl]), List.reverse_reverse]; exact e2
    · rw [sOf, bodyBE, if_pos rfl, hb _ (by rw [List.length_reverse, hl]), List.reverse_reverse]; exact e1

/-! ### C107: does a signature identify its signer? -/

/-- C107 is false for every signature on every built-in curve.  Whenever a signature is accepted under a public key `Q`, there is another public key,
computed from the signature and `Q` alone (`t` is the inverse of `r` modulo the order), under which the same signature is accepted
for the same digest.  It lies in the subgroup of the base point if `Q` does. -/
theorem C107_signer_refuted (dec : OctetDecoder) (type : KeyType) (key : EcKey g) (sig tbs : List Byte)
    (h : dstu_pkey_verify dec type g key sig tbs = true) :
    ∃ Q, key.pub = some Q ∧ ∃ t, rOf dec type sig * t % g.n = 1 ∧
      -Q - (2 * sOf dec type sig * t) • g.gen ≠ Q ∧
      (g.n • Q = 0 → g.n • (-Q - (2 * sOf dec type sig * t) • g.gen) = 0) ∧
      ∀ priv, dstu_pkey_verify dec type g ⟨priv, some (-Q - (2 * sOf dec type sig * t) • g.gen)⟩ sig tbs = true := by
  obtain ⟨hpr, hG, hmin⟩ := C33_order_prime nids i g hg
  obtain ⟨h1, h2, h3, h4, Q, hQ, hr0, hrn, hs0, hsn, x, y, hxy, hP, hr⟩ := (C29_verify_iff_equation dec type key sig tbs).mp h
  generalize hre : rOf dec type sig = r at *
  generalize hse : sOf dec type sig = s at *
  have hco : Nat.Coprime r g.n := (Nat.coprime_of_lt_prime (by omega) hrn hpr).symm
  obtain ⟨t, ht⟩ := Nat.exists_mul_mod_eq_one_of_coprime hco hpr.one_lt
  have hx := accepts_abscissa g.n _ r hr0 x hr
  have hrt : (r * (2 * s * t)) • g.gen = (2 * s) • g.gen := by
    have h5 : r * (2 * s * t) = g.n * (r * t / g.n * (2 * s)) + 2 * s := by
      have h6 := Nat.div_add_mod (r * t) g.n
      rw [ht.2] at h6
      calc r * (2 * s * t) = (r * t) * (2 * s) := by ring
        _ = (g.n * (r * t / g.n) + 1) * (2 * s) := by rw [h6]
        _ = _ := by ring
    rw [h5, add_nsmul, mul_comm g.n, mul_nsmul', hG, nsmul_zero, zero_add]
  have key1 : s • g.gen + r • (-Q - (2 * s * t) • g.gen) = -Affine.Point.some x y hxy := by
    rw [← hP, nsmul_sub, ← mul_nsmul', hrt, neg_nsmul, two_mul, add_nsmul]
    abel
  refine ⟨Q, hQ, t, ht.2, ?_, ?_, ?_⟩
  · intro heq
    rw [heq, hP] at key1
    exact hx (double_zero_abscissa x y hxy key1)
  · intro hnQ
    rw [nsmul_sub, neg_nsmul, hnQ, neg_zero, zero_sub, ← mul_nsmul', mul_comm, mul_nsmul', hG, nsmul_zero, neg_zero]
  · intro priv
    rw [C29_verify_iff_equation, hre, hse]
    refine ⟨h1, h2, h3, h4, _, rfl, hr0, hrn, hs0, hsn, x, _, (Affine.nonsingular_neg ..).mpr hxy, ?_, hr⟩
    rw [key1, Affine.Point.neg_some]

/-- C107, what holds.  On each of the ten curves: a signature and a digest are accepted under at most eight public keys of the subgroup of the base point.
Missing: that it is one, which is false, and keys outside the subgroup. -/
theorem C107_signer_partial (dec : OctetDecoder) (type : KeyType) (sig tbs : List Byte) :
    {Q : g.Point | g.n • Q = 0 ∧ ∃ priv, dstu_pkey_verify dec type g ⟨priv, some Q⟩ sig tbs = true}.Finite ∧
      {Q : g.Point | g.n • Q = 0 ∧ ∃ priv, dstu_pkey_verify dec type g ⟨priv, some Q⟩ sig tbs = true}.ncard ≤ 8 := by
  obtain ⟨hpr, hG, hmin⟩ := C33_order_prime nids i g hg
  have hp := goodGroup_p g
  have hlost := named_lost_bits nids i g hg
  by_cases hr : Nat.Coprime (rOf dec type sig) g.n
  · have := points_count (a := GF.ofNat g.p g.a) (b := GF.ofNat g.p g.b) hp g.n (rOf dec type sig) (named_order_lt nids i g hg) hpr.ne_zero _ (digestElem_ne (g := g) tbs)
      {Q : g.Point | g.n • Q = 0 ∧ ∃ priv, dstu_pkey_verify dec type g ⟨priv, some Q⟩ sig tbs = true}
      (fun Q => sOf dec type sig • g.gen + rOf dec type sig • Q)
      (fun Q hQ Q' hQ' hQQ => coprime_cancel g.n _ hr Q Q' hQ.1 hQ'.1 (add_left_cancel hQQ))
      (by
        rintro Q ⟨_, priv, hv⟩
        obtain ⟨_, _, _, _, Q', hQ', _, _, _, _, x, y, hxy, hP, hr⟩ := (C29_verify_iff_equation dec type _ sig tbs).mp hv
        cases hQ'
        exact ⟨x, y, hxy, hP, hr⟩)
    exact ⟨this.1, this.2.trans (by omega)⟩
  · have : {Q : g.Point | g.n • Q = 0 ∧ ∃ priv, dstu_pkey_verify dec type g ⟨priv, some Q⟩ sig tbs = true} = ∅ := by
      ext Q
      simp only [Set.mem_ofPred_eq, Set.mem_empty_iff_false, iff_false]
      rintro ⟨_, priv, hv⟩
      obtain ⟨_, _, _, _, Q', hQ', hr0, hrn, _⟩ := (C29_verify_iff_equation dec type _ sig tbs).mp hv
      exact hr (Nat.coprime_of_lt_prime (by omega) hrn hpr).symm
    rw [this]
    exact ⟨Set.finite_empty, by rw [Set.ncard_empty]; omega⟩

/-! ### C108: is a signature bound to its digest, and is it unique for it? -/

/-- C108, the digest: false for every signature on every built-in curve.  Whenever a signature is accepted for a digest, it is accepted under the same key
for a digest that stands for another field element. -/
theorem C108_digest_refuted (dec : OctetDecoder) (type : KeyType) (key : EcKey g) (sig tbs : List Byte)
    (h : dstu_pkey_verify dec type g key sig tbs = true) :
    ∃ tbs', tbs'.length = (fieldDegree g.p + 7) / 8 ∧ digestElem (fieldDegree g.p) tbs' ≠ digestElem (fieldDegree g.p) tbs ∧
      dstu_pkey_verify dec type g key sig tbs' = true := by
  have hp := goodGroup_p g
  obtain ⟨hpr, _, _⟩ := C33_order_prime nids i g hg
  obtain ⟨h1, h2, h3, h4, Q, hQ, hr0, hrn, hs0, hsn, x, y, hxy, hP, hr⟩ := (C29_verify_iff_equation dec type key sig tbs).mp h
  have hx := accepts_abscissa g.n _ _ hr0 x hr
  have hlog : g.n.log2 < fieldDegree g.p := (Nat.log2_lt hpr.ne_zero).mpr (named_order_lt nids i g hg)
  have hpow : 2 ^ g.n.log2 < 2 ^ fieldDegree g.p := Nat.pow_lt_pow_right (by omega) hlog
  -- the same product except for one bit that is lost
  let d : GF g.p := GF.ofNat g.p (2 ^ g.n.log2) * x⁻¹
  let e : GF g.p := GF.ofNat g.p (digestElem (fieldDegree g.p) tbs) + d
  have hd0 : d ≠ 0 := by
    apply mul_ne_zero _ (inv_ne_zero hx)
    intro h0
    have := GF.toNat_ofNat g.p (by omega) _ hpow
    rw [h0, GF.toNat_zero g.p (by omega)] at this
    have := Nat.two_pow_pos g.n.log2
    omega
  have hex : e * x = GF.ofNat g.p (digestElem (fieldDegree g.p) tbs) * x + GF.ofNat g.p (2 ^ g.n.log2) := by
    simp only [e, d, add_mul, mul_assoc, inv_mul_cancel₀ hx, mul_one]
  have her : rOf dec type sig = elemToInt g.n (e * x) := by
    rw [hex, elemToInt, GF.toNat_add g.p (by omega), GF.toNat_ofNat g.p (by omega) _ hpow, Nat.xor_mod_two_pow, Nat.mod_self, Nat.xor_zero]
    exact hr
  have he0 : e ≠ 0 := by
    intro h0
    rw [h0, zero_mul, elemToInt, GF.toNat_zero g.p (by omega), Nat.zero_mod] at her
    omega
  have hen : GF.toNat e ≠ 0 := fun hz => he0 ((GF.toNat_eq_zero g.p (by omega) e).mp hz)
  have hel := GF.toNat_lt g.p hp e
  let tbs' := (bytesBE ((fieldDegree g.p + 7) / 8) (GF.toNat e)).reverse
  have hval : leValue tbs' = GF.toNat e := by
    have h8 : GF.toNat e < 256 ^ ((fieldDegree g.p + 7) / 8) := by
      rw [show (256 : Nat) = 2 ^ 8 from rfl, ← pow_mul]
      exact lt_of_lt_of_le hel (Nat.pow_le_pow_right (by omega) (by omega))
    change beValue (bytesBE _ (GF.toNat e)) = GF.toNat e
    rw [beValue_bytesBE, Nat.mod_eq_of_lt h8]
  have hmod : leValue tbs' % 2 ^ fieldDegree g.p = GF.toNat e := by rw [hval, Nat.mod_eq_of_lt hel]
  have hde : digestElem (fieldDegree g.p) tbs' = GF.toNat e := by rw [digestElem, hmod, if_neg hen]
  refine ⟨tbs', by simp only [tbs', List.length_reverse, bytesBE_length], ?_, ?_⟩
  · rw [hde]
    intro heq
    have h5 : e = GF.ofNat g.p (digestElem (fieldDegree g.p) tbs) := by rw [← heq, GF.ofNat_toNat g.p (by omega)]
    exact hd0 (add_left_cancel (h5.trans (add_zero _).symm))
  · rw [C29_verify_iff_equation]
    refine ⟨h1, h2, ?_, Or.inl (by rw [hmod]; exact hen), Q, hQ, hr0, hrn, hs0, hsn, x, y, hxy, hP, ?_⟩
    · intro hz
      have : leValue tbs' = 0 := by rw [hz]; rfl
      omega
    · rw [hde, GF.ofNat_toNat g.p (by omega)]
      exact her

/-- C108, the digest, what holds.  On each of the ten curves, under every key: the digests for which a signature is accepted stand for at most four field elements.
Missing: that it is one, which is false. -/
theorem C108_digest_partial (dec : OctetDecoder) (type : KeyType) (key : EcKey g) (sig : List Byte) :
    {h | ∃ tbs, h = digestElem (fieldDegree g.p) tbs ∧ dstu_pkey_verify dec type g key sig tbs = true}.Finite ∧
      {h | ∃ tbs, h = digestElem (fieldDegree g.p) tbs ∧ dstu_pkey_verify dec type g key sig tbs = true}.ncard ≤ 4 := by
  have hp := goodGroup_p g
  obtain ⟨hpr, _, _⟩ := C33_order_prime nids i g hg
  have hlost := named_lost_bits nids i g hg
  by_cases hex : ∃ tbs, dstu_pkey_verify dec type g key sig tbs = true
  · obtain ⟨tbs, hv⟩ := hex
    obtain ⟨_, _, _, _, Q, hQ, hr0, hrn, hs0, hsn, x, y, hxy, hP, hr⟩ := (C29_verify_iff_equation dec type key sig tbs).mp hv
    have hx := accepts_abscissa g.n _ _ hr0 x hr
    have := digests_count hp g.n (rOf dec type sig) (named_order_lt nids i g hg) hpr.ne_zero x hx
      {h | ∃ tbs, h = digestElem (fieldDegree g.p) tbs ∧ dstu_pkey_verify dec type g key sig tbs = true} (by
        rintro h ⟨tbs', rfl, hv'⟩
        refine ⟨(digestElem_bounds _ (mpos g.p) tbs').2, ?_⟩
        obtain ⟨_, _, _, _, Q', hQ', _, _, _, _, x', y', hxy', hP', hr'⟩ := (C29_verify_iff_equation dec type key sig tbs').mp hv'
        rw [hQ] at hQ'
        cases hQ'
        rw [hP, Affine.Point.some.injEq] at hP'
        rw [hP'.1]
        exact hr')
    exact ⟨this.1, this.2.trans hlost⟩
  · have : {h | ∃ tbs, h = digestElem (fieldDegree g.p) tbs ∧ dstu_pkey_verify dec type g key sig tbs = true} = ∅ := by
      ext h
      simp only [Set.mem_ofPred_eq, Set.mem_empty_iff_false, iff_false]
      rintro ⟨tbs, _, hv⟩
      exact hex ⟨tbs, hv⟩
    rw [this]
    exact ⟨Set.finite_empty, by rw [Set.ncard_empty]; omega⟩

/-- C108, the number `s`: false on every built-in curve.  Whenever a signature is accepted under the public key of the private key `d`, the owner of `d` can replace its
number `s` by `2 d r - s` modulo the order, unless that is zero: the result is another number, and it is accepted for the same digest. -/
theorem C108_unique_refuted (dec : OctetDecoder) (type : KeyType) (key : EcKey g) (d : Nat) (hkey : key.pub = some (-(d • g.gen))) (sig tbs : List Byte)
    (h : dstu_pkey_verify dec type g key sig tbs = true) (hd : 2 * d * rOf dec type sig % g.n ≠ sOf dec type sig) :
    ∃ sig', rOf dec type sig' = rOf dec type sig ∧ sOf dec type sig' = (2 * d * rOf dec type sig + g.n - sOf dec type sig) % g.n ∧
      sOf dec type sig' ≠ sOf dec type sig ∧ dstu_pkey_verify dec type g key sig' tbs = true := by
  obtain ⟨hpr, hG, hmin⟩ := C33_order_prime nids i g hg
  obtain ⟨h1, h2, h3, h4, Q, hQ, hr0, hrn, hs0, hsn, x, y, hxy, hP, hr⟩ := (C29_verify_iff_equation dec type key sig tbs).mp h
  rw [hkey] at hQ
  cases hQ
  have hx := accepts_abscissa g.n _ _ hr0 x hr
  generalize rOf dec type sig = r at *
  generalize sOf dec type sig = s at *
  obtain ⟨s', hs'⟩ : ∃ s', s' = (2 * d * r + g.n - s) % g.n := ⟨_, rfl⟩
  have hs'n : s' < g.n := by rw [hs']; exact Nat.mod_lt _ hpr.pos
  have hmul : s' • g.gen + s • g.gen = (2 * d * r) • g.gen := by
    have h5 := Nat.div_add_mod (2 * d * r + g.n - s) g.n
    rw [← hs'] at h5
    have h6 : g.n * ((2 * d * r + g.n - s) / g.n) + (s' + s) = 2 * d * r + g.n := by omega
    have h7 := congrArg (fun k : Nat => k • g.gen) h6
    simp only [add_nsmul, hG, add_zero] at h7
    rw [mul_comm, mul_nsmul', hG, nsmul_zero, zero_add] at h7
    exact h7
  have key1 : s' • g.gen + r • -(d • g.gen) = -Affine.Point.some x y hxy := by
    rw [← hP]
    apply eq_neg_of_add_eq_zero_right
    have h8 : (2 * d * r) • g.gen = r • (d • g.gen) + r • (d • g.gen) := by
      rw [← mul_nsmul', ← add_nsmul]; congr 1; ring
    rw [neg_nsmul]
    calc s • g.gen + -(r • d • g.gen) + (s' • g.gen + -(r • d • g.gen))
        = (s' • g.gen + s • g.gen) - (r • (d • g.gen) + r • (d • g.gen)) := by abel
      _ = 0 := by rw [hmul, h8, sub_self]
  have hs'0 : s' ≠ 0 := by
    intro h0
    apply hd
    rw [h0] at hs'
    have h5 := Nat.dvd_of_mod_eq_zero hs'.symm
    obtain ⟨k, hk⟩ := h5
    have h6 : 2 * d * r + g.n = s + g.n * k := by omega
    have h7 := congrArg (· % g.n) h6
    simp only [Nat.add_mod_right, Nat.add_mul_mod_self_left] at h7
    rw [h7, Nat.mod_eq_of_lt hsn]
  have hne : s' ≠ s := by
    intro heq
    rw [heq, hP] at key1
    exact hx (double_zero_abscissa x y hxy key1)
  obtain ⟨sig', k1, k2, k3, k4⟩ := pair_sig nids i g hg dec type r s' hrn hs'n
  refine ⟨sig', k3, by rw [k4, hs'], by rw [k4]; exact hne, ?_⟩
  rw [C29_verify_iff_equation, k3, k4]
  refine ⟨k1, k2, h3, h4, _, hkey, hr0, hrn, by omega, hs'n, x, _, (Affine.nonsingular_neg ..).mpr hxy, ?_, hr⟩
  rw [key1, Affine.Point.neg_some]

/-- C108, the number `s`, what holds.  On each of the ten curves, under every key and for every digest: of the signatures with a given `r`, at most eight numbers `s` are accepted.
Missing: that it is one, which is false. -/
theorem C108_unique_partial (dec : OctetDecoder) (type : KeyType) (key : EcKey g) (tbs : List Byte) (r : Nat) :
    {s | ∃ sig, rOf dec type sig = r ∧ sOf dec type sig = s ∧ dstu_pkey_verify dec type g key sig tbs = true}.Finite ∧
      {s | ∃ sig, rOf dec type sig = r ∧ sOf dec type sig = s ∧ dstu_pkey_verify dec type g key sig tbs = true}.ncard ≤ 8 := by
  obtain ⟨hpr, hG, hmin⟩ := C33_order_prime nids i g hg
  have hp := goodGroup_p g
  have hlost := named_lost_bits nids i g hg
  have hinj : ∀ s t, s < g.n → t < g.n → s • g.gen = t • g.gen → s ≤ t := by
    intro s t hs ht hst
    by_contra hlt
    refine hmin (s - t) (by omega) (by omega) ?_
    have h1 : (s - t) • g.gen + t • g.gen = t • g.gen := by rw [← add_nsmul, Nat.sub_add_cancel (by omega), hst]
    exact left_eq_add.mp (by rw [add_comm]; exact h1.symm)
  have hall : ∀ s ∈ {s | ∃ sig, rOf dec type sig = r ∧ sOf dec type sig = s ∧ dstu_pkey_verify dec type g key sig tbs = true},
      s < g.n ∧ ∃ x y hxy, s • g.gen + r • key.pub.getD 0 = Affine.Point.some x y hxy ∧ r = elemToInt g.n (GF.ofNat g.p (digestElem (fieldDegree g.p) tbs) * x) := by
    rintro s ⟨sig, rfl, rfl, hv⟩
    obtain ⟨_, _, _, _, Q, hQ, _, _, _, hsn, x, y, hxy, hP, hr⟩ := (C29_verify_iff_equation dec type key sig tbs).mp hv
    refine ⟨hsn, x, y, hxy, ?_, hr⟩
    rw [hQ]
    exact hP
  have := points_count (a := GF.ofNat g.p g.a) (b := GF.ofNat g.p g.b) hp g.n r (named_order_lt nids i g hg) hpr.ne_zero _ (digestElem_ne (g := g) tbs) _
    (fun s => s • g.gen + r • key.pub.getD 0)
    (fun s hs t ht hst => le_antisymm (hinj s t (hall s hs).1 (hall t ht).1 (add_right_cancel hst)) (hinj t s (hall t ht).1 (hall s hs).1 (add_right_cancel hst).symm))
    (fun s hs => (hall s hs).2)
  exact ⟨this.1, this.2.trans (by omega)⟩

/-! ### C109: the accepted signatures are the signatures of the owner -/

/-- C109.  On each of the ten curves, for every private key and its public key: a signature of the right form is accepted for a digest exactly if its numbers are below the order and
there is a nonce, between 1 and the order, with which signing this digest gives them; and this nonce is unique. -/
theorem C109_accepted_iff_signable (dec : OctetDecoder) (type : KeyType) (key : EcKey g) (d : Nat) (hpriv : key.priv = some d)
    (hpub : key.pub = some (-(d • g.gen))) (sig tbs : List Byte)
    (hlen : (body dec sig).length % 2 = 0 ∧ 2 * numBytes g.n ≤ (body dec sig).length) :
    dstu_pkey_verify dec type g key sig tbs = true ↔
      rOf dec type sig < g.n ∧ sOf dec type sig < g.n ∧
        ∃! e, 0 < e ∧ e < g.n ∧
          dstu_do_sign g key tbs [some e] = .done (bytesBE (numBytes g.n) (sOf dec type sig) ++ bytesBE (numBytes g.n) (rOf dec type sig)) := by
  obtain ⟨hpr, hG, hmin⟩ := C33_order_prime nids i g hg
  have hnl := order_lt g
  have hinv : ∀ e, e < g.n → rOf dec type sig < g.n → sOf dec type sig < g.n →
      dstu_do_sign g key tbs [some e] = .done (bytesBE (numBytes g.n) (sOf dec type sig) ++ bytesBE (numBytes g.n) (rOf dec type sig)) →
      ∃ hv, hash_to_field tbs g.degree = some hv ∧ Signs g.gen g.n d hv e (rOf dec type sig) (sOf dec type sig) := by
    intro e he hrn hsn hs
    obtain ⟨d', hv, e', r, s, h1, h2, h3, h4, h5, h6⟩ := do_sign_done key tbs [some e] (by simpa using he) _ hs
    rw [hpriv] at h1
    cases h1
    simp only [List.mem_singleton, Option.some.injEq] at h3
    subst h3
    obtain ⟨k1, k2⟩ := List.append_inj h6 (by rw [bytesBE_length, bytesBE_length])
    obtain ⟨q1, q2, q3, q4, _⟩ := signs_accepts d hv _ r s h5
    have hb : ∀ u v, u < g.n → v < g.n → bytesBE (numBytes g.n) u = bytesBE (numBytes g.n) v → u = v := by
      intro u v hu hv huv
      have := congrArg beValue huv
      rwa [beValue_bytesBE, beValue_bytesBE, Nat.mod_eq_of_lt (by omega), Nat.mod_eq_of_lt (by omega)] at this
    rw [hb _ _ hsn q4 k1, hb _ _ hrn q2 k2]
    exact ⟨hv, h2, h5⟩
  have hbl : (bodyBE dec type sig).length = (body dec sig).length := by
    unfold bodyBE; split <;> simp
  rw [pkey_verify_eq, do_verify_iff, drop_take_half _ (by rw [hbl]; exact hlen.1)]
  change (_ ∧ _ ∧ ∃ Q h, _ ∧ _ ∧ Accepts g.gen Q g.n h (rOf dec type sig) (sOf dec type sig)) ↔ _
  constructor
  · rintro ⟨_, _, Q, hv, hQ, hh, hr0, hrn, hs0, hsn, x, y, hxy, hP, hr⟩
    rw [hpub] at hQ
    cases hQ
    have hx := accepts_abscissa g.n _ _ hr0 x hr
    refine ⟨hrn, hsn, ?_⟩
    generalize rOf dec type sig = r at *
    generalize sOf dec type sig = s at *
    obtain ⟨e, he⟩ : ∃ e, e = (s + (g.n - d * r % g.n)) % g.n := ⟨_, rfl⟩
    have hen : e < g.n := by rw [he]; exact Nat.mod_lt _ hpr.pos
    have hdr := Nat.mod_lt (d * r) hpr.pos
    have hse : s = (e + d * r) % g.n := by
      rw [he, Nat.mod_add_mod, ← Nat.add_mod_mod, add_assoc, Nat.sub_add_cancel hdr.le, Nat.add_mod_right, Nat.mod_eq_of_lt hsn]
    have heG : e • g.gen = Affine.Point.some x y hxy := by
      rw [← hP, hse, mod_nsmul, add_nsmul, neg_nsmul, mul_nsmul]
      abel
    have he0 : e ≠ 0 := by
      intro h0
      rw [h0, zero_nsmul] at heG
      exact Affine.Point.some_ne_zero _ heG.symm
    have hsg : Signs g.gen g.n d hv e r s := ⟨⟨x, y, hxy, heG, hx, hr⟩, hse, by omega, by omega⟩
    have hdo : dstu_do_sign g key tbs [some e] = .done (bytesBE (numBytes g.n) s ++ bytesBE (numBytes g.n) r) :=
      do_sign_of_loop key tbs _ d hv r s hpriv hh (by simp only [signLoop, (signStep_done d hv e r s hen).mpr hsg]) (by omega) hrn (by omega) hsn
    refine ⟨e, ⟨by omega, hen, hdo⟩, ?_⟩
    rintro e' ⟨_, he'n, hdo'⟩
    obtain ⟨hv', hh', _, hse', _⟩ := hinv e' he'n hrn hsn hdo'
    have h5 : (e' + d * r) % g.n = (e + d * r) % g.n := by rw [← hse', ← hse]
    have h6 : e' ≡ e [MOD g.n] := Nat.ModEq.add_right_cancel' (d * r) h5
    exact Nat.ModEq.eq_of_lt_of_lt h6 he'n hen
  · rintro ⟨hrn, hsn, e, ⟨_, hen, hdo⟩, _⟩
    obtain ⟨hv, hh, hsg⟩ := hinv e hen hrn hsn hdo
    exact ⟨hlen.1, hlen.2, _, hv, hpub, hh, signs_accepts d hv e _ _ hsg⟩

end

/-! ### A case that meets the hypotheses -/

theorem gEx_named : group_from_named_curve nidsEx (6 : Fin 10) = some gEx := gEx_default

theorem gEx_second : 2 * 1 * (gEx.gx % 2 ^ gEx.n.log2) % gEx.n ≠ (1 + 1 * (gEx.gx % 2 ^ gEx.n.log2)) % gEx.n := by decide +kernel

/-- The signature of the running example, sent in either byte order. -/
theorem acceptedEx (type : KeyType) : ∃ sig, rOf octetDecoder type sig = gEx.gx % 2 ^ gEx.n.log2 ∧
    sOf octetDecoder type sig = (1 + 1 * (gEx.gx % 2 ^ gEx.n.log2)) % gEx.n ∧ dstu_pkey_verify octetDecoder type gEx keyEx sig [1] = true := by
  have hacc := signs_accepts 1 1 1 _ _ signsEx
  obtain ⟨sig, h1, h2, h3, h4⟩ := pair_sig nidsEx 6 gEx gEx_named octetDecoder type _ _ hacc.2.1 hacc.2.2.2.1
  have hd : digestElem (fieldDegree gEx.p) [1] = 1 := by
    have h6 : fieldDegree gEx.p = 257 := gEx_numbers.2.2.2.2.2
    rw [h6]; decide
  refine ⟨sig, h3, h4, ?_⟩
  rw [C29_verify_iff_equation, h3, h4, hd]
  exact ⟨h1, h2, by simp, Or.inl (by rw [show fieldDegree gEx.p = 257 from gEx_numbers.2.2.2.2.2]; decide), _, rfl, hacc⟩

/-- The signature of the running example is accepted under two keys of the subgroup of the base point, and those that accept it are at most eight. -/
example (type : KeyType) : ∃ sig, ∃ key : EcKey gEx, key.pub ≠ keyEx.pub ∧ dstu_pkey_verify octetDecoder type gEx keyEx sig [1] = true ∧
    dstu_pkey_verify octetDecoder type gEx key sig [1] = true ∧
    {Q : gEx.Point | gEx.n • Q = 0 ∧ ∃ priv, dstu_pkey_verify octetDecoder type gEx ⟨priv, some Q⟩ sig [1] = true}.ncard ≤ 8 := by
  obtain ⟨sig, _, _, hv⟩ := acceptedEx type
  obtain ⟨Q, hQ, t, _, hne, _, hv'⟩ := C107_signer_refuted nidsEx 6 gEx gEx_named octetDecoder type keyEx sig [1] hv
  exact ⟨sig, ⟨none, _⟩, by rw [hQ]; exact fun h => hne (Option.some.inj h), hv, hv' none,
    (C107_signer_partial nidsEx 6 gEx gEx_named octetDecoder type sig [1]).2⟩

/-- It is accepted for a second digest, of 33 bytes. -/
example (type : KeyType) : ∃ sig tbs, tbs.length = 33 ∧ dstu_pkey_verify octetDecoder type gEx keyEx sig [1] = true ∧
    dstu_pkey_verify octetDecoder type gEx keyEx sig tbs = true ∧ digestElem (fieldDegree gEx.p) tbs ≠ digestElem (fieldDegree gEx.p) [1] ∧
    {h | ∃ tbs, h = digestElem (fieldDegree gEx.p) tbs ∧ dstu_pkey_verify octetDecoder type gEx keyEx sig tbs = true}.ncard ≤ 4 := by
  obtain ⟨sig, _, _, hv⟩ := acceptedEx type
  obtain ⟨tbs, hl, hne, hv'⟩ := C108_digest_refuted nidsEx 6 gEx gEx_named octetDecoder type keyEx sig [1] hv
  rw [show fieldDegree gEx.p = 257 from gEx_numbers.2.2.2.2.2] at hl
  exact ⟨sig, tbs, hl, hv, hv', hne, (C108_digest_partial nidsEx 6 gEx gEx_named octetDecoder type keyEx sig).2⟩

/-- The nonce of the signature of the running example is found again. -/
example (type : KeyType) : ∃ sig, ∃! e, 0 < e ∧ e < gEx.n ∧ dstu_do_sign gEx keyEx [1] [some e] =
    .done (bytesBE (numBytes gEx.n) (sOf octetDecoder type sig) ++ bytesBE (numBytes gEx.n) (rOf octetDecoder type sig)) := by
  obtain ⟨sig, _, _, hv⟩ := acceptedEx type
  obtain ⟨h1, h2, _⟩ := (C29_verify_iff_equation octetDecoder type keyEx sig [1]).mp hv
  exact ⟨sig, ((C109_accepted_iff_signable nidsEx 6 gEx gEx_named octetDecoder type keyEx 1 rfl rfl sig [1] ⟨h1, h2⟩).mp hv).2.2⟩

/-- A second number `s` is accepted with the same `r`. -/
example (type : KeyType) : ∃ sig sig', rOf octetDecoder type sig = rOf octetDecoder type sig' ∧ sOf octetDecoder type sig ≠ sOf octetDecoder type sig' ∧
    dstu_pkey_verify octetDecoder type gEx keyEx sig [1] = true ∧ dstu_pkey_verify octetDecoder type gEx keyEx sig' [1] = true ∧
    {s | ∃ sig₂, rOf octetDecoder type sig₂ = rOf octetDecoder type sig ∧ sOf octetDecoder type sig₂ = s ∧
      dstu_pkey_verify octetDecoder type gEx keyEx sig₂ [1] = true}.ncard ≤ 8 := by
  obtain ⟨sig, hr, hs, hv⟩ := acceptedEx type
  obtain ⟨sig', h1, _, h3, h4⟩ := C108_unique_refuted nidsEx 6 gEx gEx_named octetDecoder type keyEx 1 rfl sig [1] hv (by rw [hr, hs]; exact gEx_second)
  exact ⟨sig, sig', h1.symm, h3.symm, hv, h4, (C108_unique_partial nidsEx 6 gEx gEx_named octetDecoder type keyEx [1] _).2⟩

end Dstu.Props
