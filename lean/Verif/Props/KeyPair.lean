import Verif.Props.Key

/-! Key pairs and their encodings: C40, C41, C42. -/

namespace Dstu.Props

open Spec WeierstrassCurve

/-- A curve whose parameters survive encoding and decoding: a built-in curve, or a DSTU 4145 curve whose
base point can be compressed. -/
def EncodableCurve (env : Env) (g : EcGroup) : Prop :=
  (∃ i : Fin 10, group_from_named_curve env.nids i = some g) ∨ ∃ h : DstuCurve g, ¬ @BadBase g h.good

theorem param_round_trip (env : Env) (g : EcGroup) (hg : EncodableCurve env g) (t : KeyType) (key : DstuKey)
    (hkey : key.group = some g) (old : Option DstuKey) :
    ∃ der s, dstu_asn1_param_encode env ⟨t, some key⟩ = some der ∧
      dstu_asn1_param_decode env ⟨t, old⟩ der = (true, ⟨t, some ⟨some g, s, none, none⟩⟩) ∧
      effectiveSbox s = effectiveSbox key.sbox := by
  have named : ∀ i : Fin 10, group_from_named_curve env.nids i = some g →
      ∃ der s, dstu_asn1_param_encode env ⟨t, some key⟩ = some der ∧
      dstu_asn1_param_decode env ⟨t, old⟩ der = (true, ⟨t, some ⟨some g, s, none, none⟩⟩) ∧
      effectiveSbox s = effectiveSbox key.sbox := by
    intro i hi
    have := C35_named_round_trip env i g hi t key hkey old []
    simp only [List.append_nil] at this
    exact this
  rcases hg with ⟨i, hi⟩ | ⟨h, hb⟩
  · exact named i hi
  · by_cases hn : ∃ i : Fin 10, group_from_named_curve env.nids i = some g
    · obtain ⟨i, hi⟩ := hn
      exact named i hi
    · have := @C36_custom_round_trip_partial env g h.good h hb (fun i hi => hn ⟨i, hi⟩) t key hkey old []
      simp only [List.append_nil] at this
      exact this

theorem encodable_good (env : Env) (g : EcGroup) (hg : EncodableCurve env g) : GoodGroup g := by
  rcases hg with ⟨i, hi⟩ | ⟨h, _⟩
  · obtain ⟨c, g', _, hg', hv, _⟩ := C33_curve_table_sound env.nids i
    rw [hi] at hg'
    rw [Option.some.inj hg']
    exact ⟨hv⟩
  · exact h.good

theorem add_public_key_good (env : Env) (g : EcGroup) [h : GoodGroup g] (d : Nat) :
    add_public_key env g d = some (affine (-(d • g.gen))) := by
  unfold add_public_key
  rw [dif_pos h]
  rfl

/-! ### C42 -/

variable {g : EcGroup} [hg : GoodGroup g]

/-- C42, generation.  If every number drawn is below `n`, as `BN_rand_range` guarantees, then a key pair
that is generated has a private key `d` with `1 ≤ d < n` and the public key `-d G`. -/
theorem C42_generated (key k : EcKey g) (draws : List (Option Nat)) (hr : ∀ d, some d ∈ draws → d < g.n)
    (h : dstu_generate_key g key draws = .done k) :
    ∃ d, k.priv = some d ∧ 1 ≤ d ∧ d < g.n ∧ k.pub = some (-(d • g.gen)) := by
  have loop : ∀ l : List (Option Nat), (∀ d, some d ∈ l → d < g.n) → ∀ d, genLoop l = .done d → 1 ≤ d ∧ d < g.n := by
    intro l
    induction l with
    | nil => intro _ d hd; cases hd
    | cons x l ih =>
      intro hl d hd
      cases x with
      | none => cases hd
      | some x =>
        simp only [genLoop] at hd
        split at hd
        · exact ih (fun e he => hl e (List.mem_cons_of_mem _ he)) d hd
        · cases hd
          exact ⟨by omega, hl _ List.mem_cons_self⟩
  unfold dstu_generate_key at h
  split at h
  · cases h
  · cases h
  · rename_i d hd
    have := loop draws hr d hd
    simp only [dstu_add_public_key, Option.bind_eq_bind, Option.bind_some, pure] at h
    cases h
    exact ⟨d, rfl, this.1, this.2, rfl⟩

omit hg in
/-- C42: generation succeeds as soon as a number other than 0 is drawn. -/
theorem C42_generation_succeeds [GoodGroup g] (key : EcKey g) (zeros : Nat) (d : Nat) (hd : d ≠ 0) (rest : List (Option Nat)) :
    ∃ k, dstu_generate_key g key (List.replicate zeros (some 0) ++ some d :: rest) = .done k ∧ k.priv = some d := by
  have : genLoop (List.replicate zeros (some 0) ++ some d :: rest) = .done d := by
    induction zeros with
    | zero => simp [genLoop, hd]
    | succ z ih => simp only [List.replicate_succ, List.cons_append, genLoop, if_true, ih]
  unfold dstu_generate_key
  rw [this]
  exact ⟨_, rfl, rfl⟩

omit hg in
/-- C42, import.  If decoding a private key succeeds, the resulting key has a group, its private key is
the little-endian value of the encoded bytes, and if the group is valid its public key is `-d G`. -/
theorem C42_imported (env : Env) (pk pk' : EvpPkey) (p8 : Pkcs8) (h : dstu_asn1_priv_decode env pk p8 = (true, pk')) :
    ∃ key g, pk'.key = some key ∧ key.group = some g ∧ key.priv = some (leValue p8.prk) ∧
      ∀ [GoodGroup g], key.pub = some (affine (-(leValue p8.prk • g.gen))) := by
  unfold dstu_asn1_priv_decode at h
  split at h
  · cases h
  simp only at h
  split at h
  · cases h
  split at h
  · cases h
  split at h
  · cases h
  split at h
  · rename_i bn key hbn hkey
    split at h
    · cases h
    · rename_i g hgr
      split at h
      · cases h
      · rename_i Q hQ
        cases h
        rw [reverse_bytes_copy_eq] at hbn
        cases hbn
        have hv : bin2bn p8.prk.reverse = leValue p8.prk := by
          rw [bin2bn_eq, beValue, List.reverse_reverse]
        refine ⟨_, g, rfl, hgr, by rw [hv], ?_⟩
        intro hgood
        rw [add_public_key_good, hv] at hQ
        rw [hQ]
  · cases h

/-- Both are met: drawing 0 and then 3 gives the pair (3, -3 G). -/
example : ∃ k, dstu_generate_key g163 ⟨none, none⟩ [some 0, some 3] = .done k ∧ k.priv = some 3 ∧
    k.pub = some (-(3 • g163.gen)) := by
  obtain ⟨k, hk, hp⟩ := C42_generation_succeeds (g := g163) ⟨none, none⟩ 1 3 (by omega) []
  have hn : 3 < g163.n := by decide +kernel
  obtain ⟨d, h1, _, _, h4⟩ := C42_generated (g := g163) _ k _ (by
    intro d hd
    simp at hd
    rcases hd with rfl | rfl <;> omega) hk
  rw [hp] at h1
  cases h1
  exact ⟨k, hk, hp, h4⟩

/-! ### C40 -/

omit hg in
/-- C40, where it holds: for every encodable curve, every key on it with a private key `d ≠ 0` and both key types:
encoding to PKCS#8 succeeds, keeps the key type, and decoding the result, whatever the receiving key
was, gives the same curve, the same effective S-box, the same private key and the public key `-d G`.  Missing:
custom curves whose base point is exceptional, see `C40_private_round_trip_refuted`. -/
theorem C40_private_round_trip_partial (env : Env) (g : EcGroup) (hg : EncodableCurve env g) (t : KeyType) (key : DstuKey)
    (d : Nat) (hkey : key.group = some g) (hpriv : key.priv = some d) (hd : d ≠ 0) (old : EvpPkey) :
    ∃ p8 s Q, dstu_asn1_priv_encode env ⟨t, some key⟩ = some p8 ∧ p8.alg = some t ∧
      dstu_asn1_priv_decode env old p8 = (true, ⟨t, some ⟨some g, s, some d, some Q⟩⟩) ∧
      effectiveSbox s = effectiveSbox key.sbox ∧ ∀ [GoodGroup g], Q = affine (-(d • g.gen)) := by
  obtain ⟨der, s, h1, h2, h3⟩ := param_round_trip env g hg t key hkey none
  have := encodable_good env g hg
  have hnb : numBytes d ≠ 0 := by
    have := (numBytes_pos d).mpr hd
    omega
  have hrev : reverse_bytes (bn2bin d) (numBytes d) = some (bn2bin d).reverse := by
    rw [← bn2bin_length d, reverse_bytes_eq]
  refine ⟨⟨some t, some der, (bn2bin d).reverse⟩, s, affine (-(d • g.gen)), ?_, rfl, ?_, h3, fun {_} => rfl⟩
  · unfold dstu_asn1_priv_encode
    simp only [h1, hpriv, hnb, if_false, hrev]
  · unfold dstu_asn1_priv_decode
    have hl : ((bn2bin d).reverse).length ≠ 0 := by rw [List.length_reverse, bn2bin_length]; exact hnb
    simp only [h2, hl, if_false]
    rw [reverse_bytes_copy_eq, List.reverse_reverse]
    simp only [bin2bn_eq, beValue_bn2bin, add_public_key_good]

omit hg in
/-- C40 fails for the exceptional base point: there is a DSTU 4145 curve such that no private key on it
can be encoded. -/
theorem C40_private_round_trip_refuted (env : Env) : ∃ g, DstuCurve g ∧
    ∀ t key, key.group = some g → dstu_asn1_priv_encode env ⟨t, some key⟩ = none := by
  obtain ⟨g, h, _, hn⟩ := C36_custom_round_trip_refuted env
  exact ⟨g, h, fun t key hkey => by simp only [dstu_asn1_priv_encode, hn t key hkey]⟩

omit hg in
/-- C40 holds without exception on the ten built-in curves. -/
theorem C40_builtin_round_trip (env : Env) (i : Fin 10) (g : EcGroup) (hi : group_from_named_curve env.nids i = some g)
    (t : KeyType) (key : DstuKey) (d : Nat) (hkey : key.group = some g) (hpriv : key.priv = some d) (hd : d ≠ 0) (old : EvpPkey) :
    ∃ p8 s Q, dstu_asn1_priv_encode env ⟨t, some key⟩ = some p8 ∧ p8.alg = some t ∧
      dstu_asn1_priv_decode env old p8 = (true, ⟨t, some ⟨some g, s, some d, some Q⟩⟩) ∧
      effectiveSbox s = effectiveSbox key.sbox ∧ ∀ [GoodGroup g], Q = affine (-(d • g.gen)) :=
  C40_private_round_trip_partial env g (Or.inl ⟨i, hi⟩) t key d hkey hpriv hd old

/-! ### C41 -/

omit hg in
/-- C41, where it holds: for every encodable DSTU 4145 curve, every key on it whose public key is a
finite point `P` with `n P = 0`, not the exceptional one, and both key types: encoding succeeds, and
decoding the result gives the same curve, effective S-box and point.  Missing: the exceptional point, see
`C41_public_round_trip_refuted`. -/
theorem C41_public_round_trip_partial (env : Env) (g : EcGroup) [h : GoodGroup g] (hc : DstuCurve g) (hg : EncodableCurve env g)
    (t : KeyType) (key : DstuKey) (hkey : key.group = some g) (x y : GF g.p) (hxy : g.curve.Nonsingular x y)
    (hpub : key.pub = some (affine (Affine.Point.some x y hxy : g.Point)))
    (hP : g.n • (Affine.Point.some x y hxy : g.Point) = 0) (hex : ¬ (x = 1 ∧ trace y = 0)) (old : EvpPkey) :
    ∃ enc s, dstu_asn1_pub_encode env ⟨t, some key⟩ = some enc ∧ enc.alg = some t ∧
      dstu_asn1_pub_decode env old enc =
        (true, ⟨t, some ⟨some g, s, none, some (affine (Affine.Point.some x y hxy : g.Point))⟩⟩) ∧
      effectiveSbox s = effectiveSbox key.sbox := by
  obtain ⟨der, s, h1, h2, h3⟩ := param_round_trip env g hg t key hkey none
  obtain ⟨c, hc1, hc2, hc3⟩ := C31_round_trip_partial env.sq hc.odd hc.a01 hc.n_odd x y hxy hP hex g.fieldSize (le_refl _)
  have hp := goodGroup_p g
  have hfs0 : 0 < g.fieldSize := by
    have := fieldDegree_pos hp
    unfold EcGroup.fieldSize EcGroup.degree fieldDegree at *
    omega
  have hcl : c ≠ [] := by rintro rfl; simp at hc2; omega
  obtain ⟨r, hr1, hr2⟩ := maybeReverse_copy (t = .le) c hcl
  have hrl : r.length = c.length := by
    unfold maybeReverse at hr1
    split at hr1
    · rw [reverse_bytes_eq] at hr1
      cases hr1
      simp
    · cases hr1; rfl
  have hrs : r.length < 2 ^ 28 := by
    rw [hrl, hc2]
    have := hc.small
    unfold fieldDegree at this
    unfold EcGroup.fieldSize EcGroup.degree
    omega
  have hdec := env.octet.der r [] hrs
  rw [List.append_nil] at hdec
  refine ⟨⟨some t, some der, i2d_octet r⟩, s, ?_, rfl, ?_, h3⟩
  · unfold dstu_asn1_pub_encode
    have hfs : (g.degree + 7) / 8 = g.fieldSize := rfl
    simp only [h1, hkey, hpub, hfs, hc1, hr1]
  · unfold dstu_asn1_pub_decode
    simp only [h2, hdec, hr2, hc3, affine]

set_option maxRecDepth 20000 in
omit hg in
theorem g163_dstu : DstuCurve g163 := by
  obtain ⟨_, _, _, _, hd, _, hodd, ha, _, _⟩ := numbers163
  obtain ⟨hw, hok, hh, _, _, _⟩ := numbers163'
  have hfd : fieldDegree g163.p = 163 := hd
  exact ⟨instGoodGroup163, by rw [hfd], by rw [hfd]; norm_num, hw, ha, hodd, hok, hh⟩

omit hg in
/-- C41 fails: on the built-in curve of degree 163 there is a finite point of order dividing `n` such
that no key with this public key can be encoded. -/
theorem C41_public_round_trip_refuted (env : Env) : group_from_named_curve env.nids 0 = some g163 ∧
    ∃ P : g163.Point, P ≠ 0 ∧ g163.n • P = 0 ∧ ∀ t key, key.group = some g163 → key.pub = some (affine P) →
      dstu_asn1_pub_encode env ⟨t, some key⟩ = none := by
  refine ⟨g163_named _, ?_⟩
  obtain ⟨P, h0, hn, hc⟩ := C31_round_trip_refuted
  refine ⟨P, h0, hn, fun t key hkey hpub => ?_⟩
  unfold dstu_asn1_pub_encode
  cases dstu_asn1_param_encode env ⟨t, some key⟩ with
  | none => rfl
  | some params =>
    simp only [hkey, hpub]
    rcases hcc : dstu_point_compress g163 (affine P) ((g163.degree + 7) / 8) with ⟨r, w⟩
    have := hc ((g163.degree + 7) / 8)
    rw [hcc] at this
    simp only at this
    subst this
    rfl

/-- A key pair on the curve of degree 163 survives both encodings. -/
example : ∃ p8 s Q, dstu_asn1_priv_encode envEx ⟨.be, some (keyEx163 g163)⟩ = some p8 ∧ p8.alg = some .be ∧
    dstu_asn1_priv_decode envEx ⟨.le, none⟩ p8 = (true, ⟨.be, some ⟨some g163, s, some 5, some Q⟩⟩) ∧
    effectiveSbox s = Vector.replicate 64 0x5a ∧ ∀ [GoodGroup g163], Q = affine (-(5 • g163.gen)) :=
  C40_private_round_trip_partial envEx g163 (Or.inl ⟨0, g163_named _⟩) .be (keyEx163 g163) 5 rfl rfl (by omega) ⟨.le, none⟩

example : ∃ enc s, dstu_asn1_pub_encode envEx ⟨.le, some ⟨some g163, none, none, some (affine g163.gen)⟩⟩ = some enc ∧
    enc.alg = some .le ∧ dstu_asn1_pub_decode envEx ⟨.le, none⟩ enc =
      (true, ⟨.le, some ⟨some g163, s, none, some (affine g163.gen)⟩⟩) ∧ effectiveSbox s = default_sbox := by
  obtain ⟨_, _, _, _, _, _, _, _, _, hgx⟩ := numbers163
  have hp := goodGroup_p g163
  exact C41_public_round_trip_partial envEx g163 g163_dstu (Or.inl ⟨0, g163_named _⟩) .le _ rfl _ _
    (binCurve_nonsingular (goodGroup_b g163) instGoodGroup163.valid.onCurve) rfl (instGoodGroup163.valid.order _)
    (by
      rintro ⟨h, _⟩
      have hx := GF.toNat_ofNat g163.p (by omega) g163.gx instGoodGroup163.valid.x_lt
      rw [h, GF.toNat_one g163.p hp] at hx
      exact hgx hx.symm) ⟨.le, none⟩

example (i : Fin 10) (g : EcGroup) (hi : group_from_named_curve envEx.nids i = some g) (t : KeyType) :=
  C40_builtin_round_trip envEx i g hi t (keyEx163 g) 5 rfl rfl (by omega) ⟨.le, none⟩

/-- The private key that is written is read again, with its public key. -/
example : ∃ p8 pk key, dstu_asn1_priv_decode envEx ⟨.le, none⟩ p8 = (true, pk) ∧ pk.key = some key ∧ key.priv = some (leValue p8.prk) := by
  obtain ⟨p8, s, Q, _, _, h, _⟩ := C40_private_round_trip_partial envEx g163 (Or.inl ⟨0, g163_named _⟩) .be (keyEx163 g163) 5 rfl rfl (by omega) ⟨.le, none⟩
  obtain ⟨key, g, h1, _, h3, _⟩ := C42_imported envEx _ _ p8 h
  exact ⟨p8, _, key, h, h1, h3⟩

end Dstu.Props
