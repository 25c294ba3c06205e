import Verif.Model.KeyCmp
import Verif.Props.KeyPair

/-! # Properties C74 and C85: comparison of keys and copying of their parameters -/

namespace Dstu.Props

open Spec WeierstrassCurve

/-- The public part of a key: its curve, the S-box it uses and its public point. -/
def SamePublic (k l : DstuKey) : Prop := k.group = l.group ∧ effectiveSbox k.sbox = effectiveSbox l.sbox ∧ k.pub = l.pub

/-- C74, where it holds: two keys of the same type, both with a curve and a public point, neither with an explicit copy of the
default S-box, compare as 1 if their curve, effective S-box and point are the same, and as 0 otherwise.  Missing: explicit copies,
see `C38_effective_refuted`, and keys without a public point, see `C74_missing_public_refuted`. -/
theorem C74_compare_partial (t : KeyType) (k l : DstuKey) (g h : EcGroup) (P Q : Option (Nat × Nat)) (hk : k.group = some g)
    (hl : l.group = some h) (hP : k.pub = some P) (hQ : l.pub = some Q) (nk : k.sbox ≠ some default_sbox) (nl : l.sbox ≠ some default_sbox) :
    (SamePublic k l → EVP_PKEY_cmp ⟨t, some k⟩ ⟨t, some l⟩ = some 1) ∧
    (¬ SamePublic k l → EVP_PKEY_cmp ⟨t, some k⟩ ⟨t, some l⟩ = some 0) := by
  have he := C38_effective_partial ⟨t, some k⟩ ⟨t, some l⟩ k l g h rfl rfl hk hl nk nl
  have hc := cmp_iff t t k l g h hk hl
  have hpub : dstu_asn1_pub_cmp ⟨t, some k⟩ ⟨t, some l⟩ = some (if P = Q then 1 else 0) := by
    simp only [dstu_asn1_pub_cmp, hk, hP, hQ]
    split <;> rfl
  have hcmp : EVP_PKEY_cmp ⟨t, some k⟩ ⟨t, some l⟩ = some (if (g = h ∧ k.sbox = l.sbox) ∧ P = Q then 1 else 0) := by
    unfold EVP_PKEY_cmp
    simp only [ne_eq, not_true_eq_false, if_false]
    rw [hc]
    by_cases hgs : g = h ∧ k.sbox = l.sbox
    · simp only [if_pos hgs, hpub]
      simp [hgs]
    · simp only [if_neg hgs]
      simp [hgs]
  have hpar : ParamEq ⟨t, some k⟩ ⟨t, some l⟩ ↔ g = h ∧ k.sbox = l.sbox := by
    unfold ParamEq
    rw [hc]
    split <;> simp_all
  have hsame : SamePublic k l ↔ (g = h ∧ k.sbox = l.sbox) ∧ P = Q := by
    rw [← hpar, he]
    simp only [SamePublic, hk, hl, hP, hQ, Option.some.injEq, and_assoc]
  rw [hcmp]
  exact ⟨fun hs => by rw [if_pos (hsame.mp hs)], fun hs => by rw [if_neg (fun h => hs (hsame.mpr h))]⟩

/-- C74, for all keys with a curve and a public point: what is compared is the curve, the S-box as it is stored, where no S-box and a copy of the default one are
different, and the point.  This is the property except for copies of the default S-box. -/
theorem C74_exactly (t : KeyType) (k l : DstuKey) (g h : EcGroup) (P Q : Option (Nat × Nat)) (hk : k.group = some g) (hl : l.group = some h)
    (hP : k.pub = some P) (hQ : l.pub = some Q) :
    EVP_PKEY_cmp ⟨t, some k⟩ ⟨t, some l⟩ = some (if (g = h ∧ k.sbox = l.sbox) ∧ P = Q then 1 else 0) := by
  have hc := cmp_iff t t k l g h hk hl
  have hpub : dstu_asn1_pub_cmp ⟨t, some k⟩ ⟨t, some l⟩ = some (if P = Q then 1 else 0) := by
    simp only [dstu_asn1_pub_cmp, hk, hP, hQ]
    split <;> rfl
  unfold EVP_PKEY_cmp
  simp only [ne_eq, not_true_eq_false, if_false]
  rw [hc]
  by_cases hgs : g = h ∧ k.sbox = l.sbox
  · simp only [if_pos hgs, hpub]
    simp [hgs]
  · simp only [if_neg hgs]
    simp [hgs]

/-- Keys of different types are never reported equal. -/
theorem C74_types (t u : KeyType) (k l : Option DstuKey) (h : t ≠ u) : EVP_PKEY_cmp ⟨t, k⟩ ⟨u, l⟩ = some (-1) := if_pos h

/-- Decoding never gives a key with an explicit copy of the default S-box. -/
theorem decoded_not_default (env : Env) (pk pk' : EvpPkey) (der : List Byte) (h : dstu_asn1_param_decode env pk der = (true, pk')) (k : DstuKey)
    (hk : pk'.key = some k) : k.sbox ≠ some default_sbox := by
  unfold dstu_asn1_param_decode at h
  split at h
  · cases h
  split at h
  · cases h
  rename_i params _ key hkey
  cases h
  cases hk
  unfold key_from_asn1 at hkey
  simp only at hkey
  split at hkey
  · split at hkey
    · cases hkey
    · cases hkey
      simp [DSTU_KEY_new]
  · split at hkey
    · cases hkey
    · split at hkey
      · cases hkey
      · cases hkey
        simp only
        split
        · simp
        · rename_i hd
          intro h
          exact hd ((is_default_iff _).mpr (Option.some.inj h))

theorem pub_decoded_not_default (env : Env) (pk pk' : EvpPkey) (pub : X509Pubkey) (h : dstu_asn1_pub_decode env pk pub = (true, pk')) (k : DstuKey)
    (hk : pk'.key = some k) : k.sbox ≠ some default_sbox := by
  unfold dstu_asn1_pub_decode at h
  split at h
  · cases h
  split at h
  · cases h
  simp only at h
  split at h
  · cases h
  rename_i pk1 hd
  split at h
  · cases h
  rename_i key hkey
  split at h
  · cases h
  split at h
  · cases h
  split at h
  · cases h
  split at h
  · cases h
  cases h
  cases hk
  exact decoded_not_default env _ _ _ hd key hkey

theorem priv_decoded_not_default (env : Env) (pk pk' : EvpPkey) (p8 : Pkcs8) (h : dstu_asn1_priv_decode env pk p8 = (true, pk')) (k : DstuKey)
    (hk : pk'.key = some k) : k.sbox ≠ some default_sbox := by
  unfold dstu_asn1_priv_decode at h
  split at h
  · cases h
  simp only at h
  split at h
  · cases h
  split at h
  · cases h
  rename_i pk1 hd
  split at h
  · cases h
  split at h
  · rename_i bn key hbn hkey
    split at h
    · cases h
    split at h
    · cases h
    cases h
    cases hk
    exact decoded_not_default env _ _ _ hd key hkey
  · cases h

/-- C74: a public key that is encoded and decoded compares equal to the original. -/
theorem C74_decoded_public_partial (env : Env) (g : EcGroup) [h : GoodGroup g] (hc : DstuCurve g) (hg : EncodableCurve env g)
    (t : KeyType) (key : DstuKey) (hkey : key.group = some g) (x y : GF g.p) (hxy : g.curve.Nonsingular x y)
    (hpub : key.pub = some (affine (Affine.Point.some x y hxy : g.Point)))
    (hP : g.n • (Affine.Point.some x y hxy : g.Point) = 0) (hex : ¬ (x = 1 ∧ trace y = 0)) (hs : key.sbox ≠ some default_sbox) (old : EvpPkey) :
    ∃ enc pk, dstu_asn1_pub_encode env ⟨t, some key⟩ = some enc ∧ dstu_asn1_pub_decode env old enc = (true, pk) ∧
      EVP_PKEY_cmp ⟨t, some key⟩ pk = some 1 ∧ EVP_PKEY_cmp pk ⟨t, some key⟩ = some 1 := by
  obtain ⟨enc, s, h1, h2, h3, h4⟩ := C41_public_round_trip_partial env g hc hg t key hkey x y hxy hpub hP hex old
  have hn := pub_decoded_not_default env _ _ _ h3 _ rfl
  have e1 := C74_compare_partial t key ⟨some g, s, none, some (affine (Affine.Point.some x y hxy : g.Point))⟩ g g _ _ hkey rfl hpub rfl hs hn
  have e2 := C74_compare_partial t ⟨some g, s, none, some (affine (Affine.Point.some x y hxy : g.Point))⟩ key g g _ _ rfl hkey rfl hpub hn hs
  exact ⟨enc, _, h1, h3, e1.1 ⟨hkey, h4.symm, hpub⟩, e2.1 ⟨hkey.symm, h4, hpub.symm⟩⟩

/-- C74: a key pair that is encoded as PKCS#8 and decoded compares equal to the original. -/
theorem C74_decoded_private_partial (env : Env) (g : EcGroup) [h : GoodGroup g] (hg : EncodableCurve env g) (t : KeyType) (key : DstuKey)
    (d : Nat) (hkey : key.group = some g) (hpriv : key.priv = some d) (hd : d ≠ 0) (hpub : key.pub = some (affine (-(d • g.gen))))
    (hs : key.sbox ≠ some default_sbox) (old : EvpPkey) :
    ∃ p8 pk, dstu_asn1_priv_encode env ⟨t, some key⟩ = some p8 ∧ dstu_asn1_priv_decode env old p8 = (true, pk) ∧
      EVP_PKEY_cmp ⟨t, some key⟩ pk = some 1 ∧ EVP_PKEY_cmp pk ⟨t, some key⟩ = some 1 := by
  obtain ⟨p8, s, Q, h1, h2, h3, h4, h5⟩ := C40_private_round_trip_partial env g hg t key d hkey hpriv hd old
  have hQ := h5
  subst hQ
  have hn := priv_decoded_not_default env _ _ _ h3 _ rfl
  have e1 := C74_compare_partial t key ⟨some g, s, some d, some (affine (-(d • g.gen)))⟩ g g _ _ hkey rfl hpub rfl hs hn
  have e2 := C74_compare_partial t ⟨some g, s, some d, some (affine (-(d • g.gen)))⟩ key g g _ _ rfl hkey rfl hpub hn hs
  exact ⟨p8, _, h1, h3, e1.1 ⟨hkey, h4.symm, hpub⟩, e2.1 ⟨hkey.symm, h4, hpub.symm⟩⟩

/-- A key on the curve of degree 163 with the private key 3. -/
noncomputable def pair163 : DstuKey := ⟨some g163, none, some 3, some (affine (-(3 • g163.gen)))⟩

/-- It meets the hypotheses; and it differs from the key with the private key 5 if the two points differ. -/
example (env : Env) : ∃ p8 pk, dstu_asn1_priv_encode env ⟨.le, some pair163⟩ = some p8 ∧ dstu_asn1_priv_decode env ⟨.be, none⟩ p8 = (true, pk) ∧
    EVP_PKEY_cmp ⟨.le, some pair163⟩ pk = some 1 ∧ EVP_PKEY_cmp pk ⟨.le, some pair163⟩ = some 1 :=
  C74_decoded_private_partial env g163 (Or.inl ⟨0, g163_named _⟩) .le pair163 3 rfl rfl (by omega) rfl (by simp [pair163]) ⟨.be, none⟩

example (hne : affine (-(3 • g163.gen)) ≠ affine (-(5 • g163.gen))) :
    EVP_PKEY_cmp ⟨.le, some pair163⟩ ⟨.le, some ⟨some g163, none, some 5, some (affine (-(5 • g163.gen)))⟩⟩ = some 0 :=
  (C74_compare_partial .le pair163 ⟨some g163, none, some 5, some (affine (-(5 • g163.gen)))⟩ g163 g163 _ _ rfl rfl rfl rfl (by simp [pair163])
    (by simp)).2 fun h => hne (Option.some.inj h.2.2)

/-- C74 fails for keys without a public point: the keys one gets by decoding parameters, on every built-in curve, cannot be
compared, not even with themselves; the behaviour is undefined. -/
theorem C74_missing_public_refuted (env : Env) (i : Fin 10) (t : KeyType) : ∃ der pk,
    dstu_asn1_param_decode env ⟨t, none⟩ der = (true, pk) ∧ EVP_PKEY_cmp pk pk = none := by
  obtain ⟨c, g, _, hg, _⟩ := C33_curve_table_sound env.nids i
  obtain ⟨der, s, _, h2, _⟩ := C35_named_round_trip env i g hg t ⟨some g, none, none, none⟩ rfl none []
  refine ⟨der ++ [], _, h2, ?_⟩
  unfold EVP_PKEY_cmp
  rw [cmp_iff t t _ _ g g rfl rfl]
  simp [dstu_asn1_pub_cmp]

/-! ### C85 -/

theorem cmp_one {t u : KeyType} {a b : Option DstuKey} (h : dstu_asn1_param_cmp ⟨t, a⟩ ⟨u, b⟩ = some 1) :
    ∃ k l g, a = some k ∧ b = some l ∧ k.group = some g ∧ l.group = some g ∧ k.sbox = l.sbox := by
  cases a with
  | none => simp [dstu_asn1_param_cmp] at h
  | some k =>
    cases b with
    | none => simp [dstu_asn1_param_cmp] at h
    | some l =>
      cases hk : k.group with
      | none =>
        unfold dstu_asn1_param_cmp at h
        simp only [hk] at h
        exact absurd h (by split <;> simp)
      | some g =>
        cases hl : l.group with
        | none =>
          unfold dstu_asn1_param_cmp at h
          simp only [hk, hl] at h
          exact absurd h (by split <;> simp)
        | some g' =>
          rw [cmp_iff t u k l g g' hk hl] at h
          by_cases e : g = g' ∧ k.sbox = l.sbox
          · obtain ⟨rfl, e⟩ := e
            exact ⟨k, l, g, rfl, rfl, hk, hl, e⟩
          · rw [if_neg e] at h
            cases h

/-- C85, first part: when `EVP_PKEY_copy_parameters` reports success the target has the type, the curve and the S-box of the source. -/
theorem C85_copied (copy : EvpPkey → EvpPkey → Option (Int × EvpPkey)) (dst : Option EvpPkey) (src r : EvpPkey) (h : EVP_PKEY_copy_parameters copy dst src = some (1, r)) :
    r.type = src.type ∧ ∃ k l g, r.key = some k ∧ src.key = some l ∧ k.group = some g ∧ l.group = some g ∧ k.sbox = l.sbox := by
  have same : ∀ d : EvpPkey, d.type = src.type → copyParametersSame copy d src = some (1, r) →
      r.type = src.type ∧ ∃ k l g, r.key = some k ∧ src.key = some l ∧ k.group = some g ∧ l.group = some g ∧ k.sbox = l.sbox := by
    intro d ht h
    unfold copyParametersSame EVP_PKEY_missing_parameters EVP_PKEY_cmp_parameters at h
    simp only [Bool.false_eq_true, if_false, Bool.not_false, if_true, ht, ne_eq, not_true_eq_false] at h
    split at h
    · cases h
    · rename_i n hn
      simp only [Option.some.injEq, Prod.mk.injEq] at h
      obtain ⟨h1, rfl⟩ := h
      obtain rfl : n = 1 := by
        by_contra hne
        rw [if_neg hne] at h1
        cases h1
      exact ⟨ht, cmp_one hn⟩
  unfold EVP_PKEY_copy_parameters at h
  cases dst with
  | none => exact same ⟨src.type, none⟩ rfl h
  | some d =>
    simp only at h
    split at h
    · cases h
    · exact same d (by simpa using ‹¬d.type ≠ src.type›) h

/-- C85, second part, where it holds: a target of the same type with a curve.  The copy succeeds iff the target already has the curve and the S-box of the
source, and the target is not changed.  Missing: targets without parameters, see `C85_empty_refuted`. -/
theorem C85_accepts_partial (copy : EvpPkey → EvpPkey → Option (Int × EvpPkey)) (t : KeyType) (k l : DstuKey) (g h : EcGroup) (hk : k.group = some g) (hl : l.group = some h) :
    EVP_PKEY_copy_parameters copy (some ⟨t, some k⟩) ⟨t, some l⟩ = some (if k.group = l.group ∧ k.sbox = l.sbox then 1 else 0, ⟨t, some k⟩) := by
  unfold EVP_PKEY_copy_parameters copyParametersSame EVP_PKEY_missing_parameters EVP_PKEY_cmp_parameters
  simp only [ne_eq, not_true_eq_false, if_false, Bool.false_eq_true, Bool.not_false, if_true]
  rw [cmp_iff t t k l g h hk hl]
  simp only [hk, hl, Option.some.injEq, Prod.mk.injEq, and_true]
  by_cases e : g = h ∧ k.sbox = l.sbox
  · simp only [if_pos e, if_true]
  · simp only [if_neg e, if_neg (by decide : ¬(0 : Int) = 1)]

/-- Targets of another type are refused and not changed. -/
theorem C85_types (copy : EvpPkey → EvpPkey → Option (Int × EvpPkey)) (t u : KeyType) (k l : Option DstuKey) (h : t ≠ u) :
    EVP_PKEY_copy_parameters copy (some ⟨t, k⟩) ⟨u, l⟩ = some (0, ⟨t, k⟩) := if_pos h

example (copy : EvpPkey → EvpPkey → Option (Int × EvpPkey)) :
    EVP_PKEY_copy_parameters copy (some ⟨.le, some ⟨some g163, none, none, none⟩⟩) ⟨.le, some pair163⟩ = some (1, ⟨.le, some ⟨some g163, none, none, none⟩⟩) ∧
    EVP_PKEY_copy_parameters copy (some ⟨.le, some ⟨some g163, some default_sbox, none, none⟩⟩) ⟨.le, some pair163⟩ = some (0, ⟨.le, some ⟨some g163, some default_sbox, none, none⟩⟩) := by
  constructor
  · rw [C85_accepts_partial copy .le _ pair163 g163 g163 rfl rfl, if_pos ⟨rfl, rfl⟩]
  · rw [C85_accepts_partial copy .le _ pair163 g163 g163 rfl rfl, if_neg (by simp [pair163])]

/-- C85 fails for targets without parameters, new or of the same type: whatever the function of the engine that copies parameters does, the copy fails, for every
source, and the target still has no parameters. -/
theorem C85_empty_refuted (copy : EvpPkey → EvpPkey → Option (Int × EvpPkey)) (src : EvpPkey) :
    EVP_PKEY_copy_parameters copy none src = some (0, ⟨src.type, none⟩) ∧ EVP_PKEY_copy_parameters copy (some ⟨src.type, none⟩) src = some (0, ⟨src.type, none⟩) := by
  constructor <;> simp [EVP_PKEY_copy_parameters, copyParametersSame, EVP_PKEY_missing_parameters, EVP_PKEY_cmp_parameters, dstu_asn1_param_cmp]

example (t : KeyType) : EVP_PKEY_cmp ⟨t, some pair163⟩ ⟨t, some { pair163 with sbox := some default_sbox }⟩ = some 0 := by
  rw [C74_exactly t pair163 { pair163 with sbox := some default_sbox } g163 g163 _ _ rfl rfl rfl rfl, if_neg]
  rintro ⟨⟨_, h⟩, _⟩
  cases h
example : EVP_PKEY_cmp ⟨.le, some pair163⟩ ⟨.be, some pair163⟩ = some (-1) := C74_types .le .be _ _ (by simp)
example (copy : EvpPkey → EvpPkey → Option (Int × EvpPkey)) := C85_types copy .le .be (some pair163) (some pair163) (by simp)
example (copy : EvpPkey → EvpPkey → Option (Int × EvpPkey)) : ∃ k l g, (some ⟨some g163, none, none, none⟩ : Option DstuKey) = some k ∧ some pair163 = some l ∧
    k.group = some g ∧ l.group = some g ∧ k.sbox = l.sbox :=
  (C85_copied copy (some ⟨.le, some ⟨some g163, none, none, none⟩⟩) ⟨.le, some pair163⟩ ⟨.le, some ⟨some g163, none, none, none⟩⟩
    (by rw [C85_accepts_partial copy .le _ pair163 g163 g163 rfl rfl, if_pos ⟨rfl, rfl⟩])).2

/-- The base point as a public key. -/
example (env : Env) : ∃ enc pk, dstu_asn1_pub_encode env ⟨.le, some ⟨some g163, none, none, some (affine g163.gen)⟩⟩ = some enc ∧
    dstu_asn1_pub_decode env ⟨.be, none⟩ enc = (true, pk) ∧ EVP_PKEY_cmp ⟨.le, some ⟨some g163, none, none, some (affine g163.gen)⟩⟩ pk = some 1 ∧
    EVP_PKEY_cmp pk ⟨.le, some ⟨some g163, none, none, some (affine g163.gen)⟩⟩ = some 1 := by
  obtain ⟨_, _, _, _, _, _, _, _, _, hgx⟩ := numbers163
  have hp := goodGroup_p g163
  exact C74_decoded_public_partial env g163 g163_dstu (Or.inl ⟨0, g163_named _⟩) .le ⟨some g163, none, none, some (affine g163.gen)⟩ rfl _ _
    (binCurve_nonsingular (goodGroup_b g163) instGoodGroup163.valid.onCurve) rfl (instGoodGroup163.valid.order _)
    (by
      rintro ⟨h, _⟩
      have hx := GF.toNat_ofNat g163.p (by omega) g163.gx instGoodGroup163.valid.x_lt
      rw [h, GF.toNat_one g163.p hp] at hx
      exact hgx hx.symm) (by simp) ⟨.be, none⟩

end Dstu.Props
