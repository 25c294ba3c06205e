import Verif.Props.Subgroup
import Verif.Props.Life

/-! Property C93: the number of bits a key reports. -/

namespace Dstu.Props

open Dstu.Spec

/-- C93: a key reports 0 bits as long as it has no curve, and otherwise the degree of the field of the curve. -/
theorem C93_bits (pk : EvpPkey) :
    (∀ key g, pk.key = some key → key.group = some g → dstu_asn1_pkey_bits pk = fieldDegree g.p) ∧
    ((∀ key, pk.key = some key → key.group = none) → dstu_asn1_pkey_bits pk = 0) := by
  constructor
  · intro key g hk hg
    simp [dstu_asn1_pkey_bits, hk, hg, EcGroup.degree, fieldDegree]
  · intro h
    unfold dstu_asn1_pkey_bits
    cases hk : pk.key with
    | none => rfl
    | some key => simp [h key hk]

/-- C93, built-in curves: the number of bits is the one the curve is named after, and the order of the base point, hence every private key, has
that many bits at most and at most two fewer. -/
theorem C93_named (nids : CurveNids) (i : Fin 10) (g : EcGroup) (hg : group_from_named_curve nids i = some g) (pk : EvpPkey) (key : DstuKey) (hk : pk.key = some key)
    (hkg : key.group = some g) :
    dstu_asn1_pkey_bits pk = [163, 167, 173, 179, 191, 233, 257, 307, 367, 431][i] ∧ g.n < 2 ^ dstu_asn1_pkey_bits pk ∧
      2 ^ dstu_asn1_pkey_bits pk < 4 * g.n := by
  have hD := named_dstu nids i g hg
  have : GoodGroup g := hD.good
  rw [(C93_bits pk).1 key g hk hkg]
  obtain ⟨c, m, ks, hc, hm, he, hge⟩ := named_entry nids i g hg
  have hd : fieldDegree g.p = m := by
    rw [hge]
    change fieldDegree (arr2poly c.poly) = m
    rw [he.poly]; exact he.log2
  refine ⟨?_, ?_, ?_⟩
  · rw [hd]
    have : ∀ i : Fin 10, ∀ m ks, tableExps[i.val]? = some (m, ks) → m = [163, 167, 173, 179, 191, 233, 257, 307, 367, 431][i] := by
      intro i m ks h
      fin_cases i <;> (cases h; rfl)
    exact this i m ks hm
  · obtain ⟨hfin, hcard⟩ := GF.card g.p
    have h1 := C90_points_partial nids i g hg
    obtain ⟨_, h2⟩ := points_le (GF.ofNat g.p g.a) (GF.ofNat g.p g.b)
    rw [hcard] at h2
    have h3 : Nat.card g.Point ≤ 2 * 2 ^ fieldDegree g.p + 1 := h2
    rw [h1] at h3
    have h4 : 2 * g.n ≤ 2 * 2 ^ fieldDegree g.p + 1 := le_trans (Nat.mul_le_mul_right _ (by split <;> omega)) h3
    have h5 : 2 ^ fieldDegree g.p % 2 = 0 := by
      obtain ⟨j, hj⟩ : ∃ j, fieldDegree g.p = j + 1 := ⟨fieldDegree g.p - 1, by have := hD.odd; omega⟩
      rw [hj, pow_succ]; omega
    have := hD.n_odd
    omega
  · rcases named_size nids i g hg with ⟨_, _, _, h⟩ | ⟨_, _, h⟩ <;> omega

/-- C93: every generated private key on a built-in curve has at most the reported number of bits. -/
theorem C93_private (nids : CurveNids) (i : Fin 10) (g : EcGroup) [GoodGroup g] (hg : group_from_named_curve nids i = some g) (key k : EcKey g)
    (draws : List (Option Nat)) (hr : ∀ d, some d ∈ draws → d < g.n) (h : dstu_generate_key g key draws = .done k) (pk : EvpPkey) (dk : DstuKey)
    (hk : pk.key = some dk) (hs : ShownBy k dk) : ∃ d, dk.priv = some d ∧ 0 < d ∧ d < 2 ^ dstu_asn1_pkey_bits pk := by
  obtain ⟨d, h1, h2, h3, _⟩ := C42_generated key k draws hr h
  refine ⟨d, hs.2.1.symm.trans h1, h2, ?_⟩
  exact lt_trans h3 (C93_named nids i g hg pk dk hk hs.1).2.1

theorem compress_written (g : EcGroup) (P : Option (Nat × Nat)) (L : Nat) (c : List Byte) (h : dstu_point_compress g P L = (true, some c)) : c.length = g.fieldSize := by
  unfold dstu_point_compress at h
  split at h
  · cases h
  split at h
  · cases h
  split at h
  · cases h
    simp
  split at h
  · cases h
  simp only at h
  split at h
  · cases h
  have fits : ∀ x, (decide ((bn_encode x g.fieldSize).1 ≠ 0), (bn_encode x g.fieldSize).2) = (true, some c) → c.length = g.fieldSize := by
    intro x h
    by_cases hf : x < 256 ^ g.fieldSize
    · rw [bn_encode_fits _ _ hf] at h
      simp only [Prod.mk.injEq, Option.some.injEq] at h
      rw [← h.2, bytesBE_length]
    · rw [bn_encode_not_fits _ _ hf] at h
      cases h
  exact fits _ h

/-- C93: whenever a public key can be encoded, the encoding is an octet string with one byte for eight of the reported bits. -/
theorem C93_public (env : Env) (pk : EvpPkey) (enc : X509Pubkey) (h : dstu_asn1_pub_encode env pk = some enc) :
    ∃ c, enc.pbk = i2d_octet c ∧ c.length = (dstu_asn1_pkey_bits pk + 7) / 8 := by
  unfold dstu_asn1_pub_encode at h
  split at h
  · cases h
  split at h
  · cases h
  rename_i key hk
  split at h
  · cases h
  rename_i g hg
  simp only at h
  split at h
  · cases h
  split at h
  · cases h
  · cases h
  rename_i c hc
  split at h
  · cases h
  rename_i c' hc'
  cases h
  refine ⟨c', rfl, ?_⟩
  have hb : dstu_asn1_pkey_bits pk = g.degree := by simp [dstu_asn1_pkey_bits, hk, hg]
  rw [hb]
  have := compress_written g _ _ c hc
  unfold maybeReverse at hc'
  split at hc'
  · rw [reverse_bytes_eq] at hc'
    cases hc'
    rw [List.length_reverse, this]; rfl
  · cases hc'
    exact this

/-- The curve of degree 163 meets the case of built-in curves. -/
example (nids : CurveNids) : dstu_asn1_pkey_bits ⟨.le, some ⟨some g163, none, some 3, none⟩⟩ = 163 :=
  (C93_named nids 0 g163 (g163_named _) _ _ rfl rfl).1

example (nids : CurveNids) : ∃ k d, dstu_generate_key g163 ⟨none, none⟩ [some 0, some 3] = .done k ∧ k.priv = some d ∧ 0 < d ∧ d < 2 ^ 163 := by
  obtain ⟨k, hk, hp⟩ := C42_generation_succeeds (g := g163) ⟨none, none⟩ 1 3 (by omega) []
  have hn : 3 < g163.n := by decide +kernel
  obtain ⟨d, h1, h2, h3⟩ := C93_private nids 0 g163 (g163_named _) _ k _ (by
    intro d hd
    simp at hd
    rcases hd with rfl | rfl <;> omega) hk ⟨.le, some ⟨some g163, none, k.priv, k.pub.map affine⟩⟩ _ rfl ⟨rfl, rfl, rfl⟩
  rw [(C93_named nids 0 g163 (g163_named _) _ _ rfl rfl).1] at h3
  exact ⟨k, d, hk, h1, h2, h3⟩

example (env : Env) : ∃ enc c, dstu_asn1_pub_encode env ⟨.le, some ⟨some g163, none, none, some (affine g163.gen)⟩⟩ = some enc ∧ enc.pbk = i2d_octet c ∧ c.length = 21 := by
  obtain ⟨_, _, _, _, _, _, _, _, _, hgx⟩ := numbers163
  have hp := goodGroup_p g163
  obtain ⟨enc, _, h, _⟩ := C74_decoded_public_partial env g163 g163_dstu (Or.inl ⟨0, g163_named _⟩) .le ⟨some g163, none, none, some (affine g163.gen)⟩ rfl _ _
    (binCurve_nonsingular (goodGroup_b g163) instGoodGroup163.valid.onCurve) rfl (instGoodGroup163.valid.order _)
    (by
      rintro ⟨h, _⟩
      have hx := GF.toNat_ofNat g163.p (by omega) g163.gx instGoodGroup163.valid.x_lt
      rw [h, GF.toNat_one g163.p hp] at hx
      exact hgx hx.symm) (by simp) ⟨.be, none⟩
  obtain ⟨c, h1, h2⟩ := C93_public env _ enc h
  rw [(C93_named env.nids 0 g163 (g163_named _) _ _ rfl rfl).1] at h2
  exact ⟨enc, c, h, h1, h2⟩

end Dstu.Props
