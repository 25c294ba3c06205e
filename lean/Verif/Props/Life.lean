import Verif.Props.Orders
import Verif.Props.Message
import Verif.Props.KeyCmp

/-! C88: the life of a key pair: generated, exported, imported elsewhere, used. -/

namespace Dstu.Props

open Spec WeierstrassCurve

/-- The coordinates determine the point. -/
theorem affine_injective {g : EcGroup} [hg : GoodGroup g] {P Q : g.Point} (h : affine P = affine Q) : P = Q := by
  have hp := goodGroup_p g
  cases P with
  | zero =>
    cases Q with
    | zero => rfl
    | some x y hxy => cases h
  | some x y hxy =>
    cases Q with
    | zero => cases h
    | some u v huv =>
      simp only [affine, Option.some.injEq, Prod.mk.injEq] at h
      have hx : x = u := by rw [← GF.ofNat_toNat g.p (by omega) x, h.1, GF.ofNat_toNat g.p (by omega) u]
      have hy : y = v := by rw [← GF.ofNat_toNat g.p (by omega) y, h.2, GF.ofNat_toNat g.p (by omega) v]
      subst hx
      subst hy
      rfl

/-- The parts of a key on `g` and the points they stand for. -/
def ShownBy {g : EcGroup} (k : EcKey g) (key : DstuKey) : Prop :=
  key.group = some g ∧ k.priv = key.priv ∧ k.pub.map affine = key.pub

/-- C88, where it holds.  On each of the ten built-in curves, take any generated key pair, with any S-box or none, of either type; on the
curves of degrees 163 and 367 its public point must not have abscissa 1.  Both halves are exported, and each is imported by anyone into
any key object.  Then both imports succeed, the two halves have the same curve, S-box and public point as the pair, the comparison
function takes the halves for equal, and every message, in any parts, that is signed with the imported private key is accepted
with the imported public key.  Missing: the keys with abscissa 1 on two curves, whose public half cannot be exported, see `C41_builtin_refuted`. -/
theorem C88_life_partial (env : Env) (n : Fin 10) (g : EcGroup) [GoodGroup g] (hg : group_from_named_curve env.nids n = some g)
    (t : KeyType) (empty k : EcKey g) (draws : List (Option Nat)) (hr : ∀ d, some d ∈ draws → d < g.n)
    (hgen : dstu_generate_key g empty draws = .done k) (key : DstuKey) (hkey : ShownBy k key)
    (hex : (n ≠ 0 ∧ n ≠ 8) ∨ ∀ y, key.pub ≠ some (some (1, y))) (old old' : EvpPkey) :
    ∃ p8 enc priv pub, dstu_asn1_priv_encode env ⟨t, some key⟩ = some p8 ∧ dstu_asn1_pub_encode env ⟨t, some key⟩ = some enc ∧
      dstu_asn1_priv_decode env old p8 = (true, ⟨t, some priv⟩) ∧ dstu_asn1_pub_decode env old' enc = (true, ⟨t, some pub⟩) ∧
      priv.priv = key.priv ∧ SamePublic priv key ∧ SamePublic pub key ∧ EVP_PKEY_cmp ⟨t, some priv⟩ ⟨t, some pub⟩ = some 1 ∧
      ∀ skey vkey : EcKey g, ShownBy skey priv → ShownBy vkey pub →
        ∀ (hist hist' : List DigestOp) (h h' : MdHeap), MdHeap.empty.run hist = some h → MdHeap.empty.run hist' = some h' →
        ∀ (i j i' j' : Nat), i ≠ j → i' ≠ j' → ∀ chunks chunks' : List (List Byte), chunks.flatten = chunks'.flatten →
        chunks.flatten.length < 2 ^ 60 → ∀ (siglen : Nat) (nonces : List (Option Nat)), (∀ e, some e ∈ nonces → e < g.n) →
        ∀ out, digestSign t g skey priv.sbox h i j chunks siglen nonces = some (.done out) → out.ret = true →
          digestVerify env.octet t g vkey pub.sbox h' i' j' chunks' out.written = some true := by
  obtain ⟨hgrp, hpr, hpb⟩ := hkey
  obtain ⟨d, h1, h2, h3, h4, h5, h6, _⟩ := C42_generated_builtin env.nids n g hg empty k draws hr hgen
  rw [h1] at hpr
  rw [h4] at hpb
  have hD := named_dstu env.nids n g hg
  obtain ⟨p8, s, Q, e1, _, e3, e4, e5⟩ :=
    C40_private_round_trip_partial env g (Or.inl ⟨n, hg⟩) t key d hgrp hpr.symm (by omega) old
  have hQ := e5
  subst hQ
  obtain ⟨enc, s', f1, _, f3, f4⟩ : ∃ enc s', dstu_asn1_pub_encode env ⟨t, some key⟩ = some enc ∧ enc.alg = some t ∧
      dstu_asn1_pub_decode env old' enc = (true, ⟨t, some ⟨some g, s', none, some (affine (-(d • g.gen)))⟩⟩) ∧
      effectiveSbox s' = effectiveSbox key.sbox := by
    rcases hP : -(d • g.gen) with _ | ⟨x, y, hxy⟩
    · exact absurd hP h5
    · rw [hP] at h6 hpb
      refine C41_public_round_trip_partial env g hD (Or.inl ⟨n, hg⟩) t key hgrp x y hxy hpb.symm h6 ?_ old'
      rintro ⟨hx, _⟩
      rcases hex with ⟨h0, h8⟩ | hex
      · exact named_no_exception env.nids n h0 h8 g hg x y hxy h6 hx
      · apply hex (GF.toNat y)
        rw [← hpb, Option.map_some, affine, hx, GF.toNat_one g.p (goodGroup_p g)]
  have sp : SamePublic ⟨some g, s, some d, some (affine (-(d • g.gen)))⟩ key := ⟨hgrp.symm, e4, hpb⟩
  have sq : SamePublic ⟨some g, s', none, some (affine (-(d • g.gen)))⟩ key := ⟨hgrp.symm, f4, hpb⟩
  refine ⟨p8, enc, _, _, e1, f1, e3, f3, hpr, sp, sq, ?_, ?_⟩
  · refine (C74_compare_partial t _ _ g g _ _ rfl rfl rfl rfl (priv_decoded_not_default env _ _ _ e3 _ rfl)
      (pub_decoded_not_default env _ _ _ f3 _ rfl)).1 ⟨rfl, ?_, rfl⟩
    exact e4.trans f4.symm
  · rintro skey vkey ⟨_, hs, _⟩ ⟨_, _, hv⟩ hist hist' h h' hh hh' i j i' j' hij hij' chunks chunks' hc hl siglen nonces hn out hsig hret
    have hvp : vkey.pub = some (-(d • g.gen)) := by
      cases hvk : vkey.pub with
      | none => rw [hvk] at hv; cases hv
      | some P =>
        rw [hvk] at hv
        exact congrArg some (affine_injective (Option.some.inj hv))
    refine C80_message_round_trip env.octet t skey vkey d hs hvp ?_ s s' (e4.trans f4.symm) hist hist' h h' hh hh' i j i' j' hij hij'
      chunks chunks' hc hl siglen nonces hn out hsig hret
    have hb := hD.n_ok.2
    have hs := hD.small
    rw [Int.toNat_natCast] at hb
    unfold fieldDegree at hs
    unfold numBytes
    unfold numBits at hb ⊢
    split at hb <;> split <;> split at hb <;> omega

/-- C88 fails for the keys left out: on the curves of degrees 163 and 367 there is a random number from which a key pair is
generated whose public half cannot be exported. -/
theorem C88_life_refuted (env : Env) (i : Fin 10) (hi : i = 0 ∨ i = 8) (g : EcGroup) [GoodGroup g]
    (hg : group_from_named_curve env.nids i = some g) :
    ∃ d, 0 < d ∧ d < g.n ∧ ∀ empty : EcKey g, ∃ k, dstu_generate_key g empty [some d] = .done k ∧
      ∀ t key, ShownBy k key → dstu_asn1_pub_encode env ⟨t, some key⟩ = none := by
  obtain ⟨P, hP0, hP, hno⟩ := C41_builtin_refuted env i hi g hg
  obtain ⟨d, hd, rfl⟩ := (C33_subgroup env.nids i g hg P).mp hP
  have hd0 : 0 < d := by
    rcases Nat.eq_zero_or_pos d with rfl | h
    · exact absurd (by rw [zero_nsmul, neg_zero]) hP0
    · exact h
  refine ⟨d, hd0, hd, fun empty => ?_⟩
  have hgen : ∃ k, dstu_generate_key g empty [some d] = .done k := by
    unfold dstu_generate_key genLoop
    rw [if_neg (by omega)]
    exact ⟨_, rfl⟩
  obtain ⟨k, hk⟩ := hgen
  refine ⟨k, hk, fun t key hkey => ?_⟩
  obtain ⟨e, h1, _, _, h4⟩ := C42_generated empty k [some d] (by simpa using hd) hk
  have he : e = d := by
    unfold dstu_generate_key genLoop at hk
    rw [if_neg (by omega)] at hk
    cases hk
    exact (Option.some.inj h1).symm
  subst he
  exact hno t key hkey.1 (by rw [← hkey.2.2, h4]; rfl)

/-- A key pair that meets the hypotheses of `C88_life_partial`: the one drawn as 1 on the curve of degree 431. -/
theorem life_ex (env : Env) : ∃ g, ∃ _ : GoodGroup g, group_from_named_curve env.nids (9 : Fin 10) = some g ∧
    ∃ (k : EcKey g) (key : DstuKey), dstu_generate_key g ⟨none, none⟩ [some 0, some 1] = .done k ∧
      (∀ d, some d ∈ [some 0, some 1] → d < g.n) ∧ ShownBy k key ∧ ((9 : Fin 10) ≠ 0 ∧ (9 : Fin 10) ≠ 8) := by
  obtain ⟨c, g, _, hg, hv, _, _⟩ := C33_curve_table_sound env.nids 9
  have hgood : GoodGroup g := ⟨hv⟩
  have h2 := (named_prime env.nids 9 g hg).two_le
  refine ⟨g, hgood, hg, ⟨some 1, some (-(1 • g.gen))⟩, ⟨some g, none, some 1, some (affine (-(1 • g.gen)))⟩, ?_, ?_, ⟨rfl, rfl, rfl⟩, by decide⟩
  · unfold dstu_generate_key genLoop
    rw [if_pos rfl]
    unfold genLoop
    rw [if_neg (by decide)]
    simp only [dstu_add_public_key, ec_mul]
    simp
  · intro d hd
    simp only [List.mem_cons, Option.some.injEq, List.not_mem_nil, or_false] at hd
    omega

/-- The refutation at the 163-bit curve: a private key whose public half the engine cannot write. -/
example (env : Env) : ∃ d k, 0 < d ∧ dstu_generate_key g163 ⟨none, none⟩ [some d] = .done k ∧ ∀ t key, ShownBy k key → dstu_asn1_pub_encode env ⟨t, some key⟩ = none := by
  obtain ⟨d, h0, _, h⟩ := C88_life_refuted env 0 (Or.inl rfl) g163 (g163_named _)
  obtain ⟨k, hk, h1⟩ := h ⟨none, none⟩
  exact ⟨d, k, h0, hk, h1⟩

/-- The theorem at that key pair: both halves are written and read again, and match. -/
example (env : Env) (t : KeyType) : ∃ key p8 enc priv pub, dstu_asn1_priv_encode env ⟨t, some key⟩ = some p8 ∧ dstu_asn1_pub_encode env ⟨t, some key⟩ = some enc ∧
    dstu_asn1_priv_decode env ⟨t, none⟩ p8 = (true, ⟨t, some priv⟩) ∧ dstu_asn1_pub_decode env ⟨t, none⟩ enc = (true, ⟨t, some pub⟩) ∧
    priv.priv = key.priv ∧ EVP_PKEY_cmp ⟨t, some priv⟩ ⟨t, some pub⟩ = some 1 := by
  obtain ⟨g, hgood, hg, k, key, h1, h2, h3, h4⟩ := life_ex env
  obtain ⟨p8, enc, priv, pub, a1, a2, a3, a4, a5, _, _, a6, _⟩ := C88_life_partial env 9 g hg t _ k _ h2 h1 key h3 (Or.inl h4) ⟨t, none⟩ ⟨t, none⟩
  exact ⟨key, p8, enc, priv, pub, a1, a2, a3, a4, a5, a6⟩

end Dstu.Props
