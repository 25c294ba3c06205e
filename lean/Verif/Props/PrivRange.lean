import Verif.Props.Subgroup

/-! C106: the numbers of imported private keys. -/

namespace Dstu.Props

open Spec WeierstrassCurve

/-- Every string of at least one byte is accepted as the number of a private key, whatever its size. -/
theorem priv_decode_accepts (env : Env) (g : EcGroup) [h : GoodGroup g] (hg : EncodableCurve env g) (t : KeyType) (prk : List Byte) (hne : prk ≠ []) :
    ∃ p8 s, p8.alg = some t ∧ p8.prk = prk ∧
      ∀ old, dstu_asn1_priv_decode env old p8 = (true, ⟨t, some ⟨some g, s, some (leValue prk), some (affine (-(leValue prk • g.gen)))⟩⟩) := by
  obtain ⟨der, s, h1, h2, h3⟩ := param_round_trip env g hg t ⟨some g, none, none, none⟩ rfl none
  refine ⟨⟨some t, some der, prk⟩, s, rfl, rfl, fun old => ?_⟩
  have hl : prk.length ≠ 0 := fun h0 => hne (List.length_eq_zero_iff.mp h0)
  unfold dstu_asn1_priv_decode
  simp only [h2, hl, if_false]
  rw [reverse_bytes_copy_eq]
  simp only [bin2bn_eq, add_public_key_good, beValue, List.reverse_reverse]

/-- The public point depends on the number modulo the order. -/
theorem nsmul_mod (g : EcGroup) [hg : GoodGroup g] (d : Nat) : (d % g.n) • g.gen = d • g.gen := by
  have h0 : g.n • g.gen = 0 := hg.valid.order _
  conv_rhs => rw [← Nat.mod_add_div d g.n, add_nsmul, mul_nsmul, h0, nsmul_zero, add_zero]

/-- C106, where it holds: on each of the ten built-in curves a private key whose number is not a multiple of the order has the public point of exactly one number between 1 and the
order, its remainder.  The point is the one at infinity exactly for multiples of the order.  Missing: that such numbers, and numbers beyond the order, are refused. -/
theorem C106_public_partial (env : Env) (i : Fin 10) (g : EcGroup) [hgood : GoodGroup g] (hg : group_from_named_curve env.nids i = some g) (old pk : EvpPkey) (p8 : Pkcs8)
    (h : dstu_asn1_priv_decode env old p8 = (true, pk)) (key : DstuKey) (hkey : pk.key = some key) (hgrp : key.group = some g) :
    ∃ (d : Nat) (P : g.Point), key.priv = some d ∧ key.pub = some (affine P) ∧ (P = 0 ↔ g.n ∣ d) ∧
      (¬ g.n ∣ d → HasPrivate g.gen P g.n ∧ ∀ e, e < g.n → (P = -(e • g.gen) ↔ e = d % g.n)) := by
  obtain ⟨key', g', h1, h2, h3, h4⟩ := C42_imported env old pk p8 h
  rw [hkey] at h1
  cases h1
  rw [hgrp] at h2
  cases h2
  obtain ⟨hp, h0, hmin⟩ := C33_order_prime env.nids i g hg
  have hord : addOrderOf g.gen = g.n := by
    have : Fact g.n.Prime := ⟨hp⟩
    exact addOrderOf_eq_prime h0 (Affine.Point.some_ne_zero _)
  have hlt : leValue p8.prk % g.n < g.n := Nat.mod_lt _ hp.pos
  refine ⟨_, _, h3, h4, ?_, fun hnd => ⟨⟨leValue p8.prk % g.n, ?_, hlt, by rw [nsmul_mod]⟩, fun e he => ?_⟩⟩
  · rw [neg_eq_zero, ← hord]
    exact addOrderOf_dvd_iff_nsmul_eq_zero.symm
  · rw [Nat.dvd_iff_mod_eq_zero] at hnd
    omega
  · rw [← nsmul_mod g (leValue p8.prk)]
    refine ⟨fun hee => ?_, fun hee => by rw [hee]⟩
    exact (nsmul_injOn_Iio_addOrderOf (by rw [hord]; exact hlt) (by rw [hord]; exact he) (neg_injective hee)).symm

/-- C106, where it holds: a number beyond the order signs exactly as its remainder does: the same results from the same random numbers, on every curve. -/
theorem C106_signs_partial (g : EcGroup) [hg : GoodGroup g] (t : KeyType) (key key' : EcKey g) (d : Nat) (hd : key.priv = some d) (hd' : key'.priv = some (d % g.n)) (sig : Bool)
    (siglen : Nat) (tbs : List Byte) (draws : List (Option Nat)) : dstu_pkey_sign t g key sig siglen tbs draws = dstu_pkey_sign t g key' sig siglen tbs draws := by
  have hstep : ∀ h e, signStep g d h e = signStep g (d % g.n) h e := by
    intro h e
    unfold signStep
    simp only [Nat.mod_mul_mod]
  have hloop : ∀ h l, signLoop g d h l = signLoop g (d % g.n) h l := by
    intro h l
    induction l with
    | nil => rfl
    | cons x l ih =>
      cases x with
      | none => rfl
      | some e => simp only [signLoop, hstep, ih]
  have : dstu_do_sign g key tbs draws = dstu_do_sign g key' tbs draws := by
    unfold dstu_do_sign
    simp only [hd, hd', hloop]
  unfold dstu_pkey_sign
  simp only [this]

/-- C106 fails: on each built-in curve, for both types, the number 0, in a string of any positive length, is imported as a private key whose public point is the one at infinity. -/
theorem C106_zero_refuted (env : Env) (i : Fin 10) (g : EcGroup) [hgood : GoodGroup g] (hg : group_from_named_curve env.nids i = some g) (t : KeyType) (k : Nat) (hk : 0 < k) :
    ∃ p8 s, p8.prk = List.replicate k 0 ∧ ∀ old, dstu_asn1_priv_decode env old p8 = (true, ⟨t, some ⟨some g, s, some 0, some none⟩⟩) := by
  obtain ⟨p8, s, _, h2, h3⟩ := priv_decode_accepts env g (Or.inl ⟨i, hg⟩) t (List.replicate k 0) (by
    intro h
    have := congrArg List.length h
    rw [List.length_replicate, List.length_nil] at this
    omega)
  have hz : leValue (List.replicate k (0 : Byte)) = 0 := by
    have := beValue_replicate k
    unfold beValue at this
    rwa [List.reverse_replicate] at this
  refine ⟨p8, s, h2, fun old => ?_⟩
  rw [h3 old, hz, zero_nsmul, neg_zero]
  rfl

/-- C106 fails: so is every other number, the order itself, again with the point at infinity, and any number beyond it. -/
theorem C106_large_refuted (env : Env) (i : Fin 10) (g : EcGroup) [hgood : GoodGroup g] (hg : group_from_named_curve env.nids i = some g) (t : KeyType) (d : Nat) (hd : g.n ≤ d) :
    ∃ p8 s, ∀ old, dstu_asn1_priv_decode env old p8 = (true, ⟨t, some ⟨some g, s, some d, some (affine (-((d % g.n) • g.gen)))⟩⟩) := by
  have hn : 0 < d := by have := hgood.valid.n_gt; omega
  obtain ⟨p8, s, _, h2, h3⟩ := priv_decode_accepts env g (Or.inl ⟨i, hg⟩) t (bn2bin d).reverse (by
    intro h
    have := congrArg List.length h
    rw [List.length_reverse, bn2bin_length, List.length_nil] at this
    have := (numBytes_pos d).mpr (by omega)
    omega)
  have hv : leValue (bn2bin d).reverse = d := beValue_bn2bin d
  refine ⟨p8, s, fun old => ?_⟩
  rw [h3 old, hv, nsmul_mod]

/-- C106: with the point at infinity as public key everyone can sign, since signatures made with the number 0 are accepted. -/
theorem C106_zero_forgery {g : EcGroup} [GoodGroup g] (dec : OctetDecoder) (t : KeyType) (key vkey : EcKey g) (h0 : key.priv = some 0) (hpub : vkey.pub = some 0) (hsize : numBytes g.n < 2 ^ 27)
    (tbs : List Byte) (siglen : Nat) (draws : List (Option Nat)) (hdraws : ∀ e, some e ∈ draws → e < g.n) (out : SignOut) (h : dstu_pkey_sign t g key true siglen tbs draws = .done out)
    (hret : out.ret = true) : dstu_pkey_verify dec t g vkey out.written tbs = true :=
  C23_signature_verifies dec t key vkey 0 h0 (by rw [hpub, zero_nsmul, neg_zero]) hsize tbs siglen draws hdraws out h hret

/-- C106: a signature made with a multiple of the order shows the random number it was made with. -/
theorem C106_zero_nonce {g : EcGroup} [GoodGroup g] (key : EcKey g) (d : Nat) (hd : key.priv = some d) (hdvd : g.n ∣ d) (tbs : List Byte) (draws : List (Option Nat))
    (hdraws : ∀ e, some e ∈ draws → e < g.n) (sig : List Byte) (h : dstu_do_sign g key tbs draws = .done sig) : some (beValue (sig.take (numBytes g.n))) ∈ draws := by
  obtain ⟨d', hv, e, r, s, h1, h2, h3, h4, h5, h6⟩ := do_sign_done key tbs draws hdraws sig h
  rw [hd] at h1
  cases h1
  have hl := do_sign_length key tbs draws hdraws sig h
  obtain ⟨_, h7, _⟩ := id h5
  have he := hdraws e h3
  have hs : s = e := by
    rw [h7, Nat.add_mod, Nat.mul_mod, Nat.mod_eq_zero_of_dvd hdvd, Nat.zero_mul, Nat.zero_mod, Nat.add_zero, Nat.mod_mod, Nat.mod_eq_of_lt he]
  rw [h6, List.take_left' (by rw [bytesBE_length]), beValue_bytesBE, hs, Nat.mod_eq_of_lt (lt_trans he (order_lt g))]
  exact h3

/-- C106: neither half of a key with the number 0 can be exported, and no public half at infinity. -/
theorem C106_zero_export (env : Env) (t : KeyType) (key : DstuKey) :
    (key.priv = some 0 → dstu_asn1_priv_encode env ⟨t, some key⟩ = none) ∧ (key.pub = some none → dstu_asn1_pub_encode env ⟨t, some key⟩ = none) := by
  constructor
  · intro h
    unfold dstu_asn1_priv_encode
    split
    · rfl
    · simp only [h, numBytes]
      rfl
  · intro h
    unfold dstu_asn1_pub_encode
    split
    · rfl
    · simp only
      split
      · rfl
      · simp only [h]
        unfold dstu_point_compress
        split <;> rename_i heq <;> split at heq <;> first | rfl | cases heq

/-- With the number 0 the digest `01` is signed on the default curve by the random number 1. -/
theorem signs_zero : Signs gEx.gen gEx.n 0 1 1 (gEx.gx % 2 ^ gEx.n.log2) 1 := by
  obtain ⟨h, _, h1, _⟩ := signsEx
  refine ⟨h, ?_, h1, one_ne_zero⟩
  rw [Nat.zero_mul, Nat.add_zero, Nat.mod_eq_of_lt gEx_numbers.2.2.1]

theorem sign_zero : ∃ sig, dstu_do_sign gEx (⟨some 0, none⟩ : EcKey gEx) [1] [some 1] = .done sig := by
  have hm : fieldDegree gEx.p = 257 := gEx_numbers.2.2.2.2.2
  have hd : digestElem (fieldDegree gEx.p) [1] = 1 := by rw [hm]; decide
  obtain ⟨h, _⟩ := C26_first_usable_nonce (⟨some 0, none⟩ : EcKey gEx) 0 rfl [1] (by rw [hm]; exact ⟨by simp, by decide⟩) [] 1 _ _ [] (by simp) gEx_numbers.2.2.1 (by rw [hd]; exact signs_zero)
  exact ⟨_, h⟩

/-- It shows that number. -/
example : ∃ sig, dstu_do_sign gEx (⟨some 0, none⟩ : EcKey gEx) [1] [some 1] = .done sig ∧ beValue (sig.take (numBytes gEx.n)) = 1 := by
  obtain ⟨sig, h⟩ := sign_zero
  have := C106_zero_nonce (⟨some 0, none⟩ : EcKey gEx) 0 rfl (dvd_zero _) [1] [some 1] (by simp [gEx_numbers.2.2.1]) sig h
  exact ⟨sig, h, by simpa using this⟩

/-- An imported key for which everyone can sign. -/
example (env : Env) (hnids : env.nids = nidsEx) (dec : OctetDecoder) : ∃ p8 s out, (∀ old, dstu_asn1_priv_decode env old p8 = (true, ⟨.be, some ⟨some gEx, s, some 0, some (affine (0 : gEx.Point))⟩⟩)) ∧
    dstu_pkey_sign .be gEx (⟨some 0, none⟩ : EcKey gEx) true (pkey_size gEx) [1] [some 1] = .done out ∧ dstu_pkey_verify dec .be gEx ⟨none, some 0⟩ out.written [1] = true := by
  obtain ⟨p8, s, _, h⟩ := C106_zero_refuted env 6 gEx (by rw [hnids]; exact gEx_default) .be 1 (by omega)
  obtain ⟨sig, hs⟩ := sign_zero
  have hp : dstu_pkey_sign .be gEx (⟨some 0, none⟩ : EcKey gEx) true (pkey_size gEx) [1] [some 1] = .done ⟨true, (i2d_octet sig).length, i2d_octet sig⟩ := by
    unfold dstu_pkey_sign
    simp only [hs, reduceCtorEq, if_false, if_true, gt_iff_lt, lt_irrefl, and_false]
  exact ⟨p8, s, _, h, hp, C106_zero_forgery dec .be _ _ rfl rfl gEx_numbers.2.2.2.1 [1] _ _ (by simp [gEx_numbers.2.2.1]) _ hp rfl⟩

/-- A key whose number is one more than the order: it has the public point of the number 1. -/
example (env : Env) (hnids : env.nids = nidsEx) : ∃ p8 s, ∀ old, dstu_asn1_priv_decode env old p8 = (true, ⟨.le, some ⟨some gEx, s, some (gEx.n + 1), some (affine (-(1 • gEx.gen)))⟩⟩) := by
  obtain ⟨p8, s, h⟩ := C106_large_refuted env 6 gEx (by rw [hnids]; exact gEx_default) .le (gEx.n + 1) (by omega)
  refine ⟨p8, s, fun old => ?_⟩
  rw [h old, Nat.add_mod_left, Nat.mod_eq_of_lt gEx_numbers.2.2.1]

end Dstu.Props
