import Verif.Model.SignAny
import Verif.Props.Life

/-! C99: signing and verifying with any key object. -/

namespace Dstu.Props

open Spec WeierstrassCurve

/-- The parts of a key object that are needed to know the size of a signature: a key with a group, whose order is not 0. -/
def OnGroup (pk : EvpPkey) (key : DstuKey) (g : EcGroup) : Prop := pk.key = some key ∧ key.group = some g ∧ g.n ≠ 0

/-! ### Missing parts -/

/-- C99, missing parts: a context without a key, a key object without a key, and a key without parameters are refused by both operations; nothing is written and the
size of the buffer is left as it was. -/
theorem C99_missing (lib : EcLib) (dec : OctetDecoder) (pk : Option EvpPkey) (h : ∀ p key g, pk = some p → ¬ OnGroup p key g)
    (sig : Bool) (siglen : Nat) (tbs s : List Byte) (draws : List (Option Nat)) :
    dstu_pkey_sign_any lib pk sig siglen tbs draws = some (.done ⟨false, siglen, []⟩) ∧ dstu_pkey_verify_any lib dec pk s tbs = some false := by
  cases pk with
  | none => exact ⟨rfl, rfl⟩
  | some p =>
    obtain ⟨t, k⟩ := p
    cases k with
    | none => exact ⟨rfl, rfl⟩
    | some key =>
      obtain ⟨g, sb, d, Q⟩ := key
      cases g with
      | none => exact ⟨rfl, rfl⟩
      | some g =>
        have hn : g.n = 0 := by
          by_contra hn
          exact h _ _ g rfl ⟨rfl, rfl, hn⟩
        unfold dstu_pkey_sign_any dstu_pkey_verify_any
        simp only [hn, if_true]
        exact ⟨trivial, trivial⟩

/-- C99, missing numbers: without the private number signing is refused and nothing is written; without the public point every signature is. -/
theorem C99_missing_number (lib : EcLib) (dec : OctetDecoder) (pk : EvpPkey) (key : DstuKey) (hk : pk.key = some key) :
    (key.priv = none → ∀ siglen tbs draws, ∃ n, dstu_pkey_sign_any lib (some pk) true siglen tbs draws = some (.done ⟨false, n, []⟩)) ∧
    (key.pub = none → ∀ s tbs, dstu_pkey_verify_any lib dec (some pk) s tbs = some false) := by
  obtain ⟨t, k⟩ := pk
  obtain rfl : k = some key := hk
  obtain ⟨g, sb, d, Q⟩ := key
  constructor
  · rintro rfl siglen tbs draws
    unfold dstu_pkey_sign_any
    simp only
    cases g with
    | none => exact ⟨_, rfl⟩
    | some g =>
      simp only [dstu_do_sign_any, if_true, true_and]
      split
      · exact ⟨_, rfl⟩
      split <;> exact ⟨_, rfl⟩
  · rintro rfl s tbs
    unfold dstu_pkey_verify_any
    simp only
    cases g with
    | none => rfl
    | some g =>
      simp only [dstu_do_verify_any, reverse_bytes_copy_eq]
      split
      · rfl
      split
      · rfl
      split
      · rfl
      cases t <;> rfl

/-! ### Signing -/

theorem signLoopAny_done (lib : EcLib) (g : EcGroup) (d h : Nat) (hn : g.n ≠ 0) (draws : List (Option Nat)) (hr : ∀ e, some e ∈ draws → e < g.n) (r s : Nat)
    (hd : signLoopAny lib g d h draws = .done (r, s)) : 0 < r ∧ r < g.n ∧ 0 < s ∧ s < g.n := by
  induction draws with
  | nil => cases hd
  | cons x rest ih =>
    cases x with
    | none => cases hd
    | some e =>
      have he := hr e (by simp)
      unfold signLoopAny at hd
      split at hd
      · exact ih (fun e h => hr e (by simp [h])) hd
      · cases hd
      rename_i rs hs
      simp only [Drawn.done.injEq] at hd
      subst hd
      unfold signStepAny at hs
      split at hs
      · cases hs
      · cases hs
      split at hs
      · cases hs
      split at hs
      · cases hs
      rename_i v _
      rw [field_to_bn_eq _ _ hn] at hs
      simp only at hs
      split at hs
      · cases hs
      rename_i h1
      split at hs
      · cases hs
      rename_i h2
      rw [mod_add_quick_eq _ _ _ (Nat.mod_lt _ (by omega)) he] at hs h2
      simp only [Drawn.done.injEq, Prod.mk.injEq] at hs
      obtain ⟨rfl, rfl⟩ := hs
      refine ⟨by omega, ?_, by omega, Nat.mod_lt _ (by omega)⟩
      exact lt_of_lt_of_le (Nat.mod_lt _ (by positivity)) (Nat.log2_self_le hn)

theorem do_sign_any_length (lib : EcLib) (key : DstuKey) (g : EcGroup) (hg : key.group = some g) (tbs : List Byte) (draws : List (Option Nat))
    (hr : ∀ e, some e ∈ draws → e < g.n) (sig : List Byte) (h : dstu_do_sign_any lib key tbs draws = .done sig) : sig.length = 2 * numBytes g.n := by
  have hlt := order_lt g
  unfold dstu_do_sign_any at h
  rw [hg] at h
  cases hd : key.priv with
  | none => rw [hd] at h; cases h
  | some d =>
    simp only [hd] at h
    split at h
    · cases h
    rename_i hn
    split at h
    · cases h
    split at h
    · cases h
    · cases h
    rename_i r s hs
    obtain ⟨r0, r1, s0, s1⟩ := signLoopAny_done lib g d _ hn draws hr r s hs
    rw [bn_encode_fits s _ (by omega), bn_encode_fits r _ (by omega)] at h
    split at h
    · cases h
    · cases h
    rename_i sb _ e1
    split at h
    · cases h
    · cases h
    rename_i rb _ e2
    simp only [Prod.mk.injEq, Option.some.injEq] at e1 e2
    simp only [Drawn.done.injEq] at h
    rw [← h, ← e1.2, ← e2.2, List.length_append, bytesBE_length, bytesBE_length]
    omega

/-- C99, signing with any key object and any parameters, if the random numbers are below the order.  There is never undefined behaviour.  The outcomes are: the size of a signature is
reported; the call is refused, and nothing is written; or exactly the advertised size is written, it is reported, and there was room for it. -/
theorem C99_sign_safe (lib : EcLib) (pk : Option EvpPkey) (sig : Bool) (siglen : Nat) (tbs : List Byte) (draws : List (Option Nat))
    (hr : ∀ p key g e, pk = some p → OnGroup p key g → some e ∈ draws → e < g.n) :
    ∃ o, dstu_pkey_sign_any lib pk sig siglen tbs draws = some o ∧ o ≠ .failed ∧ ∀ out, o = .done out →
      (out.ret = false → out.written = []) ∧
      (out.ret = true → ∃ p, pk = some p ∧ out.siglen = dstu_asn1_pkey_size p ∧ 0 < dstu_asn1_pkey_size p ∧
        out.written.length = if sig then dstu_asn1_pkey_size p else 0) ∧
      out.written.length ≤ (if sig then siglen else 0) := by
  by_cases hm : ∀ p key g, pk = some p → ¬ OnGroup p key g
  · refine ⟨_, (C99_missing lib octetDecoder pk hm sig siglen tbs [] draws).1, by simp, fun out ho => ?_⟩
    cases ho
    simp
  push Not at hm
  obtain ⟨⟨t, k⟩, key, g, rfl, hk, hg, hn⟩ := hm
  obtain rfl : k = some key := hk
  have hsz : dstu_asn1_pkey_size ⟨t, some key⟩ = pkey_size g := by
    unfold dstu_asn1_pkey_size
    simp only [hg, if_neg hn]
  have hpos : 0 < pkey_size g := by unfold pkey_size; omega
  unfold dstu_pkey_sign_any
  simp only [hg, if_neg hn]
  split
  · refine ⟨_, rfl, by simp, fun out ho => ?_⟩
    cases ho
    simp
  rename_i hfit
  split
  · rename_i hsig
    subst hsig
    simp only [true_and, not_lt] at hfit
    cases hs : dstu_do_sign_any lib key tbs draws with
    | waiting => exact ⟨_, rfl, by simp, fun out ho => by cases ho⟩
    | failed =>
      refine ⟨_, rfl, by simp, fun out ho => ?_⟩
      cases ho
      simp
    | done sd =>
      have hl := do_sign_any_length lib key g hg tbs draws (fun e he => hr _ key g e rfl ⟨rfl, hg, hn⟩ he) sd hs
      have hrev : ∃ sd', (if t = .le then reverse_bytes sd (2 * numBytes g.n) else some sd) = some sd' ∧ sd'.length = 2 * numBytes g.n := by
        split
        · exact ⟨_, by rw [← hl]; exact reverse_bytes_eq sd, by simp [hl]⟩
        · exact ⟨sd, rfl, hl⟩
      obtain ⟨sd', e1, e2⟩ := hrev
      simp only [e1]
      have hder : (i2d_octet (sd'.take (2 * numBytes g.n))).length = pkey_size g := by
        rw [List.take_of_length_le (by omega)]
        unfold i2d_octet pkey_size
        rw [List.length_cons, List.length_append, e2, Nat.mul_comm (numBytes g.n) 2]
        omega
      rw [hder, if_neg (by omega)]
      refine ⟨_, rfl, by simp, fun out ho => ?_⟩
      cases ho
      refine ⟨by simp, fun _ => ⟨_, rfl, hsz.symm, by omega, by simp [hder, hsz]⟩, by simp [hder]; omega⟩
  · rename_i hsig
    refine ⟨_, rfl, by simp, fun out ho => ?_⟩
    cases ho
    refine ⟨by simp, fun _ => ⟨_, rfl, rfl, by omega, by simp [hsig]⟩, by simp⟩

/-! ### Verification -/

/-- C99, verification with any key object and any parameters: it always gives an answer, and accepts exactly if the key has parameters and a public point,
the signature holds two halves of at least the size of the order, both numbers are between 1 and the order, the digest is not empty, and the equation holds, in terms of
what OpenSSL's functions give. -/
theorem C99_verify_iff (lib : EcLib) (dec : OctetDecoder) (pk : Option EvpPkey) (sig tbs : List Byte) :
    ∃ r, dstu_pkey_verify_any lib dec pk sig tbs = some r ∧
      (r = true ↔ ∃ p key g Q x y v, pk = some p ∧ OnGroup p key g ∧ key.pub = some Q ∧
        (body dec sig).length % 2 = 0 ∧ 2 * numBytes g.n ≤ (body dec sig).length ∧ tbs ≠ [] ∧
        0 < rOf dec p.type sig ∧ rOf dec p.type sig < g.n ∧ 0 < sOf dec p.type sig ∧ sOf dec p.type sig < g.n ∧
        lib.mul g (sOf dec p.type sig) (some (Q, rOf dec p.type sig)) = some (some (x, y)) ∧
        lib.gfMul g.p ((if leValue tbs = 0 then 1 else leValue tbs) % 2 ^ g.degree) x = some v ∧
        rOf dec p.type sig = v % 2 ^ g.n.log2) := by
  by_cases hm : ∀ p key g, pk = some p → ¬ OnGroup p key g
  · refine ⟨_, (C99_missing lib dec pk hm true 0 tbs sig []).2, ?_⟩
    simp only [Bool.false_eq_true, false_iff]
    rintro ⟨p, key, g, Q, x, y, v, h1, h2, _⟩
    exact hm p key g h1 h2
  push Not at hm
  obtain ⟨⟨t, k⟩, key, g, rfl, hk, hg, hn⟩ := hm
  obtain rfl : k = some key := hk
  have hres : dstu_pkey_verify_any lib dec (some ⟨t, some key⟩) sig tbs =
      some (decide ((body dec sig).length % 2 = 0 ∧ 2 * numBytes g.n ≤ (body dec sig).length) && dstu_do_verify_any lib key tbs (bodyBE dec t sig)) := by
    unfold dstu_pkey_verify_any bodyBE body
    generalize (dec.d2i sig).getD sig = b
    simp only [hg, if_neg hn, reverse_bytes_copy_eq]
    split
    · rename_i h
      rw [decide_eq_false (by omega), Bool.false_and]
    split
    · rename_i h
      rw [decide_eq_false (by omega), Bool.false_and]
    rw [decide_eq_true (by omega), Bool.true_and]
    cases t <;> simp
  refine ⟨_, hres, ?_⟩
  rw [Bool.and_eq_true, decide_eq_true_eq]
  have hbl : (bodyBE dec t sig).length = (body dec sig).length := by unfold bodyBE; split <;> simp
  constructor
  · rintro ⟨⟨h1, h2⟩, h3⟩
    unfold dstu_do_verify_any at h3
    rw [hg] at h3
    cases hQ : key.pub with
    | none => rw [hQ] at h3; cases h3
    | some Q =>
      simp only [hQ, hash_to_field_eq, bin2bn_eq, if_neg hn] at h3
      rw [drop_take_half _ (by rw [hbl]; exact h1)] at h3
      split at h3
      · cases h3
      rename_i h heq
      split at heq
      · cases heq
      rename_i hne
      simp only [Option.some.injEq] at heq
      split at h3
      · cases h3
      split at h3
      · cases h3
      split at h3
      · cases h3
      · cases h3
      rename_i x y hmul
      split at h3
      · cases h3
      rename_i v hv
      rw [field_to_bn_eq _ _ hn] at h3
      simp only [decide_eq_true_eq] at h3
      rename_i c1 c2
      refine ⟨_, key, g, Q, x, y, v, rfl, ⟨rfl, hg, hn⟩, hQ, h1, h2, hne, ?_, ?_, ?_, ?_, hmul, ?_, h3⟩
      · simp only; unfold rOf; omega
      · simp only; unfold rOf; omega
      · simp only; unfold sOf; omega
      · simp only; unfold sOf; omega
      · rw [heq]; exact hv
  · rintro ⟨p, key', g', Q, x, y, v, hp, ⟨hk', hg', _⟩, hQ, h1, h2, hne, r0, r1, s0, s1, hmul, hv, hr⟩
    simp only [Option.some.injEq] at hp
    subst hp
    simp only [Option.some.injEq] at hk'
    subst hk'
    rw [hg] at hg'
    simp only [Option.some.injEq] at hg'
    subst hg'
    refine ⟨⟨h1, h2⟩, ?_⟩
    unfold dstu_do_verify_any
    simp only [hg, hQ, hash_to_field_eq, bin2bn_eq, if_neg hn, if_neg hne]
    rw [drop_take_half _ (by rw [hbl]; exact h1)]
    simp only [rOf, sOf] at r0 r1 s0 s1 hmul hr
    rw [if_neg (by omega), if_neg (by omega)]
    simp only [hmul, hv, field_to_bn_eq _ _ hn, decide_eq_true_eq]
    exact hr

/-! ### Valid parameters -/

/-- OpenSSL computes correctly in groups with valid parameters: its multiplications are those of the group of points and of the field. -/
def CorrectLib (lib : EcLib) : Prop :=
  ∀ (g : EcGroup) [GoodGroup g], (∀ n, lib.mul g n none = some (affine (n • g.gen))) ∧
    (∀ n m (Q : g.Point), lib.mul g n (some (affine Q, m)) = some (affine (n • g.gen + m • Q))) ∧
    ∀ a b, lib.gfMul g.p a b = some (GF.toNat (GF.ofNat g.p a * GF.ofNat g.p b))

theorem signStepAny_valid (lib : EcLib) (hl : CorrectLib lib) (g : EcGroup) [GoodGroup g] (d h e : Nat) : signStepAny lib g d h e = signStep g d h e := by
  obtain ⟨h1, _, h3⟩ := hl g
  unfold signStepAny signStep
  simp only [h1, h3, ec_mul, gf2m_mul]
  cases affine (e • g.gen) <;> rfl

theorem signLoopAny_valid (lib : EcLib) (hl : CorrectLib lib) (g : EcGroup) [GoodGroup g] (d h : Nat) (draws : List (Option Nat)) :
    signLoopAny lib g d h draws = signLoop g d h draws := by
  induction draws with
  | nil => rfl
  | cons x rest ih =>
    cases x with
    | none => rfl
    | some e =>
      unfold signLoopAny signLoop
      rw [signStepAny_valid lib hl, ih]
      cases signStep g d h e <;> rfl

theorem do_sign_any_valid (lib : EcLib) (hl : CorrectLib lib) (g : EcGroup) [hg : GoodGroup g] (k : EcKey g) (key : DstuKey) (hk : ShownBy k key)
    (tbs : List Byte) (draws : List (Option Nat)) : dstu_do_sign_any lib key tbs draws = dstu_do_sign g k tbs draws := by
  obtain ⟨h1, h2, _⟩ := hk
  have hn : g.n ≠ 0 := by have := hg.valid.n_gt; omega
  unfold dstu_do_sign_any dstu_do_sign
  rw [h1, h2]
  cases key.priv with
  | none => rfl
  | some d =>
    simp only [if_neg hn, signLoopAny_valid lib hl]
    cases hash_to_field tbs g.degree with
    | none => rfl
    | some h =>
      simp only
      cases signLoop g d h draws with
      | waiting => rfl
      | failed => rfl
      | done rs =>
        obtain ⟨r, s⟩ := rs
        simp only
        rcases bn_encode s (numBytes g.n) with ⟨_ | n, _ | sb⟩ <;> try rfl

theorem do_verify_any_valid (lib : EcLib) (hl : CorrectLib lib) (g : EcGroup) [hg : GoodGroup g] (k : EcKey g) (key : DstuKey) (hk : ShownBy k key)
    (tbs sig : List Byte) : dstu_do_verify_any lib key tbs sig = dstu_do_verify g k tbs sig := by
  obtain ⟨h1, _, h3⟩ := hk
  obtain ⟨_, e2, e3⟩ := hl g
  have hn : g.n ≠ 0 := by have := hg.valid.n_gt; omega
  unfold dstu_do_verify_any dstu_do_verify
  rw [h1, ← h3]
  cases k.pub with
  | none => rfl
  | some Q =>
    simp only [if_neg hn, Option.map_some, e2, e3, ec_mul, gf2m_mul]
    cases hash_to_field tbs g.degree with
    | none => rfl
    | some h =>
      simp only
      split
      · rfl
      split
      · rfl
      generalize affine (_ : g.Point) = P
      cases P <;> rfl

/-- C99, valid parameters: on a group with valid parameters the operations on a key object are the ones of C23 to C30. -/
theorem C99_valid (lib : EcLib) (hl : CorrectLib lib) (g : EcGroup) [hg : GoodGroup g] (t : KeyType) (k : EcKey g) (key : DstuKey) (hk : ShownBy k key) :
    (∀ sig siglen tbs draws, (∀ e, some e ∈ draws → e < g.n) →
      dstu_pkey_sign_any lib (some ⟨t, some key⟩) sig siglen tbs draws = some (dstu_pkey_sign t g k sig siglen tbs draws)) ∧
    ∀ dec sig tbs, dstu_pkey_verify_any lib dec (some ⟨t, some key⟩) sig tbs = some (dstu_pkey_verify dec t g k sig tbs) := by
  have hn : g.n ≠ 0 := by have := hg.valid.n_gt; omega
  have hsz : dstu_asn1_pkey_size ⟨t, some key⟩ = pkey_size g := by
    unfold dstu_asn1_pkey_size
    simp only [hk.1, if_neg hn]
  constructor
  · intro sig siglen tbs draws hr
    unfold dstu_pkey_sign_any dstu_pkey_sign
    simp only [hk.1, if_neg hn, hsz, do_sign_any_valid lib hl g k key hk]
    split
    · rfl
    rename_i hfit
    split
    · rename_i hsig
      subst hsig
      simp only [true_and, not_lt] at hfit
      cases hs : dstu_do_sign g k tbs draws with
      | waiting => rfl
      | failed => rfl
      | done sd =>
        have hlen := do_sign_length k tbs draws hr sd hs
        have hrev : ∃ sd', (if t = .le then reverse_bytes sd (2 * numBytes g.n) else some sd) = some sd' ∧ sd'.length = 2 * numBytes g.n := by
          split
          · exact ⟨_, by rw [← hlen]; exact reverse_bytes_eq sd, by simp [hlen]⟩
          · exact ⟨sd, rfl, hlen⟩
        obtain ⟨sd', e1, e2⟩ := hrev
        simp only [e1]
        rw [List.take_of_length_le (by omega)]
        have hder : (i2d_octet sd').length = pkey_size g := by
          unfold i2d_octet pkey_size
          rw [List.length_cons, List.length_append, e2, Nat.mul_comm (numBytes g.n) 2]
          omega
        rw [if_neg (by omega)]
    · rfl
  · intro dec sig tbs
    unfold dstu_pkey_verify_any dstu_pkey_verify
    simp only [hk.1, if_neg hn, reverse_bytes_copy_eq, do_verify_any_valid lib hl g k key hk]
    split
    · rfl
    split
    · rfl
    cases t <;> rfl

/-- C99, round trip of key objects: on a group with valid parameters, a signature made with a key object that has a private number is accepted by every key object of
the same type with the same group and the point that belongs to the number. -/
theorem C99_round_trip (lib : EcLib) (hl : CorrectLib lib) (dec : OctetDecoder) (g : EcGroup) [GoodGroup g] (t : KeyType) (skey vkey : DstuKey) (d : Nat)
    (hs : skey.group = some g ∧ skey.priv = some d) (hv : vkey.group = some g ∧ vkey.pub = some (affine (-(d • g.gen)))) (hsize : numBytes g.n < 2 ^ 27)
    (siglen : Nat) (tbs : List Byte) (draws : List (Option Nat)) (hr : ∀ e, some e ∈ draws → e < g.n) (out : SignOut)
    (h : dstu_pkey_sign_any lib (some ⟨t, some skey⟩) true siglen tbs draws = some (.done out)) (hret : out.ret = true) :
    dstu_pkey_verify_any lib dec (some ⟨t, some vkey⟩) out.written tbs = some true := by
  have hsk : ∃ skey' : DstuKey, skey'.pub = none ∧ ShownBy (⟨some d, none⟩ : EcKey g) skey' ∧
      dstu_pkey_sign_any lib (some ⟨t, some skey'⟩) true siglen tbs draws = dstu_pkey_sign_any lib (some ⟨t, some skey⟩) true siglen tbs draws := by
    refine ⟨{ skey with pub := none }, rfl, ⟨hs.1, hs.2.symm, rfl⟩, rfl⟩
  obtain ⟨skey', _, h1, h2⟩ := hsk
  rw [← h2, (C99_valid lib hl g t _ skey' h1).1 _ _ _ _ hr] at h
  rw [(C99_valid lib hl g t ⟨vkey.priv, some (-(d • g.gen))⟩ vkey ⟨hv.1, rfl, hv.2.symm⟩).2]
  rw [C23_signature_verifies dec t ⟨some d, none⟩ ⟨vkey.priv, some (-(d • g.gen))⟩ d rfl rfl hsize tbs siglen draws hr out (Option.some.inj h) hret]

/-- C99, sizes: the size of a signature is 0 exactly if a part needed to know it is missing, and otherwise the size of the encoding of two numbers of the size of the order. -/
theorem C99_size (pk : EvpPkey) :
    (dstu_asn1_pkey_size pk = 0 ↔ ∀ key g, ¬ OnGroup pk key g) ∧
    ∀ key g, OnGroup pk key g → ∀ c : List Byte, c.length = 2 * numBytes g.n → dstu_asn1_pkey_size pk = (i2d_octet c).length := by
  have key2 : ∀ key g, OnGroup pk key g → dstu_asn1_pkey_size pk = pkey_size g := by
    rintro key g ⟨h1, h2, h3⟩
    unfold dstu_asn1_pkey_size
    simp only [h1, h2, if_neg h3]
  refine ⟨⟨fun h key g hk => ?_, fun h => ?_⟩, fun key g hk c hc => ?_⟩
  · have := key2 key g hk
    unfold pkey_size at this
    omega
  · unfold dstu_asn1_pkey_size
    cases hk : pk.key with
    | none => rfl
    | some key =>
      cases hg : key.group with
      | none => simp only [hg]
      | some g =>
        simp only [hg]
        by_cases hn : g.n = 0
        · rw [if_pos hn]
        · exact absurd ⟨hk, hg, hn⟩ (h key g)
  · rw [key2 key g hk]
    unfold i2d_octet pkey_size
    rw [List.length_cons, List.length_append, hc, Nat.mul_comm (numBytes g.n) 2]
    omega

/-! ### Instances -/

/-- Parameters as a certificate may give them: the polynomial is reducible, and the order has nothing to do with the curve. -/
def badGroup : EcGroup := ⟨0b101, 0, 0, 1, 1, 3, 1⟩

/-- Arithmetic without any meaning. -/
def badLib : EcLib := ⟨fun _ _ _ => some (some (1, 1)), fun _ _ _ => some 1⟩

/-- The hypothesis of `C99_missing` for the four ways a part can be missing. -/
example : (∀ p key g, (none : Option EvpPkey) = some p → ¬ OnGroup p key g) ∧
    (∀ p key g, some (⟨.le, none⟩ : EvpPkey) = some p → ¬ OnGroup p key g) ∧
    (∀ p key g, some (⟨.be, some ⟨none, none, some 5, none⟩⟩ : EvpPkey) = some p → ¬ OnGroup p key g) ∧
    ∀ p key g, some (⟨.be, some ⟨some { badGroup with n := 0 }, none, some 5, none⟩⟩ : EvpPkey) = some p → ¬ OnGroup p key g := by
  refine ⟨by simp, ?_, ?_, ?_⟩ <;>
  · rintro p key g hp ⟨h1, h2, h3⟩
    simp only [Option.some.injEq] at hp
    subst hp
    simp only [reduceCtorEq, Option.some.injEq] at h1
    try
      subst h1
      simp only [reduceCtorEq, Option.some.injEq] at h2
      try
        subst h2
        exact h3 rfl

/-- `C99_sign_safe` and `C99_size`: with parameters that are not valid a signature is made, of the size reported. -/
example : ∃ out, dstu_pkey_sign_any badLib (some ⟨.le, some ⟨some badGroup, none, some 5, none⟩⟩) true 4 [7] [some 1, some 2] = some (.done out) ∧
    out.ret = true ∧ out.written = [4, 2, 1, 1] ∧ dstu_asn1_pkey_size ⟨.le, some ⟨some badGroup, none, some 5, none⟩⟩ = 4 :=
  ⟨⟨true, 4, [4, 2, 1, 1]⟩, rfl, rfl, rfl, by decide +kernel⟩

/-- `C99_missing_number`: the key of the last example has no public point, and its twin no private number. -/
example : dstu_pkey_verify_any badLib octetDecoder (some ⟨.le, some ⟨some badGroup, none, some 5, none⟩⟩) [4, 2, 1, 1] [7] = some false ∧
    ∃ n, dstu_pkey_sign_any badLib (some ⟨.le, some ⟨some badGroup, none, none, some none⟩⟩) true 4 [7] [some 1, some 2] = some (.done ⟨false, n, []⟩) :=
  ⟨(C99_missing_number badLib octetDecoder _ _ rfl).2 rfl _ _, (C99_missing_number badLib octetDecoder _ _ rfl).1 rfl _ _ _⟩

/-- `C99_verify_iff`: both answers are given. -/
example : dstu_pkey_verify_any badLib octetDecoder (some ⟨.be, some ⟨some badGroup, none, none, some none⟩⟩) [1, 1] [7] = some true ∧
    dstu_pkey_verify_any badLib octetDecoder (some ⟨.be, some ⟨some badGroup, none, none, some none⟩⟩) [1, 2] [7] = some false := by
  have hd : ∀ b, octetDecoder.d2i [1, b] = none := fun b => octetDecoder.tag 1 [b] (by decide) (by decide) (by decide) (by decide)
  unfold dstu_pkey_verify_any
  simp only [hd, Option.getD_none]
  exact ⟨by decide +kernel, by decide +kernel⟩

open Classical in
/-- A library that computes correctly. -/
noncomputable def goodLib : EcLib where
  mul g n q :=
    if h : GoodGroup g then
      match q with
      | none => some (affine (n • g.gen))
      | some (c, m) => if hQ : ∃ Q : g.Point, affine Q = c then some (affine (n • g.gen + m • hQ.choose)) else none
    else none
  gfMul p a b := some (GF.toNat (GF.ofNat p a * GF.ofNat p b))

theorem goodLib_correct : CorrectLib goodLib := by
  intro g hg
  refine ⟨fun n => ?_, fun n m Q => ?_, fun a b => rfl⟩
  · simp only [goodLib, dif_pos hg]
  · have hQ : ∃ Q' : g.Point, affine Q' = affine Q := ⟨Q, rfl⟩
    simp only [goodLib, dif_pos hg, dif_pos hQ, affine_injective hQ.choose_spec]

/-- `C99_valid` and `C99_round_trip`: a key pair on the default curve, as two key objects. -/
example (t : KeyType) : ∃ out, dstu_pkey_sign_any goodLib (some ⟨t, some ⟨some gEx, none, some 1, none⟩⟩) true 1000 [1] [some 1] = some (.done out) ∧ out.ret = true ∧
    dstu_pkey_verify_any goodLib octetDecoder (some ⟨t, some ⟨some gEx, none, none, some (affine (-(1 • gEx.gen)))⟩⟩) out.written [1] = some true := by
  obtain ⟨out, h1, h2⟩ := runEx t
  have hs : dstu_pkey_sign_any goodLib (some ⟨t, some ⟨some gEx, none, some 1, none⟩⟩) true 1000 [1] [some 1] = some (.done out) := by
    have h := (C99_valid goodLib goodLib_correct gEx t keyEx ⟨some gEx, none, some 1, some (affine (-(1 • gEx.gen)))⟩ ⟨rfl, rfl, rfl⟩).1 true 1000 [1] [some 1] draws_ex
    rw [h1] at h
    exact h
  exact ⟨out, hs, h2, C99_round_trip goodLib goodLib_correct octetDecoder gEx t _ _ 1 ⟨rfl, rfl⟩ ⟨rfl, rfl⟩ gEx_numbers.2.2.2.1 1000 [1] [some 1] draws_ex out hs h2⟩

end Dstu.Props
