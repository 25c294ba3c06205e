import Verif.Lemmas.Sign
import Verif.Lemmas.Der
import Verif.Props.Curves

/-! Properties of signatures: C23 to C30. -/

namespace Dstu.Props

open Spec WeierstrassCurve

/-! ### The running example: the default curve, private key 1, digest `01`, nonce 1 -/

/-- The table entry of the default curve (degree 257). -/
def entryEx : NamedCurve := ⟨1155, [257, 12, 0, -1, 0, 0], data257⟩

/-- Its group. -/
def gEx : EcGroup := entryGroup entryEx 257

theorem entryEx_check : EntryCheck entryEx 257 [12, 0] := entry257 1155

instance instGoodGroupEx : GoodGroup gEx := ⟨by
  have := entry_valid entryEx_check
  unfold gEx entryGroup
  simpa only using this⟩

set_option maxRecDepth 20000 in
/-- It is the default group of the code. -/
theorem gEx_default : get_default_group nidsEx = some gEx := by
  have h6 : (dstu_curves nidsEx)[6]? = some entryEx := rfl
  have he := entry_group entryEx_check
  unfold get_default_group group_from_named_curve
  rw [h6]
  exact he

/-- A matching key pair. -/
noncomputable def keyEx : EcKey gEx := ⟨some 1, some (-(1 • gEx.gen))⟩

theorem gEx_numbers : gEx.gx % 2 ^ gEx.n.log2 ≠ 0 ∧ (1 + 1 * (gEx.gx % 2 ^ gEx.n.log2)) % gEx.n ≠ 0 ∧
    1 < gEx.n ∧ numBytes gEx.n < 2 ^ 27 ∧ gEx.gx ≠ 0 ∧ gEx.degree = 257 := by
  decide +kernel

theorem signsEx : Signs gEx.gen gEx.n 1 1 1 (gEx.gx % 2 ^ gEx.n.log2)
    ((1 + 1 * (gEx.gx % 2 ^ gEx.n.log2)) % gEx.n) := by
  obtain ⟨h1, h2, _, _, h5, _⟩ := gEx_numbers
  have hp := goodGroup_p gEx
  have hx := GF.toNat_ofNat gEx.p (by omega) gEx.gx instGoodGroupEx.valid.x_lt
  refine ⟨⟨_, _, binCurve_nonsingular (goodGroup_b gEx) instGoodGroupEx.valid.onCurve, ?_, ?_, ?_⟩, rfl, h1, h2⟩
  · rw [one_nsmul]; rfl
  · intro h0
    rw [h0, GF.toNat_zero gEx.p (by omega)] at hx
    exact h5 hx.symm
  · rw [elemToInt, GF.ofNat_one, one_mul, hx]

/-- Signing in the running example succeeds. -/
theorem signEx : ∃ sig, dstu_do_sign gEx keyEx [1] [some 1] = .done sig := by
  obtain ⟨_, _, h3, _, _, h6⟩ := gEx_numbers
  have hn := order_lt gEx
  have hst := (signStep_done 1 1 1 _ _ h3).mpr signsEx
  obtain ⟨hr1, hr2, hs1, hs2, _⟩ := signs_accepts 1 1 1 _ _ signsEx
  have hh : hash_to_field [1] gEx.degree = some 1 := by rw [h6]; decide
  generalize gEx.gx % 2 ^ gEx.n.log2 = r at *
  generalize (1 + 1 * r) % gEx.n = s at *
  obtain ⟨k1, hk1⟩ := Nat.exists_eq_succ_of_ne_zero
    (by have := (numBytes_pos s).mpr (by omega); omega : numBytes s ≠ 0)
  obtain ⟨k2, hk2⟩ := Nat.exists_eq_succ_of_ne_zero
    (by have := (numBytes_pos r).mpr (by omega); omega : numBytes r ≠ 0)
  refine ⟨bytesBE (numBytes gEx.n) s ++ bytesBE (numBytes gEx.n) r, ?_⟩
  unfold dstu_do_sign
  simp only [keyEx, hh, signLoop, hst, bn_encode_fits s _ (lt_trans hs2 hn),
    bn_encode_fits r _ (lt_trans hr2 hn), hk1, hk2]

/-! ### C23 -/

variable {g : EcGroup} [hg : GoodGroup g]

/-- C23, raw form: the bytes of a signature verify under any key whose public part matches. -/
theorem C23_raw_signature_verifies (key vkey : EcKey g) (d : Nat) (hpriv : key.priv = some d)
    (hpub : vkey.pub = some (-(d • g.gen))) (tbs : List Byte) (draws : List (Option Nat))
    (hdraws : ∀ e, some e ∈ draws → e < g.n) (sig : List Byte)
    (h : dstu_do_sign g key tbs draws = .done sig) : dstu_do_verify g vkey tbs sig = true := by
  obtain ⟨d', hv, e, r, s, h1, h2, h3, h4, h5, h6⟩ := do_sign_done key tbs draws hdraws sig h
  rw [hpriv] at h1
  obtain rfl := Option.some.inj h1
  have hacc := signs_accepts d hv e r s h5
  obtain ⟨hr1, hr2, hs1, hs2, _⟩ := id hacc
  have hn := order_lt g
  rw [do_verify_iff]
  refine ⟨_, hv, hpub, h2, ?_⟩
  obtain ⟨e1, e2⟩ := halves (numBytes g.n) s r (lt_trans hs2 hn) (lt_trans hr2 hn)
  rw [h6, e1, e2]
  exact hacc

theorem do_sign_length (key : EcKey g) (tbs : List Byte) (draws : List (Option Nat))
    (hdraws : ∀ e, some e ∈ draws → e < g.n) (sig : List Byte)
    (h : dstu_do_sign g key tbs draws = .done sig) : sig.length = 2 * numBytes g.n := by
  obtain ⟨_, _, _, _, _, _, _, _, _, _, h6⟩ := do_sign_done key tbs draws hdraws sig h
  rw [h6, List.length_append, bytesBE_length, bytesBE_length]
  omega

/-- The outcome of a successful call of the signing method: the DER form of the raw signature, in the
byte order of the key type. -/
theorem pkey_sign_ok (type : KeyType) (key : EcKey g) (siglen : Nat) (tbs : List Byte)
    (draws : List (Option Nat)) (hdraws : ∀ e, some e ∈ draws → e < g.n) (out : SignOut)
    (h : dstu_pkey_sign type g key true siglen tbs draws = .done out) (hret : out.ret = true) :
    pkey_size g ≤ siglen ∧ ∃ sig, dstu_do_sign g key tbs draws = .done sig ∧
      out.written = i2d_octet (if type = .le then sig.reverse else sig) ∧ out.siglen = out.written.length := by
  unfold dstu_pkey_sign at h
  simp only [true_and, if_true] at h
  split at h
  · cases h; simp at hret
  · rename_i hle
    refine ⟨by omega, ?_⟩
    cases hs : dstu_do_sign g key tbs draws with
    | waiting => rw [hs] at h; cases h
    | failed => rw [hs] at h; cases h; simp at hret
    | done sig =>
      refine ⟨sig, rfl, ?_⟩
      have hl := do_sign_length key tbs draws hdraws sig hs
      rw [hs] at h
      cases type with
      | le =>
        simp only [if_true] at h
        rw [← hl, reverse_bytes_eq] at h
        cases h
        exact ⟨by simp, rfl⟩
      | be =>
        simp only [reduceCtorEq, if_false] at h
        cases h
        exact ⟨by simp, rfl⟩

/-- C23.  For every valid curve, private key, digest and sequence of random numbers below the order:
if the signing method succeeds, then the verification method, given the bytes it wrote, the same
digest and a key of the same type holding the matching public key `-d G`, succeeds. -/
theorem C23_signature_verifies (dec : OctetDecoder) (type : KeyType) (key vkey : EcKey g) (d : Nat)
    (hpriv : key.priv = some d) (hpub : vkey.pub = some (-(d • g.gen))) (hsize : numBytes g.n < 2 ^ 27)
    (tbs : List Byte) (siglen : Nat) (draws : List (Option Nat)) (hdraws : ∀ e, some e ∈ draws → e < g.n)
    (out : SignOut) (h : dstu_pkey_sign type g key true siglen tbs draws = .done out) (hret : out.ret = true) :
    dstu_pkey_verify dec type g vkey out.written tbs = true := by
  obtain ⟨_, sig, hs, hw, _⟩ := pkey_sign_ok type key siglen tbs draws hdraws out h hret
  have hl := do_sign_length key tbs draws hdraws sig hs
  have hv := C23_raw_signature_verifies key vkey d hpriv hpub tbs draws hdraws sig hs
  have hlen : (if type = .le then sig.reverse else sig).length = 2 * numBytes g.n := by
    split <;> simp [hl]
  have hdec : dec.d2i out.written = some (if type = .le then sig.reverse else sig) := by
    have := dec.der (if type = .le then sig.reverse else sig) [] (by rw [hlen]; omega)
    rw [List.append_nil] at this
    rw [hw, this]
  unfold dstu_pkey_verify
  rw [hdec]
  simp only [Option.getD_some, hlen]
  rw [if_neg (by omega), if_neg (by omega)]
  cases type with
  | le =>
    simp only [if_true]
    have := reverse_bytes_copy_eq sig.reverse
    rw [List.length_reverse, hl] at this
    rw [this, List.reverse_reverse]
    exact hv
  | be => simpa using hv

/-- The hypotheses are met in the running example, for both key types. -/
theorem draws_ex : ∀ e, some e ∈ ([some 1] : List (Option Nat)) → e < gEx.n := by
  intro e he
  have := gEx_numbers.2.2.1
  simp only [List.mem_singleton, Option.some.injEq] at he
  omega

theorem runEx (type : KeyType) : ∃ out, dstu_pkey_sign type gEx keyEx true 1000 [1] [some 1] = .done out ∧ out.ret = true := by
  obtain ⟨sig, hs⟩ := signEx
  have hl := do_sign_length keyEx [1] [some 1] draws_ex sig hs
  have hsz : pkey_size gEx ≤ 1000 := by decide +kernel
  unfold dstu_pkey_sign
  simp only [true_and, if_true, hs]
  rw [if_neg (by omega), ← hl, reverse_bytes_eq]
  cases type <;> exact ⟨_, rfl, rfl⟩

example (type : KeyType) : ∃ out, dstu_pkey_sign type gEx keyEx true 1000 [1] [some 1] = .done out ∧
    out.ret = true ∧ dstu_pkey_verify octetDecoder type gEx keyEx out.written [1] = true := by
  obtain ⟨out, ho, hr⟩ := runEx type
  exact ⟨out, ho, hr, C23_signature_verifies octetDecoder type keyEx keyEx 1 rfl rfl gEx_numbers.2.2.2.1 [1] 1000 [some 1] draws_ex out ho hr⟩

/-! ### C24 -/

/-- The bytes that hold the two numbers: the contents of the octet string if the input is one, the
input itself otherwise. -/
def body (dec : OctetDecoder) (sig : List Byte) : List Byte := (dec.d2i sig).getD sig

/-- The body in big-endian order. -/
def bodyBE (dec : OctetDecoder) (type : KeyType) (sig : List Byte) : List Byte :=
  if type = .le then (body dec sig).reverse else body dec sig

/-- The number `s`: the first half of the body, big-endian. -/
def sOf (dec : OctetDecoder) (type : KeyType) (sig : List Byte) : Nat :=
  beValue ((bodyBE dec type sig).take ((bodyBE dec type sig).length / 2))

/-- The number `r`: the second half of the body, big-endian. -/
def rOf (dec : OctetDecoder) (type : KeyType) (sig : List Byte) : Nat :=
  beValue ((bodyBE dec type sig).drop ((bodyBE dec type sig).length / 2))

theorem pkey_verify_eq (dec : OctetDecoder) (type : KeyType) (key : EcKey g) (sig tbs : List Byte) :
    dstu_pkey_verify dec type g key sig tbs = true ↔
      (body dec sig).length % 2 = 0 ∧ 2 * numBytes g.n ≤ (body dec sig).length ∧
        dstu_do_verify g key tbs (bodyBE dec type sig) = true := by
  unfold dstu_pkey_verify bodyBE body
  generalize (dec.d2i sig).getD sig = b
  simp only
  split
  · rename_i h1
    simp only [Bool.false_eq_true, false_iff]
    rintro ⟨h, _, _⟩
    omega
  · split
    · simp only [Bool.false_eq_true, false_iff]
      rintro ⟨_, h, _⟩
      omega
    · rename_i h1 h2
      cases type with
      | le =>
        simp only [reverse_bytes_copy_eq, if_true]
        constructor
        · intro h; exact ⟨by omega, by omega, h⟩
        · rintro ⟨_, _, h⟩; exact h
      | be =>
        simp only [reduceCtorEq, if_false]
        constructor
        · intro h; exact ⟨by omega, by omega, h⟩
        · rintro ⟨_, _, h⟩; exact h

theorem drop_take_half (l : List Byte) (h : l.length % 2 = 0) :
    (l.drop (l.length / 2)).take (l.length / 2) = l.drop (l.length / 2) := by
  apply List.take_of_length_le
  simp only [List.length_drop]
  omega

/-- C29.  The verification method accepts iff the body has even length and at least two order-size
halves, the digest is not empty and its low bits are not all zero (unless the digest is all zero), and
the DSTU 4145 verification equation holds for `r`, `s`, the field element of the digest and the public
key. -/
theorem C29_verify_iff_equation (dec : OctetDecoder) (type : KeyType) (key : EcKey g) (sig tbs : List Byte) :
    dstu_pkey_verify dec type g key sig tbs = true ↔
      (body dec sig).length % 2 = 0 ∧ 2 * numBytes g.n ≤ (body dec sig).length ∧ tbs ≠ [] ∧
        (leValue tbs % 2 ^ fieldDegree g.p ≠ 0 ∨ leValue tbs = 0) ∧
        ∃ Q, key.pub = some Q ∧
          Accepts g.gen Q g.n (digestElem (fieldDegree g.p) tbs) (rOf dec type sig) (sOf dec type sig) := by
  have hp := goodGroup_p g
  have hm : 0 < fieldDegree g.p := by
    unfold fieldDegree
    exact (Nat.le_log2 (by omega)).mpr (by omega)
  rw [pkey_verify_eq, do_verify_iff, hash_to_field_eq]
  have hbl : (bodyBE dec type sig).length = (body dec sig).length := by
    unfold bodyBE; split <;> simp
  constructor
  · rintro ⟨h1, h2, Q, h, hQ, hh, hacc⟩
    rw [drop_take_half _ (by rw [hbl]; exact h1)] at hacc
    split at hh
    · cases hh
    · rename_i hne
      have hcase : leValue tbs % 2 ^ fieldDegree g.p ≠ 0 ∨ leValue tbs = 0 := by
        by_contra hc
        push Not at hc
        rw [if_neg hc.2, EcGroup.degree] at hh
        have h0 : h = 0 := by rw [← Option.some.inj hh]; exact hc.1
        subst h0
        obtain ⟨hr, _, _, _, x, y, hxy, _, hr'⟩ := hacc
        rw [GF.ofNat_zero, zero_mul, elemToInt, GF.toNat_zero g.p (by omega), Nat.zero_mod] at hr'
        omega
      have heq := hash_elem tbs (fieldDegree g.p) hm hcase
      have : h = digestElem (fieldDegree g.p) tbs := by
        rw [← heq]
        exact (Option.some.inj hh).symm
      subst this
      exact ⟨h1, h2, hne, hcase, Q, hQ, hacc⟩
  · rintro ⟨h1, h2, hne, hcase, Q, hQ, hacc⟩
    refine ⟨h1, h2, Q, digestElem (fieldDegree g.p) tbs, hQ, ?_, ?_⟩
    · rw [if_neg hne, ← hash_elem tbs (fieldDegree g.p) hm hcase]
      rfl
    · rw [drop_take_half _ (by rw [hbl]; exact h1)]
      exact hacc

/-- C29, last part: the verdict depends only on the two numbers, the field element of the digest and
the public key (for inputs of admissible length and digests with a usable element). -/
theorem C29_depends_only (dec dec' : OctetDecoder) (type type' : KeyType) (key key' : EcKey g)
    (sig sig' tbs tbs' : List Byte)
    (hl : (body dec sig).length % 2 = 0 ∧ 2 * numBytes g.n ≤ (body dec sig).length)
    (hl' : (body dec' sig').length % 2 = 0 ∧ 2 * numBytes g.n ≤ (body dec' sig').length)
    (ht : tbs ≠ [] ∧ (leValue tbs % 2 ^ fieldDegree g.p ≠ 0 ∨ leValue tbs = 0))
    (ht' : tbs' ≠ [] ∧ (leValue tbs' % 2 ^ fieldDegree g.p ≠ 0 ∨ leValue tbs' = 0))
    (hr : rOf dec type sig = rOf dec' type' sig') (hs : sOf dec type sig = sOf dec' type' sig')
    (hh : digestElem (fieldDegree g.p) tbs = digestElem (fieldDegree g.p) tbs') (hk : key.pub = key'.pub) :
    dstu_pkey_verify dec type g key sig tbs = dstu_pkey_verify dec' type' g key' sig' tbs' := by
  rw [Bool.eq_iff_iff, C29_verify_iff_equation, C29_verify_iff_equation, hr, hs, hh, hk]
  simp only [hl, hl', ht, ht', true_and, ne_eq, not_false_eq_true]

/-- The digests `01` and `01 00` have the same field element. -/
example (type : KeyType) : ∃ sig, dstu_pkey_verify octetDecoder type gEx keyEx sig [1] = true ∧
    dstu_pkey_verify octetDecoder type gEx keyEx sig [1, 0] = true := by
  obtain ⟨out, ho, hr⟩ := runEx type
  have h := C23_signature_verifies octetDecoder type keyEx keyEx 1 rfl rfl gEx_numbers.2.2.2.1 [1] 1000 [some 1] draws_ex out ho hr
  obtain ⟨h1, h2, h3, h4, _⟩ := (C29_verify_iff_equation octetDecoder type keyEx out.written [1]).mp h
  refine ⟨out.written, h, ?_⟩
  rw [← C29_depends_only octetDecoder octetDecoder type type keyEx keyEx out.written out.written [1] [1, 0] ⟨h1, h2⟩ ⟨h1, h2⟩ ⟨h3, h4⟩
    ⟨by simp, h4⟩ rfl rfl rfl rfl, h]

/-- C24.  A signature with `r` or `s` zero or not below the order, of odd length, or shorter than two
order-size halves, is rejected for every key and digest. -/
theorem C24_out_of_range_rejected (dec : OctetDecoder) (type : KeyType) (key : EcKey g) (sig tbs : List Byte)
    (h : rOf dec type sig = 0 ∨ g.n ≤ rOf dec type sig ∨ sOf dec type sig = 0 ∨ g.n ≤ sOf dec type sig ∨
      (body dec sig).length % 2 = 1 ∨ (body dec sig).length < 2 * numBytes g.n) :
    dstu_pkey_verify dec type g key sig tbs = false := by
  rw [Bool.eq_false_iff, Ne, C29_verify_iff_equation]
  rintro ⟨h1, h2, _, _, Q, _, h3, h4, h5, h6, _⟩
  omega

/-- Each of the six causes occurs, in the running example (big-endian, unwrapped input). -/
example :
    rOf octetDecoder .be (bytesBE 32 1 ++ bytesBE 32 0) = 0 ∧
    gEx.n ≤ rOf octetDecoder .be (bytesBE 32 1 ++ bytesBE 32 gEx.n) ∧
    sOf octetDecoder .be (bytesBE 32 0 ++ bytesBE 32 1) = 0 ∧
    gEx.n ≤ sOf octetDecoder .be (bytesBE 32 gEx.n ++ bytesBE 32 1) ∧
    (body octetDecoder (bytesBE 67 1)).length % 2 = 1 ∧
    (body octetDecoder (bytesBE 62 1)).length < 2 * numBytes gEx.n := by
  decide +kernel


/-! ### C25 -/

/-- C25, first part: with no buffer, the method reports the advertised size and writes nothing. -/
theorem C25_size_query (type : KeyType) (key : EcKey g) (siglen : Nat) (tbs : List Byte) (draws : List (Option Nat)) :
    dstu_pkey_sign type g key false siglen tbs draws = .done ⟨true, pkey_size g, []⟩ := by
  unfold dstu_pkey_sign
  simp

/-- C25, second part: with a buffer that is too small it fails, reports the size and writes nothing. -/
theorem C25_too_small (type : KeyType) (key : EcKey g) (siglen : Nat) (tbs : List Byte) (draws : List (Option Nat))
    (h : siglen < pkey_size g) :
    dstu_pkey_sign type g key true siglen tbs draws = .done ⟨false, pkey_size g, []⟩ := by
  unfold dstu_pkey_sign
  simp [h]

/-- C25, third part: every outcome.  On success exactly the advertised size is written, it is the size
reported, and it fits into the buffer; on failure nothing is written; and there is never undefined
behaviour. -/
theorem C25_written_size (type : KeyType) (key : EcKey g) (siglen : Nat) (tbs : List Byte)
    (draws : List (Option Nat)) (hdraws : ∀ e, some e ∈ draws → e < g.n) :
    dstu_pkey_sign type g key true siglen tbs draws ≠ .failed ∧
    ∀ out, dstu_pkey_sign type g key true siglen tbs draws = .done out →
      out.siglen = pkey_size g ∧
      (out.ret = true → out.written.length = pkey_size g ∧ pkey_size g ≤ siglen) ∧
      (out.ret = false → out.written = []) := by
  unfold dstu_pkey_sign
  simp only [true_and, if_true]
  split
  · exact ⟨by simp, by rintro out ⟨⟩; exact ⟨rfl, by simp, by simp⟩⟩
  · rename_i hle
    cases hs : dstu_do_sign g key tbs draws with
    | waiting => exact ⟨by simp, by simp⟩
    | failed => exact ⟨by simp, by rintro out ⟨⟩; exact ⟨rfl, by simp, by simp⟩⟩
    | done sig =>
      have hl := do_sign_length key tbs draws hdraws sig hs
      have hsz : ∀ c : List Byte, c.length = 2 * numBytes g.n → (i2d_octet c).length = pkey_size g := by
        intro c hc
        simp only [i2d_octet, List.length_cons, List.length_append, hc, pkey_size, Nat.mul_comm 2]
        omega
      simp only
      rw [← hl, reverse_bytes_eq]
      cases type with
      | le =>
        simp only [if_true]
        refine ⟨by simp, ?_⟩
        rintro out ⟨⟩
        have := hsz sig.reverse (by simpa using hl)
        exact ⟨this, fun _ => ⟨this, by omega⟩, by simp⟩
      | be =>
        simp only [reduceCtorEq, if_false]
        refine ⟨by simp, ?_⟩
        rintro out ⟨⟩
        have := hsz sig hl
        exact ⟨this, fun _ => ⟨this, by omega⟩, by simp⟩

/-- The sizes of the running example. -/
example : pkey_size gEx = 66 := by decide +kernel

/-! ### C26 -/

theorem do_sign_of_loop (key : EcKey g) (tbs : List Byte) (draws : List (Option Nat)) (d h r s : Nat)
    (hd : key.priv = some d) (hh : hash_to_field tbs g.degree = some h)
    (hl : signLoop g d h draws = .done (r, s)) (hr : r ≠ 0) (hrn : r < g.n) (hs : s ≠ 0) (hsn : s < g.n) :
    dstu_do_sign g key tbs draws = .done (bytesBE (numBytes g.n) s ++ bytesBE (numBytes g.n) r) := by
  have hn := order_lt g
  obtain ⟨k1, hk1⟩ := Nat.exists_eq_succ_of_ne_zero
    (by have := (numBytes_pos s).mpr hs; omega : numBytes s ≠ 0)
  obtain ⟨k2, hk2⟩ := Nat.exists_eq_succ_of_ne_zero
    (by have := (numBytes_pos r).mpr hr; omega : numBytes r ≠ 0)
  unfold dstu_do_sign
  simp only [hd, hh, hl, bn_encode_fits s _ (lt_trans hsn hn), bn_encode_fits r _ (lt_trans hrn hn), hk1, hk2]

/-- The digests that give the code a field element: not empty, and not with low bits all zero unless
the digest is all zero. -/
def UsableDigest (m : Nat) (tbs : List Byte) : Prop :=
  tbs ≠ [] ∧ (leValue tbs % 2 ^ m ≠ 0 ∨ leValue tbs = 0)

theorem degree_pos : 0 < fieldDegree g.p := by
  have hp := goodGroup_p g
  unfold fieldDegree
  exact (Nat.le_log2 (by omega)).mpr (by omega)

theorem usable_hash (tbs : List Byte) (h : UsableDigest (fieldDegree g.p) tbs) :
    hash_to_field tbs g.degree = some (digestElem (fieldDegree g.p) tbs) := by
  rw [hash_to_field_eq, if_neg h.1, ← hash_elem tbs _ degree_pos h.2]
  rfl

/-- A nonce whose multiple of the generator is finite and for which there is no signature leads to
another draw. -/
theorem signStep_waiting (d h e : Nat) (he : e < g.n) (hfin : e • g.gen ≠ 0)
    (hno : ∀ r s, ¬ Signs g.gen g.n d h e r s) : signStep g d h e = .waiting := by
  have hn := goodGroup_n g
  have hnd : ∀ rs, signStep g d h e ≠ .done rs := by
    rintro ⟨r, s⟩ hc
    exact hno r s ((signStep_done d h e r s he).mp hc)
  unfold signStep at hnd ⊢
  simp only [ec_mul] at hnd ⊢
  cases hP : e • g.gen with
  | zero => exact absurd hP hfin
  | some x y hxy =>
    simp only [hP, affine] at hnd ⊢
    split
    · rfl
    · rename_i h0
      rw [if_neg h0] at hnd
      rw [field_to_bn_eq _ _ (by omega)] at hnd ⊢
      simp only at hnd ⊢
      split
      · rfl
      · rename_i h1
        rw [if_neg h1] at hnd
        split
        · rfl
        · rename_i h2
          rw [if_neg h2] at hnd
          exact absurd rfl (hnd _)

/-- C26.  Signing returns with the signature of the first usable nonce: for every private key and
usable digest, if the generator first supplies nonces that give no signature and then one that does,
then signing returns that one's `s` and `r`, whatever would have come next. -/
theorem C26_first_usable_nonce (key : EcKey g) (d : Nat) (hd : key.priv = some d) (tbs : List Byte)
    (ht : UsableDigest (fieldDegree g.p) tbs) (pre : List Nat) (e r s : Nat) (rest : List (Option Nat))
    (hpre : ∀ e' ∈ pre, e' < g.n ∧ e' • g.gen ≠ 0 ∧
      ∀ r s, ¬ Signs g.gen g.n d (digestElem (fieldDegree g.p) tbs) e' r s)
    (he : e < g.n) (hs : Signs g.gen g.n d (digestElem (fieldDegree g.p) tbs) e r s) :
    dstu_do_sign g key tbs (pre.map some ++ some e :: rest) =
        .done (bytesBE (numBytes g.n) s ++ bytesBE (numBytes g.n) r) ∧
      1 ≤ r ∧ r < g.n ∧ 1 ≤ s ∧ s < g.n := by
  obtain ⟨h1, h2, h3, h4, _⟩ := signs_accepts d _ e r s hs
  refine ⟨do_sign_of_loop key tbs _ d _ r s hd (usable_hash tbs ht) ?_ (by omega) h2 (by omega) h4,
    h1, h2, h3, h4⟩
  induction pre with
  | nil =>
    simp only [List.map_nil, List.nil_append, signLoop, (signStep_done d _ e r s he).mpr hs]
  | cons x pre ih =>
    obtain ⟨q1, q2, q3⟩ := hpre x (by simp)
    simp only [List.map_cons, List.cons_append, signLoop, signStep_waiting d _ x q1 q2 q3]
    exact ih (fun e' he' => hpre e' (by simp [he']))

/-- C26, termination for every sequence of draws that contains a usable nonce: signing does not wait
for further draws (it returns a signature or, if the generator failed or supplied a multiple of the
order, an error). -/
theorem C26_returns (key : EcKey g) (d : Nat) (hd : key.priv = some d) (tbs : List Byte)
    (ht : UsableDigest (fieldDegree g.p) tbs) (draws : List (Option Nat)) (e r s : Nat) (hmem : some e ∈ draws)
    (he : e < g.n) (hs : Signs g.gen g.n d (digestElem (fieldDegree g.p) tbs) e r s) :
    dstu_do_sign g key tbs draws ≠ .waiting := by
  have hl : signLoop g d (digestElem (fieldDegree g.p) tbs) draws ≠ .waiting := by
    induction draws with
    | nil => simp at hmem
    | cons x rest ih =>
      cases x with
      | none => simp [signLoop]
      | some e' =>
        unfold signLoop
        by_cases hee : e' = e
        · rw [hee, (signStep_done d _ e r s he).mpr hs]; simp
        · cases hst : signStep g d (digestElem (fieldDegree g.p) tbs) e' with
          | waiting =>
            simp only
            apply ih
            simp only [List.mem_cons, Option.some.injEq] at hmem
            rcases hmem with h | h
            · exact absurd h.symm hee
            · exact h
          | failed => simp
          | done a => simp
  unfold dstu_do_sign
  simp only [hd, usable_hash tbs ht]
  split
  · rename_i h; exact absurd h hl
  · simp
  · split
    · simp
    · simp
    · split <;> simp

/-- C26, ranges: both numbers of every signature produced are in `1 … n - 1`. -/
theorem C26_range (key : EcKey g) (tbs : List Byte) (draws : List (Option Nat))
    (hdraws : ∀ e, some e ∈ draws → e < g.n) (sig : List Byte)
    (h : dstu_do_sign g key tbs draws = .done sig) :
    sig.length = 2 * numBytes g.n ∧
    1 ≤ beValue (sig.take (numBytes g.n)) ∧ beValue (sig.take (numBytes g.n)) < g.n ∧
    1 ≤ beValue (sig.drop (numBytes g.n)) ∧ beValue (sig.drop (numBytes g.n)) < g.n := by
  have hl := do_sign_length key tbs draws hdraws sig h
  obtain ⟨d, hv, e, r, s, h1, h2, h3, h4, h5, h6⟩ := do_sign_done key tbs draws hdraws sig h
  obtain ⟨hr1, hr2, hs1, hs2, _⟩ := signs_accepts d hv e r s h5
  have hn := order_lt g
  refine ⟨hl, ?_⟩
  rw [h6, List.take_left' (bytesBE_length _ _), List.drop_left' (bytesBE_length _ _), beValue_bytesBE,
    beValue_bytesBE, Nat.mod_eq_of_lt (lt_trans hs2 hn), Nat.mod_eq_of_lt (lt_trans hr2 hn)]
  omega

/-- The limits of C26: for a digest that is not all zero but whose low `m` bits are, no nonce is usable
and signing with working random numbers never returns, for any key. -/
theorem C26_unusable_digest_never_returns (key : EcKey g) (d : Nat) (hd : key.priv = some d) (tbs : List Byte)
    (hz : leValue tbs % 2 ^ fieldDegree g.p = 0) (hv : leValue tbs ≠ 0) (draws : List Nat)
    (hdraws : ∀ e ∈ draws, e < g.n ∧ e • g.gen ≠ 0) :
    dstu_do_sign g key tbs (draws.map some) = .waiting := by
  have hp := goodGroup_p g
  have hne : tbs ≠ [] := by rintro rfl; simp [leValue] at hv
  have hh : hash_to_field tbs g.degree = some 0 := by
    rw [hash_to_field_eq, if_neg hne, if_neg hv]
    exact congrArg some hz
  have hl : signLoop g d 0 (draws.map some) = .waiting := by
    induction draws with
    | nil => rfl
    | cons e rest ih =>
      obtain ⟨h1, h2⟩ := hdraws e (by simp)
      have : signStep g d 0 e = .waiting := by
        apply signStep_waiting d 0 e h1 h2
        rintro r s ⟨⟨x, y, hxy, _, _, hr⟩, _, hr0, _⟩
        rw [GF.ofNat_zero, zero_mul, elemToInt, GF.toNat_zero g.p (by omega), Nat.zero_mod] at hr
        exact hr0 hr
      simp only [List.map_cons, signLoop, this]
      exact ih (fun e' he' => hdraws e' (by simp [he']))
  unfold dstu_do_sign
  simp only [hd, hh, hl]

/-- C26, the last kind of digest: an empty one is refused at once, for every key and without a draw. -/
theorem C26_empty_digest_fails (key : EcKey g) (draws : List (Option Nat)) :
    dstu_do_sign g key [] draws = .failed := by
  unfold dstu_do_sign
  cases key.priv <;> simp [hash_to_field]

theorem genEx_ne : (1 : Nat) • gEx.gen ≠ 0 := by
  rw [one_nsmul, EcGroup.gen]
  exact Affine.Point.some_ne_zero _

/-- The hypotheses are met: digest `01` is usable, and 32 zero bytes followed by 02 is not (its value is
`2^257`); nonce 1 is finite. -/
example : UsableDigest (fieldDegree gEx.p) [1] ∧ digestElem (fieldDegree gEx.p) [1] = 1 ∧
    leValue (List.replicate 32 0 ++ [2]) % 2 ^ fieldDegree gEx.p = 0 ∧
    leValue (List.replicate 32 (0 : Byte) ++ [2]) ≠ 0 ∧ (∀ e ∈ [1, 1], e < gEx.n ∧ e • gEx.gen ≠ 0) ∧
    Signs gEx.gen gEx.n 1 1 1 (gEx.gx % 2 ^ gEx.n.log2) ((1 + 1 * (gEx.gx % 2 ^ gEx.n.log2)) % gEx.n) := by
  have h : fieldDegree gEx.p = 257 := gEx_numbers.2.2.2.2.2
  refine ⟨?_, ?_, ?_, ?_, ?_, signsEx⟩
  · rw [h]; exact ⟨by simp, by decide⟩
  · rw [h]; decide
  · rw [h]; decide +kernel
  · decide +kernel
  · intro e he
    simp only [List.mem_cons, List.not_mem_nil, or_false, or_self] at he
    rw [he]
    exact ⟨gEx_numbers.2.2.1, genEx_ne⟩

/-! ### C27 -/

/-- C27, where it holds: a usable digest is turned into the field element that DSTU 4145 prescribes,
for every field degree.  Missing: digests that are not all zero but whose low `m` bits are, see
`C27_digest_conversion_refuted`. -/
theorem C27_digest_conversion_partial (m : Nat) (hm : 0 < m) (tbs : List Byte) (h : UsableDigest m tbs) :
    hash_to_field tbs m = some (digestElem m tbs) := by
  rw [hash_to_field_eq, if_neg h.1, ← hash_elem tbs m hm h.2]

/-- C27 fails in general: for every degree and every digest that is not all zero but whose low `m` bits
are, the code uses zero although the standard prescribes one. -/
theorem C27_digest_conversion_refuted (m : Nat) (tbs : List Byte) (hz : leValue tbs % 2 ^ m = 0)
    (hv : leValue tbs ≠ 0) : hash_to_field tbs m = some 0 ∧ digestElem m tbs = 1 := by
  have hne : tbs ≠ [] := by rintro rfl; simp [leValue] at hv
  rw [hash_to_field_eq, if_neg hne, if_neg hv, hz, digestElem, if_pos hz]
  exact ⟨rfl, rfl⟩

/-- What a user sees of this: on the curve of degree 163 (and others below 256), and on the default
curve with a longer digest, a signature that satisfies the standard's equation is rejected. -/
theorem C27_valid_signature_rejected : ∃ (sig tbs : List Byte),
    Accepts gEx.gen (-(1 • gEx.gen)) gEx.n (digestElem (fieldDegree gEx.p) tbs)
      (rOf octetDecoder .be sig) (sOf octetDecoder .be sig) ∧
    keyEx.pub = some (-(1 • gEx.gen)) ∧ (body octetDecoder sig).length = 2 * numBytes gEx.n ∧
    dstu_pkey_verify octetDecoder .be gEx keyEx sig tbs = false := by
  obtain ⟨_, _, _, h4, _, h6⟩ := gEx_numbers
  have h6 : fieldDegree gEx.p = 257 := h6
  have hn := order_lt gEx
  have hacc := signs_accepts 1 1 1 _ _ signsEx
  obtain ⟨_, hr2, _, hs2, _⟩ := id hacc
  generalize gEx.gx % 2 ^ gEx.n.log2 = r at *
  generalize (1 + 1 * r) % gEx.n = s at *
  obtain ⟨e1, e2⟩ := halves (numBytes gEx.n) s r (lt_trans hs2 hn) (lt_trans hr2 hn)
  have hz : leValue (List.replicate 32 0 ++ [2]) % 2 ^ fieldDegree gEx.p = 0 := by rw [h6]; decide +kernel
  have hv : leValue (List.replicate 32 (0 : Byte) ++ [2]) ≠ 0 := by decide +kernel
  have hl : (bytesBE (numBytes gEx.n) s ++ bytesBE (numBytes gEx.n) r).length = 2 * numBytes gEx.n := by
    rw [List.length_append, bytesBE_length, bytesBE_length]; omega
  have hb : body octetDecoder (i2d_octet (bytesBE (numBytes gEx.n) s ++ bytesBE (numBytes gEx.n) r)) =
      bytesBE (numBytes gEx.n) s ++ bytesBE (numBytes gEx.n) r := by
    have := octetDecoder.der (bytesBE (numBytes gEx.n) s ++ bytesBE (numBytes gEx.n) r) [] (by omega)
    rw [List.append_nil] at this
    rw [body, this, Option.getD_some]
  refine ⟨i2d_octet (bytesBE (numBytes gEx.n) s ++ bytesBE (numBytes gEx.n) r), List.replicate 32 0 ++ [2],
    ?_, rfl, by rw [hb, hl], ?_⟩
  · rw [digestElem, if_pos hz, rOf, sOf, bodyBE, if_neg (by simp), hb]
    rw [drop_take_half _ (by omega)] at e2
    rw [e1, e2]
    exact hacc
  · rw [Bool.eq_false_iff, Ne, C29_verify_iff_equation]
    rintro ⟨_, _, _, h, _⟩
    rcases h with h | h
    · exact h hz
    · exact hv h

/-! ### C28 -/

/-- The encoding of the two numbers with one more zero byte in front of each. -/
def padded (dec : OctetDecoder) (type : KeyType) (sig : List Byte) : List Byte :=
  let b := bodyBE dec type sig
  let b' := 0 :: b.take (b.length / 2) ++ 0 :: b.drop (b.length / 2)
  i2d_octet (if type = .le then b'.reverse else b')

/-- C28 fails: every accepted signature has a second encoding that is accepted too, with the same `r`
and `s`. -/
theorem C28_unique_encoding_refuted (dec : OctetDecoder) (type : KeyType) (key : EcKey g) (sig tbs : List Byte)
    (hlen : (body dec sig).length < 2 ^ 27) (h : dstu_pkey_verify dec type g key sig tbs = true) :
    padded dec type sig ≠ sig ∧ rOf dec type (padded dec type sig) = rOf dec type sig ∧
      sOf dec type (padded dec type sig) = sOf dec type sig ∧
      dstu_pkey_verify dec type g key (padded dec type sig) tbs = true := by
  have hbl : (bodyBE dec type sig).length = (body dec sig).length := by
    unfold bodyBE; split <;> simp
  obtain ⟨h1, h2, h3⟩ := (C29_verify_iff_equation dec type key sig tbs).mp h
  obtain ⟨b, hb⟩ : ∃ b, b = bodyBE dec type sig := ⟨_, rfl⟩
  obtain ⟨b', hb'⟩ : ∃ b', b' = 0 :: b.take (b.length / 2) ++ 0 :: b.drop (b.length / 2) := ⟨_, rfl⟩
  have hl' : b'.length = (body dec sig).length + 2 := by
    rw [hb']
    simp only [List.cons_append, List.length_cons, List.length_append, List.length_take, List.length_drop]
    rw [hb, hbl]
    omega
  have hp : padded dec type sig = i2d_octet (if type = .le then b'.reverse else b') := by
    rw [padded, hb', hb]
  have hbody : body dec (padded dec type sig) = if type = .le then b'.reverse else b' := by
    have hl2 : (if type = .le then b'.reverse else b').length = b'.length := by split <;> simp
    have := dec.der (if type = .le then b'.reverse else b') [] (by omega)
    rw [List.append_nil] at this
    rw [body, hp, this, Option.getD_some]
  have hbe : bodyBE dec type (padded dec type sig) = b' := by
    rw [bodyBE, hbody]
    split <;> simp
  have hlb : (body dec (padded dec type sig)).length = (body dec sig).length + 2 := by
    rw [hbody, ← hl']; split <;> simp
  have hhalf : b'.length / 2 = (0 :: b.take (b.length / 2)).length := by
    rw [hl', List.length_cons, List.length_take, hb, hbl]; omega
  have hcons : ∀ l : List Byte, beValue (0 :: l) = beValue l := by
    intro l
    rw [← List.singleton_append, beValue_append]
    simp [beValue, leValue]
  have hs : sOf dec type (padded dec type sig) = sOf dec type sig := by
    rw [sOf, sOf, hbe, hhalf, hb', List.take_left, hcons, hb]
  have hr : rOf dec type (padded dec type sig) = rOf dec type sig := by
    rw [rOf, rOf, hbe, hhalf, hb', List.drop_left, hcons, hb]
  refine ⟨?_, hr, hs, ?_⟩
  · intro hc
    rw [hc] at hlb
    omega
  · rw [C29_verify_iff_equation, hlb, hr, hs]
    exact ⟨by omega, by omega, h3⟩

/-- C28, second reason: bytes after the DER form are ignored. -/
theorem C28_trailing_bytes_refuted (dec : OctetDecoder) (type : KeyType) (key : EcKey g) (c junk tbs : List Byte)
    (hlen : c.length < 2 ^ 28) :
    dstu_pkey_verify dec type g key (i2d_octet c ++ junk) tbs = dstu_pkey_verify dec type g key (i2d_octet c) tbs := by
  have h1 := dec.der c junk hlen
  have h2 := dec.der c [] hlen
  rw [List.append_nil] at h2
  unfold dstu_pkey_verify
  rw [h1, h2]
  simp only [Option.getD_some]

/-- What remains of C28: among bodies of one length the encoding is unique. -/
theorem C28_unique_body_partial (dec : OctetDecoder) (type : KeyType) (sig sig' : List Byte)
    (hl : (body dec sig).length = (body dec sig').length)
    (hr : rOf dec type sig = rOf dec type sig') (hs : sOf dec type sig = sOf dec type sig') :
    body dec sig = body dec sig' := by
  have hbl : ∀ s, (bodyBE dec type s).length = (body dec s).length := by
    intro s; unfold bodyBE; split <;> simp
  have e1 : (bodyBE dec type sig).length = (bodyBE dec type sig').length := by rw [hbl, hbl, hl]
  have ht := beValue_injective (by simp only [List.length_take, e1]) hs
  have hd := beValue_injective (by simp only [List.length_drop, e1]) hr
  have : bodyBE dec type sig = bodyBE dec type sig' := by
    rw [← List.take_append_drop ((bodyBE dec type sig).length / 2) (bodyBE dec type sig), ht, hd,
      List.take_append_drop]
  unfold bodyBE at this
  split at this
  · exact List.reverse_injective this
  · exact this

/-! ### C30 -/

/-- C30, signing: with the same key, digest and draws the two types succeed together, and the raw bytes
(the content of the octet string) of the one are the reversal of those of the other. -/
theorem C30_byte_reversed (dec : OctetDecoder) (key : EcKey g) (hsize : numBytes g.n < 2 ^ 27)
    (tbs : List Byte) (siglen : Nat) (draws : List (Option Nat)) (hdraws : ∀ e, some e ∈ draws → e < g.n)
    (be le : SignOut) (hb : dstu_pkey_sign .be g key true siglen tbs draws = .done be)
    (hl : dstu_pkey_sign .le g key true siglen tbs draws = .done le) :
    be.ret = le.ret ∧ (be.ret = true → ∃ raw, dec.d2i be.written = some raw ∧ dec.d2i le.written = some raw.reverse) := by
  have hiff : be.ret = true ↔ le.ret = true := by
    unfold dstu_pkey_sign at hb hl
    simp only [true_and, if_true] at hb hl
    split at hb
    · rename_i hc
      rw [if_pos hc] at hl
      cases hb; cases hl; simp
    · rename_i hc
      rw [if_neg hc] at hl
      cases hs : dstu_do_sign g key tbs draws with
      | waiting => rw [hs] at hb; cases hb
      | failed => rw [hs] at hb hl; cases hb; cases hl; simp
      | done sig =>
        have hln := do_sign_length key tbs draws hdraws sig hs
        rw [hs] at hb hl
        simp only [reduceCtorEq, if_false] at hb hl
        rw [← hln, reverse_bytes_eq] at hl
        cases hb; cases hl; simp
  refine ⟨Bool.eq_iff_iff.mpr hiff, fun hret => ?_⟩
  obtain ⟨_, sig, hs, hw, _⟩ := pkey_sign_ok .be key siglen tbs draws hdraws be hb hret
  obtain ⟨_, sig', hs', hw', _⟩ := pkey_sign_ok .le key siglen tbs draws hdraws le hl (hiff.mp hret)
  rw [hs] at hs'
  cases hs'
  have hln := do_sign_length key tbs draws hdraws sig hs
  refine ⟨sig, ?_, ?_⟩
  · have := dec.der sig [] (by omega)
    rw [List.append_nil] at this
    rw [hw, if_neg (by simp), this]
  · have := dec.der sig.reverse [] (by rw [List.length_reverse]; omega)
    rw [List.append_nil] at this
    rw [hw', if_pos rfl, this]

/-- C30, verifying: a raw signature is accepted under one type iff its reversal is under the other. -/
theorem C30_verify_reversed (dec : OctetDecoder) (key : EcKey g) (raw tbs : List Byte) (hlen : raw.length < 2 ^ 28) :
    dstu_pkey_verify dec .le g key (i2d_octet raw.reverse) tbs = dstu_pkey_verify dec .be g key (i2d_octet raw) tbs := by
  have h1 := dec.der raw [] hlen
  have h2 := dec.der raw.reverse [] (by rwa [List.length_reverse])
  rw [List.append_nil] at h1 h2
  unfold dstu_pkey_verify
  rw [h1, h2]
  simp only [Option.getD_some, List.length_reverse]
  have := reverse_bytes_copy_eq raw.reverse
  rw [List.length_reverse, List.reverse_reverse] at this
  rw [this]

/-! ### C67 -/

/-- C67, where it holds: a raw signature whose first byte is not the tag of an octet string is judged
like its DER form. -/
theorem C67_raw_like_wrapped_partial (dec : OctetDecoder) (type : KeyType) (key : EcKey g) (b : Byte)
    (rest tbs : List Byte) (hlen : (b :: rest).length < 2 ^ 28) (h1 : b ≠ 0x04) (h2 : b ≠ 0x24) (h3 : b ≠ 0x1f) (h4 : b ≠ 0x3f) :
    dstu_pkey_verify dec type g key (b :: rest) tbs =
      dstu_pkey_verify dec type g key (i2d_octet (b :: rest)) tbs := by
  have h := dec.der (b :: rest) [] hlen
  rw [List.append_nil] at h
  unfold dstu_pkey_verify
  rw [h, dec.tag b rest h1 h2 h3 h4]
  rfl

/-- C67, for all signatures: what is judged is the body, the contents if the bytes begin with an octet string and the bytes themselves otherwise, and it is
judged like its DER form.  So a raw signature is judged like its DER form exactly when it does not happen to begin with an octet string, or the contents of that
are judged alike. -/
theorem C67_body_judged_partial (dec : OctetDecoder) (type : KeyType) (key : EcKey g) (sig tbs : List Byte) (hlen : (body dec sig).length < 2 ^ 28) :
    dstu_pkey_verify dec type g key sig tbs = dstu_pkey_verify dec type g key (i2d_octet (body dec sig)) tbs := by
  have h := dec.der (body dec sig) [] hlen
  rw [List.append_nil] at h
  unfold dstu_pkey_verify
  rw [h]
  rfl

/-- The value `043c00…00` of 32 bytes. -/
def s67 : Nat := 0x043c * 256 ^ 30

/-- A private key for which nonce 1 and digest `01` give `s = s67`. -/
def d67 : Nat := 0xf6bc5982d0fbd390fe61563572769a597a121fff09623bb8407ce9b7574d908

theorem signs67 : Signs gEx.gen gEx.n d67 1 1 (gEx.gx % 2 ^ gEx.n.log2) s67 := by
  obtain ⟨h1, _, h3⟩ := signsEx
  exact ⟨h1, by decide +kernel, h3.1, by decide +kernel⟩

/-- C67 fails: there is a key pair, a digest and a signature of exactly the right length that is
accepted in its DER form and rejected in its raw form, because the raw form starts like an octet
string. -/
theorem C67_raw_like_wrapped_refuted (dec : OctetDecoder) : ∃ (key : EcKey gEx) (raw tbs : List Byte),
    key.pub = some (-(d67 • gEx.gen)) ∧ raw.length = 2 * numBytes gEx.n ∧
    dstu_pkey_verify dec .be gEx key (i2d_octet raw) tbs = true ∧
    dstu_pkey_verify dec .be gEx key raw tbs = false := by
  obtain ⟨_, _, _, h4, _, h6⟩ := gEx_numbers
  have h6 : fieldDegree gEx.p = 257 := h6
  have hn := order_lt gEx
  have hacc := signs_accepts d67 1 1 _ _ signs67
  obtain ⟨_, hr2, _, hs2, _⟩ := id hacc
  have hnb : numBytes gEx.n = 32 := by decide +kernel
  obtain ⟨r, hr⟩ : ∃ r, r = gEx.gx % 2 ^ gEx.n.log2 := ⟨_, rfl⟩
  rw [← hr] at hacc hr2
  rw [hnb] at hn h4
  obtain ⟨e1, e2⟩ := halves 32 s67 r (lt_trans hs2 hn) (lt_trans hr2 hn)
  obtain ⟨raw, hraw⟩ : ∃ raw, raw = bytesBE 32 s67 ++ bytesBE 32 r := ⟨_, rfl⟩
  rw [← hraw] at e1 e2
  have hl : raw.length = 64 := by rw [hraw, List.length_append, bytesBE_length, bytesBE_length]
  refine ⟨⟨some d67, some (-(d67 • gEx.gen))⟩, raw, [1], rfl, by rw [hl, hnb], ?_, ?_⟩
  · have hb : body dec (i2d_octet raw) = raw := by
      have := dec.der raw [] (by omega)
      rw [List.append_nil] at this
      rw [body, this, Option.getD_some]
    rw [C29_verify_iff_equation, hb, hl, hnb, rOf, sOf, bodyBE, if_neg (by simp), hb]
    refine ⟨rfl, le_refl _, by simp, by rw [h6]; decide, _, rfl, ?_⟩
    rw [drop_take_half _ (by omega)] at e2
    rw [e1, e2, h6]
    exact hacc
  · apply C24_out_of_range_rejected
    have hdec : raw = i2d_octet (List.replicate 30 0 ++ (bytesBE 32 r).take 30) ++ (bytesBE 32 r).drop 30 := by
      have hs : bytesBE 32 s67 = 0x04 :: 0x3c :: List.replicate 30 0 := by decide +kernel
      rw [hraw, hs]
      have h60 : (List.replicate 30 (0 : Byte) ++ (bytesBE 32 r).take 30).length = 60 := by
        rw [List.length_append, List.length_replicate, List.length_take, bytesBE_length]; rfl
      have hd : derLen 60 = [0x3c] := by decide
      rw [i2d_octet, h60, hd]
      simp only [List.cons_append, List.append_assoc, List.nil_append, List.take_append_drop]
    have hb : (body dec raw).length = 60 := by
      have h60 : (List.replicate 30 (0 : Byte) ++ (bytesBE 32 r).take 30).length = 60 := by
        rw [List.length_append, List.length_replicate, List.length_take, bytesBE_length]; rfl
      rw [body, hdec, dec.der _ _ (by omega), Option.getD_some, h60]
    rw [hb, hnb]
    omega

/-! ### The theorems at the 257-bit curve -/

example : ∃ sig, dstu_do_sign gEx keyEx [1] [some 1] = .done sig ∧ dstu_do_verify gEx keyEx [1] sig = true ∧ sig.length = 2 * numBytes gEx.n := by
  obtain ⟨sig, hs⟩ := signEx
  exact ⟨sig, hs, C23_raw_signature_verifies keyEx keyEx 1 rfl rfl [1] [some 1] draws_ex sig hs, (C26_range keyEx [1] [some 1] draws_ex sig hs).1⟩

example (type : KeyType) : dstu_pkey_verify octetDecoder type gEx keyEx (bytesBE 62 1) [1] = false :=
  C24_out_of_range_rejected octetDecoder type keyEx _ _ (by
    have : (body octetDecoder (bytesBE 62 1)).length < 2 * numBytes gEx.n := by decide +kernel
    tauto)

example (type : KeyType) (tbs : List Byte) (draws : List (Option Nat)) : dstu_pkey_sign type gEx keyEx true 65 tbs draws = .done ⟨false, pkey_size gEx, []⟩ :=
  C25_too_small type keyEx 65 tbs draws (by decide +kernel)
example (type : KeyType) := C25_written_size type keyEx 1000 [1] [some 1] draws_ex
example (junk tbs : List Byte) := C28_trailing_bytes_refuted octetDecoder .be keyEx (List.replicate 64 1) junk tbs (by decide)
example (tbs : List Byte) := C30_verify_reversed octetDecoder keyEx (List.replicate 64 1) tbs (by decide)
example (type : KeyType) (tbs : List Byte) := C67_raw_like_wrapped_partial octetDecoder type keyEx 5 (List.replicate 63 1) tbs (by decide) (by decide) (by decide) (by decide) (by decide)
example (type : KeyType) (tbs : List Byte) := C67_body_judged_partial octetDecoder type keyEx (5 :: List.replicate 63 1) tbs (by decide +kernel)
example := C27_digest_conversion_partial 257 (by decide) [1, 2] ⟨by simp, by decide⟩
example := C27_digest_conversion_refuted 8 [0, 2] (by decide) (by decide)
example : body octetDecoder (5 :: List.replicate 63 1) = body octetDecoder (5 :: List.replicate 63 1 ++ []) :=
  C28_unique_body_partial octetDecoder .be _ _ (by decide +kernel) (by decide +kernel) (by decide +kernel)

/-- Signing with the nonce 1, after the useless draws of an unusable digest. -/
example : ∃ r s, dstu_do_sign gEx keyEx [1] [some 1] = .done (bytesBE (numBytes gEx.n) s ++ bytesBE (numBytes gEx.n) r) ∧ dstu_do_sign gEx keyEx [1] [some 1] ≠ .waiting ∧
    dstu_do_sign gEx keyEx (List.replicate 32 0 ++ [2]) [some 1, some 1] = .waiting := by
  have h : fieldDegree gEx.p = 257 := gEx_numbers.2.2.2.2.2
  have hu : UsableDigest (fieldDegree gEx.p) [1] := by rw [h]; exact ⟨by simp, by decide⟩
  have hd : digestElem (fieldDegree gEx.p) [1] = 1 := by rw [h]; decide
  have hs := signsEx
  rw [← hd] at hs
  have h1 : 1 < gEx.n := gEx_numbers.2.2.1
  refine ⟨_, _, (C26_first_usable_nonce keyEx 1 rfl [1] hu [] 1 _ _ [] (by simp) h1 hs).1, C26_returns keyEx 1 rfl [1] hu [some 1] 1 _ _ (by simp) h1 hs,
    C26_unusable_digest_never_returns keyEx 1 rfl _ (by rw [h]; decide +kernel) (by decide +kernel) [1, 1] ?_⟩
  intro e he
  simp only [List.mem_cons, List.not_mem_nil, or_false, or_self] at he
  rw [he]
  exact ⟨h1, genEx_ne⟩

/-- A signature of each type, and its longer form. -/
example : ∃ be le, dstu_pkey_sign .be gEx keyEx true 1000 [1] [some 1] = .done be ∧ dstu_pkey_sign .le gEx keyEx true 1000 [1] [some 1] = .done le ∧ be.ret = true ∧
    (∃ raw, octetDecoder.d2i be.written = some raw ∧ octetDecoder.d2i le.written = some raw.reverse) := by
  obtain ⟨be, h1, h2⟩ := runEx .be
  obtain ⟨le, h3, _⟩ := runEx .le
  exact ⟨be, le, h1, h3, h2, (C30_byte_reversed octetDecoder keyEx (by decide +kernel) [1] 1000 [some 1] draws_ex be le h1 h3).2 h2⟩

/-- A signature the engine made, and another encoding of it. -/
example : ∃ out, dstu_pkey_sign .be gEx keyEx true 1000 [1] [some 1] = .done out ∧
    padded octetDecoder .be out.written ≠ out.written ∧ dstu_pkey_verify octetDecoder .be gEx keyEx (padded octetDecoder .be out.written) [1] = true := by
  obtain ⟨out, ho, hr⟩ := runEx .be
  have hv := C23_signature_verifies octetDecoder .be keyEx keyEx 1 rfl rfl gEx_numbers.2.2.2.1 [1] 1000 [some 1] draws_ex out ho hr
  have hb : (body octetDecoder out.written).length < 2 ^ 27 := by
    obtain ⟨sig, hs⟩ := signEx
    have hl := do_sign_length keyEx [1] [some 1] draws_ex sig hs
    have hsz : pkey_size gEx ≤ 1000 := by decide +kernel
    have hn : numBytes gEx.n = 32 := by decide +kernel
    unfold dstu_pkey_sign at ho
    simp only [true_and, if_true, hs] at ho
    rw [if_neg (by omega)] at ho
    cases ho
    simp only [body]
    have := octetDecoder.der sig [] (by omega)
    rw [List.append_nil] at this
    simp only [reduceCtorEq, if_false, this, Option.getD_some]
    omega
  have h := C28_unique_encoding_refuted octetDecoder .be keyEx out.written [1] hb hv
  exact ⟨out, ho, h.1, h.2.2.2⟩

end Dstu.Props
