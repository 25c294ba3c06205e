import Verif.Model.Message
import Verif.Props.Hash
import Verif.Props.Sign

/-! Signatures of messages: C79 and C80. -/

namespace Dstu.Props

open Spec WeierstrassCurve

/-! ### C79 -/

/-- C79.  Asked for the digest to be used with any key, the engine names the DSTU hash as the only one possible (the result is 2), and a signing context accepts this digest
and no other, whatever its state. -/
theorem C79_default_digest (mdNid baseId : Nat) (arg1 : Int) (algs : SignerAlgs) (nid : Nat) :
    dstu_asn1_pkey_ctrl mdNid baseId 3 arg1 algs nid = (2, algs, mdNid) ∧
      ∀ (s : KState) (c : Nat), s.data c ≠ none → ∀ p1 md, dstu_pkey_ctrl mdNid s c 1 p1 (.md md) = some (if md = mdNid then 1 else 0, s) := by
  refine ⟨rfl, fun s c hc p1 md => ?_⟩
  obtain ⟨a, ha⟩ := Option.ne_none_iff_exists'.mp hc
  unfold dstu_pkey_ctrl
  rw [ha]
  simp only [CTRL_SBOX, CTRL_CURVE, CTRL_MD]
  by_cases h : md = mdNid
  · subst h; simp
  · have h' : ¬ mdNid = md := fun e => h e.symm
    simp [h, h']

/-- C79.  A signer info of a PKCS#7 or CMS message that is signed with a key of the engine names the DSTU hash and the type of the key; when one is verified it is left as it is. -/
theorem C79_signer_info (mdNid baseId : Nat) (hb : baseId ≠ NID_undef) (op : Int) (hop : op = 1 ∨ op = 5) (algs : SignerAlgs) (nid : Nat) :
    dstu_asn1_pkey_ctrl mdNid baseId op 0 algs nid = (1, ⟨some mdNid, some baseId⟩, nid) ∧
      ∀ arg1, arg1 ≠ 0 → dstu_asn1_pkey_ctrl mdNid baseId op arg1 algs nid = (1, algs, nid) := by
  have h : op = ASN1_PKEY_CTRL_PKCS7_SIGN ∨ op = ASN1_PKEY_CTRL_CMS_SIGN := hop
  refine ⟨?_, fun arg1 ha => ?_⟩
  · unfold dstu_asn1_pkey_ctrl
    rw [if_pos h, if_pos rfl]
    simp only
    rw [if_neg hb]
  · unfold dstu_asn1_pkey_ctrl
    rw [if_pos h, if_neg ha]

/-- C79.  Other requests, such as encryption for the owner of a key, are refused without effect. -/
theorem C79_others_refused (mdNid baseId : Nat) (op arg1 : Int) (h1 : op ≠ 1) (h3 : op ≠ 3) (h5 : op ≠ 5) (algs : SignerAlgs) (nid : Nat) :
    dstu_asn1_pkey_ctrl mdNid baseId op arg1 algs nid = (0, algs, nid) := by
  unfold dstu_asn1_pkey_ctrl
  rw [if_neg (by simp only [ASN1_PKEY_CTRL_PKCS7_SIGN, ASN1_PKEY_CTRL_CMS_SIGN]; omega), if_neg (by simp only [ASN1_PKEY_CTRL_DEFAULT_MD_NID]; omega)]

/-- A context with data, and the identifiers of the two types of keys are not 0. -/
example : (KState.empty.setData 0 (some 4)).data 0 ≠ none ∧ (8 : Nat) ≠ NID_undef := by
  constructor
  · simp [KState.setData]
  · decide

/-! ### C80 -/

/-- The context that was copied and finished gives the hash of the message with the S-box of the key, or the default one. -/
theorem messageDigest_eq (hist : List DigestOp) (h : MdHeap) (hr : MdHeap.empty.run hist = some h) (i j : Nat) (hij : i ≠ j) (sbox : Option (Bytes 64))
    (chunks : List (List Byte)) (hl : chunks.flatten.length < 2 ^ 60) :
    ∃ h', messageDigest h i j sbox chunks = some (gost34311 (tableOf (sbox.getD default_sbox)) chunks.flatten, h') := by
  have hs := run_sim _ _ empty_sim hist h hr
  generalize Spec.Digests.run default_sbox (fun _ => none) hist = d at hs
  have hd1 : Digests.run default_sbox d [.new i, .init i sbox] i = some (.active (sbox.getD default_sbox) []) := by
    simp [Digests.run, Digests.step, Digests.put]
  have hd2 := updates_expected _ i _ [] chunks hd1
  rw [List.nil_append] at hd2
  have hd3 : Digests.run default_sbox d ([.new i, .init i sbox] ++ chunks.map (.update i) ++ [.new j, .copy j i]) j =
      some (.active (sbox.getD default_sbox) chunks.flatten) := by
    unfold Digests.run at hd2 ⊢
    rw [List.foldl_append, List.foldl_append]
    generalize List.foldl _ (List.foldl _ d _) _ = e at hd2
    simp [Digests.step, Digests.put, hd2, hij]
  have hlegal : Digests.LegalRun default_sbox d ([.new i, .init i sbox] ++ chunks.map (.update i) ++ [.new j, .copy j i]) := by
    rw [List.append_assoc, List.cons_append, List.cons_append, List.nil_append]
    refine ⟨trivial, by simp [Digests.Legal, Digests.step, Digests.put], ?_⟩
    have := updates_legal _ i _ [] chunks hd1 (by simpa using hl)
    generalize hd' : Digests.step default_sbox (Digests.step default_sbox d (.new i)) (.init i sbox) = d' at *
    have hd1' : Digests.run default_sbox d [.new i, .init i sbox] = d' := hd'
    rw [hd1'] at this
    clear hd3 hd2 hd1 hd' hd1' hs
    induction chunks generalizing d' with
    | nil => exact ⟨trivial, trivial, trivial⟩
    | cons c cs ih => exact ⟨this.1, ih (by simp only [List.flatten_cons, List.length_append] at hl; omega) _ this.2⟩
  obtain ⟨h2, e2⟩ := run_legal h d hs _ hlegal
  obtain ⟨h3, e3⟩ := sim_final h2 _ (run_sim h d hs _ h2 e2) j _ _ hd3 hl
  unfold messageDigest
  rw [e2]
  simp only [Option.bind_eq_bind, Option.bind_some, e3]
  exact ⟨_, rfl⟩

variable {g : EcGroup} [hg : GoodGroup g]

/-- C80.  A message that is signed is accepted: for all curves, keys with any S-box, messages of less than `2^60` bytes and ways to give them in parts, whatever other digests are
computed meanwhile, and random numbers below the order, if signing succeeds then verification with the public key and the same S-box succeeds. -/
theorem C80_message_round_trip (dec : OctetDecoder) (type : KeyType) (key vkey : EcKey g) (d : Nat) (hpriv : key.priv = some d) (hpub : vkey.pub = some (-(d • g.gen)))
    (hsize : numBytes g.n < 2 ^ 27) (sbox vsbox : Option (Bytes 64)) (hsb : sbox.getD default_sbox = vsbox.getD default_sbox) (hist hist' : List DigestOp) (h h' : MdHeap)
    (hr : MdHeap.empty.run hist = some h) (hr' : MdHeap.empty.run hist' = some h') (i j i' j' : Nat) (hij : i ≠ j) (hij' : i' ≠ j') (chunks chunks' : List (List Byte))
    (hc : chunks.flatten = chunks'.flatten) (hl : chunks.flatten.length < 2 ^ 60) (siglen : Nat) (draws : List (Option Nat)) (hdraws : ∀ e, some e ∈ draws → e < g.n) (out : SignOut)
    (hs : digestSign type g key sbox h i j chunks siglen draws = some (.done out)) (hret : out.ret = true) :
    digestVerify dec type g vkey vsbox h' i' j' chunks' out.written = some true := by
  obtain ⟨h1, e1⟩ := messageDigest_eq hist h hr i j hij sbox chunks hl
  obtain ⟨h2, e2⟩ := messageDigest_eq hist' h' hr' i' j' hij' vsbox chunks' (hc ▸ hl)
  unfold digestSign at hs
  unfold digestVerify
  rw [e1] at hs
  rw [e2]
  simp only [Option.bind_eq_bind, Option.bind_some, Option.some.injEq, Option.pure_def] at hs ⊢
  rw [hc, hsb] at hs
  exact C23_signature_verifies dec type key vkey d hpriv hpub hsize _ siglen draws hdraws out hs hret

/-- C80.  Verification of a message accepts exactly when the standards say so: the numbers of the signature satisfy the equation of DSTU 4145 for the hash of the message by
GOST 34.311-95 with the S-box of the key.  (A hash whose low bits are zero is excluded, see C27.) -/
theorem C80_message_verify_iff (dec : OctetDecoder) (type : KeyType) (key : EcKey g) (sbox : Option (Bytes 64)) (hist : List DigestOp) (h : MdHeap)
    (hr : MdHeap.empty.run hist = some h) (i j : Nat) (hij : i ≠ j) (chunks : List (List Byte)) (hl : chunks.flatten.length < 2 ^ 60) (sig : List Byte) :
    digestVerify dec type g key sbox h i j chunks sig = some true ↔
      (body dec sig).length % 2 = 0 ∧ 2 * numBytes g.n ≤ (body dec sig).length ∧
        (leValue (gost34311 (tableOf (sbox.getD default_sbox)) chunks.flatten).toList % 2 ^ fieldDegree g.p ≠ 0 ∨
          leValue (gost34311 (tableOf (sbox.getD default_sbox)) chunks.flatten).toList = 0) ∧
        ∃ Q, key.pub = some Q ∧
          Accepts g.gen Q g.n (digestElem (fieldDegree g.p) (gost34311 (tableOf (sbox.getD default_sbox)) chunks.flatten).toList) (rOf dec type sig) (sOf dec type sig) := by
  obtain ⟨h1, e1⟩ := messageDigest_eq hist h hr i j hij sbox chunks hl
  unfold digestVerify
  rw [e1]
  simp only [Option.bind_eq_bind, Option.bind_some, Option.some.injEq, Option.pure_def]
  rw [C29_verify_iff_equation]
  have hne : (gost34311 (tableOf (sbox.getD default_sbox)) chunks.flatten).toList ≠ [] := by
    intro e
    have := congrArg List.length e
    rw [Vector.length_toList] at this
    exact absurd this (by decide)
  constructor
  · rintro ⟨a, b, _, c⟩
    exact ⟨a, b, c⟩
  · rintro ⟨a, b, c⟩
    exact ⟨a, b, hne, c⟩

/-! An example: the message "123456" (see C17 for its hash) in two parts, private key 1, nonce 1. -/

/-- The hash as a number, its product with the abscissa of the base point, and the numbers of the signature. -/
def hashEx : Nat := 42287518673208236972933040321029186915937902940507601016134759845781670414486
def prodEx : Nat := 82797588940313408958778084855451515593530132003739977637358284790496125119439
def rEx : Nat := prodEx % 2 ^ 255
def sEx : Nat := (1 + 1 * rEx) % gEx.n

theorem msgEx_numbers : gEx.p = bitsOf [257, 12, 0] ∧ gEx.n.log2 = 255 ∧ hashEx < 2 ^ 257 ∧ gEx.gx < 2 ^ 257 ∧ prodEx < 2 ^ 257 ∧ rEx ≠ 0 ∧ sEx ≠ 0 ∧ fieldDegree gEx.p = 257 := by
  decide +kernel

set_option maxRecDepth 4000 in
theorem msgEx_slots :
    slotMul slotW 257 [12, 0] (slotMask slotW (2 * 257)) (spread slotW 257 hashEx) (spread slotW 257 gEx.gx) = spread slotW 257 prodEx := by
  decide +kernel

theorem slot_product (q m : Nat) (ks : List Nat) (hq : q = bitsOf (m :: ks)) (hm : 0 < m) (hmw : m < 2 ^ slotW) (hk : ∀ k ∈ ks, 2 * k ≤ m) (a b c : Nat) (h1 : a < 2 ^ m) (h2 : b < 2 ^ m) (h3 : c < 2 ^ m)
    (h : slotMul slotW m ks (slotMask slotW (2 * m)) (spread slotW m a) (spread slotW m b) = spread slotW m c) :
    GF.ofNat q a * GF.ofNat q b = GF.ofNat q c := by
  subst hq
  have := (slotRel_mul m ks hm hmw hk _ _ _ _ (slotRel_spread m ks a h1) (slotRel_spread m ks b h2)).2
  rw [h, (slotRel_spread m ks c h3).2] at this
  exact this.symm

theorem msgEx_prod : GF.ofNat gEx.p hashEx * GF.ofNat gEx.p gEx.gx = GF.ofNat gEx.p prodEx := by
  obtain ⟨hp, _, h1, h2, h3, _⟩ := msgEx_numbers
  exact slot_product _ 257 [12, 0] hp (by decide) (by decide) (by decide) _ _ _ h1 h2 h3 msgEx_slots

theorem msgEx_signs : Signs gEx.gen gEx.n 1 hashEx 1 rEx sEx := by
  obtain ⟨_, _, _, _, h5, _⟩ := gEx_numbers
  obtain ⟨hp0, hl, _, _, h3, hr, hs, hd⟩ := msgEx_numbers
  have hp := goodGroup_p gEx
  have hx := GF.toNat_ofNat gEx.p (by omega) gEx.gx instGoodGroupEx.valid.x_lt
  refine ⟨⟨_, _, binCurve_nonsingular (goodGroup_b gEx) instGoodGroupEx.valid.onCurve, ?_, ?_, ?_⟩, rfl, hr, hs⟩
  · rw [one_nsmul]; rfl
  · intro h0
    rw [h0, GF.toNat_zero gEx.p (by omega)] at hx
    exact h5 hx.symm
  · rw [elemToInt, msgEx_prod, hl, GF.toNat_ofNat gEx.p (by omega) prodEx (by rw [hd]; exact h3)]
    rfl

/-- The hash of the message, as the number that is signed. -/
theorem msgEx_digest : leValue (gost34311 (tableOf default_sbox) (ascii "123456")).toList = hashEx := by
  rw [gost34311_123456]; decide

/-- The hypotheses of the two theorems are met: the message is signed, and the signature accepted, for both types of keys. -/
example (type : KeyType) : ∃ out, digestSign type gEx keyEx none MdHeap.empty 0 1 [ascii "12", ascii "3456"] 1000 [some 1] = some (.done out) ∧ out.ret = true ∧
    digestVerify octetDecoder type gEx keyEx (some default_sbox) MdHeap.empty 0 1 [ascii "123", [], ascii "456"] out.written = some true := by
  obtain ⟨_, _, h3, h4, _, _⟩ := gEx_numbers
  obtain ⟨_, _, hb, _, _, _, _, hd⟩ := msgEx_numbers
  have hdraws : ∀ e, some e ∈ ([some 1] : List (Option Nat)) → e < gEx.n := by
    intro e he
    simp only [List.mem_singleton, Option.some.injEq] at he
    omega
  have hflat : [ascii "12", ascii "3456"].flatten = ascii "123456" := by decide
  have hdig : digestElem (fieldDegree gEx.p) (gost34311 (tableOf default_sbox) (ascii "123456")).toList = hashEx := by
    unfold digestElem
    rw [msgEx_digest, hd, Nat.mod_eq_of_lt hb, if_neg (by decide)]
  have hsig := (C26_first_usable_nonce keyEx 1 rfl (gost34311 (tableOf default_sbox) (ascii "123456")).toList
    ⟨by rw [gost34311_123456]; decide, by rw [msgEx_digest, hd, Nat.mod_eq_of_lt hb]; left; decide⟩ [] 1 rEx sEx [] (by simp) h3 (by rw [hdig]; exact msgEx_signs)).1
  rw [List.map_nil, List.nil_append] at hsig
  have hl := do_sign_length keyEx _ [some 1] hdraws _ hsig
  have hsz : pkey_size gEx ≤ 1000 := by decide +kernel
  have hrun : ∃ out, digestSign type gEx keyEx none MdHeap.empty 0 1 [ascii "12", ascii "3456"] 1000 [some 1] = some (.done out) ∧ out.ret = true := by
    obtain ⟨h1, e1⟩ := messageDigest_eq [] MdHeap.empty rfl 0 1 (by decide) none [ascii "12", ascii "3456"] (by decide)
    unfold digestSign
    rw [e1]
    simp only [Option.bind_eq_bind, Option.bind_some, Option.some.injEq, Option.pure_def, Option.getD_none]
    rw [hflat]
    unfold dstu_pkey_sign
    simp only [true_and, if_true, hsig]
    rw [if_neg (by omega), ← hl, reverse_bytes_eq]
    cases type <;> exact ⟨_, rfl, rfl⟩
  obtain ⟨out, ho, hr⟩ := hrun
  exact ⟨out, ho, hr, C80_message_round_trip octetDecoder type keyEx keyEx 1 rfl rfl h4 none (some default_sbox) rfl [] [] _ _ rfl rfl 0 1 0 1 (by decide) (by decide) _ _ (by decide)
    (by decide) 1000 [some 1] hdraws out ho hr⟩

example := C79_signer_info 7 8 (by decide) 5 (Or.inr rfl) ⟨none, none⟩ 0
example := C79_others_refused 7 8 2 0 (by decide) (by decide) (by decide) ⟨none, none⟩ 0
example (dec : OctetDecoder) (sig : List Byte) := C80_message_verify_iff dec .le keyEx none [] MdHeap.empty rfl 0 1 (by decide) [ascii "12", ascii "3456"] (by decide) sig

end Dstu.Props
