import Verif.Props.Nonce
import Verif.Props.KeySpace
import Verif.Props.Message
import Verif.Props.PasswordKeys
import Mathlib.Combinatorics.Pigeonhole

/-!
# Property C122: a signature of a message vouches for the message
-/

namespace Dstu.Props

open Spec WeierstrassCurve

/-- The signature is accepted for the message: after some operations on digest contexts, the message is given in some pieces and verification succeeds. -/
def Vouches (dec : OctetDecoder) (type : KeyType) (g : EcGroup) [GoodGroup g] (key : EcKey g) (sbox : Option (Bytes 64)) (sig m : List Byte) : Prop :=
  ∃ (hist : List DigestOp) (h : MdHeap) (i j : Nat) (chunks : List (List Byte)),
    MdHeap.empty.run hist = some h ∧ i ≠ j ∧ chunks.flatten = m ∧ digestVerify dec type g key sbox h i j chunks sig = some true

section
variable {g : EcGroup} [hgood : GoodGroup g]

theorem vouches_iff (dec : OctetDecoder) (type : KeyType) (key : EcKey g) (sbox : Option (Bytes 64)) (sig m : List Byte) (hl : m.length < 2 ^ 60) :
    Vouches dec type g key sbox sig m ↔ dstu_pkey_verify dec type g key sig (gost34311 (tableOf (sbox.getD default_sbox)) m).toList = true := by
  constructor
  · rintro ⟨hist, h, i, j, chunks, hr, hij, rfl, hv⟩
    obtain ⟨h1, e1⟩ := messageDigest_eq hist h hr i j hij sbox chunks hl
    unfold digestVerify at hv
    rw [e1] at hv
    exact Option.some.inj hv
  · intro hv
    obtain ⟨h1, e1⟩ := messageDigest_eq [] MdHeap.empty rfl 0 1 (by decide) sbox [m] (by simpa using hl)
    refine ⟨[], MdHeap.empty, 0, 1, [m], rfl, by decide, by simp, ?_⟩
    unfold digestVerify
    rw [e1]
    simp only [List.flatten_cons, List.flatten_nil, List.append_nil, Option.bind_eq_bind, Option.bind_some, Option.pure_def]
    rw [hv]

/-- The pieces, the history and the contexts do not matter: a signature that is accepted for a message in one way is accepted in all. -/
theorem C122_any_way (dec : OctetDecoder) (type : KeyType) (key : EcKey g) (sbox : Option (Bytes 64)) (sig : List Byte) (chunks : List (List Byte)) (hl : chunks.flatten.length < 2 ^ 60)
    (hv : Vouches dec type g key sbox sig chunks.flatten) (hist : List DigestOp) (h : MdHeap) (hr : MdHeap.empty.run hist = some h) (i j : Nat) (hij : i ≠ j) :
    digestVerify dec type g key sbox h i j chunks sig = some true := by
  rw [vouches_iff _ _ _ _ _ _ hl] at hv
  obtain ⟨h1, e1⟩ := messageDigest_eq hist h hr i j hij sbox chunks hl
  unfold digestVerify
  rw [e1]
  simp only [Option.bind_eq_bind, Option.bind_some, Option.pure_def]
  rw [hv]
end

section
variable (nids : CurveNids) (i : Fin 10) (g : EcGroup) [hgood : GoodGroup g] (hg : group_from_named_curve nids i = some g)
include hg

/-- The digests of the messages for which one signature is accepted are, in the bits that are used, at most five. -/
theorem low_digests (dec : OctetDecoder) (type : KeyType) (key : EcKey g) (sbox : Option (Bytes 64)) (sig : List Byte) :
    {v | ∃ m : List Byte, m.length < 2 ^ 60 ∧ Vouches dec type g key sbox sig m ∧ v = leValue (gost34311 (tableOf (sbox.getD default_sbox)) m).toList % 2 ^ fieldDegree g.p}.Finite ∧
      {v | ∃ m : List Byte, m.length < 2 ^ 60 ∧ Vouches dec type g key sbox sig m ∧ v = leValue (gost34311 (tableOf (sbox.getD default_sbox)) m).toList % 2 ^ fieldDegree g.p}.ncard ≤ 5 := by
  obtain ⟨hf, hc⟩ := C108_digest_partial nids i g hg dec type key sig
  generalize hE : {h | ∃ tbs, h = digestElem (fieldDegree g.p) tbs ∧ dstu_pkey_verify dec type g key sig tbs = true} = E at hf hc
  have hsub : {v | ∃ m : List Byte, m.length < 2 ^ 60 ∧ Vouches dec type g key sbox sig m ∧ v = leValue (gost34311 (tableOf (sbox.getD default_sbox)) m).toList % 2 ^ fieldDegree g.p} ⊆
      insert 0 E := by
    rintro v ⟨m, hl, hv, e⟩
    rw [e]
    rw [vouches_iff _ _ _ _ _ _ hl] at hv
    generalize (gost34311 (tableOf (sbox.getD default_sbox)) m).toList = D at hv ⊢
    by_cases h0 : leValue D % 2 ^ fieldDegree g.p = 0
    · rw [h0]; exact Set.mem_insert _ _
    · refine Set.mem_insert_of_mem _ ?_
      rw [← hE]
      exact ⟨D, by rw [digestElem, if_neg h0], hv⟩
  have hfi := hf.insert 0
  exact ⟨hfi.subset hsub, (Set.ncard_le_ncard hsub hfi).trans ((Set.ncard_insert_le _ _).trans (by omega))⟩

/-- C122, what holds on every built-in curve: whatever the key, of any six messages for which one signature is accepted two have digests that agree in the bits used on the curve.
Missing: that this holds of any two messages, see C108. -/
theorem C122_message_partial (dec : OctetDecoder) (type : KeyType) (key : EcKey g) (sbox : Option (Bytes 64)) (sig : List Byte) (msgs : Finset (List Byte)) (h6 : 6 ≤ msgs.card)
    (hm : ∀ m ∈ msgs, m.length < 2 ^ 60 ∧ Vouches dec type g key sbox sig m) :
    ∃ m₁ ∈ msgs, ∃ m₂ ∈ msgs, m₁ ≠ m₂ ∧ leValue (gost34311 (tableOf (sbox.getD default_sbox)) m₁).toList % 2 ^ fieldDegree g.p =
      leValue (gost34311 (tableOf (sbox.getD default_sbox)) m₂).toList % 2 ^ fieldDegree g.p := by
  obtain ⟨hf, hc⟩ := low_digests nids i g hg dec type key sbox sig
  rw [Set.ncard_eq_toFinset_card _ hf] at hc
  obtain ⟨m₁, h1, m₂, h2, hne, he⟩ := Finset.exists_ne_map_eq_of_card_lt_of_maps_to (s := msgs) (t := hf.toFinset) (by omega)
    (f := fun m => leValue (gost34311 (tableOf (sbox.getD default_sbox)) m).toList % 2 ^ fieldDegree g.p)
    (fun m h => (Set.Finite.mem_toFinset hf).mpr ⟨m, (hm m h).1, (hm m h).2, rfl⟩)
  exact ⟨m₁, h1, m₂, h2, hne, he⟩

/-- C122 on the curves whose fields have room for a digest, those of degree 257 and more: of any six messages for which one signature is accepted, under any key, two are a collision of the
digest, and two of the steps made for them a collision of its step function. -/
theorem C122_collision_partial (hdeg : 256 ≤ fieldDegree g.p) (dec : OctetDecoder) (type : KeyType) (key : EcKey g) (sbox : Option (Bytes 64)) (sig : List Byte) (msgs : Finset (List Byte))
    (h6 : 6 ≤ msgs.card) (hm : ∀ m ∈ msgs, m.length < 2 ^ 60 ∧ Vouches dec type g key sbox sig m) :
    ∃ m₁ ∈ msgs, ∃ m₂ ∈ msgs, m₁ ≠ m₂ ∧ gost34311 (tableOf (sbox.getD default_sbox)) m₁ = gost34311 (tableOf (sbox.getD default_sbox)) m₂ ∧
      ∃ p ∈ hashSteps (tableOf (sbox.getD default_sbox)) m₁, ∃ q ∈ hashSteps (tableOf (sbox.getD default_sbox)) m₂,
        p ≠ q ∧ hStep (tableOf (sbox.getD default_sbox)) p.1 p.2 = hStep (tableOf (sbox.getD default_sbox)) q.1 q.2 := by
  obtain ⟨m₁, h1, m₂, h2, hne, he⟩ := C122_message_partial nids i g hg dec type key sbox sig msgs h6 hm
  have hlt : ∀ d : Bytes 32, leValue d.toList % 2 ^ fieldDegree g.p = leValue d.toList := by
    intro d
    have h := leValue_lt d.toList
    rw [Vector.length_toList, show (256 : Nat) ^ 32 = 2 ^ 256 from by norm_num] at h
    exact Nat.mod_eq_of_lt (h.trans_le (Nat.pow_le_pow_right (by omega) hdeg))
  rw [hlt, hlt] at he
  have hd := Vector.toList_inj.1 (leValue_injective (by simp) he)
  exact ⟨m₁, h1, m₂, h2, hne, hd, hash_collision _ m₁ m₂ (hm m₁ h1).1 (hm m₂ h2).1 hne hd⟩

/-- Any usable digest has a signature that is accepted. -/
theorem some_signature (dec : OctetDecoder) (type : KeyType) (d : Nat) (tbs : List Byte) (ht : UsableDigest (fieldDegree g.p) tbs) :
    ∃ sig, ∀ priv, dstu_pkey_verify dec type g ⟨priv, some (-(d • g.gen))⟩ sig tbs = true := by
  have hn : 7 + 2 < g.n := by
    have h1 := (named_order_size nids i g hg).1
    omega
  obtain ⟨hf, hc⟩ := C26_half_usable nids i g hg d tbs
  have : ∃ e, 0 < e ∧ e < g.n ∧ e ∉ unusableNonces g d (digestElem (fieldDegree g.p) tbs) := by
    by_contra hall
    push Not at hall
    have hsub : (↑(Finset.Ioo 0 g.n) : Set Nat) ⊆ unusableNonces g d (digestElem (fieldDegree g.p) tbs) := by
      intro e he
      rw [Finset.mem_coe, Finset.mem_Ioo] at he
      exact hall e he.1 he.2
    have := Set.ncard_le_ncard hsub hf
    rw [Set.ncard_coe_finset, Nat.card_Ioo] at this
    omega
  obtain ⟨e, h0, hen, hu⟩ := this
  have : ∃ r s, Signs g.gen g.n d (digestElem (fieldDegree g.p) tbs) e r s := by
    by_contra hno
    push Not at hno
    exact hu ⟨h0, hen, hno⟩
  obtain ⟨r, s, hs⟩ := this
  have hacc := signs_accepts d _ e r s hs
  obtain ⟨sig, h1, h2, h3, h4⟩ := pair_sig nids i g hg dec type r s hacc.2.1 hacc.2.2.2.1
  refine ⟨sig, fun priv => ?_⟩
  rw [C29_verify_iff_equation, h3, h4]
  exact ⟨h1, h2, ht.1, ht.2, _, rfl, hacc⟩

omit hg in
/-- What matters of a digest: zero for those that are never accepted. -/
theorem same_accepted (D E : List Byte) (hD : D ≠ []) (hE : E ≠ [])
    (he : (if leValue D % 2 ^ fieldDegree g.p = 0 ∧ leValue D ≠ 0 then 0 else digestElem (fieldDegree g.p) D) =
      if leValue E % 2 ^ fieldDegree g.p = 0 ∧ leValue E ≠ 0 then 0 else digestElem (fieldDegree g.p) E) (dec : OctetDecoder) (type : KeyType) (key : EcKey g) (sig : List Byte) :
    dstu_pkey_verify dec type g key sig D = true ↔ dstu_pkey_verify dec type g key sig E = true := by
  rw [C29_verify_iff_equation, C29_verify_iff_equation]
  have hb1 := (digestElem_bounds _ (mpos g.p) D).1
  have hb2 := (digestElem_bounds _ (mpos g.p) E).1
  split at he <;> split at he
  · rename_i u1 u2
    constructor
    · rintro ⟨_, _, _, h | h, _⟩
      · exact absurd u1.1 h
      · exact absurd h u1.2
    · rintro ⟨_, _, _, h | h, _⟩
      · exact absurd u2.1 h
      · exact absurd h u2.2
  · omega
  · omega
  · rename_i u1 u2
    have w1 : leValue D % 2 ^ fieldDegree g.p ≠ 0 ∨ leValue D = 0 := by tauto
    have w2 : leValue E % 2 ^ fieldDegree g.p ≠ 0 ∨ leValue E = 0 := by tauto
    rw [he]
    constructor
    · rintro ⟨a, b, _, _, c⟩; exact ⟨a, b, hE, w2, c⟩
    · rintro ⟨a, b, _, _, c⟩; exact ⟨a, b, hD, w1, c⟩

omit hg in
/-- C122 for any two messages, up to collisions of the digest, is false where the field is smaller than the digest: of any `2 ^ m + 1` messages, where `m` is the degree of the field, two are
exchangeable: the same signatures are accepted for both under every key.  (On the curves of degree 163 to 233 this is far less than the number of digests.) -/
theorem C122_short_refuted (sbox : Option (Bytes 64)) (msgs : Finset (List Byte)) (hc : 2 ^ fieldDegree g.p < msgs.card) (hl : ∀ m ∈ msgs, m.length < 2 ^ 60) :
    ∃ m₁ ∈ msgs, ∃ m₂ ∈ msgs, m₁ ≠ m₂ ∧ ∀ dec type key sig, Vouches dec type g key sbox sig m₁ ↔ Vouches dec type g key sbox sig m₂ := by
  obtain ⟨H, hH⟩ : ∃ H : List Byte → Bytes 32, H = gost34311 (tableOf (sbox.getD default_sbox)) := ⟨_, rfl⟩
  obtain ⟨m₁, h1, m₂, h2, hne, he⟩ := Finset.exists_ne_map_eq_of_card_lt_of_maps_to (s := msgs) (t := Finset.range (2 ^ fieldDegree g.p)) (by simpa using hc)
    (f := fun m => if leValue (H m).toList % 2 ^ fieldDegree g.p = 0 ∧ leValue (H m).toList ≠ 0 then 0 else digestElem (fieldDegree g.p) (H m).toList) (by
    intro m _
    rw [Finset.mem_coe, Finset.mem_range]
    dsimp only
    split
    · exact Nat.two_pow_pos _
    · exact (digestElem_bounds _ (mpos g.p) _).2)
  refine ⟨m₁, h1, m₂, h2, hne, fun dec type key sig => ?_⟩
  rw [vouches_iff _ _ _ _ _ _ (hl _ h1), vouches_iff _ _ _ _ _ _ (hl _ h2), ← hH]
  have hnil : ∀ d : Bytes 32, d.toList ≠ [] := fun d e => absurd (congrArg List.length e) (by simp)
  exact same_accepted g _ _ (hnil _) (hnil _) he dec type key sig

end

/-! ### Concrete cases -/

/-- All messages of 33 bytes. -/
def messages33 : Finset (List Byte) := Finset.univ.image password33

theorem password33_injective : Function.Injective password33 := by
  intro u v e
  funext i
  exact congrArg BitVec.toFin (congrFun (List.ofFn_injective e) i)

theorem messages33_card : messages33.card = 256 ^ 33 := by
  rw [messages33, Finset.card_image_of_injective _ password33_injective]
  simp

/-- Six messages for which one signature is accepted, on the default curve: there are six messages of 33 bytes with the same digest. -/
example (type : KeyType) : ∃ (sig : List Byte) (msgs : Finset (List Byte)), 6 ≤ msgs.card ∧ ∀ m ∈ msgs, m.length < 2 ^ 60 ∧ Vouches octetDecoder type gEx keyEx none sig m := by
  obtain ⟨H, hH⟩ : ∃ H : List Byte → Bytes 32, H = gost34311 (tableOf ((none : Option (Bytes 64)).getD default_sbox)) := ⟨_, rfl⟩
  obtain ⟨y, hy⟩ := Fintype.exists_lt_card_fiber_of_mul_lt_card (n := 5)
    (fun w => (⟨leNat (H (password33 w)).toList, by simpa using leNat_lt (H (password33 w)).toList⟩ : Fin (256 ^ 32))) (by
      simp only [Fintype.card_fun, Fintype.card_fin]
      norm_num)
  obtain ⟨F, hF⟩ : ∃ F, F = Finset.filter (fun w => (⟨leNat (H (password33 w)).toList, by simpa using leNat_lt (H (password33 w)).toList⟩ : Fin (256 ^ 32)) = y) Finset.univ := ⟨_, rfl⟩
  rw [← hF] at hy
  obtain ⟨w₀, hw₀⟩ := Finset.card_pos.mp ((Nat.zero_le 5).trans_lt hy)
  have hdeg : fieldDegree gEx.p = 257 := gEx_numbers.2.2.2.2.2
  have husable : UsableDigest (fieldDegree gEx.p) (H (password33 w₀)).toList := by
    refine ⟨fun e => absurd (congrArg List.length e) (by simp), ?_⟩
    have h := leValue_lt (H (password33 w₀)).toList
    rw [Vector.length_toList, show (256 : Nat) ^ 32 = 2 ^ 256 from by norm_num] at h
    rw [hdeg, Nat.mod_eq_of_lt (h.trans_le (Nat.pow_le_pow_right (by omega) (by omega)))]
    exact (em _).symm
  obtain ⟨sig, hsig⟩ := some_signature nidsEx 6 gEx gEx_named octetDecoder type 1 _ husable
  refine ⟨sig, F.image password33, ?_, ?_⟩
  rotate_left
  · intro m hm
    rw [Finset.mem_image] at hm
    obtain ⟨w, hw, hwm⟩ := hm
    rw [← hwm]
    refine ⟨password33_length w, (vouches_iff _ _ _ _ _ _ (password33_length w)).mpr ?_⟩
    have e : H (password33 w) = H (password33 w₀) := by
      rw [hF, Finset.mem_filter] at hw hw₀
      have h1 := hw.2
      have h2 := hw₀.2
      exact Vector.toList_inj.1 (leNat_inj _ _ (by simp) (Fin.mk.inj_iff.1 (h1.trans h2.symm)))
    rw [← hH, e]
    exact hsig _
  · rw [Finset.card_image_of_injective _ password33_injective]
    exact hy

set_option linter.constructorNameAsVariable false in
/-- The messages of 33 bytes are enough for two that are exchangeable, on the default curve and on all with smaller fields. -/
example (g : EcGroup) [GoodGroup g] (hd : fieldDegree g.p ≤ 257) : 2 ^ fieldDegree g.p < messages33.card ∧ ∀ m ∈ messages33, m.length < 2 ^ 60 := by
  refine ⟨?_, fun m hm => ?_⟩
  · have h : ∀ m ≤ 257, (2 : Nat) ^ m < (2 ^ 8) ^ 33 := by
      intro m hm
      rw [← pow_mul]
      exact Nat.pow_lt_pow_right (by decide) (hm.trans_lt (by decide))
    exact (h _ hd).trans_eq messages33_card.symm
  · rw [messages33, Finset.mem_image] at hm
    obtain ⟨w, _, hwm⟩ := hm
    rw [← hwm]
    exact password33_length w

end Dstu.Props
