import Verif.Lemmas.BerExt
import Verif.Props.Asn1Accept
import Verif.Props.Sign

/-! Property C103: exactly which byte strings the decoder of OpenSSL reads, and as what. -/

namespace Dstu.Props

open Dstu.Spec

theorem benc_int (v : Int) (e : List Byte) : (Item.prim .integer).BEnc v e ↔ BerInteger v e := by
  simp only [Item.BEnc, Prim.BEnc, BerInteger, shortest_iff, reduceCtorEq, false_and, or_false]
  exact ⟨fun ⟨c, h1, h2⟩ => ⟨c, (dec_int c v).mp h1, h2⟩, fun ⟨c, h1, h2⟩ => ⟨c, (dec_int c v).mpr h1, h2⟩⟩

theorem benc_oct (v e : List Byte) : (Item.prim .octets).BEnc v e ↔ BerOctets v e := by
  simp only [Item.BEnc, Prim.BEnc, BerOctets, true_and]
  exact ⟨fun ⟨c, h1, h2⟩ => by cases h1; exact h2, fun h => ⟨v, rfl, h⟩⟩

theorem benc_obj (v e : List Byte) : (Item.prim .object).BEnc v e ↔ BerObject v e := by
  simp only [Item.BEnc, Prim.BEnc, BerObject, reduceCtorEq, false_and, or_false]
  constructor
  · rintro ⟨c, h1, h2⟩
    obtain ⟨rfl, h3⟩ := (dec_obj _ _).mp h1
    exact ⟨h3, h2⟩
  · rintro ⟨h1, h2⟩
    exact ⟨v, (dec_obj _ _).mpr ⟨rfl, h1⟩, h2⟩

theorem benc_seq (fs : Fields) (v : fs.SeqVal) (e : List Byte) : (Item.seq fs).BEnc v e ↔ ∃ c, fs.SeqBEnc v c ∧ BerConstructed 0 16 c e := by simp only [Item.BEnc]

theorem benc_nil (v : Fields.nil.SeqVal) (c : List Byte) : Fields.nil.SeqBEnc v c ↔ c = [] := by simp only [Fields.SeqBEnc]

theorem benc_cons (i : Item) (r : Fields) (v : i.Val) (vs : r.SeqVal) (c : List Byte) :
    (Fields.cons false i r).SeqBEnc (v, vs) c ↔ ∃ a b, i.BEnc v a ∧ r.SeqBEnc vs b ∧ c = a ++ b := by simp only [Fields.SeqBEnc]

theorem benc_none (i : Item) (r : Fields) (vs : r.SeqVal) (c : List Byte) :
    (Fields.cons true i r).SeqBEnc ((none : Option i.Val), vs) c ↔ r.SeqBEnc vs c := by
  simp only [Fields.SeqBEnc]
  exact ⟨fun ⟨a, b, h1, h2, h3⟩ => by subst h1; rw [h3]; exact h2, fun h => ⟨[], c, rfl, h, rfl⟩⟩

theorem benc_some (i : Item) (r : Fields) (v : i.Val) (vs : r.SeqVal) (c : List Byte) :
    (Fields.cons true i r).SeqBEnc (some v, vs) c ↔ ∃ a b, i.BEnc v a ∧ r.SeqBEnc vs b ∧ c = a ++ b := by simp only [Fields.SeqBEnc]

theorem benc_inl (o : Bool) (i : Item) (r : Fields) (v : i.Val) (e : List Byte) :
    (Item.choice (.cons o i r)).BEnc (Sum.inl v : i.Val ⊕ r.ChoiceVal) e ↔ i.BEnc v e := by simp only [Item.BEnc, Fields.AltBEnc]

theorem benc_inr (o : Bool) (i : Item) (r : Fields) (v : r.ChoiceVal) (e : List Byte) :
    (Item.choice (.cons o i r)).BEnc (Sum.inr v : i.Val ⊕ r.ChoiceVal) e ↔ (Item.choice r).BEnc v e := by simp only [Item.BEnc, Fields.AltBEnc]

theorem benc_poly (p : PolySpec) (e : List Byte) : itPolynomial.BEnc p.val e ↔ BerPolynomial p e := by
  cases p with
  | trinomial k => exact (benc_inl _ _ _ _ _).trans (benc_int _ _)
  | pentanomial k j l =>
    refine (benc_inr _ _ _ _ _).trans ((benc_inl _ _ _ _ _).trans ?_)
    simp only [itPentanomial, simple, BerPolynomial, BerSequence, List.flatten_cons, List.flatten_nil]
    refine (benc_seq _ _ _).trans ?_
    constructor
    · rintro ⟨c, h, h5⟩
      obtain ⟨a1, b1, h1, k1, rfl⟩ := (benc_cons _ _ _ _ _).mp h
      obtain ⟨a2, b2, h2, k2, rfl⟩ := (benc_cons _ _ _ _ _).mp k1
      obtain ⟨a3, b3, h3, k3, rfl⟩ := (benc_cons _ _ _ _ _).mp k2
      rw [(benc_nil _ _).mp k3] at h5
      exact ⟨a1, a2, a3, (benc_int _ _).mp h1, (benc_int _ _).mp h2, (benc_int _ _).mp h3, h5⟩
    · rintro ⟨a1, a2, a3, h1, h2, h3, h5⟩
      exact ⟨_, (benc_cons _ _ _ _ _).mpr ⟨_, _, (benc_int _ _).mpr h1, (benc_cons _ _ _ _ _).mpr ⟨_, _, (benc_int _ _).mpr h2,
        (benc_cons _ _ _ _ _).mpr ⟨_, _, (benc_int _ _).mpr h3, (benc_nil _ _).mpr rfl, rfl⟩, rfl⟩, rfl⟩, h5⟩

theorem benc_field (m : Int) (p : PolySpec) (e : List Byte) : itBinaryField.BEnc (m, p.val, ()) e ↔ ∃ em ep, BerInteger m em ∧ BerPolynomial p ep ∧ BerSequence [em, ep] e := by
  refine (benc_seq _ _ _).trans ?_
  simp only [BerSequence, List.flatten_cons, List.flatten_nil]
  constructor
  · rintro ⟨c, h, h5⟩
    obtain ⟨a1, b1, h1, k1, rfl⟩ := (benc_cons _ _ _ _ _).mp h
    obtain ⟨a2, b2, h2, k2, rfl⟩ := (benc_cons _ _ _ _ _).mp k1
    rw [(benc_nil _ _).mp k2] at h5
    exact ⟨a1, a2, (benc_int _ _).mp h1, (benc_poly _ _).mp h2, h5⟩
  · rintro ⟨a1, a2, h1, h2, h5⟩
    exact ⟨_, (benc_cons _ _ _ _ _).mpr ⟨_, _, (benc_int _ _).mpr h1, (benc_cons _ _ _ _ _).mpr ⟨_, _, (benc_poly _ _).mpr h2, (benc_nil _ _).mpr rfl, rfl⟩, rfl⟩, h5⟩

theorem benc_custom (s : CustomCurveSpec) (e : List Byte) : itCustomCurveSpec.BEnc s.val e ↔ BerCustomCurve s e := by
  refine (benc_seq _ _ _).trans ?_
  unfold BerCustomCurve
  constructor
  · rintro ⟨c, h, h9⟩
    obtain ⟨a1, b1, h1, k1, rfl⟩ := (benc_cons _ _ _ _ _).mp h
    obtain ⟨a2, b2, h2, k2, rfl⟩ := (benc_cons _ _ _ _ _).mp k1
    obtain ⟨a3, b3, h3, k3, rfl⟩ := (benc_cons _ _ _ _ _).mp k2
    obtain ⟨a4, b4, h4, k4, rfl⟩ := (benc_cons _ _ _ _ _).mp k3
    obtain ⟨a5, b5, h5, k5, rfl⟩ := (benc_cons _ _ _ _ _).mp k4
    rw [(benc_nil _ _).mp k5] at h9
    obtain ⟨em, ep, h6, h7, h8⟩ := (benc_field _ _ _).mp h1
    refine ⟨em, ep, a1, a2, a3, a4, a5, h6, h7, h8, (benc_int _ _).mp h2, (benc_oct _ _).mp h3, (benc_int _ _).mp h4, (benc_oct _ _).mp h5, ?_⟩
    simpa only [BerSequence, List.flatten_cons, List.flatten_nil] using h9
  · rintro ⟨em, ep, a1, a2, a3, a4, a5, h6, h7, h8, h2, h3, h4, h5, h9⟩
    simp only [BerSequence, List.flatten_cons, List.flatten_nil] at h9
    exact ⟨_, (benc_cons _ _ _ _ _).mpr ⟨_, _, (benc_field _ _ _).mpr ⟨em, ep, h6, h7, h8⟩, (benc_cons _ _ _ _ _).mpr ⟨_, _, (benc_int _ _).mpr h2,
      (benc_cons _ _ _ _ _).mpr ⟨_, _, (benc_oct _ _).mpr h3, (benc_cons _ _ _ _ _).mpr ⟨_, _, (benc_int _ _).mpr h4,
      (benc_cons _ _ _ _ _).mpr ⟨_, _, (benc_oct _ _).mpr h5, (benc_nil _ _).mpr rfl, rfl⟩, rfl⟩, rfl⟩, rfl⟩, rfl⟩, h9⟩

theorem benc_curve (c : CurveSpec) (e : List Byte) : itCurveSpec.BEnc c.val e ↔ BerCurve c e := by
  cases c with
  | named oid => exact (benc_inl _ _ _ _ _).trans (benc_obj _ _)
  | custom s => exact (benc_inr _ _ _ _ _).trans ((benc_inl _ _ _ _ _).trans (benc_custom _ _))

theorem benc_params (p : AlgorithmParameters) (e : List Byte) : itAlgorithmParameters.BEnc p.val e ↔ BerParams p e := by
  obtain ⟨c, s⟩ := p
  refine (benc_seq _ _ _).trans ?_
  unfold BerParams
  cases s with
  | none =>
    constructor
    · rintro ⟨d, h, h9⟩
      obtain ⟨a1, b1, h1, k1, rfl⟩ := (benc_cons _ _ _ _ _).mp h
      have k2 := (benc_none _ _ _ _).mp k1
      rw [(benc_nil _ _).mp k2] at h9
      refine ⟨a1, (benc_curve _ _).mp h1, ?_⟩
      simpa only [BerSequence, List.flatten_cons, List.flatten_nil] using h9
    · rintro ⟨a1, h1, h9⟩
      simp only [BerSequence, List.flatten_cons, List.flatten_nil] at h9
      exact ⟨_, (benc_cons _ _ _ _ _).mpr ⟨_, _, (benc_curve _ _).mpr h1, (benc_none _ _ _ _).mpr ((benc_nil _ _).mpr rfl), rfl⟩, h9⟩
  | some s =>
    constructor
    · rintro ⟨d, h, h9⟩
      obtain ⟨a1, b1, h1, k1, rfl⟩ := (benc_cons _ _ _ _ _).mp h
      obtain ⟨a2, b2, h2, k2, rfl⟩ := (benc_some _ _ _ _ _).mp k1
      rw [(benc_nil _ _).mp k2] at h9
      refine ⟨a1, (benc_curve _ _).mp h1, a2, (benc_oct _ _).mp h2, ?_⟩
      simpa only [BerSequence, List.flatten_cons, List.flatten_nil] using h9
    · rintro ⟨a1, h1, a2, h2, h9⟩
      simp only [BerSequence, List.flatten_cons, List.flatten_nil] at h9
      exact ⟨_, (benc_cons _ _ _ _ _).mpr ⟨_, _, (benc_curve _ _).mpr h1, (benc_some _ _ _ _ _).mpr ⟨_, _, (benc_oct _ _).mpr h2, (benc_nil _ _).mpr rfl, rfl⟩, rfl⟩, h9⟩

/-- C103: a byte string is read as parameters exactly if it starts with an encoding of them; the rest is left. -/
theorem C103_accepts (l rest : List Byte) (p : AlgorithmParameters) : ber_params l = some (p, rest) ↔ ∃ e, BerParams p e ∧ l = e ++ rest := by
  have h := itAlgorithmParameters.ber_iff wf_params false l p.val rest
  simp only [benc_params] at h
  rw [← h]
  unfold ber_params
  constructor
  · intro e
    split at e
    · rename_i v r hv
      simp only [Option.some.injEq, Prod.mk.injEq] at e
      obtain ⟨rfl, rfl⟩ := e
      rw [val_ofVal]; exact hv
    · cases e
  · intro e
    rw [e]
    simp only [ofVal_val]

/-- C103: likewise the parameters of the cipher. -/
theorem C103_cipher_accepts (l rest iv dke : List Byte) : ber_cipher l = some ((iv, dke), rest) ↔ ∃ e, BerCipherParams iv dke e ∧ l = e ++ rest := by
  have hw : itGost28147Parameters.WF := by simp [itGost28147Parameters, simple, Item.WF, Fields.SeqWF]
  have h := itGost28147Parameters.ber_iff hw false l (iv, dke, ()) rest
  have hiff : ∀ e, itGost28147Parameters.BEnc (iv, dke, ()) e ↔ BerCipherParams iv dke e := by
    intro e
    refine (benc_seq _ _ _).trans ?_
    simp only [BerCipherParams, BerSequence, List.flatten_cons, List.flatten_nil]
    constructor
    · rintro ⟨c, h, h5⟩
      obtain ⟨a1, b1, h1, k1, rfl⟩ := (benc_cons _ _ _ _ _).mp h
      obtain ⟨a2, b2, h2, k2, rfl⟩ := (benc_cons _ _ _ _ _).mp k1
      rw [(benc_nil _ _).mp k2] at h5
      exact ⟨a1, a2, (benc_oct _ _).mp h1, (benc_oct _ _).mp h2, h5⟩
    · rintro ⟨a1, a2, h1, h2, h5⟩
      exact ⟨_, (benc_cons _ _ _ _ _).mpr ⟨_, _, (benc_oct _ _).mpr h1, (benc_cons _ _ _ _ _).mpr ⟨_, _, (benc_oct _ _).mpr h2, (benc_nil _ _).mpr rfl, rfl⟩, rfl⟩, h5⟩
  simp only [hiff] at h
  rw [← h]
  unfold ber_cipher
  constructor
  · intro e
    split at e
    · rename_i hv
      simp only [Option.some.injEq, Prod.mk.injEq] at e
      obtain ⟨⟨rfl, rfl⟩, rfl⟩ := e
      exact hv
    · cases e
  · intro e
    rw [e]

theorem benc_iit (type mac : List Byte) (pad : Option (List Byte)) (data e : List Byte) :
    itIITStore.BEnc ((type, (mac, pad, ()), ()), data, ()) e ↔ BerKey6File type mac pad data e := by
  have hp : ∀ e, itIITParams.BEnc (mac, pad, ()) e ↔ ∃ em, BerOctets mac em ∧ match pad with
      | none => BerSequence [em] e
      | some pad => ∃ eq, BerOctets pad eq ∧ BerSequence [em, eq] e := by
    intro e
    refine (benc_seq _ _ _).trans ?_
    cases pad with
    | none =>
      simp only [BerSequence, List.flatten_cons, List.flatten_nil]
      constructor
      · rintro ⟨d, h, h9⟩
        obtain ⟨a1, b1, h1, k1, rfl⟩ := (benc_cons _ _ _ _ _).mp h
        have k2 := (benc_none _ _ _ _).mp k1
        rw [(benc_nil _ _).mp k2] at h9
        exact ⟨a1, (benc_oct _ _).mp h1, h9⟩
      · rintro ⟨a1, h1, h9⟩
        exact ⟨_, (benc_cons _ _ _ _ _).mpr ⟨_, _, (benc_oct _ _).mpr h1, (benc_none _ _ _ _).mpr ((benc_nil _ _).mpr rfl), rfl⟩, h9⟩
    | some s =>
      simp only [BerSequence, List.flatten_cons, List.flatten_nil]
      constructor
      · rintro ⟨d, h, h9⟩
        obtain ⟨a1, b1, h1, k1, rfl⟩ := (benc_cons _ _ _ _ _).mp h
        obtain ⟨a2, b2, h2, k2, rfl⟩ := (benc_some _ _ _ _ _).mp k1
        rw [(benc_nil _ _).mp k2] at h9
        exact ⟨a1, (benc_oct _ _).mp h1, a2, (benc_oct _ _).mp h2, h9⟩
      · rintro ⟨a1, h1, a2, h2, h9⟩
        exact ⟨_, (benc_cons _ _ _ _ _).mpr ⟨_, _, (benc_oct _ _).mpr h1, (benc_some _ _ _ _ _).mpr ⟨_, _, (benc_oct _ _).mpr h2, (benc_nil _ _).mpr rfl, rfl⟩, rfl⟩, h9⟩
  have hh : ∀ e, itIITHeader.BEnc (type, (mac, pad, ()), ()) e ↔ ∃ et ep, BerObject type et ∧ itIITParams.BEnc (mac, pad, ()) ep ∧ BerSequence [et, ep] e := by
    intro e
    refine (benc_seq _ _ _).trans ?_
    simp only [BerSequence, List.flatten_cons, List.flatten_nil]
    constructor
    · rintro ⟨c, h, h5⟩
      obtain ⟨a1, b1, h1, k1, rfl⟩ := (benc_cons _ _ _ _ _).mp h
      obtain ⟨a2, b2, h2, k2, rfl⟩ := (benc_cons _ _ _ _ _).mp k1
      rw [(benc_nil _ _).mp k2] at h5
      exact ⟨a1, a2, (benc_obj _ _).mp h1, h2, h5⟩
    · rintro ⟨a1, a2, h1, h2, h5⟩
      exact ⟨_, (benc_cons _ _ _ _ _).mpr ⟨_, _, (benc_obj _ _).mpr h1, (benc_cons _ _ _ _ _).mpr ⟨_, _, h2, (benc_nil _ _).mpr rfl, rfl⟩, rfl⟩, h5⟩
  refine (benc_seq _ _ _).trans ?_
  unfold BerKey6File
  constructor
  · rintro ⟨c, h, h9⟩
    obtain ⟨a1, b1, h1, k1, rfl⟩ := (benc_cons _ _ _ _ _).mp h
    obtain ⟨a2, b2, h2, k2, rfl⟩ := (benc_cons _ _ _ _ _).mp k1
    rw [(benc_nil _ _).mp k2] at h9
    obtain ⟨et, ep, h3, h4, h5⟩ := (hh _).mp h1
    obtain ⟨em, h6, h7⟩ := (hp _).mp h4
    exact ⟨et, em, ep, a1, a2, h3, h6, h7, h5, (benc_oct _ _).mp h2, by simpa only [BerSequence, List.flatten_cons, List.flatten_nil] using h9⟩
  · rintro ⟨et, em, ep, a1, a2, h3, h6, h7, h5, h2, h9⟩
    simp only [BerSequence, List.flatten_cons, List.flatten_nil] at h9
    exact ⟨_, (benc_cons _ _ _ _ _).mpr ⟨_, _, (hh _).mpr ⟨et, ep, h3, (hp _).mpr ⟨em, h6, h7⟩, h5⟩, (benc_cons _ _ _ _ _).mpr ⟨_, _, (benc_oct _ _).mpr h2, (benc_nil _ _).mpr rfl, rfl⟩, rfl⟩, h9⟩

theorem ber_iit (l : List Byte) (s : IITStore) : ber_IITStore l = some s ↔
    ∃ type mac pad data e rest, BerKey6File type mac pad data e ∧ l = e ++ rest ∧ s = ⟨some ⟨some type, some ⟨mac, pad⟩⟩, some data⟩ := by
  unfold ber_IITStore
  constructor
  · intro h
    split at h
    · rename_i v r hv
      match v, hv with
      | ((ty, (mac, pad, ()), ()), dat, ()), hv =>
        obtain ⟨e, h1, h2⟩ := itIITStore.bonly false l _ r hv
        simp only [IITStore.ofVal, Option.some.injEq] at h
        exact ⟨ty, mac, pad, dat, e, r, (benc_iit _ _ _ _ _).mp h1, h2, h.symm⟩
    · cases h
  · rintro ⟨type, mac, pad, data, e, rest, h1, rfl, rfl⟩
    rw [itIITStore.bevery wf_key6 _ e ((benc_iit _ _ _ _ _).mpr h1) false rest]
    rfl

/-- C103: a file that does not start with the encoding of a container with the identifier is refused, and changes nothing. -/
theorem C103_key6_accepts {κ χ : Type} (keys : List Byte → Option (Option (κ × Option κ))) (g : Garbage) (file password : List Byte)
    (h : ∀ mac pad data e, BerKey6File oidIitStore mac pad data e → ¬ e <+: file) (ks : Option Nat) (m : ImpMem κ χ) :
    parseKey6 ⟨ber_IITStore, keys⟩ g file password ks m = some (false, ks, m) := by
  unfold parseKey6
  split
  · rename_i type params data e
    obtain ⟨ty, mac, pad, dat, e', rest, h1, h2, h3⟩ := (ber_iit _ _).mp e
    simp only [IITStore.mk.injEq, Option.some.injEq, IITHeader.mk.injEq] at h3
    obtain ⟨⟨rfl, rfl⟩, rfl⟩ := h3
    by_cases ht : type = iitStoreOID
    · exfalso
      subst ht
      exact h mac pad data e' h1 ⟨rest, h2.symm⟩
    · rw [if_pos ht]
  · rfl

/-- C103: a file that starts with an encoding of a container, is imported as this container is. -/
theorem C103_key6_any_file {κ χ : Type} (keys : List Byte → Option (Option (κ × Option κ))) (g : Garbage) (e rest password : List Byte) (blocks : List (Bytes 8))
    (mac data : List Byte) (pad : Option (List Byte)) (key : Bytes 32) (hk : Key6Key dke1 password key) (he : BerKey6File oidIitStore mac pad data e)
    (hd : data ++ pad.getD [] = ecb dke1 key blocks) (hl : password.length < 2 ^ 60) (ks : Option Nat) (m : ImpMem κ χ) :
    ∃ tail, tail.length = 8 ∧
      parseKey6 ⟨ber_IITStore, keys⟩ g (e ++ rest) password ks m = keysFromPKCS8 keys (blocks.flatMap Vector.toList ++ tail) ks m := by
  have h1 : ber_IITStore (e ++ rest) = some ⟨some ⟨some oidIitStore, some ⟨mac, pad⟩⟩, some data⟩ :=
    (ber_iit _ _).mpr ⟨_, mac, pad, data, e, rest, he, rfl, rfl⟩
  have h2 : Key6Container password blocks mac ⟨some ⟨some oidIitStore, some ⟨mac, pad⟩⟩, some data⟩ := ⟨key, data, pad, hk, rfl, hd⟩
  exact C61_contents ⟨ber_IITStore, keys⟩ g (e ++ rest) password blocks mac _ h1 h2 hl ks m

/-- C103: the value of the attribute is read as a curve exactly if it starts with an encoding of it. -/
theorem C103_attr_accepts (l : List Byte) (s : CustomCurveSpec) :
    ber_AttrCurveSpec l = some s ↔ ∃ dke dke1 e, BerCurveAttr s dke dke1 e ∧ e <+: l := by
  have hiff : ∀ dke dke1 e, itAttrCurveSpec.BEnc (s.val, dke, dke1, ()) e ↔ BerCurveAttr s dke dke1 e := by
    intro dke dke1 e
    refine (benc_seq _ _ _).trans ?_
    simp only [BerCurveAttr, BerSequence, List.flatten_cons, List.flatten_nil]
    constructor
    · rintro ⟨c, h, h5⟩
      obtain ⟨a1, b1, h1, k1, rfl⟩ := (benc_cons _ _ _ _ _).mp h
      obtain ⟨a2, b2, h2, k2, rfl⟩ := (benc_cons _ _ _ _ _).mp k1
      obtain ⟨a3, b3, h3, k3, rfl⟩ := (benc_cons _ _ _ _ _).mp k2
      rw [(benc_nil _ _).mp k3] at h5
      exact ⟨a1, a2, a3, (benc_custom _ _).mp h1, (benc_oct _ _).mp h2, (benc_oct _ _).mp h3, h5⟩
    · rintro ⟨a1, a2, a3, h1, h2, h3, h5⟩
      exact ⟨_, (benc_cons _ _ _ _ _).mpr ⟨_, _, (benc_custom _ _).mpr h1, (benc_cons _ _ _ _ _).mpr ⟨_, _, (benc_oct _ _).mpr h2,
        (benc_cons _ _ _ _ _).mpr ⟨_, _, (benc_oct _ _).mpr h3, (benc_nil _ _).mpr rfl, rfl⟩, rfl⟩, rfl⟩, h5⟩
  have hval : ∀ v, (CustomCurveSpec.ofVal v).val = v := by
    intro v
    match v with
    | ((m, .inl k, ()), a, b, n, bp, ()) => rfl
    | ((m, .inr (.inl (k, j, l, ())), ()), a, b, n, bp, ()) => rfl
  unfold ber_AttrCurveSpec
  constructor
  · intro h
    split at h
    · rename_i c x y r hv
      cases h
      obtain ⟨e, h1, h2⟩ := itAttrCurveSpec.bonly false l _ r hv
      refine ⟨x, y, e, (hiff _ _ _).mp ?_, r, h2.symm⟩
      rw [hval]
      exact h1
    · cases h
  · rintro ⟨dke, dke1, e, h1, r, rfl⟩
    rw [itAttrCurveSpec.bevery wf_attr _ e ((hiff _ _ _).mpr h1) false r]
    obtain ⟨m, poly, a, b, n, bp⟩ := s
    cases poly <;> rfl

/-- C103: a byte string is read as an octet string exactly if it starts with an encoding of it. -/
theorem C103_octets_accepts (l c : List Byte) : ber_octets l = some c ↔ ∃ e, BerOctets c e ∧ e <+: l := by
  have hw : (Item.prim .octets).WF := by simp [Item.WF]
  unfold ber_octets
  constructor
  · intro h
    split at h
    · rename_i c' r hv
      cases h
      obtain ⟨e, h1, h2⟩ := (Item.prim .octets).bonly false l c r hv
      exact ⟨e, (benc_oct _ _).mp h1, r, h2.symm⟩
    · cases h
  · rintro ⟨e, h1, r, rfl⟩
    rw [(Item.prim .octets).bevery hw c e ((benc_oct _ _).mpr h1) false r]

/-- C103: everything that is read with lengths in a definite form, tags in the short form and strings in one piece is read as the same by the full decoder. -/
theorem C103_extends (l : List Byte) : (∀ x, d2i_params l = some x → ber_params l = some x) ∧ (∀ x, d2i_cipher l = some x → ber_cipher l = some x) ∧
    (∀ x, d2i_octets l = some x → ber_octets l = some x) ∧ (∀ x, d2i_IITStore l = some x → ber_IITStore l = some x) ∧
    (∀ x, unpack_AttrCurveSpec l = some x → ber_AttrCurveSpec l = some x) := by
  have hc : itGost28147Parameters.WF := by simp [itGost28147Parameters, simple, Item.WF, Fields.SeqWF]
  have ho : (Item.prim .octets).WF := by simp [Item.WF]
  refine ⟨fun x h => ?_, fun x h => ?_, fun x h => ?_, fun x h => ?_, fun x h => ?_⟩
  · unfold d2i_params at h
    split at h
    · rename_i v r hv
      rw [ber_params, itAlgorithmParameters.ber_extends wf_params false false l v r hv]
      exact h
    · cases h
  · unfold d2i_cipher at h
    split at h
    · rename_i hv
      rw [ber_cipher, itGost28147Parameters.ber_extends hc false false l _ _ hv]
      exact h
    · cases h
  · unfold d2i_octets at h
    split at h
    · rename_i hv
      rw [ber_octets, (Item.prim .octets).ber_extends ho false false l _ _ hv]
      exact h
    · cases h
  · unfold d2i_IITStore at h
    split at h
    · rename_i v r hv
      rw [ber_IITStore, itIITStore.ber_extends wf_key6 false false l v r hv]
      exact h
    · cases h
  · unfold unpack_AttrCurveSpec at h
    split at h
    · rename_i hv
      rw [ber_AttrCurveSpec, itAttrCurveSpec.ber_extends wf_attr false false l _ _ hv]
      exact h
    · cases h

/-- C103: the DER encoding of parameters is read as these parameters, whatever follows. -/
theorem C103_round_trip (p : AlgorithmParameters) (hp : ValidNames p) (e rest : List Byte) (he : IsParams p e) (hl : (i2d_params p).length < 2 ^ 28) : ber_params (e ++ rest) = some (p, rest) := by
  rw [(C96_layout p hl e).mp he]
  exact (C103_extends _).1 _ (C96_round_trip p hp hl rest)

/-- C103: whatever is read as parameters can be written in DER, and is then read as the same. -/
theorem C103_reencode (l rest : List Byte) (p : AlgorithmParameters) (hl : l.length < 2 ^ 26) (h : ber_params l = some (p, rest)) :
    IsParams p (i2d_params p) ∧ ∀ rest', ber_params (i2d_params p ++ rest') = some (p, rest') := by
  obtain ⟨e, h1, rfl⟩ := (C103_accepts l rest p).mp h
  rw [List.length_append] at hl
  obtain ⟨h2, h3⟩ := itAlgorithmParameters.bsound p.val e ((benc_params _ _).mpr h1) (by omega)
  have h3 : (i2d_params p).length ≤ 3 * e.length := h3
  refine ⟨(C96_layout p (by omega) _).mpr rfl, fun rest' => ?_⟩
  refine (C103_extends _).1 _ ?_
  have h3 : (itAlgorithmParameters.i2d p.val).length ≤ 3 * e.length := h3
  simp only [d2i_params, i2d_params, itAlgorithmParameters.round_trip wf_params p.val h2 (by omega) false rest', ofVal_val]

theorem ber_octets_tag (b : Byte) (rest : List Byte) (h1 : b ≠ 0x04) (h2 : b ≠ 0x24) (h3 : b ≠ 0x1f) (h4 : b ≠ 0x3f) : ber_octets (b :: rest) = none := by
  by_contra hc
  obtain ⟨c, hc⟩ := Option.ne_none_iff_exists'.mp hc
  obtain ⟨e, he, r, hr⟩ := (C103_octets_accepts _ _).mp hc
  have key : ∃ cst i q, BerIdentifier 0 cst 4 i ∧ e = i ++ q := by
    rcases he with ⟨i, l, h1, _, rfl⟩ | ⟨_, _, i, h1, ⟨l, _, rfl⟩ | rfl⟩
    · exact ⟨_, i, _, h1, rfl⟩
    · exact ⟨_, i, _, h1, rfl⟩
    · exact ⟨_, i, _, h1, rfl⟩
  obtain ⟨cst, i, q, ⟨x, g1, _, g3⟩, rfl⟩ := key
  have hx : x = b := by
    rcases g3 with ⟨_, _, rfl⟩ | ⟨_, _, more, last, _, _, _, rfl⟩ <;> simp only [List.cons_append, List.cons.injEq] at hr <;> exact hr.1
  subst hx
  have g4 : (x &&& 0x1f).toNat = 4 ∨ x &&& 0x1f = 0x1f := by
    rcases g3 with ⟨_, g, _⟩ | ⟨g, _⟩
    · exact Or.inl g
    · exact Or.inr g
  clear he hc hr g3
  have hall : ∀ x : Byte, x &&& 0xc0 = 0 → x ≠ 4 → x ≠ 0x24 → x ≠ 0x1f → x ≠ 0x3f → (x &&& 0x1f).toNat = 4 ∨ x &&& 0x1f = 0x1f → False := by decide +kernel
  exact hall x g1 h1 h2 h3 h4 g4

/-- C103: the full decoder is a codec as all theorems about keys and signatures assume it. -/
theorem C103_contract :
    (∃ c : ParamCodec, c.i2d = i2d_params ∧ c.d2i = fun l => (ber_params l).map (·.1)) ∧
    (∃ d : OctetDecoder, d.d2i = ber_octets) := by
  obtain ⟨⟨c, hc1, hc2⟩, ⟨d, hd⟩⟩ := C96_contract
  refine ⟨⟨⟨i2d_params, fun l => (ber_params l).map (·.1), ?_⟩, rfl, rfl⟩, ⟨⟨ber_octets, ?_, ber_octets_tag⟩, rfl⟩⟩
  · intro p rest hp
    have h := c.inv p rest hp
    rw [hc1, hc2] at h
    obtain ⟨x, h1, h2⟩ := Option.map_eq_some_iff.1 h
    rw [(C103_extends _).1 x h1, Option.map_some, h2]
  · intro c rest hl
    have h := d.der c rest hl
    rw [hd] at h
    exact (C103_extends _).2.2.1 _ h

/-- C103, signatures: what is judged is the string, in whatever form it is encoded and whatever follows. -/
theorem C103_signature_forms (dec : OctetDecoder) (hd : dec.d2i = ber_octets) (type : KeyType) {g : EcGroup} [GoodGroup g] (key : EcKey g) (c e rest tbs : List Byte)
    (he : BerOctets c e) (hl : c.length < 2 ^ 28) :
    dstu_pkey_verify dec type g key (e ++ rest) tbs = dstu_pkey_verify dec type g key (i2d_octet c) tbs := by
  have h1 : dec.d2i (e ++ rest) = some c := by
    rw [hd]
    exact (C103_octets_accepts _ _).mpr ⟨e, he, rest, rfl⟩
  have h2 := dec.der c [] hl
  rw [List.append_nil] at h2
  unfold dstu_pkey_verify
  rw [h1, h2]
  simp only [Option.getD_some]

/-- C103, signatures: bytes that do not start with an encoding of a string are judged as they are. -/
theorem C103_raw_signatures (dec : OctetDecoder) (hd : dec.d2i = ber_octets) (type : KeyType) {g : EcGroup} [GoodGroup g] (key : EcKey g) (raw tbs : List Byte)
    (h : ∀ c e, BerOctets c e → ¬ e <+: raw) (hl : raw.length < 2 ^ 28) :
    dstu_pkey_verify dec type g key raw tbs = dstu_pkey_verify dec type g key (i2d_octet raw) tbs := by
  have h1 : dec.d2i raw = none := by
    rw [hd]
    by_contra hc
    obtain ⟨c, hc⟩ := Option.ne_none_iff_exists'.mp hc
    obtain ⟨e, h1, h2⟩ := (C103_octets_accepts _ _).mp hc
    exact h c e h1 h2
  have h2 := dec.der raw [] hl
  rw [List.append_nil] at h2
  unfold dstu_pkey_verify
  rw [h1, h2]
  simp only [Option.getD_some, Option.getD_none]

/-- Parameters with indefinite length, tags in the long form and an S-box in pieces, nested, one of another type. -/
def berEx : List Byte := [0x3f, 0x80, 0x10, 0x80, 0x1f, 0x06, 0x81, 0x0d] ++ oid257 ++
  [0x24, 0x80, 0x04, 0x01, 0x01, 0x24, 0x06, 0x13, 0x02, 0x02, 0x03, 0x04, 0x00, 0x00, 0x00, 0x00, 0x00]

/-- They are read, with the bytes behind left, and so are an encoding; the other decoder does not read them. -/
example : BerParams ⟨.named oid257, some [1, 2, 3]⟩ berEx ∧ d2i_params berEx = none ∧
    ∀ rest', ber_params (i2d_params ⟨.named oid257, some [1, 2, 3]⟩ ++ rest') = some (⟨.named oid257, some [1, 2, 3]⟩, rest') := by
  have h : ber_params (berEx ++ []) = some (⟨.named oid257, some [1, 2, 3]⟩, []) := by decide +kernel
  refine ⟨?_, by decide +kernel, (C103_reencode _ [] _ (by decide) h).2⟩
  obtain ⟨e, h1, h2⟩ := (C103_accepts _ _ _).mp h
  rw [List.append_nil, List.append_nil] at h2
  rw [h2]
  exact h1

/-- Not read: a missing end mark, an end mark in contents of definite length, an indefinite length of a primitive element, an identifier in pieces, pieces nested six deep. -/
example : ber_params (berEx.take 36) = none ∧ ber_params ([0x30, 0x11, 0x06, 0x0d] ++ oid257 ++ [0x00, 0x00]) = none ∧ ber_octets [0x04, 0x80, 0x00, 0x00] = none ∧
    ber_params ([0x30, 0x11, 0x26, 0x0f, 0x06, 0x0d] ++ oid257) = none ∧
    ber_octets [0x24, 0x0d, 0x24, 0x0b, 0x24, 0x09, 0x24, 0x07, 0x24, 0x05, 0x24, 0x03, 0x04, 0x01, 0x07] = some [7] ∧
    ber_octets [0x24, 0x0f, 0x24, 0x0d, 0x24, 0x0b, 0x24, 0x09, 0x24, 0x07, 0x24, 0x05, 0x24, 0x03, 0x04, 0x01, 0x07] = none := by decide +kernel

/-- Cipher parameters with the initialisation vector in two pieces. -/
example : ∃ e, BerCipherParams [1, 2] [3] e ∧ [0x30, 0x80, 0x24, 0x06, 0x04, 0x01, 0x01, 0x04, 0x01, 0x02, 0x04, 0x01, 0x03, 0x00, 0x00, 0x55] = e ++ [0x55] :=
  (C103_cipher_accepts _ _ _ _).mp (by decide +kernel)

/-- A Key-6 file with indefinite lengths. -/
def key6Ber : List Byte := [0x30, 0x80, 0x30, 0x80, 0x06, 0x0c, 0x2b, 0x06, 0x01, 0x04, 0x01, 0x81, 0x97, 0x46, 0x01, 0x01, 0x01, 0x02, 0x30, 0x80, 0x04, 0x04, 1, 2, 3, 4, 0, 0, 0, 0,
  0x24, 0x80, 0x04, 0x02, 9, 8, 0x04, 0x01, 7, 0, 0, 0, 0]

example : (∃ s, ber_IITStore key6Ber = some s) ∧ ∃ mac pad data e, BerKey6File oidIitStore mac pad data e ∧ e <+: key6Ber := by
  have h : ∃ s, ber_IITStore key6Ber = some s ∧ s = ⟨some ⟨some oidIitStore, some ⟨[1, 2, 3, 4], none⟩⟩, some [9, 8, 7]⟩ := ⟨_, rfl, rfl⟩
  obtain ⟨s, h1, rfl⟩ := h
  refine ⟨⟨_, h1⟩, ?_⟩
  obtain ⟨ty, mac, pad, data, e, rest, h2, h3, h4⟩ := (ber_iit _ _).mp h1
  simp only [IITStore.mk.injEq, Option.some.injEq, IITHeader.mk.injEq] at h4
  obtain ⟨⟨rfl, _⟩, _⟩ := h4
  exact ⟨mac, pad, data, e, h2, rest, h3.symm⟩

/-- The curve attribute with indefinite lengths and a tag in the long form. -/
example : ∃ s dke dke1 e, BerCurveAttr s dke dke1 e ∧ e <+: [0x30, 0x80, 0x30, 0x80, 0x30, 0x07, 0x02, 0x01, 0x03, 0x1f, 0x02, 0x01, 0x01, 0x02, 0x01, 0x01, 0x04, 0x01, 0x05, 0x02, 0x01, 0x07, 0x04, 0x01, 0x06, 0, 0,
    0x04, 0x00, 0x24, 0x80, 0, 0, 0, 0] := by
  have h : ber_AttrCurveSpec [0x30, 0x80, 0x30, 0x80, 0x30, 0x07, 0x02, 0x01, 0x03, 0x1f, 0x02, 0x01, 0x01, 0x02, 0x01, 0x01, 0x04, 0x01, 0x05, 0x02, 0x01, 0x07, 0x04, 0x01, 0x06, 0, 0,
    0x04, 0x00, 0x24, 0x80, 0, 0, 0, 0] = some ⟨3, .trinomial 1, 1, [5], 7, [6]⟩ := by decide +kernel
  obtain ⟨dke, dke1, e, h1, h2⟩ := (C103_attr_accepts _ _).mp h
  exact ⟨_, dke, dke1, e, h1, h2⟩

/-- A signature in two pieces with indefinite length is judged like the signature in DER. -/
example (dec : OctetDecoder) (hd : dec.d2i = ber_octets) (type : KeyType) (tbs : List Byte) :
    dstu_pkey_verify dec type gEx keyEx ([0x24, 0x80, 0x04, 0x02, 1, 2, 0x04, 0x01, 3, 0, 0] ++ [0x99]) tbs = dstu_pkey_verify dec type gEx keyEx (i2d_octet [1, 2, 3]) tbs := by
  refine C103_signature_forms dec hd type keyEx [1, 2, 3] _ [0x99] tbs ?_ (by decide)
  obtain ⟨e, h1, h2⟩ := (C103_octets_accepts [0x24, 0x80, 0x04, 0x02, 1, 2, 0x04, 0x01, 3, 0, 0] [1, 2, 3]).mp (by decide +kernel)
  have h3 : ber_octets e = some [1, 2, 3] := (C103_octets_accepts _ _).mpr ⟨e, h1, List.prefix_rfl⟩
  rcases (List.prefix_concat_iff (l₁ := e) (l₂ := [0x24, 0x80, 0x04, 0x02, 1, 2, 0x04, 0x01, 3, 0]) (a := 0)).mp h2 with h | h
  · rw [h] at h1
    exact h1
  · exfalso
    rw [List.prefix_iff_eq_take] at h
    have hn : ∀ n ≤ 10, ber_octets (([0x24, 0x80, 0x04, 0x02, 1, 2, 0x04, 0x01, 3, 0] : List Byte).take n) = none := by decide +kernel
    by_cases hl : e.length ≤ 10
    · have := hn e.length hl
      rw [← h, h3] at this
      cases this
    · have := congrArg List.length h
      simp at this
      omega

/-- A raw signature that starts with the tag of a string but is not long enough for one is judged as it is. -/
example (dec : OctetDecoder) (hd : dec.d2i = ber_octets) (type : KeyType) (tbs : List Byte) :
    dstu_pkey_verify dec type gEx keyEx (0x04 :: 0x7f :: List.replicate 62 1) tbs = dstu_pkey_verify dec type gEx keyEx (i2d_octet (0x04 :: 0x7f :: List.replicate 62 1)) tbs := by
  refine C103_raw_signatures dec hd type keyEx _ tbs (fun c e h1 h2 => ?_) (by decide)
  have := (C103_octets_accepts _ _).mpr ⟨e, h1, h2⟩
  rw [show ber_octets (0x04 :: 0x7f :: List.replicate 62 1) = none by decide +kernel] at this
  cases this

end Dstu.Props
