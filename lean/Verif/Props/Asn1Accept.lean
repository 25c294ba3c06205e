import Verif.Spec.Asn1Ber
import Verif.Lemmas.TemplateBer
import Verif.Props.Asn1Keylib

/-! Properties C96 and C97: exactly which byte strings are read, and as what. -/

namespace Dstu.Props

open Dstu.Spec

theorem dec_int (c : List Byte) (v : Int) : Prim.integer.dec c = some v ↔ c = encInt v := by
  constructor
  · intro h; exact (Prim.dec_enc .integer c v h).symm
  · rintro rfl
    have := ok_int v
    simp only [Item.Ok, Prim.enc] at this
    exact this

theorem oidPadded_iff (start : Bool) (l : List Byte) : oidPadded start l = false ↔
    (start = true → l.head? ≠ some 0x80) ∧ ∀ i b c, l[i]? = some b → l[i + 1]? = some c → b < 0x80 → c ≠ 0x80 := by
  refine ⟨fun h => ?_, fun h => oidPadded_false start l h.1 h.2⟩
  induction l generalizing start with
  | nil => simp
  | cons b l ih =>
    simp only [oidPadded, Bool.or_eq_false_iff] at h
    obtain ⟨h1, h2⟩ := h
    obtain ⟨h3, h4⟩ := ih _ h2
    refine ⟨fun hs => ?_, ?_⟩
    · subst hs
      simpa using h1
    · intro i x c hx hc hlt
      cases i with
      | zero =>
        simp only [List.getElem?_cons_zero, Option.some.injEq] at hx
        subst hx
        rintro rfl
        refine h3 (by simpa using hlt) ?_
        simpa [List.head?_eq_getElem?] using hc
      | succ i => exact h4 i x c (by simpa using hx) (by simpa using hc) hlt

theorem dec_obj (c v : List Byte) : Prim.object.dec c = some v ↔
    v = c ∧ c.head? ≠ some 0x80 ∧ (∃ b, c.getLast? = some b ∧ b < 0x80) ∧ ∀ i b d, c[i]? = some b → c[i + 1]? = some d → b < 0x80 → d ≠ 0x80 := by
  simp only [Prim.dec]
  cases hl : c.getLast? with
  | none => simp
  | some b =>
    simp only [Option.some.injEq, exists_eq_left']
    have hp := oidPadded_iff true c
    simp only [forall_const] at hp
    by_cases hb : 0x80 ≤ b
    · simp only [hb, true_or, if_true]
      have : ¬ b < 0x80 := BitVec.not_lt.mpr hb
      exact ⟨fun h => (nomatch h), fun h => absurd h.2.2.1 this⟩
    · cases ho : oidPadded true c with
      | true =>
        simp only [or_true, if_true]
        have : ¬ (c.head? ≠ some 0x80 ∧ ∀ i b d, c[i]? = some b → c[i + 1]? = some d → b < 0x80 → d ≠ 0x80) := fun h => by
          rw [hp.mpr h] at ho; cases ho
        constructor
        · intro h; cases h
        · rintro ⟨_, h1, _, h2⟩; exact absurd ⟨h1, h2⟩ this
      | false =>
        have h := hp.mp ho
        simp only [hb, Bool.false_eq_true, or_self, if_false, Option.some.injEq]
        exact ⟨fun e => ⟨e.symm, h.1, BitVec.not_le.mp hb, h.2⟩, fun e => e.1.symm⟩

theorem enc_int (v : Int) (e : List Byte) : (Item.prim .integer).Enc v e ↔ AnyInteger v e := by
  simp only [Item.Enc, AnyInteger, shortest_iff]
  exact ⟨fun ⟨c, h1, h2⟩ => ⟨c, (dec_int c v).mp h1, h2⟩, fun ⟨c, h1, h2⟩ => ⟨c, (dec_int c v).mpr h1, h2⟩⟩

theorem enc_oct (v e : List Byte) : (Item.prim .octets).Enc v e ↔ AnyOctets v e := by
  simp only [Item.Enc, AnyOctets]
  exact ⟨fun ⟨c, h1, h2⟩ => by cases h1; exact h2, fun h => ⟨v, rfl, h⟩⟩

theorem enc_obj (v e : List Byte) : (Item.prim .object).Enc v e ↔ AnyObject v e := by
  simp only [Item.Enc, AnyObject]
  constructor
  · rintro ⟨c, h1, h2⟩
    obtain ⟨rfl, h3⟩ := (dec_obj _ _).mp h1
    exact ⟨h3, h2⟩
  · rintro ⟨h1, h2⟩
    exact ⟨v, (dec_obj _ _).mpr ⟨rfl, h1⟩, h2⟩

theorem enc_seq (fs : Fields) (v : fs.SeqVal) (e : List Byte) : (Item.seq fs).Enc v e ↔ ∃ c, fs.SeqEnc v c ∧ AnyElement 0x30 c e := by simp only [Item.Enc]

theorem enc_nil (v : Fields.nil.SeqVal) (c : List Byte) : Fields.nil.SeqEnc v c ↔ c = [] := by simp only [Fields.SeqEnc]

theorem enc_cons (i : Item) (r : Fields) (v : i.Val) (vs : r.SeqVal) (c : List Byte) :
    (Fields.cons false i r).SeqEnc (v, vs) c ↔ ∃ a b, i.Enc v a ∧ r.SeqEnc vs b ∧ c = a ++ b := by simp only [Fields.SeqEnc]

theorem enc_none (i : Item) (r : Fields) (vs : r.SeqVal) (c : List Byte) :
    (Fields.cons true i r).SeqEnc ((none : Option i.Val), vs) c ↔ r.SeqEnc vs c := by
  simp only [Fields.SeqEnc]
  exact ⟨fun ⟨a, b, h1, h2, h3⟩ => by subst h1; rw [h3]; exact h2, fun h => ⟨[], c, rfl, h, rfl⟩⟩

theorem enc_some (i : Item) (r : Fields) (v : i.Val) (vs : r.SeqVal) (c : List Byte) :
    (Fields.cons true i r).SeqEnc (some v, vs) c ↔ ∃ a b, i.Enc v a ∧ r.SeqEnc vs b ∧ c = a ++ b := by simp only [Fields.SeqEnc]

theorem enc_inl (o : Bool) (i : Item) (r : Fields) (v : i.Val) (e : List Byte) :
    (Item.choice (.cons o i r)).Enc (Sum.inl v : i.Val ⊕ r.ChoiceVal) e ↔ i.Enc v e := by simp only [Item.Enc, Fields.AltEnc]

theorem enc_inr (o : Bool) (i : Item) (r : Fields) (v : r.ChoiceVal) (e : List Byte) :
    (Item.choice (.cons o i r)).Enc (Sum.inr v : i.Val ⊕ r.ChoiceVal) e ↔ (Item.choice r).Enc v e := by simp only [Item.Enc, Fields.AltEnc]

theorem enc_poly (p : PolySpec) (e : List Byte) : itPolynomial.Enc p.val e ↔ AnyPolynomial p e := by
  cases p with
  | trinomial k => exact (enc_inl _ _ _ _ _).trans (enc_int _ _)
  | pentanomial k j l =>
    refine (enc_inr _ _ _ _ _).trans ((enc_inl _ _ _ _ _).trans ?_)
    simp only [itPentanomial, simple, AnyPolynomial, AnySequence, List.flatten_cons, List.flatten_nil]
    refine (enc_seq _ _ _).trans ?_
    constructor
    · rintro ⟨c, h, h5⟩
      obtain ⟨a1, b1, h1, k1, rfl⟩ := (enc_cons _ _ _ _ _).mp h
      obtain ⟨a2, b2, h2, k2, rfl⟩ := (enc_cons _ _ _ _ _).mp k1
      obtain ⟨a3, b3, h3, k3, rfl⟩ := (enc_cons _ _ _ _ _).mp k2
      rw [(enc_nil _ _).mp k3] at h5
      exact ⟨a1, a2, a3, (enc_int _ _).mp h1, (enc_int _ _).mp h2, (enc_int _ _).mp h3, h5⟩
    · rintro ⟨a1, a2, a3, h1, h2, h3, h5⟩
      exact ⟨_, (enc_cons _ _ _ _ _).mpr ⟨_, _, (enc_int _ _).mpr h1, (enc_cons _ _ _ _ _).mpr ⟨_, _, (enc_int _ _).mpr h2,
        (enc_cons _ _ _ _ _).mpr ⟨_, _, (enc_int _ _).mpr h3, (enc_nil _ _).mpr rfl, rfl⟩, rfl⟩, rfl⟩, h5⟩

theorem enc_field (m : Int) (p : PolySpec) (e : List Byte) : itBinaryField.Enc (m, p.val, ()) e ↔ ∃ em ep, AnyInteger m em ∧ AnyPolynomial p ep ∧ AnySequence [em, ep] e := by
  refine (enc_seq _ _ _).trans ?_
  simp only [AnySequence, List.flatten_cons, List.flatten_nil]
  constructor
  · rintro ⟨c, h, h5⟩
    obtain ⟨a1, b1, h1, k1, rfl⟩ := (enc_cons _ _ _ _ _).mp h
    obtain ⟨a2, b2, h2, k2, rfl⟩ := (enc_cons _ _ _ _ _).mp k1
    rw [(enc_nil _ _).mp k2] at h5
    exact ⟨a1, a2, (enc_int _ _).mp h1, (enc_poly _ _).mp h2, h5⟩
  · rintro ⟨a1, a2, h1, h2, h5⟩
    exact ⟨_, (enc_cons _ _ _ _ _).mpr ⟨_, _, (enc_int _ _).mpr h1, (enc_cons _ _ _ _ _).mpr ⟨_, _, (enc_poly _ _).mpr h2, (enc_nil _ _).mpr rfl, rfl⟩, rfl⟩, h5⟩

theorem enc_custom (s : CustomCurveSpec) (e : List Byte) : itCustomCurveSpec.Enc s.val e ↔ AnyCustomCurve s e := by
  refine (enc_seq _ _ _).trans ?_
  unfold AnyCustomCurve
  constructor
  · rintro ⟨c, h, h9⟩
    obtain ⟨a1, b1, h1, k1, rfl⟩ := (enc_cons _ _ _ _ _).mp h
    obtain ⟨a2, b2, h2, k2, rfl⟩ := (enc_cons _ _ _ _ _).mp k1
    obtain ⟨a3, b3, h3, k3, rfl⟩ := (enc_cons _ _ _ _ _).mp k2
    obtain ⟨a4, b4, h4, k4, rfl⟩ := (enc_cons _ _ _ _ _).mp k3
    obtain ⟨a5, b5, h5, k5, rfl⟩ := (enc_cons _ _ _ _ _).mp k4
    rw [(enc_nil _ _).mp k5] at h9
    obtain ⟨em, ep, h6, h7, h8⟩ := (enc_field _ _ _).mp h1
    refine ⟨em, ep, a1, a2, a3, a4, a5, h6, h7, h8, (enc_int _ _).mp h2, (enc_oct _ _).mp h3, (enc_int _ _).mp h4, (enc_oct _ _).mp h5, ?_⟩
    simpa only [AnySequence, List.flatten_cons, List.flatten_nil] using h9
  · rintro ⟨em, ep, a1, a2, a3, a4, a5, h6, h7, h8, h2, h3, h4, h5, h9⟩
    simp only [AnySequence, List.flatten_cons, List.flatten_nil] at h9
    exact ⟨_, (enc_cons _ _ _ _ _).mpr ⟨_, _, (enc_field _ _ _).mpr ⟨em, ep, h6, h7, h8⟩, (enc_cons _ _ _ _ _).mpr ⟨_, _, (enc_int _ _).mpr h2,
      (enc_cons _ _ _ _ _).mpr ⟨_, _, (enc_oct _ _).mpr h3, (enc_cons _ _ _ _ _).mpr ⟨_, _, (enc_int _ _).mpr h4,
      (enc_cons _ _ _ _ _).mpr ⟨_, _, (enc_oct _ _).mpr h5, (enc_nil _ _).mpr rfl, rfl⟩, rfl⟩, rfl⟩, rfl⟩, rfl⟩, h9⟩

theorem enc_curve (c : CurveSpec) (e : List Byte) : itCurveSpec.Enc c.val e ↔ AnyCurve c e := by
  cases c with
  | named oid => exact (enc_inl _ _ _ _ _).trans (enc_obj _ _)
  | custom s => exact (enc_inr _ _ _ _ _).trans ((enc_inl _ _ _ _ _).trans (enc_custom _ _))

theorem enc_params (p : AlgorithmParameters) (e : List Byte) : itAlgorithmParameters.Enc p.val e ↔ AnyParams p e := by
  obtain ⟨c, s⟩ := p
  refine (enc_seq _ _ _).trans ?_
  unfold AnyParams
  cases s with
  | none =>
    constructor
    · rintro ⟨d, h, h9⟩
      obtain ⟨a1, b1, h1, k1, rfl⟩ := (enc_cons _ _ _ _ _).mp h
      have k2 := (enc_none _ _ _ _).mp k1
      rw [(enc_nil _ _).mp k2] at h9
      refine ⟨a1, (enc_curve _ _).mp h1, ?_⟩
      simpa only [AnySequence, List.flatten_cons, List.flatten_nil] using h9
    · rintro ⟨a1, h1, h9⟩
      simp only [AnySequence, List.flatten_cons, List.flatten_nil] at h9
      exact ⟨_, (enc_cons _ _ _ _ _).mpr ⟨_, _, (enc_curve _ _).mpr h1, (enc_none _ _ _ _).mpr ((enc_nil _ _).mpr rfl), rfl⟩, h9⟩
  | some s =>
    constructor
    · rintro ⟨d, h, h9⟩
      obtain ⟨a1, b1, h1, k1, rfl⟩ := (enc_cons _ _ _ _ _).mp h
      obtain ⟨a2, b2, h2, k2, rfl⟩ := (enc_some _ _ _ _ _).mp k1
      rw [(enc_nil _ _).mp k2] at h9
      refine ⟨a1, (enc_curve _ _).mp h1, a2, (enc_oct _ _).mp h2, ?_⟩
      simpa only [AnySequence, List.flatten_cons, List.flatten_nil] using h9
    · rintro ⟨a1, h1, a2, h2, h9⟩
      simp only [AnySequence, List.flatten_cons, List.flatten_nil] at h9
      exact ⟨_, (enc_cons _ _ _ _ _).mpr ⟨_, _, (enc_curve _ _).mpr h1, (enc_some _ _ _ _ _).mpr ⟨_, _, (enc_oct _ _).mpr h2, (enc_nil _ _).mpr rfl, rfl⟩, rfl⟩, h9⟩

/-- C96: a byte string is read as parameters exactly if it starts with an encoding of them, with lengths in any definite form; the rest is left. -/
theorem C96_accepts (l rest : List Byte) (p : AlgorithmParameters) : d2i_params l = some (p, rest) ↔ ∃ e, AnyParams p e ∧ l = e ++ rest := by
  have h := itAlgorithmParameters.d2i_iff wf_params false l p.val rest
  simp only [enc_params] at h
  rw [← h]
  unfold d2i_params
  constructor
  · intro e
    split at e
    · rename_i v r hv
      simp only [Option.some.injEq, Prod.mk.injEq] at e
      obtain ⟨rfl, rfl⟩ := e
      rw [val_ofVal]; exact hv
    · cases e
  · intro e
    rw [e]
    simp only [ofVal_val]

/-- C96: likewise the parameters of the cipher. -/
theorem C96_cipher_accepts (l rest iv dke : List Byte) : d2i_cipher l = some ((iv, dke), rest) ↔ ∃ e, AnyCipherParams iv dke e ∧ l = e ++ rest := by
  have hw : itGost28147Parameters.WF := by simp [itGost28147Parameters, simple, Item.WF, Fields.SeqWF]
  have h := itGost28147Parameters.d2i_iff hw false l (iv, dke, ()) rest
  have hiff : ∀ e, itGost28147Parameters.Enc (iv, dke, ()) e ↔ AnyCipherParams iv dke e := by
    intro e
    refine (enc_seq _ _ _).trans ?_
    simp only [AnyCipherParams, AnySequence, List.flatten_cons, List.flatten_nil]
    constructor
    · rintro ⟨c, h, h5⟩
      obtain ⟨a1, b1, h1, k1, rfl⟩ := (enc_cons _ _ _ _ _).mp h
      obtain ⟨a2, b2, h2, k2, rfl⟩ := (enc_cons _ _ _ _ _).mp k1
      rw [(enc_nil _ _).mp k2] at h5
      exact ⟨a1, a2, (enc_oct _ _).mp h1, (enc_oct _ _).mp h2, h5⟩
    · rintro ⟨a1, a2, h1, h2, h5⟩
      exact ⟨_, (enc_cons _ _ _ _ _).mpr ⟨_, _, (enc_oct _ _).mpr h1, (enc_cons _ _ _ _ _).mpr ⟨_, _, (enc_oct _ _).mpr h2, (enc_nil _ _).mpr rfl, rfl⟩, rfl⟩, h5⟩
  simp only [hiff] at h
  rw [← h]
  unfold d2i_cipher
  constructor
  · intro e
    split at e
    · rename_i hv
      simp only [Option.some.injEq, Prod.mk.injEq] at e
      obtain ⟨⟨rfl, rfl⟩, rfl⟩ := e
      exact hv
    · cases e
  · intro e
    rw [e]

theorem enc_iit (type mac : List Byte) (pad : Option (List Byte)) (data e : List Byte) :
    itIITStore.Enc ((type, (mac, pad, ()), ()), data, ()) e ↔ AnyKey6File type mac pad data e := by
  have hp : ∀ e, itIITParams.Enc (mac, pad, ()) e ↔ ∃ em, AnyOctets mac em ∧ match pad with
      | none => AnySequence [em] e
      | some pad => ∃ eq, AnyOctets pad eq ∧ AnySequence [em, eq] e := by
    intro e
    refine (enc_seq _ _ _).trans ?_
    cases pad with
    | none =>
      simp only [AnySequence, List.flatten_cons, List.flatten_nil]
      constructor
      · rintro ⟨d, h, h9⟩
        obtain ⟨a1, b1, h1, k1, rfl⟩ := (enc_cons _ _ _ _ _).mp h
        have k2 := (enc_none _ _ _ _).mp k1
        rw [(enc_nil _ _).mp k2] at h9
        exact ⟨a1, (enc_oct _ _).mp h1, h9⟩
      · rintro ⟨a1, h1, h9⟩
        exact ⟨_, (enc_cons _ _ _ _ _).mpr ⟨_, _, (enc_oct _ _).mpr h1, (enc_none _ _ _ _).mpr ((enc_nil _ _).mpr rfl), rfl⟩, h9⟩
    | some s =>
      simp only [AnySequence, List.flatten_cons, List.flatten_nil]
      constructor
      · rintro ⟨d, h, h9⟩
        obtain ⟨a1, b1, h1, k1, rfl⟩ := (enc_cons _ _ _ _ _).mp h
        obtain ⟨a2, b2, h2, k2, rfl⟩ := (enc_some _ _ _ _ _).mp k1
        rw [(enc_nil _ _).mp k2] at h9
        exact ⟨a1, (enc_oct _ _).mp h1, a2, (enc_oct _ _).mp h2, h9⟩
      · rintro ⟨a1, h1, a2, h2, h9⟩
        exact ⟨_, (enc_cons _ _ _ _ _).mpr ⟨_, _, (enc_oct _ _).mpr h1, (enc_some _ _ _ _ _).mpr ⟨_, _, (enc_oct _ _).mpr h2, (enc_nil _ _).mpr rfl, rfl⟩, rfl⟩, h9⟩
  have hh : ∀ e, itIITHeader.Enc (type, (mac, pad, ()), ()) e ↔ ∃ et ep, AnyObject type et ∧ itIITParams.Enc (mac, pad, ()) ep ∧ AnySequence [et, ep] e := by
    intro e
    refine (enc_seq _ _ _).trans ?_
    simp only [AnySequence, List.flatten_cons, List.flatten_nil]
    constructor
    · rintro ⟨c, h, h5⟩
      obtain ⟨a1, b1, h1, k1, rfl⟩ := (enc_cons _ _ _ _ _).mp h
      obtain ⟨a2, b2, h2, k2, rfl⟩ := (enc_cons _ _ _ _ _).mp k1
      rw [(enc_nil _ _).mp k2] at h5
      exact ⟨a1, a2, (enc_obj _ _).mp h1, h2, h5⟩
    · rintro ⟨a1, a2, h1, h2, h5⟩
      exact ⟨_, (enc_cons _ _ _ _ _).mpr ⟨_, _, (enc_obj _ _).mpr h1, (enc_cons _ _ _ _ _).mpr ⟨_, _, h2, (enc_nil _ _).mpr rfl, rfl⟩, rfl⟩, h5⟩
  refine (enc_seq _ _ _).trans ?_
  unfold AnyKey6File
  constructor
  · rintro ⟨c, h, h9⟩
    obtain ⟨a1, b1, h1, k1, rfl⟩ := (enc_cons _ _ _ _ _).mp h
    obtain ⟨a2, b2, h2, k2, rfl⟩ := (enc_cons _ _ _ _ _).mp k1
    rw [(enc_nil _ _).mp k2] at h9
    obtain ⟨et, ep, h3, h4, h5⟩ := (hh _).mp h1
    obtain ⟨em, h6, h7⟩ := (hp _).mp h4
    exact ⟨et, em, ep, a1, a2, h3, h6, h7, h5, (enc_oct _ _).mp h2, by simpa only [AnySequence, List.flatten_cons, List.flatten_nil] using h9⟩
  · rintro ⟨et, em, ep, a1, a2, h3, h6, h7, h5, h2, h9⟩
    simp only [AnySequence, List.flatten_cons, List.flatten_nil] at h9
    exact ⟨_, (enc_cons _ _ _ _ _).mpr ⟨_, _, (hh _).mpr ⟨et, ep, h3, (hp _).mpr ⟨em, h6, h7⟩, h5⟩, (enc_cons _ _ _ _ _).mpr ⟨_, _, (enc_oct _ _).mpr h2, (enc_nil _ _).mpr rfl, rfl⟩, rfl⟩, h9⟩

theorem d2i_iit (l : List Byte) (s : IITStore) : d2i_IITStore l = some s ↔
    ∃ type mac pad data e rest, AnyKey6File type mac pad data e ∧ l = e ++ rest ∧ s = ⟨some ⟨some type, some ⟨mac, pad⟩⟩, some data⟩ := by
  unfold d2i_IITStore
  constructor
  · intro h
    split at h
    · rename_i v r hv
      match v, hv with
      | ((ty, (mac, pad, ()), ()), dat, ()), hv =>
        obtain ⟨e, h1, h2⟩ := itIITStore.only false l _ r hv
        simp only [IITStore.ofVal, Option.some.injEq] at h
        exact ⟨ty, mac, pad, dat, e, r, (enc_iit _ _ _ _ _).mp h1, h2, h.symm⟩
    · cases h
  · rintro ⟨type, mac, pad, data, e, rest, h1, rfl, rfl⟩
    rw [itIITStore.every wf_key6 _ e ((enc_iit _ _ _ _ _).mpr h1) false rest]
    rfl

/-- C97: a file that does not start with the encoding of a container with the identifier is refused, and changes nothing. -/
theorem C97_key6_accepts {κ χ : Type} (keys : List Byte → Option (Option (κ × Option κ))) (g : Garbage) (file password : List Byte)
    (h : ∀ mac pad data e, AnyKey6File oidIitStore mac pad data e → ¬ e <+: file) (ks : Option Nat) (m : ImpMem κ χ) :
    parseKey6 ⟨d2i_IITStore, keys⟩ g file password ks m = some (false, ks, m) := by
  unfold parseKey6
  split
  · rename_i type params data e
    obtain ⟨ty, mac, pad, dat, e', rest, h1, h2, h3⟩ := (d2i_iit _ _).mp e
    simp only [IITStore.mk.injEq, Option.some.injEq, IITHeader.mk.injEq] at h3
    obtain ⟨⟨rfl, rfl⟩, rfl⟩ := h3
    by_cases ht : type = iitStoreOID
    · exfalso
      subst ht
      exact h mac pad data e' h1 ⟨rest, h2.symm⟩
    · rw [if_pos ht]
  · rfl

/-- C97: a file that starts with an encoding of a container, with lengths in any definite form, is imported as this container is. -/
theorem C97_key6_any_file {κ χ : Type} (keys : List Byte → Option (Option (κ × Option κ))) (g : Garbage) (e rest password : List Byte) (blocks : List (Bytes 8))
    (mac data : List Byte) (pad : Option (List Byte)) (key : Bytes 32) (hk : Key6Key dke1 password key) (he : AnyKey6File oidIitStore mac pad data e)
    (hd : data ++ pad.getD [] = ecb dke1 key blocks) (hl : password.length < 2 ^ 60) (ks : Option Nat) (m : ImpMem κ χ) :
    ∃ tail, tail.length = 8 ∧
      parseKey6 ⟨d2i_IITStore, keys⟩ g (e ++ rest) password ks m = keysFromPKCS8 keys (blocks.flatMap Vector.toList ++ tail) ks m := by
  have h1 : d2i_IITStore (e ++ rest) = some ⟨some ⟨some oidIitStore, some ⟨mac, pad⟩⟩, some data⟩ :=
    (d2i_iit _ _).mpr ⟨_, mac, pad, data, e, rest, he, rfl, rfl⟩
  have h2 : Key6Container password blocks mac ⟨some ⟨some oidIitStore, some ⟨mac, pad⟩⟩, some data⟩ := ⟨key, data, pad, hk, rfl, hd⟩
  exact C61_contents ⟨d2i_IITStore, keys⟩ g (e ++ rest) password blocks mac _ h1 h2 hl ks m

/-- C97: the value of the attribute is read as a curve exactly if it starts with an encoding of it. -/
theorem C97_attr_accepts (l : List Byte) (s : CustomCurveSpec) :
    unpack_AttrCurveSpec l = some s ↔ ∃ dke dke1 e, AnyCurveAttr s dke dke1 e ∧ e <+: l := by
  have hiff : ∀ dke dke1 e, itAttrCurveSpec.Enc (s.val, dke, dke1, ()) e ↔ AnyCurveAttr s dke dke1 e := by
    intro dke dke1 e
    refine (enc_seq _ _ _).trans ?_
    simp only [AnyCurveAttr, AnySequence, List.flatten_cons, List.flatten_nil]
    constructor
    · rintro ⟨c, h, h5⟩
      obtain ⟨a1, b1, h1, k1, rfl⟩ := (enc_cons _ _ _ _ _).mp h
      obtain ⟨a2, b2, h2, k2, rfl⟩ := (enc_cons _ _ _ _ _).mp k1
      obtain ⟨a3, b3, h3, k3, rfl⟩ := (enc_cons _ _ _ _ _).mp k2
      rw [(enc_nil _ _).mp k3] at h5
      exact ⟨a1, a2, a3, (enc_custom _ _).mp h1, (enc_oct _ _).mp h2, (enc_oct _ _).mp h3, h5⟩
    · rintro ⟨a1, a2, a3, h1, h2, h3, h5⟩
      exact ⟨_, (enc_cons _ _ _ _ _).mpr ⟨_, _, (enc_custom _ _).mpr h1, (enc_cons _ _ _ _ _).mpr ⟨_, _, (enc_oct _ _).mpr h2,
        (enc_cons _ _ _ _ _).mpr ⟨_, _, (enc_oct _ _).mpr h3, (enc_nil _ _).mpr rfl, rfl⟩, rfl⟩, rfl⟩, h5⟩
  have hval : ∀ v, (CustomCurveSpec.ofVal v).val = v := by
    intro v
    match v with
    | ((m, .inl k, ()), a, b, n, bp, ()) => rfl
    | ((m, .inr (.inl (k, j, l, ())), ()), a, b, n, bp, ()) => rfl
  unfold unpack_AttrCurveSpec
  constructor
  · intro h
    split at h
    · rename_i c x y r hv
      cases h
      obtain ⟨e, h1, h2⟩ := itAttrCurveSpec.only false l _ r hv
      refine ⟨x, y, e, (hiff _ _ _).mp ?_, r, h2.symm⟩
      rw [hval]
      exact h1
    · cases h
  · rintro ⟨dke, dke1, e, h1, r, rfl⟩
    rw [itAttrCurveSpec.every wf_attr _ e ((hiff _ _ _).mpr h1) false r]
    obtain ⟨m, poly, a, b, n, bp⟩ := s
    cases poly <;> rfl

/-- An encoding with long lengths; with a byte more inside the sequence it is none, and nothing is read. -/
example : AnyParams ⟨.named oid257, none⟩ ([0x30, 0x82, 0x00, 0x10, 0x06, 0x81, 0x0d] ++ oid257) ∧
    d2i_params ([0x30, 0x10, 0x06, 0x0d] ++ oid257 ++ [0x05]) = none := by
  refine ⟨?_, by decide +kernel⟩
  have h : d2i_params ([0x30, 0x82, 0x00, 0x10, 0x06, 0x81, 0x0d] ++ oid257) = some (⟨.named oid257, none⟩, []) := by decide +kernel
  obtain ⟨e, h1, h2⟩ := (C96_accepts _ _ _).mp h
  rw [h2, List.append_nil]
  exact h1

/-- No file that starts with another byte than 0x30 is a container. -/
example (g : Garbage) (m : ImpMem Unit Unit) (rest password : List Byte) :
    parseKey6 ⟨d2i_IITStore, fun _ => some none⟩ g (0x31 :: rest) password none m = some (false, none, m) := by
  refine C97_key6_accepts _ _ _ _ ?_ _ _
  rintro mac pad data e ⟨_, _, _, _, _, _, _, _, _, _, l, _, rfl⟩ ⟨t, h⟩
  simp at h

end Dstu.Props
