import Verif.Spec.Asn1
import Verif.Lemmas.TemplateSound
import Verif.Props.Cipher

/-! Property C96: the encodings the ASN.1 templates make. -/

namespace Dstu.Props

open Dstu.Spec

theorem length_iff (n : Nat) (hn : n < 2 ^ 28) (l : List Byte) : IsLength n l ↔ l = derLen n := by
  unfold IsLength derLen
  by_cases h : n < 128
  · rw [if_pos h]
    constructor
    · rintro (⟨_, e⟩ | ⟨h', _⟩)
      · exact e
      · omega
    · intro e; exact Or.inl ⟨h, e⟩
  · rw [if_neg h]
    constructor
    · rintro (⟨h', _⟩ | ⟨_, r, h0, hr, hv, e⟩)
      · omega
      · have hlen : r.length = numBytes n := by
          apply le_antisymm
          · by_contra hc
            have hlt : n < 256 ^ (r.length - 1) := (numBytes_le n _).mp (by omega)
            cases r with
            | nil => simp at hc
            | cons b t =>
              have e1 : beValue (b :: t) = 256 ^ t.length * b.toNat + beValue t := by
                rw [show b :: t = [b] ++ t from rfl, beValue_append]
                simp [beValue, leValue]
              have hb : b.toNat ≠ 0 := by
                intro hb
                apply h0
                have : b = 0 := BitVec.eq_of_toNat_eq (by simpa using hb)
                simp [this]
              simp only [List.length_cons, Nat.add_sub_cancel] at hlt
              have : 256 ^ t.length ≤ 256 ^ t.length * b.toNat := Nat.le_mul_of_pos_right _ (by omega)
              omega
          · rw [numBytes_le, ← hv]; exact beValue_lt r
        have : r = bn2bin n := by
          apply beValue_injective
          · rw [bn2bin_length, hlen]
          · rw [beValue_bn2bin, hv]
        rw [e, this, bn2bin_length]
    · intro e
      refine Or.inr ⟨by omega, bn2bin n, ?_, ?_, beValue_bn2bin n, by rw [bn2bin_length, e]⟩
      · intro h0
        cases hb : bn2bin n with
        | nil => rw [hb] at h0; simp at h0
        | cons b t =>
          rw [hb] at h0
          simp only [List.head?_cons, Option.some.injEq] at h0
          subst h0
          have hv := beValue_bn2bin n
          have hl := bn2bin_length n
          rw [hb] at hv hl
          have e1 : beValue ((0 : Byte) :: t) = beValue t := by
            rw [show (0 : Byte) :: t = [0] ++ t from rfl, beValue_append]
            simp [beValue, leValue]
          rw [e1] at hv
          have := (numBytes_le n t.length).mpr (by rw [← hv]; exact beValue_lt t)
          simp only [List.length_cons] at hl
          omega
      · rw [bn2bin_length]
        have := numBytes_small n hn
        omega

theorem element_iff (tag : Byte) (c e : List Byte) (hc : c.length < 2 ^ 28) : IsElement tag c e ↔ e = tlv tag c := by
  unfold IsElement tlv
  constructor
  · rintro ⟨l, hl, rfl⟩
    rw [(length_iff _ hc l).mp hl]
  · rintro rfl
    exact ⟨_, (length_iff _ hc _).mpr rfl, rfl⟩

theorem twosValue_eq (c : List Byte) (hc : c ≠ []) : twosValue c = decInt c := by
  obtain ⟨b, t, rfl⟩ := List.exists_cons_of_ne_nil hc
  have e1 : beValue (b :: t) = 256 ^ t.length * b.toNat + beValue t := by
    rw [show b :: t = [b] ++ t from rfl, beValue_append]
    simp [beValue, leValue]
  have hT := beValue_lt t
  have hb := b.isLt
  have hiff : 128 ≤ b.toNat ↔ ¬ 2 * beValue (b :: t) < 256 ^ (b :: t).length := by
    rw [e1, List.length_cons, pow_succ]
    generalize 256 ^ t.length = P at *
    generalize beValue t = T at *
    generalize b.toNat = x at *
    constructor
    · intro h
      have : P * 128 ≤ P * x := Nat.mul_le_mul_left _ h
      omega
    · intro h
      by_contra hx
      have : P * x ≤ P * 127 := Nat.mul_le_mul_left _ (by omega)
      omega
  unfold twosValue decInt
  simp only
  by_cases h : 128 ≤ b.toNat
  · rw [if_pos h, if_neg (hiff.mp h)]
  · rw [if_neg h, if_pos (not_not.mp (fun hh => h (hiff.mpr hh))), Int.sub_zero]

/-- Every representation is at least as long as the one of the encoder. -/
theorem encInt_shortest (c : List Byte) (hc : c ≠ []) : (encInt (decInt c)).length ≤ c.length := by
  have hlt := beValue_lt c
  rw [encInt_len, intBytes_width]
  have hpos : 0 < c.length := List.length_pos_of_ne_nil hc
  have hw : width (decInt c) < 2 ^ (8 * c.length - 1) := by
    have e1 : (2 : Nat) ^ (8 * c.length - 1) * 2 = 256 ^ c.length := by
      rw [show (256 : Nat) = 2 ^ 8 by norm_num, ← pow_mul, ← pow_succ]
      congr 1
      omega
    have hz : ((256 : Int) ^ c.length) = ((256 ^ c.length : Nat) : Int) := by push_cast; rfl
    unfold width decInt
    rw [hz]
    generalize 256 ^ c.length = Q at *
    generalize beValue c = B at *
    generalize 2 ^ (8 * c.length - 1) = R at *
    split <;> split <;> omega
  have := (numBits_le _ _).mpr hw
  omega

theorem encInt_ne (v : Int) : encInt v ≠ [] := by
  intro h
  have := encInt_len v
  rw [h] at this
  simp [intBytes] at this

theorem shortest_iff (v : Int) (c : List Byte) :
    (c ≠ [] ∧ twosValue c = v ∧ ∀ c', c' ≠ [] → twosValue c' = v → c.length ≤ c'.length) ↔ c = encInt v := by
  have hne := encInt_ne v
  constructor
  · rintro ⟨h1, h2, h3⟩
    have hle := h3 _ hne (by rw [twosValue_eq _ hne, decInt_encInt])
    rw [twosValue_eq c h1] at h2
    have hge := encInt_shortest c h1
    rw [h2] at hge
    have hlen : c.length = (encInt v).length := by omega
    apply beValue_injective hlen
    have h5 := decInt_encInt v
    rw [← h2] at h5
    have b1 := beValue_lt c
    have b2 := beValue_lt (encInt (decInt c))
    rw [h2, ← hlen] at b2
    rw [h2] at h5
    have h6 : decInt (encInt v) = decInt c := by rw [h5, h2]
    unfold decInt at h6
    rw [← hlen] at h6
    have hz : ((256 : Int) ^ c.length) = ((256 ^ c.length : Nat) : Int) := by push_cast; rfl
    rw [hz] at h6
    generalize 256 ^ c.length = Q at *
    split at h6 <;> split at h6 <;> omega
  · rintro rfl
    refine ⟨hne, by rw [twosValue_eq _ hne, decInt_encInt], ?_⟩
    intro c' hc' hv
    rw [twosValue_eq c' hc'] at hv
    rw [← hv]
    exact encInt_shortest c' hc'

theorem integer_iff (v : Int) (e : List Byte) (hl : (encInt v).length < 2 ^ 28) : IsInteger v e ↔ e = tlv 0x02 (encInt v) := by
  unfold IsInteger
  simp only [shortest_iff]
  constructor
  · rintro ⟨c, rfl, h4⟩
    rwa [element_iff _ _ _ hl] at h4
  · rintro rfl
    exact ⟨encInt v, rfl, (element_iff _ _ _ hl).mpr rfl⟩

macro "flat" : tactic => `(tactic| (simp only [List.flatten_cons, List.flatten_nil, List.append_nil, List.length_append] at *; omega))

theorem poly_iff (poly : PolySpec) (e : List Byte) (hl : (derPoly poly).length < 2 ^ 28) : IsPolynomial poly e ↔ e = derPoly poly := by
  cases poly with
  | trinomial k =>
    simp only [derPoly, derInt] at hl
    exact integer_iff k e (lt_trans (tlv_ge _ _) hl)
  | pentanomial k j l =>
    simp only [derPoly] at hl
    have hc := lt_trans (tlv_ge _ _) hl
    simp only [List.length_append, derInt] at hc
    have hk := tlv_ge 0x02 (encInt k)
    have hj := tlv_ge 0x02 (encInt j)
    have hL := tlv_ge 0x02 (encInt l)
    simp only [IsPolynomial, derPoly, derInt, IsSequence]
    constructor
    · rintro ⟨ek, ej, el, h1, h2, h3, h4⟩
      rw [integer_iff k ek (by omega)] at h1
      rw [integer_iff j ej (by omega)] at h2
      rw [integer_iff l el (by omega)] at h3
      subst h1 h2 h3
      rw [element_iff _ _ _ (by flat)] at h4
      rw [h4]
      simp
    · rintro rfl
      refine ⟨_, _, _, (integer_iff k _ (by omega)).mpr rfl, (integer_iff j _ (by omega)).mpr rfl, (integer_iff l _ (by omega)).mpr rfl, ?_⟩
      rw [element_iff _ _ _ (by flat)]
      simp

theorem custom_iff (s : CustomCurveSpec) (e : List Byte) (hl : (derCustom s).length < 2 ^ 28) : IsCustomCurve s e ↔ e = derCustom s := by
  simp only [derCustom] at hl
  have hc := lt_trans (tlv_ge _ _) hl
  simp only [List.length_append, derInt] at hc
  have hf := tlv_ge 0x30 (tlv 0x02 (encInt s.m) ++ derPoly s.poly)
  have hm := tlv_ge 0x02 (encInt s.m)
  have ha := tlv_ge 0x02 (encInt s.a)
  have hn := tlv_ge 0x02 (encInt s.n)
  have hb := tlv_ge 0x04 s.b
  have hbp := tlv_ge 0x04 s.bp
  rw [List.length_append] at hf
  simp only [IsCustomCurve, IsSequence, IsOctets, derCustom, derInt]
  constructor
  · rintro ⟨em, ep, ef, ea, eb, en, ebp, h1, h2, h3, h4, h5, h6, h7, h8⟩
    rw [integer_iff _ _ (by omega)] at h1 h4 h6
    rw [poly_iff _ _ (by omega)] at h2
    subst h1 h2
    rw [element_iff _ _ _ (by flat)] at h3
    rw [element_iff _ _ _ (by omega)] at h5 h7
    subst h3 h4 h5 h6 h7
    rw [element_iff _ _ _ (by flat)] at h8
    rw [h8]
    simp
  · rintro rfl
    refine ⟨_, _, _, _, _, _, _, (integer_iff _ _ (by omega)).mpr rfl, (poly_iff _ _ (by omega)).mpr rfl, (element_iff _ _ _ (by flat)).mpr rfl,
      (integer_iff _ _ (by omega)).mpr rfl, (element_iff _ _ _ (by omega)).mpr rfl, (integer_iff _ _ (by omega)).mpr rfl, (element_iff _ _ _ (by omega)).mpr rfl, ?_⟩
    rw [element_iff _ _ _ (by flat)]
    simp

theorem curve_iff (c : CurveSpec) (e : List Byte) (hl : (derCurve c).length < 2 ^ 28) : IsCurve c e ↔ e = derCurve c := by
  cases c with
  | named oid => exact element_iff _ _ _ (lt_trans (tlv_ge _ _) hl)
  | custom s => exact custom_iff s e hl

theorem i2d_poly (poly : PolySpec) : itPolynomial.i2d poly.val = derPoly poly := by
  cases poly with
  | trinomial k => simp [PolySpec.val, itPolynomial, simple, Item.i2d, Fields.choiceI2d, derPoly, derInt, Prim.tag, Prim.enc]
  | pentanomial k j l =>
    simp [PolySpec.val, itPolynomial, itPentanomial, simple, Item.i2d, Fields.choiceI2d, Fields.seqI2d, derPoly, derInt, Prim.tag, Prim.enc]

theorem i2d_custom (s : CustomCurveSpec) : itCustomCurveSpec.i2d s.val = derCustom s := by
  have h := i2d_poly s.poly
  simp only [CustomCurveSpec.val, itCustomCurveSpec, itBinaryField, simple, Item.i2d, Fields.seqI2d, h, derCustom, derInt, Prim.tag, Prim.enc, List.append_nil, List.append_assoc]

theorem i2d_curve (c : CurveSpec) : itCurveSpec.i2d c.val = derCurve c := by
  cases c with
  | named oid => simp [CurveSpec.val, itCurveSpec, simple, Item.i2d, Fields.choiceI2d, derCurve, Prim.tag, Prim.enc]
  | custom s =>
    have h := i2d_custom s
    simp only [CurveSpec.val, itCurveSpec, simple, Item.i2d, Fields.choiceI2d, h, derCurve]

theorem i2d_params_eq (p : AlgorithmParameters) : i2d_params p = derParams p := by
  have h := i2d_curve p.curve
  obtain ⟨c, s⟩ := p
  cases s with
  | none => simp only [i2d_params, AlgorithmParameters.val, itAlgorithmParameters, Item.i2d, Fields.seqI2d, derParams] at h ⊢; simp [h]
  | some s => simp only [i2d_params, AlgorithmParameters.val, itAlgorithmParameters, Item.i2d, Fields.seqI2d, derParams, Prim.tag, Prim.enc] at h ⊢; simp [h]

/-- C96: the bytes written for the parameters are the DER encoding, and the only one. -/
theorem C96_layout (p : AlgorithmParameters) (hl : (i2d_params p).length < 2 ^ 28) (e : List Byte) : IsParams p e ↔ e = i2d_params p := by
  rw [i2d_params_eq] at hl ⊢
  obtain ⟨c, s⟩ := p
  simp only [derParams] at hl
  have hc := lt_trans (tlv_ge _ _) hl
  cases s with
  | none =>
    simp only [List.append_nil] at hc
    simp only [IsParams, IsSequence, derParams, List.append_nil]
    constructor
    · rintro ⟨ec, h1, h2⟩
      rw [curve_iff _ _ hc] at h1
      subst h1
      rw [element_iff _ _ _ (by simpa using hc)] at h2
      simpa using h2
    · rintro rfl
      refine ⟨_, (curve_iff _ _ hc).mpr rfl, ?_⟩
      rw [element_iff _ _ _ (by simpa using hc)]
      simp
  | some s =>
    simp only [List.length_append] at hc
    have hs := tlv_ge 0x04 s
    simp only [IsParams, IsSequence, IsOctets, derParams]
    constructor
    · rintro ⟨ec, h1, es, h2, h3⟩
      rw [curve_iff _ _ (by omega)] at h1
      rw [element_iff _ _ _ (by omega)] at h2
      subst h1 h2
      rw [element_iff _ _ _ (by flat)] at h3
      simpa using h3
    · rintro rfl
      refine ⟨_, (curve_iff _ _ (by omega)).mpr rfl, _, (element_iff _ _ _ (by omega)).mpr rfl, ?_⟩
      rw [element_iff _ _ _ (by flat)]
      simp

theorem oidPadded_false (start : Bool) (l : List Byte) (h0 : start = true → l.head? ≠ some 0x80)
    (h : ∀ i b c, l[i]? = some b → l[i + 1]? = some c → b < 0x80 → c ≠ 0x80) : oidPadded start l = false := by
  induction l generalizing start with
  | nil => rfl
  | cons b l ih =>
    have h1 : (start && decide (b = 0x80)) = false := by
      cases start with
      | false => rfl
      | true =>
        have := h0 rfl
        simpa using this
    have h2 := ih (b < 0x80) (fun hb hh => by
      cases l with
      | nil => simp at hh
      | cons c l =>
        simp only [List.head?_cons, Option.some.injEq] at hh
        exact h 0 b c rfl rfl (by simpa using hb) hh) (fun i x c hx hc => h (i + 1) x c (by simpa using hx) (by simpa using hc))
    simp only [oidPadded, h1, h2, Bool.or_self]

theorem object_ok (oid : List Byte) (h : ValidOid oid) : Prim.object.dec oid = some oid := by
  obtain ⟨hne, _, hh, hlast, hin⟩ := h
  have hp := oidPadded_false true oid (fun _ => hh) hin
  simp only [Prim.dec]
  cases hl : oid.getLast? with
  | none =>
    rw [List.getLast?_eq_none_iff] at hl
    exact absurd hl hne
  | some b =>
    have := hlast b hl
    simp only
    rw [if_neg]
    rw [hp]
    simp only [Bool.false_eq_true, or_false]
    exact BitVec.not_le.mpr this

/-- The identifier in the parameters, if any, is one. -/
def ValidNames (p : AlgorithmParameters) : Prop := ∀ oid, p.curve = .named oid → ValidOid oid

theorem wf_params : itAlgorithmParameters.WF := by
  simp [itAlgorithmParameters, itCurveSpec, itCustomCurveSpec, itBinaryField, itPolynomial, itPentanomial, simple, Item.WF, Fields.SeqWF, Fields.AltWF, Item.tags, Fields.altTags, Fields.first, Prim.tag]

theorem ok_seq {fs : Fields} {v : fs.SeqVal} (h : fs.SeqOk v) : (Item.seq fs).Ok v := by simpa only [Item.Ok] using h
theorem ok_choice {as : Fields} {v : as.ChoiceVal} (h : as.AltOk v) : (Item.choice as).Ok v := by simpa only [Item.Ok] using h
theorem ok_nil {v : Fields.nil.SeqVal} : Fields.nil.SeqOk v := by simp only [Fields.SeqOk]
theorem ok_simple {i : Item} {r : Fields} {v : i.Val} {vs : r.SeqVal} (h1 : i.Ok v) (h2 : r.SeqOk vs) : (Fields.cons false i r).SeqOk (v, vs) := by
  simp only [Fields.SeqOk]
  exact ⟨h1, h2⟩
theorem ok_opt {i : Item} {r : Fields} {v : Option i.Val} {vs : r.SeqVal} (h1 : ∀ w, v = some w → i.Ok w) (h2 : r.SeqOk vs) : (Fields.cons true i r).SeqOk (v, vs) := by
  simp only [Fields.SeqOk]
  exact ⟨h1, h2⟩
theorem ok_inl {o : Bool} {i : Item} {r : Fields} {v : i.Val} (h : i.Ok v) : (Fields.cons o i r).AltOk (Sum.inl v : i.Val ⊕ r.ChoiceVal) := by
  simp only [Fields.AltOk]
  exact h
theorem ok_inr {o : Bool} {i : Item} {r : Fields} {v : r.ChoiceVal} (h : r.AltOk v) : (Fields.cons o i r).AltOk (Sum.inr v : i.Val ⊕ r.ChoiceVal) := by
  simp only [Fields.AltOk]
  exact h
theorem ok_int (v : Int) : (Item.prim .integer).Ok v := by
  simp only [Item.Ok, Prim.enc]
  exact integer_ok v
theorem ok_oct (v : List Byte) : (Item.prim .octets).Ok v := by
  simp only [Item.Ok, Prim.enc, Prim.dec]
  rfl

theorem ok_poly (p : PolySpec) : itPolynomial.Ok p.val := by
  cases p with
  | trinomial k => exact ok_choice (ok_inl (ok_int k))
  | pentanomial k j l => exact ok_choice (ok_inr (ok_inl (ok_seq (ok_simple (ok_int k) (ok_simple (ok_int j) (ok_simple (ok_int l) ok_nil))))))

theorem ok_custom (s : CustomCurveSpec) : itCustomCurveSpec.Ok s.val :=
  ok_seq (ok_simple (ok_seq (ok_simple (ok_int s.m) (ok_simple (ok_poly s.poly) ok_nil)))
    (ok_simple (ok_int s.a) (ok_simple (ok_oct s.b) (ok_simple (ok_int s.n) (ok_simple (ok_oct s.bp) ok_nil)))))

theorem ok_params (p : AlgorithmParameters) (h : ValidNames p) : itAlgorithmParameters.Ok p.val := by
  obtain ⟨c, s⟩ := p
  refine ok_seq (ok_simple ?_ (ok_opt (fun w _ => ok_oct w) ok_nil))
  cases c with
  | named oid =>
    refine ok_choice (ok_inl ?_)
    simp only [Item.Ok, Prim.enc]
    exact object_ok oid (h oid rfl)
  | custom t => exact ok_choice (ok_inr (ok_inl (ok_custom t)))

theorem ofVal_val (p : AlgorithmParameters) : AlgorithmParameters.ofVal p.val = p := by
  obtain ⟨c, s⟩ := p
  cases c with
  | named oid => rfl
  | custom t =>
    obtain ⟨m, poly, a, b, n, bp⟩ := t
    cases poly <;> rfl

theorem val_ofVal (v : itAlgorithmParameters.Val) : (AlgorithmParameters.ofVal v).val = v := by
  match v with
  | (.inl _, _, ()) => rfl
  | (.inr (.inl ((_, .inl _, ()), _, _, _, _, ())), _, ()) => rfl
  | (.inr (.inl ((_, .inr (.inl (_, _, _, ())), ()), _, _, _, _, ())), _, ()) => rfl

/-- C96: what is written is read back, whatever follows it. -/
theorem C96_round_trip (p : AlgorithmParameters) (hp : ValidNames p) (hl : (i2d_params p).length < 2 ^ 28) (rest : List Byte) :
    d2i_params (i2d_params p ++ rest) = some (p, rest) := by
  simp only [d2i_params, i2d_params, itAlgorithmParameters.round_trip wf_params p.val (ok_params p hp) hl false rest, ofVal_val]

/-- C96: two encodings of parameters that agree, whatever follows them, are encodings of the same parameters. -/
theorem C96_unambiguous (p q : AlgorithmParameters) (hp : ValidNames p) (hq : ValidNames q) (hl : (i2d_params p).length < 2 ^ 28)
    (hl' : (i2d_params q).length < 2 ^ 28) (r r' : List Byte) (h : i2d_params p ++ r = i2d_params q ++ r') : p = q ∧ r = r' := by
  have h1 := C96_round_trip p hp hl r
  rw [h, C96_round_trip q hq hl' r'] at h1
  simp only [Option.some.injEq, Prod.mk.injEq] at h1
  exact ⟨h1.1.symm, h1.2.symm⟩

/-- C96: whatever is read, also from an encoding with superfluous bytes, leaves the rest of the input behind, can be written, in no more bytes, and is then read as the same. -/
theorem C96_reencode (l rest : List Byte) (p : AlgorithmParameters) (hl : l.length < 2 ^ 28) (h : d2i_params l = some (p, rest)) :
    (∃ used, l = used ++ rest ∧ (i2d_params p).length ≤ used.length) ∧ ∀ rest', d2i_params (i2d_params p ++ rest') = some (p, rest') := by
  simp only [d2i_params] at h
  split at h
  · rename_i v r e
    simp only [Option.some.injEq, Prod.mk.injEq] at h
    obtain ⟨rfl, rfl⟩ := h
    obtain ⟨h1, h2, used, h3⟩ := itAlgorithmParameters.sound false l v r e
    refine ⟨⟨used, h3.symm, ?_⟩, ?_⟩
    · rw [i2d_params, val_ofVal]
      rw [← h3, List.length_append] at h2
      omega
    · intro rest'
      simp only [d2i_params, i2d_params, val_ofVal, itAlgorithmParameters.round_trip wf_params v h1 (by omega) false rest']
  · cases h

/-- C96: the parameters the cipher writes by hand are those of the template, which is the DER encoding, and the template reads them. -/
theorem C96_cipher (ctx : CipherCtx) (rest : List Byte) :
    IsCipherParams ctx.oiv.toList (pack_sbox (dstu_get_sbox ctx.g)).toList (dstu_cipher_set_asn1_parameters ctx) ∧
    dstu_cipher_set_asn1_parameters ctx = i2d_cipher ctx.oiv.toList (pack_sbox (dstu_get_sbox ctx.g)).toList ∧
    d2i_cipher (dstu_cipher_set_asn1_parameters ctx ++ rest) = some ((ctx.oiv.toList, (pack_sbox (dstu_get_sbox ctx.g)).toList), rest) := by
  generalize hp : pack_sbox (dstu_get_sbox ctx.g) = p
  have hx : dstu_cipher_set_asn1_parameters ctx = [0x30, 76] ++ ([4, 8] ++ ctx.oiv.toList ++ ([4, 64] ++ p.toList)) := by
    simp only [dstu_cipher_set_asn1_parameters, hp, List.append_assoc]
    rfl
  have li : ctx.oiv.toList.length = 8 := by simp
  have lp : p.toList.length = 64 := by simp
  have e1 : tlv 0x04 ctx.oiv.toList = [4, 8] ++ ctx.oiv.toList := by
    simp only [tlv, li]; rfl
  have e2 : tlv 0x04 p.toList = [4, 64] ++ p.toList := by
    simp only [tlv, lp]; rfl
  have e3 : i2d_cipher ctx.oiv.toList p.toList = tlv 0x30 (tlv 0x04 ctx.oiv.toList ++ tlv 0x04 p.toList) := by
    simp only [i2d_cipher, itGost28147Parameters, simple, Item.i2d, Fields.seqI2d, Prim.tag, Prim.enc, List.append_nil]
  have e4 : tlv 0x30 (tlv 0x04 ctx.oiv.toList ++ tlv 0x04 p.toList) = [0x30, 76] ++ ([4, 8] ++ ctx.oiv.toList ++ ([4, 64] ++ p.toList)) := by
    rw [e1, e2]
    have : ([4, 8] ++ ctx.oiv.toList ++ ([4, 64] ++ p.toList)).length = 76 := by simp
    simp only [tlv, this]; rfl
  have e5 : dstu_cipher_set_asn1_parameters ctx = i2d_cipher ctx.oiv.toList p.toList := by rw [hx, e3, e4]
  refine ⟨⟨_, _, (element_iff _ _ _ (by omega)).mpr rfl, (element_iff _ _ _ (by omega)).mpr rfl, ?_⟩, e5, ?_⟩
  · rw [IsSequence, element_iff _ _ _ (by
      simp only [List.flatten_cons, List.flatten_nil, List.append_nil, e1, e2]
      simp)]
    simp only [List.flatten_cons, List.flatten_nil, List.append_nil, e5, e3]
  · have hw : itGost28147Parameters.WF := by
      simp [itGost28147Parameters, simple, Item.WF, Fields.SeqWF]
    have hok : itGost28147Parameters.Ok (ctx.oiv.toList, p.toList, ()) := ok_seq (ok_simple (ok_oct _) (ok_simple (ok_oct _) ok_nil))
    have hlen : (itGost28147Parameters.i2d (ctx.oiv.toList, p.toList, ())).length < 2 ^ 28 := by
      have : itGost28147Parameters.i2d (ctx.oiv.toList, p.toList, ()) = dstu_cipher_set_asn1_parameters ctx := e5.symm
      rw [this, hx]
      simp
    rw [e5]
    simp only [d2i_cipher, i2d_cipher, itGost28147Parameters.round_trip hw _ hok hlen false rest]

theorem small_length (p : AlgorithmParameters) (h : p.Small) : (i2d_params p).length < 2 ^ 28 := by
  rw [i2d_params_eq]
  obtain ⟨c, s⟩ := p
  have hc : (derCurve c).length ≤ 2 ^ 23 := by
    cases c with
    | named oid =>
      have ho : ValidOid oid := h.1
      have hl := ho.2.1
      have := tlv_length 0x06 oid (by omega)
      simp only [derCurve]; omega
    | custom t => exact (custom_round_trip t [] ⟨h.1, fun _ h => by cases h⟩).2
  cases s with
  | none =>
    simp only [derParams, List.append_nil]
    have := tlv_length 0x30 (derCurve c) (by omega)
    omega
  | some s =>
    have hs := h.2 s rfl
    have h3 := tlv_length 0x04 s (by omega)
    have hlen : (derCurve c ++ tlv 0x04 s).length < 2 ^ 27 := by rw [List.length_append]; omega
    have := tlv_length 0x30 (derCurve c ++ tlv 0x04 s) (by omega)
    simp only [derParams]
    omega

/-- C96: the functions made from the templates are codecs as all other theorems assume them. -/
theorem C96_contract :
    (∃ c : ParamCodec, c.i2d = i2d_params ∧ c.d2i = fun l => (d2i_params l).map (·.1)) ∧
    (∃ d : OctetDecoder, d.d2i = d2i_octets) := by
  refine ⟨⟨⟨i2d_params, fun l => (d2i_params l).map (·.1), ?_⟩, rfl, rfl⟩, ⟨⟨d2i_octets, ?_, ?_⟩, rfl⟩⟩
  · intro p rest hp
    have hv : ValidNames p := by
      intro oid ho
      obtain ⟨c, s⟩ := p
      simp only at ho
      subst ho
      exact hp.1
    simp only [C96_round_trip p hv (small_length p hp) rest, Option.map_some]
  · intro c rest hc
    have e : i2d_octet c = tlv Prim.octets.tag c := rfl
    simp only [d2i_octets, Item.d2i, e, checkTag_tlv _ Prim.octets.tag_low _ _ _ hc, Prim.dec]
  · intro b rest h1 _ _ _
    have : checkTag Prim.octets.tag false (b :: rest) = .error := by
      simp only [checkTag]
      cases hg : getObject (b :: rest) with
      | none => rfl
      | some x =>
        obtain ⟨t, c, r⟩ := x
        have ht : t = b := by
          simp only [getObject] at hg
          split at hg
          · cases hg
          · split at hg
            · cases hg
            · split at hg
              · cases hg
              · simp only [Option.some.injEq, Prod.mk.injEq] at hg
                exact hg.1.symm
        subst ht
        simp only [Prim.tag, if_neg h1, Bool.false_eq_true, if_false]
    simp only [d2i_octets, Item.d2i, this]

/-- The identifier of the curve of degree 257, 1.2.804.2.1.1.1.1.3.1.1.2.6. -/
def oid257 : List Byte := [0x2a, 0x86, 0x24, 0x02, 0x01, 0x01, 0x01, 0x01, 0x03, 0x01, 0x01, 0x02, 0x06]

example : ValidNames ⟨.named oid257, none⟩ ∧ (i2d_params ⟨.named oid257, none⟩).length < 2 ^ 28 ∧
    i2d_params ⟨.named oid257, none⟩ = [0x30, 0x0f, 0x06, 0x0d] ++ oid257 := by
  refine ⟨?_, by decide, by decide⟩
  intro oid h
  cases h
  refine ⟨by decide, by decide, by decide, by decide, ?_⟩
  intro i b c hb hc _ e
  subst e
  have : ∀ i : Fin 13, oid257[i.val + 1]? ≠ some 0x80 := by decide
  by_cases hi : i < 13
  · exact this ⟨i, hi⟩ hc
  · rw [List.getElem?_eq_none (by simp [oid257]; omega)] at hc
    cases hc

/-- A curve given in full, with the pentanomial of degree 163 and a negative number, and an S-box. -/
def customEx : AlgorithmParameters := ⟨.custom ⟨163, .pentanomial 3 6 7, 1, [5, 0xff], -129, [1, 2, 3]⟩, some [9, 9]⟩

example : d2i_params (i2d_params customEx ++ [1, 2]) = some (customEx, [1, 2]) := by decide +kernel

example : i2d_params customEx = [0x30, 39, 0x30, 33, 0x30, 15, 2, 2, 0, 163, 0x30, 9, 2, 1, 3, 2, 1, 6, 2, 1, 7, 2, 1, 1, 4, 2, 5, 0xff, 2, 2, 0xff, 0x7f, 4, 3, 1, 2, 3, 4, 2, 9, 9] := by
  decide +kernel

/-- Superfluous length bytes are accepted, padded integers, missing and extra fields are not. -/
example : d2i_params ([0x30, 0x81, 0x0f, 0x06, 0x0d] ++ oid257) = some (⟨.named oid257, none⟩, []) ∧
    d2i_params ([0x30, 0x11, 0x06, 0x0d] ++ oid257 ++ [0x05, 0x00]) = none ∧ d2i_params [0x30, 0x00] = none ∧
    Prim.integer.dec [0x00, 0x7f] = none := by decide +kernel

/-- `customEx` meets the hypotheses of `C96_layout`, `C96_round_trip` and `C96_unambiguous`. -/
example : IsParams customEx (i2d_params customEx) ∧ d2i_params (i2d_params customEx ++ [1, 2]) = some (customEx, [1, 2]) ∧
    ∀ p, ValidNames p → (i2d_params p).length < 2 ^ 28 → i2d_params p ++ [7] = i2d_params customEx ++ [7] → p = customEx := by
  have hn : ValidNames customEx := fun _ h => by cases h
  have hl : (i2d_params customEx).length < 2 ^ 28 := by decide +kernel
  exact ⟨(C96_layout customEx hl _).mpr rfl, C96_round_trip customEx hn hl _, fun p hp hl' h => (C96_unambiguous p customEx hp hn hl' hl _ _ h).1⟩

/-- An encoding that is not the shortest, to which `C96_reencode` applies: it is read, and what is written is shorter. -/
example : ∀ rest', d2i_params (i2d_params ⟨.named oid257, none⟩ ++ rest') = some (⟨.named oid257, none⟩, rest') :=
  (C96_reencode ([0x30, 0x81, 0x0f, 0x06, 0x0d] ++ oid257) [] _ (by decide) (by decide +kernel)).2

end Dstu.Props
