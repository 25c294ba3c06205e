import Verif.Model.KeyDer
import Verif.Spec.KeyDer
import Verif.Lemmas.KeyBer
import Verif.Props.Ber
import Verif.Props.SignAny

/-! Property C100: the files in which keys are kept, byte for byte. -/

namespace Dstu.Props

open Dstu Dstu.Spec WeierstrassCurve

/-- The codecs are those the templates of dstulib/asn1.c give; `C103_contract` tells that there are such. -/
def TemplateCodecs (env : Env) : Prop :=
  env.codec.i2d = i2d_params ∧ (env.codec.d2i = fun l => (ber_params l).map (·.1)) ∧ env.octet.d2i = ber_octets

theorem object_iff (l oid r : List Byte) : primBer .object l = some (oid, r) ↔ ∃ e, BerObject oid e ∧ l = e ++ r :=
  (primBer_iff .object l oid r).trans (exists_congr fun e => and_congr (benc_obj oid e) Iff.rfl)

theorem integer_read (l : List Byte) (v : Int) (r : List Byte) : primBer .integer l = some (v, r) ↔ ∃ e, BerInteger v e ∧ l = e ++ r :=
  (primBer_iff .integer l v r).trans (exists_congr fun e => and_congr (benc_int v e) Iff.rfl)

theorem octets_iff (l c r : List Byte) : primBer .octets l = some (c, r) ↔ ∃ e, BerOctets c e ∧ l = e ++ r :=
  (primBer_iff .octets l c r).trans (exists_congr fun e => and_congr (benc_oct c e) Iff.rfl)

theorem object_solid : Solid BerObject := fun _ _ h => primitive_solid h.2 (by omega)

theorem integer_solid : Solid BerInteger := fun _ _ ⟨_, _, h⟩ => primitive_solid h (by omega)

theorem octets_solid : Solid BerOctets := fun _ _ h => string_solid (n := 4) h (by omega)

theorem bits_solid : Solid BerBits := fun _ _ ⟨_, _, _, _, h⟩ => string_solid h (by omega)

theorem object_field (l oid r : List Byte) : field (primBer .object) l = some (oid, r) ↔ ∃ e, BerObject oid e ∧ l = e ++ r :=
  field_iff (P := BerObject) (fun l v r _ => object_iff l v r) object_solid l oid r

theorem integer_field (l : List Byte) (v : Int) (r : List Byte) : field (primBer .integer) l = some (v, r) ↔ ∃ e, BerInteger v e ∧ l = e ++ r :=
  field_iff (P := BerInteger) (fun l v r _ => integer_read l v r) integer_solid l v r

theorem octets_field (l c r : List Byte) : field (primBer .octets) l = some (c, r) ↔ ∃ e, BerOctets c e ∧ l = e ++ r :=
  field_iff (P := BerOctets) (fun l v r _ => octets_iff l v r) octets_solid l c r

theorem bits_field (l c r : List Byte) : field bitsBer l = some (c, r) ↔ ∃ e, BerBits c e ∧ l = e ++ r :=
  field_iff (fun l v r _ => bitsBer_iff l v r) bits_solid l c r

/-- An algorithm with parameters or without. -/
def AlgorithmOf (ok : Nat → List Byte → Bool) (a : List Byte × Option AsnVal) (e : List Byte) : Prop := ∃ ep, OrNone (BerValue ok) a.2 ep ∧ BerAlgorithm a.1 ep e

theorem algor_iff (ok : Nat → List Byte → Bool) (l : List Byte) (a : List Byte × Option AsnVal) (r : List Byte) :
    d2i_algor ok l = some (a, r) ↔ ∃ e, AlgorithmOf ok a e ∧ l = e ++ r := by
  have hf : Fills (fun inf l => do
      let (oid, l) ← field (primBer .object) l
      let (par, l) ← lastField (d2i_any ok) inf l
      return ((oid, par), l)) (fun (a : List Byte × Option AsnVal) c => ∃ eo ep, BerObject a.1 eo ∧ OrNone (BerValue ok) a.2 ep ∧ c = eo ++ ep) := by
    intro inf l a r
    simp only [Option.bind_eq_bind, Option.bind_eq_some_iff, Option.pure_def, Option.some.injEq, Prod.exists]
    constructor
    · rintro ⟨oid, l1, h1, par, l2, h2, h3⟩
      cases h3
      obtain ⟨eo, k1, rfl⟩ := (object_field _ _ _).mp h1
      obtain ⟨ep, k2, rfl, k3⟩ := (lastField_fills (any_reads ok) (value_solid ok) _ _ _ _).mp h2
      exact ⟨_, ⟨eo, ep, k1, k2, rfl⟩, by simp, k3⟩
    · rintro ⟨c, ⟨eo, ep, k1, k2, rfl⟩, rfl, k3⟩
      exact ⟨_, _, (object_field _ _ _).mpr ⟨eo, k1, by rw [List.append_assoc, List.append_assoc]⟩, _, _,
        (lastField_fills (any_reads ok) (value_solid ok) _ _ _ _).mpr ⟨ep, k2, by simp, k3⟩, rfl⟩
  refine (seqBer_iff hf l a r).trans (exists_congr fun e => and_congr ?_ Iff.rfl)
  unfold AlgorithmOf BerAlgorithm BerSequence
  simp only [List.flatten_cons, List.flatten_nil, List.append_nil]
  constructor
  · rintro ⟨_, ⟨eo, ep, k1, k2, rfl⟩, h⟩
    exact ⟨ep, k2, eo, k1, h⟩
  · rintro ⟨ep, k2, eo, k1, h⟩
    exact ⟨_, ⟨eo, ep, k1, k2, rfl⟩, h⟩

theorem algor_solid (ok : Nat → List Byte → Bool) : Solid (AlgorithmOf ok) := fun _ _ ⟨_, _, _, _, h⟩ => constructed_solid h

theorem algor_field (ok : Nat → List Byte → Bool) (l : List Byte) (a : List Byte × Option AsnVal) (r : List Byte) :
    field (d2i_algor ok) l = some (a, r) ↔ ∃ e, AlgorithmOf ok a e ∧ l = e ++ r := field_iff (fun l v r _ => algor_iff ok l v r) (algor_solid ok) l a r

theorem attribute_iff (ok : Nat → List Byte → Bool) (l : List Byte) (a : Attr) (r : List Byte) :
    d2i_attribute ok l = some (a, r) ↔ ∃ e, BerAttribute ok a e ∧ l = e ++ r := by
  have hs := fun l vs r => field_iff (fun l v r _ => setBer_iff (any_reads ok) (value_solid ok) 0 17 l v r) (setOf_solid (BerValue ok) 0 17 (by omega)) l vs r
  have hf : Fills (fun inf l => do
      let (oid, l) ← field (primBer .object) l
      let (vs, l) ← field (setBer 0 17 (d2i_any ok)) l
      let l ← seqEnd inf l
      return ((⟨some oid, vs⟩ : Attr), l)) (fun a c => ∃ oid eo ev, a.oid = some oid ∧ BerObject oid eo ∧ BerSetOf 0 17 (BerValue ok) a.values ev ∧ c = eo ++ ev) := by
    intro inf l a r
    simp only [Option.bind_eq_bind, Option.bind_eq_some_iff, Option.pure_def, Option.some.injEq, Prod.exists]
    constructor
    · rintro ⟨oid, l1, h1, vs, l2, h2, l3, h4, h3⟩
      cases h3
      obtain ⟨eo, k1, rfl⟩ := (object_field _ _ _).mp h1
      obtain ⟨ev, k2, rfl⟩ := (hs _ _ _).mp h2
      obtain ⟨rfl, k4⟩ := (seqEnd_iff _ _ _).mp h4
      exact ⟨_, ⟨oid, eo, ev, rfl, k1, k2, rfl⟩, by simp, k4⟩
    · rintro ⟨c, ⟨oid, eo, ev, k0, k1, k2, rfl⟩, rfl, k3⟩
      obtain ⟨o, vs⟩ := a
      cases k0
      exact ⟨_, _, (object_field _ _ _).mpr ⟨eo, k1, by rw [List.append_assoc, List.append_assoc]⟩, _, _, (hs _ _ _).mpr ⟨ev, k2, rfl⟩, r, (seqEnd_iff _ _ _).mpr ⟨rfl, k3⟩, rfl⟩
  refine (seqBer_iff hf l a r).trans (exists_congr fun e => and_congr ?_ Iff.rfl)
  unfold BerAttribute BerSequence
  simp only [List.flatten_cons, List.flatten_nil, List.append_nil]
  constructor
  · rintro ⟨_, ⟨oid, eo, ev, k0, k1, k2, rfl⟩, h⟩
    exact ⟨oid, eo, ev, k0, k1, k2, h⟩
  · rintro ⟨oid, eo, ev, k0, k1, k2, h⟩
    exact ⟨_, ⟨oid, eo, ev, k0, k1, k2, rfl⟩, h⟩

theorem attribute_solid (ok : Nat → List Byte → Bool) : Solid (BerAttribute ok) := fun _ _ ⟨_, _, _, _, _, _, h⟩ => constructed_solid h

theorem algId_iff (oid : List Byte) (t : KeyType) : algId oid = some t ↔ oid = keyOid t := by
  have hne : keyOid .le ≠ keyOid .be := by decide
  unfold algId
  by_cases h1 : oid = keyOid .le
  · rw [if_pos h1]
    subst h1
    cases t <;> simp [hne]
  · rw [if_neg h1]
    by_cases h2 : oid = keyOid .be
    · rw [if_pos h2]
      subst h2
      cases t <;> simp [hne.symm]
    · rw [if_neg h2]
      cases t <;> simp [h1, h2]

/-- A PKCS#8 structure, with parameters or without. -/
def PrivateInfoOf (ok : Nat → List Byte → Bool) (x : (List Byte × Option AsnVal) × List Byte × Option (List Attr)) (e : List Byte) : Prop :=
  ∃ ep, OrNone (BerValue ok) x.1.2 ep ∧ BerPrivateKeyInfo ok x.1.1 ep x.2.1 x.2.2 e

theorem pkcs8Ber_iff (ok : Nat → List Byte → Bool) (l : List Byte) (x : (List Byte × Option AsnVal) × List Byte × Option (List Attr)) (r : List Byte) :
    pkcs8Ber ok l = some (x, r) ↔ ∃ e, PrivateInfoOf ok x e ∧ l = e ++ r := by
  have ha := lastField_fills (fun l v r _ => setBer_iff (fun l v r _ => attribute_iff ok l v r) (attribute_solid ok) 0x80 0 l v r)
    (setOf_solid (BerAttribute ok) 0x80 0 (by decide))
  have hf : Fills (fun inf l => do
      let (_, l) ← field (primBer .integer) l
      let (alg, l) ← field (d2i_algor ok) l
      let (prk, l) ← field (primBer .octets) l
      let (as, l) ← lastField (setBer 0x80 0 (d2i_attribute ok)) inf l
      return ((alg, prk, as), l)) (fun (x : (List Byte × Option AsnVal) × List Byte × Option (List Attr)) c =>
        ∃ v ev ea ek et, BerInteger v ev ∧ AlgorithmOf ok x.1 ea ∧ BerOctets x.2.1 ek ∧ OrNone (BerSetOf 0x80 0 (BerAttribute ok)) x.2.2 et ∧ c = ev ++ (ea ++ (ek ++ et))) := by
    intro inf l x r
    simp only [Option.bind_eq_bind, Option.bind_eq_some_iff, Option.pure_def, Option.some.injEq, Prod.exists]
    constructor
    · rintro ⟨v, l1, h1, o, par, l2, h2, prk, l3, h3, as, l4, h4, h5⟩
      cases h5
      obtain ⟨ev, k1, rfl⟩ := (integer_field _ _ _).mp h1
      obtain ⟨ea, k2, rfl⟩ := (algor_field _ _ _ _).mp h2
      obtain ⟨ek, k3, rfl⟩ := (octets_field _ _ _).mp h3
      obtain ⟨et, k4, rfl, k5⟩ := (ha _ _ _ _).mp h4
      exact ⟨_, ⟨v, ev, ea, ek, et, k1, k2, k3, k4, rfl⟩, by simp, k5⟩
    · rintro ⟨c, ⟨v, ev, ea, ek, et, k1, k2, k3, k4, rfl⟩, rfl, k5⟩
      obtain ⟨⟨o, par⟩, prk, as⟩ := x
      exact ⟨v, ea ++ (ek ++ (et ++ (endMark inf ++ r))), (integer_field _ _ _).mpr ⟨ev, k1, by simp only [List.append_assoc]⟩, o, par, _, (algor_field _ _ _ _).mpr ⟨ea, k2, rfl⟩,
        prk, _, (octets_field _ _ _).mpr ⟨ek, k3, rfl⟩, as, r, (ha _ _ _ _).mpr ⟨et, k4, by simp only [List.append_assoc], k5⟩, rfl⟩
  refine (seqBer_iff hf l x r).trans (exists_congr fun e => and_congr ?_ Iff.rfl)
  obtain ⟨⟨o, par⟩, prk, as⟩ := x
  unfold PrivateInfoOf BerPrivateKeyInfo BerSequence
  simp only [List.flatten_cons, List.flatten_nil, List.append_nil]
  constructor
  · rintro ⟨_, ⟨v, ev, ea, ek, et, k1, ⟨ep, k2, k6⟩, k3, k4, rfl⟩, h⟩
    refine ⟨ep, k2, v, ev, ea, ek, k1, k6, k3, ?_⟩
    cases as with
    | none =>
      cases k4
      simpa using h
    | some as => exact ⟨et, k4, h⟩
  · rintro ⟨ep, k2, v, ev, ea, ek, k1, k6, k3, h⟩
    cases as with
    | none => exact ⟨_, ⟨v, ev, ea, ek, [], k1, ⟨ep, k2, k6⟩, k3, rfl, rfl⟩, by simpa using h⟩
    | some as =>
      obtain ⟨et, k4, h⟩ := h
      exact ⟨_, ⟨v, ev, ea, ek, et, k1, ⟨ep, k2, k6⟩, k3, k4, rfl⟩, h⟩

theorem paramSeq_iff (o : Option AsnVal) (s : List Byte) : paramSeq o = some s ↔ o = some (.seq s) := by
  unfold paramSeq
  split
  · rename_i s'
    simp
  · rename_i h
    constructor
    · intro hh; cases hh
    · intro hh; exact absurd hh (h s)

theorem pkcs8_iff (ok : Nat → List Byte → Bool) (l : List Byte) (t : KeyType) (ep key : List Byte) :
    d2i_pkcs8 ok l = some ⟨some t, some ep, key⟩ ↔
      ∃ a e rest, BerPrivateKeyInfo ok (keyOid t) ep key a e ∧ BerElement 0 true 16 ep ∧ l = e ++ rest := by
  unfold d2i_pkcs8
  simp only [Option.map_eq_some_iff, Prod.exists, Pkcs8.mk.injEq, algId_iff, paramSeq_iff]
  constructor
  · rintro ⟨oid, par, prk, a, r, h, rfl, rfl, rfl⟩
    obtain ⟨e, ⟨ep', ⟨rfl, h1⟩, h2⟩, rfl⟩ := (pkcs8Ber_iff _ _ _ _).mp h
    exact ⟨a, e, r, h2, h1, rfl⟩
  · rintro ⟨a, e, r, h2, h1, rfl⟩
    exact ⟨keyOid t, some (.seq ep), key, a, r, (pkcs8Ber_iff _ _ _ _).mpr ⟨e, ⟨ep, ⟨rfl, h1⟩, h2⟩, rfl⟩, rfl, rfl, rfl⟩

theorem spki_iff (ok : Nat → List Byte → Bool) (l : List Byte) (t : KeyType) (ep key : List Byte) : d2i_spki ok l = some ⟨some t, some ep, key⟩ ↔
    ∃ e rest, BerPublicKeyInfo (keyOid t) ep key e ∧ BerElement 0 true 16 ep ∧ l = e ++ rest := by
  have hf : Fills (fun inf l => do
      let (alg, l) ← field (d2i_algor ok) l
      let (pbk, l) ← field bitsBer l
      let l ← seqEnd inf l
      return ((alg, pbk), l)) (fun (x : (List Byte × Option AsnVal) × List Byte) c => ∃ ea ek, AlgorithmOf ok x.1 ea ∧ BerBits x.2 ek ∧ c = ea ++ ek) := by
    intro inf l x r
    simp only [Option.bind_eq_bind, Option.bind_eq_some_iff, Option.pure_def, Option.some.injEq, Prod.exists]
    constructor
    · rintro ⟨o, par, l2, h2, pbk, l3, h3, l4, h4, h5⟩
      cases h5
      obtain ⟨ea, k2, rfl⟩ := (algor_field _ _ _ _).mp h2
      obtain ⟨ek, k3, rfl⟩ := (bits_field _ _ _).mp h3
      obtain ⟨rfl, k4⟩ := (seqEnd_iff _ _ _).mp h4
      exact ⟨_, ⟨ea, ek, k2, k3, rfl⟩, by simp, k4⟩
    · rintro ⟨c, ⟨ea, ek, k2, k3, rfl⟩, rfl, k5⟩
      obtain ⟨⟨o, par⟩, pbk⟩ := x
      exact ⟨o, par, _, (algor_field _ _ _ _).mpr ⟨ea, k2, by simp only [List.append_assoc]⟩, pbk, _, (bits_field _ _ _).mpr ⟨ek, k3, rfl⟩, r, (seqEnd_iff _ _ _).mpr ⟨rfl, k5⟩, rfl⟩
  unfold d2i_spki BerPublicKeyInfo BerSequence
  simp only [Option.map_eq_some_iff, Prod.exists, X509Pubkey.mk.injEq, algId_iff, paramSeq_iff, List.flatten_cons, List.flatten_nil, List.append_nil]
  constructor
  · rintro ⟨oid, par, pbk, r, h, rfl, rfl, rfl⟩
    obtain ⟨e, ⟨_, ⟨ea, ek, ⟨_, ⟨rfl, h1⟩, h2⟩, h3, rfl⟩, h4⟩, rfl⟩ := (seqBer_iff hf _ _ _).mp h
    exact ⟨e, r, ⟨ea, ek, h2, h3, h4⟩, h1, rfl⟩
  · rintro ⟨e, r, ⟨ea, ek, h2, h3, h4⟩, h1, rfl⟩
    exact ⟨keyOid t, some (.seq ep), key, r, (seqBer_iff hf _ _ _).mpr ⟨e, ⟨_, ⟨ea, ek, ⟨_, ⟨rfl, h1⟩, h2⟩, h3, rfl⟩, h4⟩, rfl⟩, rfl, rfl, rfl⟩

theorem isAlgorithm_iff (t : KeyType) (ep ea : List Byte) (hl : (i2d_algor t ep).length < 2 ^ 28) : IsAlgorithm (keyOid t) ep ea ↔ ea = i2d_algor t ep := by
  unfold i2d_algor at hl
  have h0 := lt_trans (tlv_ge _ _) hl
  simp only [List.length_append] at h0
  have h1 := tlv_ge 0x06 (keyOid t)
  simp only [IsAlgorithm, IsSequence, i2d_algor]
  constructor
  · rintro ⟨eo, h2, h3⟩
    rw [element_iff _ _ _ (by omega)] at h2
    subst h2
    rw [element_iff _ _ _ (by flat)] at h3
    simpa using h3
  · rintro rfl
    refine ⟨_, (element_iff _ _ _ (by omega)).mpr rfl, ?_⟩
    rw [element_iff _ _ _ (by flat)]
    simp

theorem encInt_zero : encInt 0 = [0] := by decide +kernel

theorem isPrivate_iff (t : KeyType) (ep key e : List Byte) (hl : (i2d_pkcs8 t ep key).length < 2 ^ 28) :
    IsPrivateKeyInfo (keyOid t) ep key e ↔ e = i2d_pkcs8 t ep key := by
  unfold i2d_pkcs8 at hl
  have h0 := lt_trans (tlv_ge _ _) hl
  simp only [List.length_append] at h0
  have h1 := tlv_ge 0x02 [0]
  have h2 := tlv_ge 0x04 key
  simp only [IsPrivateKeyInfo, IsSequence, IsOctets, i2d_pkcs8]
  have hz : (encInt 0).length < 2 ^ 28 := by rw [encInt_zero]; simp
  constructor
  · rintro ⟨ev, ea, ek, k1, k2, k3, k4⟩
    rw [integer_iff _ _ hz, encInt_zero] at k1
    rw [isAlgorithm_iff _ _ _ (by omega)] at k2
    rw [element_iff _ _ _ (by omega)] at k3
    subst k1 k2 k3
    rw [element_iff _ _ _ (by flat)] at k4
    simpa using k4
  · rintro rfl
    refine ⟨tlv 0x02 [0], _, _, ?_, (isAlgorithm_iff _ _ _ (by omega)).mpr rfl, (element_iff _ _ _ (by omega)).mpr rfl, ?_⟩
    · rw [integer_iff _ _ hz, encInt_zero]
    · rw [element_iff _ _ _ (by flat)]
      simp

theorem isPublic_iff (t : KeyType) (ep key e : List Byte) (hl : (i2d_spki t ep key).length < 2 ^ 28) :
    IsPublicKeyInfo (keyOid t) ep key e ↔ e = i2d_spki t ep key := by
  unfold i2d_spki at hl
  have h0 := lt_trans (tlv_ge _ _) hl
  simp only [List.length_append] at h0
  have h2 := tlv_ge 0x03 (0 :: key)
  simp only [IsPublicKeyInfo, IsSequence, i2d_spki]
  constructor
  · rintro ⟨ea, ek, k2, k3, k4⟩
    rw [isAlgorithm_iff _ _ _ (by omega)] at k2
    rw [element_iff _ _ _ (by omega)] at k3
    subst k2 k3
    rw [element_iff _ _ _ (by flat)] at k4
    simpa using k4
  · rintro rfl
    refine ⟨_, _, (isAlgorithm_iff _ _ _ (by omega)).mpr rfl, (element_iff _ _ _ (by omega)).mpr rfl, ?_⟩
    rw [element_iff _ _ _ (by flat)]
    simp

theorem export_private_parts (env : Env) (pk : EvpPkey) (e : List Byte) (h : exportPrivate env pk = some e) :
    ∃ key p d, pk.key = some key ∧ asn1_from_key env.nids env.objs key (pk.type = .le) = some p ∧ key.priv = some d ∧ d ≠ 0 ∧
      dstu_asn1_priv_encode env pk = some ⟨some pk.type, some (env.codec.i2d p), (bn2bin d).reverse⟩ ∧ e = i2d_pkcs8 pk.type (env.codec.i2d p) (bn2bin d).reverse := by
  unfold exportPrivate at h
  split at h
  · rename_i t params prk he
    cases h
    have he' := he
    unfold dstu_asn1_priv_encode at he
    split at he
    · cases he
    rename_i params' hp
    split at he
    · cases he
    rename_i key hk
    split at he
    · cases he
    rename_i d hd
    split at he
    · cases he
    rename_i hn
    rw [← bn2bin_length d, reverse_bytes_eq] at he
    simp only [Option.some.injEq, Pkcs8.mk.injEq] at he
    obtain ⟨rfl, rfl, rfl⟩ := he
    unfold dstu_asn1_param_encode at hp
    rw [hk] at hp
    simp only at hp
    split at hp
    · cases hp
    rename_i p hp'
    cases hp
    refine ⟨key, p, d, hk, hp', hd, ?_, he', rfl⟩
    rintro rfl
    exact hn (by decide)
  · cases h

/-- C100: the file of a private key is the DER encoding of version 0, the identifier of the type of the key, the parameters of the key and its number, in little-endian order, in
as few bytes as possible; and there is no other. -/
theorem C100_private_layout (env : Env) (hc : TemplateCodecs env) (pk : EvpPkey) (e : List Byte) (h : exportPrivate env pk = some e) (hl : e.length < 2 ^ 28) :
    ∃ key p d ep kb, pk.key = some key ∧ asn1_from_key env.nids env.objs key (pk.type = .le) = some p ∧ IsParams p ep ∧
      key.priv = some d ∧ leValue kb = d ∧ kb ≠ [] ∧ (∀ l, leValue l = d → kb.length ≤ l.length) ∧ ∀ e', IsPrivateKeyInfo (keyOid pk.type) ep kb e' ↔ e' = e := by
  obtain ⟨key, p, d, h1, h2, h3, h4, -, rfl⟩ := export_private_parts env pk e h
  rw [hc.1] at hl ⊢
  have h0 := lt_trans (tlv_ge _ _) hl
  simp only [List.length_append, i2d_algor] at h0
  have h5 := tlv_ge 0x30 (tlv 0x06 (keyOid pk.type) ++ i2d_params p)
  simp only [List.length_append] at h5
  refine ⟨key, p, d, _, _, h1, h2, (C96_layout p (by omega) _).mpr rfl, h3, ?_, ?_, ?_, fun e' => isPrivate_iff _ _ _ e' hl⟩
  · have := beValue_bn2bin d
    rwa [beValue] at this
  · intro hn
    have := bn2bin_length d
    rw [List.reverse_eq_nil_iff] at hn
    rw [hn] at this
    have := (numBytes_pos d).mpr h4
    simp at *
    omega
  · intro l hv
    rw [List.length_reverse, bn2bin_length, numBytes_le, ← hv]
    exact leValue_lt l

theorem export_public_parts (env : Env) (pk : EvpPkey) (e : List Byte) (h : exportPublic env pk = some e) :
    ∃ key g P c p, pk.key = some key ∧ key.group = some g ∧ key.pub = some P ∧ dstu_point_compress g P g.fieldSize = (true, some c) ∧
      asn1_from_key env.nids env.objs key (pk.type = .le) = some p ∧
      dstu_asn1_pub_encode env pk = some ⟨some pk.type, some (env.codec.i2d p), i2d_octet (if pk.type = .le then c.reverse else c)⟩ ∧
      e = i2d_spki pk.type (env.codec.i2d p) (i2d_octet (if pk.type = .le then c.reverse else c)) := by
  unfold exportPublic at h
  split at h
  · rename_i t params prk he
    cases h
    have he' := he
    unfold dstu_asn1_pub_encode at he
    split at he
    · cases he
    rename_i params' hp
    split at he
    · cases he
    rename_i key hk
    split at he
    · cases he
    rename_i g hg
    simp only at he
    split at he
    · cases he
    rename_i P hP
    split at he
    · cases he
    · cases he
    rename_i c hc
    split at he
    · cases he
    rename_i c' hr
    have hr' : c' = if pk.type = .le then c.reverse else c := by
      unfold maybeReverse at hr
      rw [reverse_bytes_eq] at hr
      cases ht : pk.type <;> simp [ht] at hr ⊢ <;> exact hr.symm
    simp only [Option.some.injEq, X509Pubkey.mk.injEq] at he
    obtain ⟨rfl, rfl, rfl⟩ := he
    unfold dstu_asn1_param_encode at hp
    rw [hk] at hp
    simp only at hp
    split at hp
    · cases hp
    rename_i p hp'
    cases hp
    rw [hr'] at he' ⊢
    exact ⟨key, g, P, c, p, hk, hg, hP, hc, hp', he', rfl⟩
  · cases h

/-- C100: the file of a public key is the DER encoding of the identifier of the type of the key, the parameters of the key, and the encoding of the compressed point, its bytes
in opposite order for the little-endian type; and there is no other. -/
theorem C100_public_layout (env : Env) (hc : TemplateCodecs env) (pk : EvpPkey) (e : List Byte) (h : exportPublic env pk = some e) (hl : e.length < 2 ^ 28) :
    ∃ key g P c p ep kb, pk.key = some key ∧ key.group = some g ∧ key.pub = some P ∧ dstu_point_compress g P g.fieldSize = (true, some c) ∧
      asn1_from_key env.nids env.objs key (pk.type = .le) = some p ∧ IsParams p ep ∧ IsOctets (match pk.type with | .le => c.reverse | .be => c) kb ∧
      ∀ e', IsPublicKeyInfo (keyOid pk.type) ep kb e' ↔ e' = e := by
  obtain ⟨key, g, P, c, p, h1, h2, h3, h4, h5, -, rfl⟩ := export_public_parts env pk e h
  rw [hc.1] at hl ⊢
  have h0 := lt_trans (tlv_ge _ _) hl
  simp only [List.length_append, i2d_algor] at h0
  have h6 := tlv_ge 0x30 (tlv 0x06 (keyOid pk.type) ++ i2d_params p)
  have h7 := tlv_ge 0x03 (0 :: i2d_octet (if pk.type = .le then c.reverse else c))
  simp only [List.length_append, List.length_cons] at h6 h7
  refine ⟨key, g, P, c, p, _, i2d_octet (if pk.type = .le then c.reverse else c), h1, h2, h3, h4, h5, (C96_layout p (by omega) _).mpr rfl, ?_, fun e' => isPublic_iff _ _ _ e' hl⟩
  have e1 : ∀ c, i2d_octet c = tlv 0x04 c := fun _ => rfl
  have h8 := tlv_ge 0x04 (if pk.type = .le then c.reverse else c)
  rw [e1] at h7 h0
  have h9 : (match pk.type with | .le => c.reverse | .be => c) = if pk.type = .le then c.reverse else c := by cases pk.type <;> rfl
  rw [h9, IsOctets, element_iff _ _ _ (by omega), e1]

theorem params_element (p : AlgorithmParameters) (ep : List Byte) (h : BerParams p ep) : BerElement 0 true 16 ep :=
  sequence_element _ _ ep ((benc_params p ep).mpr h)

theorem decode_params (env : Env) (hc : TemplateCodecs env) (ep : List Byte) (he : BerElement 0 true 16 ep) (p : AlgorithmParameters) :
    env.codec.d2i ep = some p ↔ BerParams p ep := by
  rw [hc.2.1]
  simp only [Option.map_eq_some_iff]
  constructor
  · rintro ⟨⟨p', rest⟩, h, rfl⟩
    obtain ⟨e, h1, rfl⟩ := (C103_accepts _ _ _).mp h
    rw [element_unique _ _ _ e rest (params_element _ _ h1) he, List.append_nil]
    exact h1
  · intro h
    exact ⟨(p, []), (C103_accepts _ _ _).mpr ⟨ep, h, (List.append_nil _).symm⟩, rfl⟩

theorem fresh_key (sq : QuadSolver) (nids : CurveNids) (objs : ObjTable nids) (p : AlgorithmParameters) (le : Bool) (key : DstuKey)
    (h : key_from_asn1 sq nids objs p le = some key) : key.priv = none := by
  unfold key_from_asn1 at h
  simp only at h
  split at h
  · split at h
    · cases h
    · cases h; rfl
  · split at h
    · cases h
    · split at h
      · cases h
      · cases h; rfl

/-- C100: a byte string is read as a private key exactly if it starts with a BER encoding of a `PrivateKeyInfo`, with any version, and with attributes or none, whose identifier is that of one of the two types, whose parameters describe a curve and an S-box, and whose number has at least one byte.
The key has that type, that curve and S-box, the number in little-endian order, and the public key that belongs to it. -/
theorem C100_private_accepts (env : Env) (hc : TemplateCodecs env) (ok : Nat → List Byte → Bool) (l : List Byte) (pk : EvpPkey) :
    importPrivate env ok l = some pk ↔
      ∃ t a p ep kb e rest key g Q, BerPrivateKeyInfo ok (keyOid t) ep kb a e ∧ l = e ++ rest ∧ BerParams p ep ∧ kb ≠ [] ∧
        key_from_asn1 env.sq env.nids env.objs p (t = .le) = some key ∧ key.group = some g ∧ add_public_key env g (leValue kb) = some Q ∧
        pk = ⟨t, some ⟨some g, key.sbox, some (leValue kb), some Q⟩⟩ := by
  have hv : ∀ l : List Byte, bin2bn l.reverse = leValue l := fun l => by rw [bin2bn_eq, beValue, List.reverse_reverse]
  constructor
  · intro h
    unfold importPrivate at h
    split at h
    · cases h
    rename_i p8 h8
    obtain ⟨alg, params, kb⟩ := p8
    simp only at h
    split at h
    · cases h
    rename_i t
    split at h
    · rename_i pk' hd
      cases h
      unfold dstu_asn1_priv_decode at hd
      simp only at hd
      split at hd
      · cases hd
      rename_i ep
      obtain ⟨a, e, rest, k1, k3, k4⟩ := (pkcs8_iff _ _ _ _ _).mp h8
      split at hd
      · cases hd
      rename_i pk1 hpd
      unfold dstu_asn1_param_decode at hpd
      split at hpd
      · cases hpd
      rename_i p hp
      simp only at hpd
      split at hpd
      · cases hpd
      rename_i key hkey
      cases hpd
      split at hd
      · cases hd
      rename_i hlen
      simp only [reverse_bytes_copy_eq] at hd
      split at hd
      · cases hd
      rename_i g hg
      rw [hv] at hd
      split at hd
      · cases hd
      rename_i Q hQ
      cases hd
      refine ⟨t, a, p, ep, kb, e, rest, key, g, Q, k1, k4, (decode_params env hc ep k3 p).mp hp, ?_, hkey, hg, hQ, ?_⟩
      · rintro rfl; exact hlen rfl
      · rw [hg]
    · cases h
  · rintro ⟨t, a, p, ep, kb, e, rest, key, g, Q, k1, rfl, k3, k4, k5, k6, k7, rfl⟩
    have he := params_element _ _ k3
    unfold importPrivate
    rw [(pkcs8_iff ok (e ++ rest) t ep kb).mpr ⟨a, e, rest, k1, he, rfl⟩]
    have hd : dstu_asn1_priv_decode env ⟨t, none⟩ ⟨some t, some ep, kb⟩ = (true, ⟨t, some ⟨some g, key.sbox, some (leValue kb), some Q⟩⟩) := by
      unfold dstu_asn1_priv_decode dstu_asn1_param_decode
      have hl : kb.length ≠ 0 := fun h => k4 (List.length_eq_zero_iff.mp h)
      simp only [(decode_params env hc ep he p).mpr k3, k5, hl, if_false, reverse_bytes_copy_eq, k6, hv, k7]
    simp only [hd]

/-- C100: a byte string is read as a public key exactly if it starts with a BER encoding of a `SubjectPublicKeyInfo`, whose identifier is that of one of the two types, whose parameters describe a curve and an S-box, and whose bit string starts with the encoding of an octet string that stands for a point, read in
opposite order for the little-endian type.  The key has that type, curve, S-box and point. -/
theorem C100_public_accepts (env : Env) (hc : TemplateCodecs env) (ok : Nat → List Byte → Bool) (l : List Byte) (pk : EvpPkey) :
    importPublic env ok l = some pk ↔
      ∃ t p ep kb e rest key g c ec rest' xy, BerPublicKeyInfo (keyOid t) ep kb e ∧ l = e ++ rest ∧ BerParams p ep ∧
        key_from_asn1 env.sq env.nids env.objs p (t = .le) = some key ∧ key.group = some g ∧ BerOctets c ec ∧ kb = ec ++ rest' ∧ (t = .le → c ≠ []) ∧
        dstu_point_expand env.sq (match t with | .le => c.reverse | .be => c) g = some xy ∧
        pk = ⟨t, some ⟨some g, key.sbox, none, some (some xy)⟩⟩ := by
  have ho : ∀ l c : List Byte, env.octet.d2i l = some c ↔ ∃ ec rest, BerOctets c ec ∧ l = ec ++ rest := by
    intro l c
    rw [hc.2.2, C103_octets_accepts]
    exact exists_congr fun e => ⟨fun ⟨h1, r, h2⟩ => ⟨r, h1, h2.symm⟩, fun ⟨r, h1, h2⟩ => ⟨h1, r, h2.symm⟩⟩
  have hr : ∀ (t : KeyType) (c c' : List Byte), maybeReverseCopy (t = .le) c = some c' ↔ (t = .le → c ≠ []) ∧ c' = match t with | .le => c.reverse | .be => c := by
    intro t c c'
    unfold maybeReverseCopy
    rw [reverse_bytes_copy_eq]
    cases t with
    | le =>
      by_cases hc : c = []
      · simp [hc]
      · have hl : c.length ≠ 0 := fun h => hc (List.length_eq_zero_iff.mp h)
        simp only [decide_true, if_true, if_neg hl, Option.some.injEq, ne_eq, hc, not_false_eq_true, implies_true, true_and]
        exact eq_comm
    | be => simp [eq_comm]
  constructor
  · intro h
    unfold importPublic at h
    split at h
    · cases h
    rename_i pub h8
    obtain ⟨alg, params, kb⟩ := pub
    simp only at h
    split at h
    · cases h
    rename_i t
    split at h
    · rename_i pk' hd
      cases h
      unfold dstu_asn1_pub_decode at hd
      simp only at hd
      split at hd
      · cases hd
      rename_i ep
      obtain ⟨e, rest, k1, k3, k4⟩ := (spki_iff _ _ _ _ _).mp h8
      split at hd
      · cases hd
      rename_i pk1 hpd
      unfold dstu_asn1_param_decode at hpd
      split at hpd
      · cases hpd
      rename_i p hp
      simp only at hpd
      split at hpd
      · cases hpd
      rename_i key hkey
      cases hpd
      simp only at hd
      split at hd
      · cases hd
      rename_i g hg
      split at hd
      · cases hd
      rename_i c hcd
      split at hd
      · cases hd
      rename_i c' hcr
      split at hd
      · cases hd
      rename_i xy hxy
      cases hd
      obtain ⟨ec, rest', k5, k6⟩ := (ho _ _).mp hcd
      obtain ⟨k7, rfl⟩ := (hr _ _ _).mp hcr
      refine ⟨t, p, ep, kb, e, rest, key, g, c, ec, rest', xy, k1, k4, (decode_params env hc ep k3 p).mp hp, hkey, hg, k5, k6, k7, hxy, ?_⟩
      rw [hg, fresh_key _ _ _ _ _ _ hkey]
    · cases h
  · rintro ⟨t, p, ep, kb, e, rest, key, g, c, ec, rest', xy, k1, rfl, k3, k5, k6, k7, k8, k9, k10, rfl⟩
    have he := params_element _ _ k3
    unfold importPublic
    rw [(spki_iff ok (e ++ rest) t ep kb).mpr ⟨e, rest, k1, he, rfl⟩]
    have hd : dstu_asn1_pub_decode env ⟨t, none⟩ ⟨some t, some ep, kb⟩ = (true, ⟨t, some ⟨some g, key.sbox, none, some (some xy)⟩⟩) := by
      have hn := fresh_key _ _ _ _ _ _ k5
      unfold dstu_asn1_pub_decode dstu_asn1_param_decode
      simp only [(decode_params env hc ep he p).mpr k3, k5, k6, (ho kb c).mpr ⟨ec, rest', k7, k8⟩, (hr t c _).mpr ⟨k9, rfl⟩, k10, hn]
    simp only [hd]

theorem any_length (n : Nat) (l : List Byte) (h : IsLength n l) : AnyLength n l := by
  rcases h with h | ⟨h1, r, h2, h3, h4, h5⟩
  · exact Or.inl h
  · refine Or.inr ⟨r, ?_, by omega, h4, h5⟩
    rintro rfl
    simp [beValue, leValue] at h4
    omega

theorem any_element (tag : Byte) (c e : List Byte) (h : IsElement tag c e) : AnyElement tag c e := by
  obtain ⟨l, h1, h2⟩ := h
  exact ⟨l, any_length _ _ h1, h2⟩

theorem ber_object (t : KeyType) (e : List Byte) (h : IsElement 0x06 (keyOid t) e) : BerObject (keyOid t) e :=
  ⟨((dec_obj (keyOid t) (keyOid t)).mp (by cases t <;> decide)).2, primitive_of_any .object _ _ (any_element _ _ _ h)⟩

theorem ber_algorithm (t : KeyType) (ep e : List Byte) (h : IsAlgorithm (keyOid t) ep e) : BerAlgorithm (keyOid t) ep e := by
  obtain ⟨eo, h1, h2⟩ := h
  exact ⟨eo, ber_object t eo h1, constructed_of_any _ _ (any_element _ _ _ h2)⟩

theorem ber_private (ok : Nat → List Byte → Bool) (t : KeyType) (ep kb e : List Byte) (h : IsPrivateKeyInfo (keyOid t) ep kb e) : BerPrivateKeyInfo ok (keyOid t) ep kb none e := by
  obtain ⟨ev, ea, ek, ⟨c, h1, h1'⟩, h2, h3, h4⟩ := h
  exact ⟨0, ev, ea, ek, ⟨c, h1, primitive_of_any .integer _ _ (any_element _ _ _ h1')⟩, ber_algorithm _ _ _ h2, Or.inl (primitive_of_any .octets _ _ (any_element _ _ _ h3)),
    constructed_of_any _ _ (any_element _ _ _ h4)⟩

theorem ber_public (t : KeyType) (ep kb e : List Byte) (h : IsPublicKeyInfo (keyOid t) ep kb e) : BerPublicKeyInfo (keyOid t) ep kb e := by
  obtain ⟨ea, ek, h2, h3, h4⟩ := h
  refine ⟨ea, ek, ber_algorithm _ _ _ h2, ⟨0, kb, by decide, ?_, Or.inl ?_⟩, constructed_of_any _ _ (any_element _ _ _ h4)⟩
  · rcases List.eq_nil_or_concat kb with rfl | ⟨r, b, rfl⟩
    · exact Or.inl ⟨rfl, rfl⟩
    · refine Or.inr ⟨r, b, by simp, ?_⟩
      simp
  · obtain ⟨o, k1, rfl⟩ := any_element _ _ _ h3
    exact ⟨[0x03], o, ⟨0x03, by decide, by decide, Or.inl ⟨by decide, by decide, rfl⟩⟩, k1, rfl⟩

theorem isParams_element (p : AlgorithmParameters) (ep : List Byte) (h : IsParams p ep) : BerElement 0 true 16 ep := by
  have key : ∀ c e, IsElement 0x30 c e → BerElement 0 true 16 e := by
    intro c e h
    obtain ⟨o, k1, rfl⟩ := any_element _ _ _ h
    exact ⟨[0x30], identifier_low 0x30 (by decide), Or.inl ⟨c, o, k1, rfl⟩⟩
  obtain ⟨ec, _, h⟩ := h
  cases hs : p.sbox with
  | none => rw [hs] at h; exact key _ _ h
  | some s => rw [hs] at h; obtain ⟨es, _, h⟩ := h; exact key _ _ h

theorem params_tlv (p : AlgorithmParameters) (h : (i2d_params p).length < 2 ^ 28) : BerElement 0 true 16 (i2d_params p) := isParams_element p _ ((C96_layout p h _).mpr rfl)

theorem params_small (env : Env) (g : EcGroup) (hg : EncodableCurve env g) (key : DstuKey) (hkey : key.group = some g) (le : Bool) (p : AlgorithmParameters)
    (h : asn1_from_key env.nids env.objs key le = some p) : p.Small := by
  have named : ∀ i : Fin 10, group_from_named_curve env.nids i = some g → p.Small := by
    intro i hi
    obtain ⟨g', h1, h2⟩ := C34_identifier_round_trip env.nids i
    have : g' = g := by
      rw [group_from_nid_uacurve, hi] at h1
      exact (Option.some.inj h1).symm
    subst this
    simp only [asn1_from_key, hkey, h2, NID_undef, env.nids.defined i, if_false, Option.some.injEq] at h
    subst h
    exact ⟨env.objs.valid i, fun l hl => encodedSbox_small _ _ hl⟩
  by_cases hn : ∃ i : Fin 10, group_from_named_curve env.nids i = some g
  · obtain ⟨i, hi⟩ := hn
    exact named i hi
  · rcases hg with hg | ⟨hD, hb⟩
    · exact absurd hg hn
    · have := hD.good
      obtain ⟨spec, h1, _, _, h4⟩ := custom_group_round_trip env.sq g hD hb le
      have hu : curve_nid_from_group env.nids g = NID_undef :=
        C34_otherwise_undefined env.nids g (fun i => by rw [group_from_nid_uacurve]; exact fun hi => hn ⟨i, hi⟩)
      simp only [asn1_from_key, hkey, hu, if_true, h1, Option.some.injEq] at h
      subst h
      exact ⟨h4.1, fun l hl => encodedSbox_small _ _ hl⟩

theorem small_length_tight (p : AlgorithmParameters) (h : p.Small) : (i2d_params p).length < 2 ^ 25 := by
  rw [i2d_params_eq]
  obtain ⟨c, s⟩ := p
  have hc : (derCurve c).length ≤ 2 ^ 23 := by
    cases c with
    | named oid =>
      have ho : ValidOid oid := h.1
      have hl := ho.2.1
      have := tlv_length 0x06 oid (by omega)
      simp only [derCurve]; omega
    | custom t => exact (custom_round_trip t [] ⟨h.1, fun _ h => by cases h⟩).2
  cases s with
  | none =>
    simp only [derParams, List.append_nil]
    have := tlv_length 0x30 (derCurve c) (by omega)
    omega
  | some s =>
    have hs := h.2 s rfl
    have h3 := tlv_length 0x04 s (by omega)
    have hlen : (derCurve c ++ tlv 0x04 s).length < 2 ^ 24 := by rw [List.length_append]; omega
    have := tlv_length 0x30 (derCurve c ++ tlv 0x04 s) (by omega)
    simp only [derParams]
    omega

theorem oid_length (t : KeyType) : (keyOid t).length ≤ 13 := by cases t <;> decide

theorem algor_length (t : KeyType) (ep : List Byte) (h : ep.length < 2 ^ 25) : (i2d_algor t ep).length < 2 ^ 26 := by
  have h1 := oid_length t
  have h2 := tlv_length 0x06 (keyOid t) (by omega)
  have := tlv_length 0x30 (tlv 0x06 (keyOid t) ++ ep) (by rw [List.length_append]; omega)
  rw [List.length_append] at this
  unfold i2d_algor
  omega

theorem pkcs8_length (t : KeyType) (ep kb : List Byte) (h : ep.length < 2 ^ 25) (hk : kb.length ≤ 2 ^ 20) : (i2d_pkcs8 t ep kb).length < 2 ^ 28 := by
  have h1 := algor_length t ep h
  have h2 := tlv_length 0x02 [0] (by simp)
  have h3 := tlv_length 0x04 kb (by omega)
  simp only [List.length_singleton] at h2
  have h4 : (tlv 0x02 [0] ++ (i2d_algor t ep ++ tlv 0x04 kb)).length < 2 ^ 27 := by simp only [List.length_append]; omega
  have := tlv_length 0x30 _ (lt_trans h4 (by norm_num))
  unfold i2d_pkcs8
  omega

theorem spki_length (t : KeyType) (ep kb : List Byte) (h : ep.length < 2 ^ 25) (hk : kb.length ≤ 2 ^ 21) : (i2d_spki t ep kb).length < 2 ^ 28 := by
  have h1 := algor_length t ep h
  have h3 := tlv_length 0x03 (0 :: kb) (by simp; omega)
  simp only [List.length_cons] at h3
  have h4 : (i2d_algor t ep ++ tlv 0x03 (0 :: kb)).length < 2 ^ 27 := by simp only [List.length_append]; omega
  have := tlv_length 0x30 _ (lt_trans h4 (by norm_num))
  unfold i2d_spki
  omega

/-- C100, private keys: a key that can be written is read back from its file, whatever follows it and whatever attributes mean: same type, curve, effective S-box and number, and the
public key.  As in C40, missing: custom curves whose base point is the exceptional one, whose keys cannot be written. -/
theorem C100_private_round_trip_partial (env : Env) (hc : TemplateCodecs env) (g : EcGroup) (hg : EncodableCurve env g) (t : KeyType) (key : DstuKey) (d : Nat)
    (hkey : key.group = some g) (hpriv : key.priv = some d) (hd : d ≠ 0) (hsize : numBytes d ≤ 2 ^ 20) :
    ∃ e s Q, exportPrivate env ⟨t, some key⟩ = some e ∧ e.length < 2 ^ 28 ∧
      (∀ ok rest, importPrivate env ok (e ++ rest) = some ⟨t, some ⟨some g, s, some d, some Q⟩⟩) ∧
      effectiveSbox s = effectiveSbox key.sbox ∧ ∀ [GoodGroup g], Q = affine (-(d • g.gen)) := by
  obtain ⟨p8, s, Q, h1, h2, h3, h4, h5⟩ := C40_private_round_trip_partial env g hg t key d hkey hpriv hd ⟨t, none⟩
  obtain ⟨alg, params, kb⟩ := p8
  simp only at h2
  subst h2
  cases params with
  | none => simp [dstu_asn1_priv_decode] at h3
  | some params =>
    have he : exportPrivate env ⟨t, some key⟩ = some (i2d_pkcs8 t params kb) := by simp only [exportPrivate, h1]
    obtain ⟨key', p, d', k1, k2, k3, k4, k5, k6⟩ := export_private_parts env _ _ he
    rw [h1] at k5
    simp only [Option.some.injEq, Pkcs8.mk.injEq, true_and] at k5
    obtain ⟨rfl, rfl⟩ := k5
    obtain rfl : key = key' := Option.some.inj k1
    obtain rfl : d = d' := Option.some.inj (hpriv.symm.trans k3)
    have hl : (i2d_pkcs8 t (env.codec.i2d p) (bn2bin d).reverse).length < 2 ^ 28 := by
      rw [hc.1]
      refine pkcs8_length _ _ _ (small_length_tight p (params_small env g hg key hkey _ p k2)) ?_
      rw [List.length_reverse, bn2bin_length]
      exact hsize
    refine ⟨_, s, Q, he, hl, fun ok rest => ?_, h4, h5⟩
    have h0 := lt_trans (tlv_ge _ _) hl
    simp only [List.length_append, i2d_algor] at h0
    have h6 := tlv_ge 0x30 (tlv 0x06 (keyOid t) ++ env.codec.i2d p)
    simp only [List.length_append] at h6
    have hel : BerElement 0 true 16 (env.codec.i2d p) := by
      rw [hc.1] at h6 ⊢
      exact params_tlv p (by rw [hc.1] at h0; omega)
    have := (pkcs8_iff ok (i2d_pkcs8 t (env.codec.i2d p) (bn2bin d).reverse ++ rest) t _ _).mpr
      ⟨none, _, rest, ber_private ok _ _ _ _ ((isPrivate_iff _ _ _ _ hl).mpr rfl), hel, rfl⟩
    simp only [importPrivate, this, h3]

/-- C100, public keys: likewise, for the points C41 is about. -/
theorem C100_public_round_trip_partial (env : Env) (hc : TemplateCodecs env) (g : EcGroup) [h : GoodGroup g] (hdc : DstuCurve g) (hg : EncodableCurve env g) (t : KeyType)
    (key : DstuKey) (hkey : key.group = some g) (x y : GF g.p) (hxy : g.curve.Nonsingular x y) (hpub : key.pub = some (affine (Affine.Point.some x y hxy : g.Point)))
    (hP : g.n • (Affine.Point.some x y hxy : g.Point) = 0) (hex : ¬ (x = 1 ∧ trace y = 0)) :
    ∃ e s, exportPublic env ⟨t, some key⟩ = some e ∧ e.length < 2 ^ 28 ∧
      (∀ ok rest, importPublic env ok (e ++ rest) = some ⟨t, some ⟨some g, s, none, some (affine (Affine.Point.some x y hxy : g.Point))⟩⟩) ∧
      effectiveSbox s = effectiveSbox key.sbox := by
  obtain ⟨enc, s, h1, h2, h3, h4⟩ := C41_public_round_trip_partial env g hdc hg t key hkey x y hxy hpub hP hex ⟨t, none⟩
  obtain ⟨alg, params, kb⟩ := enc
  simp only at h2
  subst h2
  cases params with
  | none => simp [dstu_asn1_pub_decode] at h3
  | some params =>
    have he : exportPublic env ⟨t, some key⟩ = some (i2d_spki t params kb) := by simp only [exportPublic, h1]
    obtain ⟨key', g', P, c, p, k1, k2, k3, k4, k5, k6, k7⟩ := export_public_parts env _ _ he
    rw [h1] at k6
    simp only [Option.some.injEq, X509Pubkey.mk.injEq, true_and] at k6
    obtain ⟨rfl, rfl⟩ := k6
    obtain rfl : key = key' := Option.some.inj k1
    obtain rfl : g = g' := Option.some.inj (hkey.symm.trans k2)
    obtain rfl := Option.some.inj (hpub.symm.trans k3)
    have hcl : c.length = g.fieldSize := by
      obtain ⟨c', q1, q2, _⟩ := C31_round_trip_partial env.sq hdc.odd hdc.a01 hdc.n_odd x y hxy hP hex g.fieldSize (le_refl _)
      rw [k4] at q1
      simp only [Prod.mk.injEq, Option.some.injEq, true_and] at q1
      rw [q1, q2]
    have hfs : g.fieldSize < 2 ^ 20 := by
      have := hdc.small
      unfold fieldDegree at this
      unfold EcGroup.fieldSize EcGroup.degree
      omega
    have hl : (i2d_spki t (env.codec.i2d p) (i2d_octet (if t = .le then c.reverse else c))).length < 2 ^ 28 := by
      rw [hc.1]
      refine spki_length _ _ _ (small_length_tight p (params_small env g hg key hkey _ p k5)) ?_
      have hcl' : (if t = .le then c.reverse else c).length = c.length := by split <;> simp
      have := tlv_length 0x04 (if t = .le then c.reverse else c) (by omega)
      have e1 : ∀ c, i2d_octet c = tlv 0x04 c := fun _ => rfl
      rw [e1]
      omega
    refine ⟨_, s, he, hl, fun ok rest => ?_, h4⟩
    have h0 := lt_trans (tlv_ge _ _) hl
    simp only [List.length_append, i2d_algor] at h0
    have h6 := tlv_ge 0x30 (tlv 0x06 (keyOid t) ++ env.codec.i2d p)
    simp only [List.length_append] at h6
    have hel : BerElement 0 true 16 (env.codec.i2d p) := by
      rw [hc.1] at h6 ⊢
      exact params_tlv p (by rw [hc.1] at h0; omega)
    have := (spki_iff ok (i2d_spki t (env.codec.i2d p) (i2d_octet (if t = .le then c.reverse else c)) ++ rest) t _ _).mpr
      ⟨_, rest, ber_public _ _ _ _ ((isPublic_iff _ _ _ _ hl).mpr rfl), hel, rfl⟩
    simp only [importPublic, this, h3]

/-- C100: two private keys that can be written and have the same file have the same type, curve, effective S-box and number. -/
theorem C100_private_distinct (env : Env) (hc : TemplateCodecs env) (g g' : EcGroup) (hg : EncodableCurve env g) (hg' : EncodableCurve env g') (t t' : KeyType)
    (key key' : DstuKey) (d d' : Nat) (hkey : key.group = some g) (hkey' : key'.group = some g') (hpriv : key.priv = some d) (hpriv' : key'.priv = some d') (hd : d ≠ 0) (hd' : d' ≠ 0)
    (hs : numBytes d ≤ 2 ^ 20) (hs' : numBytes d' ≤ 2 ^ 20) (e : List Byte) (he : exportPrivate env ⟨t, some key⟩ = some e) (he' : exportPrivate env ⟨t', some key'⟩ = some e) :
    t = t' ∧ g = g' ∧ effectiveSbox key.sbox = effectiveSbox key'.sbox ∧ d = d' := by
  obtain ⟨e1, s, Q, h1, _, h2, k2, _⟩ := C100_private_round_trip_partial env hc g hg t key d hkey hpriv hd hs
  obtain ⟨e2, s', Q', h3, _, h4, k4, _⟩ := C100_private_round_trip_partial env hc g' hg' t' key' d' hkey' hpriv' hd' hs'
  rw [he] at h1
  rw [he'] at h3
  cases h1
  cases h3
  have k1 := h2 (fun _ _ => true) []
  rw [h4] at k1
  simp only [Option.some.injEq, EvpPkey.mk.injEq, DstuKey.mk.injEq] at k1
  obtain ⟨rfl, rfl, rfl, rfl, _⟩ := k1
  exact ⟨rfl, rfl, by rw [← k2, k4], rfl⟩

/-- C100: two public keys that can be written and have the same file have the same type, curve, effective S-box and point. -/
theorem C100_public_distinct_partial (env : Env) (hc : TemplateCodecs env) (g g' : EcGroup) [h : GoodGroup g] [h' : GoodGroup g'] (hdc : DstuCurve g) (hdc' : DstuCurve g')
    (hg : EncodableCurve env g) (hg' : EncodableCurve env g') (t t' : KeyType) (key key' : DstuKey) (hkey : key.group = some g) (hkey' : key'.group = some g')
    (x y : GF g.p) (hxy : g.curve.Nonsingular x y) (hpub : key.pub = some (affine (Affine.Point.some x y hxy : g.Point)))
    (hP : g.n • (Affine.Point.some x y hxy : g.Point) = 0) (hex : ¬ (x = 1 ∧ trace y = 0))
    (x' y' : GF g'.p) (hxy' : g'.curve.Nonsingular x' y') (hpub' : key'.pub = some (affine (Affine.Point.some x' y' hxy' : g'.Point)))
    (hP' : g'.n • (Affine.Point.some x' y' hxy' : g'.Point) = 0) (hex' : ¬ (x' = 1 ∧ trace y' = 0))
    (e : List Byte) (he : exportPublic env ⟨t, some key⟩ = some e) (he' : exportPublic env ⟨t', some key'⟩ = some e) :
    t = t' ∧ g = g' ∧ effectiveSbox key.sbox = effectiveSbox key'.sbox ∧ key.pub = key'.pub := by
  obtain ⟨e1, s, h1, _, h2, k2⟩ := C100_public_round_trip_partial env hc g hdc hg t key hkey x y hxy hpub hP hex
  obtain ⟨e2, s', h3, _, h4, k4⟩ := C100_public_round_trip_partial env hc g' hdc' hg' t' key' hkey' x' y' hxy' hpub' hP' hex'
  rw [he] at h1
  rw [he'] at h3
  cases h1
  cases h3
  have k1 := h2 (fun _ _ => true) []
  rw [h4] at k1
  simp only [Option.some.injEq, EvpPkey.mk.injEq, DstuKey.mk.injEq] at k1
  obtain ⟨q1, q2, q3, -, q4⟩ := k1
  exact ⟨q1.symm, q2.symm, by rw [← k2, ← k4, q3], by rw [hpub, hpub', q4]⟩

theorem seqBer_none {α : Type} (f : Bool → List Byte → Option (α × List Byte)) (l : List Byte) (h : ∀ b, getBer l ≠ some ⟨0, 16, true, b⟩) : seqBer f l = none := by
  unfold seqBer
  split
  · rename_i e
    exact absurd (checkBer_ok _ _ _ _ _ _ e) (h _)
  · rename_i e
    exact absurd (checkBer_ok _ _ _ _ _ _ e) (h _)
  · rfl

/-- C100: the file of a private key is not read as one of a public key, and the other way round. -/
theorem C100_not_confused (env : Env) (ok ok' : Nat → List Byte → Bool) (l : List Byte) (pk pk' : EvpPkey) :
    ¬ (importPrivate env ok l = some pk ∧ importPublic env ok' l = some pk') := by
  rintro ⟨h, h'⟩
  have hfirst : ∀ c, ¬ ((∃ v r, field (primBer .integer) c = some (v, r)) ∧ ∃ a r, field (d2i_algor ok') c = some (a, r)) := by
    rintro c ⟨⟨v, r, h1⟩, a, r', h2⟩
    obtain ⟨e, ⟨cv, _, i, o, k1, k2, rfl⟩, rfl⟩ := (integer_field _ _ _).mp h1
    obtain ⟨e', ⟨ep, _, eo, _, i', q1, q2⟩, hq⟩ := (algor_field _ _ _ _).mp h2
    have g1 := (getBer_closed (i ++ (o ++ cv) ++ r) cv r _ _ _).mpr ⟨i, o, k1, k2, rfl⟩
    rcases q2 with ⟨o', q3, rfl⟩ | rfl
    · rw [hq, (getBer_closed _ _ r' _ _ _).mpr ⟨i', o', q1, q3, rfl⟩] at g1
      simp at g1
    · rw [hq, (getBer_opened _ ([eo, ep].flatten ++ [0, 0] ++ r') _ _ _).mpr ⟨rfl, i', q1, by simp⟩] at g1
      simp at g1
  unfold importPrivate d2i_pkcs8 pkcs8Ber seqBer at h
  unfold importPublic d2i_spki seqBer at h'
  have hfields : ∀ inf c, ¬ ((∃ x, (do
      let (_, l) ← field (primBer .integer) c
      let (alg, l) ← field (d2i_algor ok) l
      let (prk, l) ← field (primBer .octets) l
      let (as, l) ← lastField (setBer 0x80 0 (d2i_attribute ok)) inf l
      return ((alg, prk, as), l)) = some x) ∧ ∃ y, (do
      let (alg, l) ← field (d2i_algor ok') c
      let (pbk, l) ← field bitsBer l
      let l ← seqEnd inf l
      return ((alg, pbk), l)) = some y) := by
    rintro inf c ⟨⟨x, hx⟩, y, hy⟩
    simp only [Option.bind_eq_bind, Option.bind_eq_some_iff, Prod.exists] at hx hy
    obtain ⟨v, r, h1, _⟩ := hx
    obtain ⟨o, p, r', h2, _⟩ := hy
    exact hfirst c ⟨⟨v, r, h1⟩, (o, p), r', h2⟩
  cases hcb : checkBer 16 false l with
  | absent => rw [hcb] at h; simp at h
  | error => rw [hcb] at h; simp at h
  | ok x q =>
    obtain ⟨cst, b⟩ := x
    rw [hcb] at h h'
    cases cst with
    | false => simp at h
    | true =>
      cases b with
      | closed c r =>
        simp only at h h'
        split at h
        · cases h
        rename_i h1
        split at h'
        · cases h'
        rename_i h2
        obtain ⟨_, h1, _⟩ := Option.map_eq_some_iff.1 h1
        obtain ⟨_, h2, _⟩ := Option.map_eq_some_iff.1 h2
        obtain ⟨x, h1, _⟩ := Option.map_eq_some_iff.1 h1
        obtain ⟨y, h2, _⟩ := Option.map_eq_some_iff.1 h2
        exact hfields false c ⟨⟨x, h1⟩, y, h2⟩
      | opened r =>
        simp only at h h'
        split at h
        · cases h
        rename_i h1
        split at h'
        · cases h'
        rename_i h2
        obtain ⟨x, h1, _⟩ := Option.map_eq_some_iff.1 h1
        obtain ⟨y, h2, _⟩ := Option.map_eq_some_iff.1 h2
        exact hfields true r ⟨⟨x, h1⟩, y, h2⟩

/-- No proper beginning of an element of definite length is an element. -/
theorem definite_cut (c e l : List Byte) (he : AnyElement 0x30 c e) (h : l <+: e) (hne : l ≠ e) (cls : Byte) (n : Nat) (cst : Bool) (b : BerBody) : getBer l ≠ some ⟨cls, n, cst, b⟩ := by
  intro hl
  obtain ⟨q, rfl⟩ := h
  obtain ⟨i, k1, k2⟩ := constructed_of_any _ _ he
  obtain ⟨o, k3, k4⟩ := he
  have g1 := (getBer_closed (l ++ q) c [] 0 16 true).mpr ⟨[0x30], o, identifier_low 0x30 (by decide), k3, by rw [k4]; simp⟩
  cases b with
  | closed c' r' =>
    obtain ⟨i', o', q1, q2, rfl⟩ := (getBer_closed _ _ _ _ _ _).mp hl
    have g2 := (getBer_closed (i' ++ (o' ++ c') ++ r' ++ q) c' (r' ++ q) cls n cst).mpr ⟨i', o', q1, q2, by simp⟩
    rw [g1] at g2
    simp only [Option.some.injEq, BerElem.mk.injEq, BerBody.closed.injEq] at g2
    have hq : q = [] := (List.append_eq_nil_iff.mp g2.2.2.2.2.symm).2
    subst hq
    exact hne (by simp)
  | opened r' =>
    obtain ⟨rfl, i', q1, rfl⟩ := (getBer_opened _ _ _ _ _).mp hl
    have g2 := (getBer_opened (i' ++ 0x80 :: r' ++ q) (r' ++ q) cls n true).mpr ⟨rfl, i', q1, by simp⟩
    rw [g1] at g2
    simp at g2

/-- C100: a file that was cut off is refused, as a file of any kind. -/
theorem C100_truncated (env : Env) (ok : Nat → List Byte → Bool) (pk : EvpPkey) (e l : List Byte) (he : exportPrivate env pk = some e ∨ exportPublic env pk = some e)
    (hs : e.length < 2 ^ 28) (h : l <+: e) (hne : l ≠ e) : importPrivate env ok l = none ∧ importPublic env ok l = none := by
  have hex : ∃ c, AnyElement 0x30 c e := by
    rcases he with he | he
    · obtain ⟨_, _, _, _, _, _, _, _, rfl⟩ := export_private_parts env pk e he
      have := lt_trans (tlv_ge _ _) hs
      exact ⟨_, any_element _ _ _ ((element_iff _ _ _ this).mpr rfl)⟩
    · obtain ⟨_, _, _, _, _, _, _, _, _, _, _, rfl⟩ := export_public_parts env pk e he
      have := lt_trans (tlv_ge _ _) hs
      exact ⟨_, any_element _ _ _ ((element_iff _ _ _ this).mpr rfl)⟩
  obtain ⟨c, hc⟩ := hex
  have := definite_cut c e l hc h hne 0 16 true
  constructor
  · simp only [importPrivate, d2i_pkcs8, pkcs8Ber, seqBer_none _ l this, Option.map_none]
  · simp only [importPublic, d2i_spki, seqBer_none _ l this, Option.map_none]

/-- C100 fails for the keys left out above: there is a curve no private key on which has a file, and a point of a built-in curve that has none. -/
theorem C100_round_trip_refuted (env : Env) : (∃ g, DstuCurve g ∧ ∀ t key, key.group = some g → exportPrivate env ⟨t, some key⟩ = none) ∧
    group_from_named_curve env.nids 0 = some g163 ∧ ∃ P : g163.Point, P ≠ 0 ∧ g163.n • P = 0 ∧ ∀ t key, key.group = some g163 → key.pub = some (affine P) →
      exportPublic env ⟨t, some key⟩ = none := by
  obtain ⟨g, h1, h2⟩ := C40_private_round_trip_refuted env
  obtain ⟨h3, P, h4, h5, h6⟩ := C41_public_round_trip_refuted env
  exact ⟨⟨g, h1, fun t key hk => by simp only [exportPrivate, h2 t key hk]⟩, h3, P, h4, h5, fun t key hk hp => by simp only [exportPublic, h6 t key hk hp]⟩

theorem import_private_decoded (env : Env) (ok : Nat → List Byte → Bool) (l : List Byte) (pk : EvpPkey) (h : importPrivate env ok l = some pk) :
    ∃ old p8, dstu_asn1_priv_decode env old p8 = (true, pk) := by
  unfold importPrivate at h
  split at h
  · cases h
  split at h
  · cases h
  split at h
  · rename_i hd
    cases h
    exact ⟨_, _, hd⟩
  · cases h

theorem import_public_decoded (env : Env) (ok : Nat → List Byte → Bool) (l : List Byte) (pk : EvpPkey) (h : importPublic env ok l = some pk) :
    ∃ old pub, dstu_asn1_pub_decode env old pub = (true, pk) := by
  unfold importPublic at h
  split at h
  · cases h
  split at h
  · cases h
  split at h
  · rename_i hd
    cases h
    exact ⟨_, _, hd⟩
  · cases h

/-- C100, the life of a key: on each of the ten built-in curves, both halves of a generated key pair are written to files, with the exception of C88, and read from them, whatever
follows; the keys read match, and what is signed with one is accepted with the other. -/
theorem C100_life_partial (env : Env) (hc : TemplateCodecs env) (n : Fin 10) (g : EcGroup) [GoodGroup g] (hg : group_from_named_curve env.nids n = some g)
    (t : KeyType) (empty k : EcKey g) (draws : List (Option Nat)) (hr : ∀ d, some d ∈ draws → d < g.n) (hgen : dstu_generate_key g empty draws = .done k)
    (key : DstuKey) (hkey : ShownBy k key) (hex : (n ≠ 0 ∧ n ≠ 8) ∨ ∀ y, key.pub ≠ some (some (1, y))) :
    ∃ e e' priv pub, exportPrivate env ⟨t, some key⟩ = some e ∧ exportPublic env ⟨t, some key⟩ = some e' ∧
      (∀ ok rest, importPrivate env ok (e ++ rest) = some ⟨t, some priv⟩) ∧ (∀ ok rest, importPublic env ok (e' ++ rest) = some ⟨t, some pub⟩) ∧
      priv.priv = key.priv ∧ EVP_PKEY_cmp ⟨t, some priv⟩ ⟨t, some pub⟩ = some 1 ∧
      ∀ lib, CorrectLib lib → ∀ (siglen : Nat) (tbs : List Byte) (nonces : List (Option Nat)), (∀ e, some e ∈ nonces → e < g.n) →
        ∀ out, dstu_pkey_sign_any lib (some ⟨t, some priv⟩) true siglen tbs nonces = some (.done out) → out.ret = true →
          dstu_pkey_verify_any lib env.octet (some ⟨t, some pub⟩) out.written tbs = some true := by
  obtain ⟨hgrp, hpr, hpb⟩ := hkey
  obtain ⟨d, h1, h2, h3, h4, h5, h6, _⟩ := C42_generated_builtin env.nids n g hg empty k draws hr hgen
  rw [h1] at hpr
  rw [h4] at hpb
  have hD := named_dstu env.nids n g hg
  have hnb : numBytes g.n < 2 ^ 20 := by
    have hb := hD.n_ok.2
    have hs := hD.small
    rw [Int.toNat_natCast] at hb
    unfold fieldDegree at hs
    unfold numBytes
    unfold numBits at hb ⊢
    split at hb <;> split <;> split at hb <;> omega
  have hdb : numBytes d ≤ 2 ^ 20 := by
    have : numBytes d ≤ numBytes g.n := by
      rw [numBytes_le]
      exact lt_trans h3 ((numBytes_le g.n _).mp (le_refl _))
    omega
  obtain ⟨e, s, Q, e1, _, e3, e4, e5⟩ := C100_private_round_trip_partial env hc g (Or.inl ⟨n, hg⟩) t key d hgrp hpr.symm (by omega) hdb
  have hQ := e5
  subst hQ
  obtain ⟨e', s', f1, f3, f4⟩ : ∃ e' s', exportPublic env ⟨t, some key⟩ = some e' ∧
      (∀ ok rest, importPublic env ok (e' ++ rest) = some ⟨t, some ⟨some g, s', none, some (affine (-(d • g.gen)))⟩⟩) ∧ effectiveSbox s' = effectiveSbox key.sbox := by
    rcases hP : -(d • g.gen) with _ | ⟨x, y, hxy⟩
    · exact absurd hP h5
    · rw [hP] at h6 hpb
      have hx : ¬ (x = 1 ∧ trace y = 0) := by
        rintro ⟨hx, _⟩
        rcases hex with ⟨h0, h8⟩ | hex
        · exact named_no_exception env.nids n h0 h8 g hg x y hxy h6 hx
        · apply hex (GF.toNat y)
          rw [← hpb, Option.map_some, affine, hx, GF.toNat_one g.p (goodGroup_p g)]
      obtain ⟨e', s', q1, _, q3, q4⟩ := C100_public_round_trip_partial env hc g hD (Or.inl ⟨n, hg⟩) t key hgrp x y hxy hpb.symm h6 hx
      exact ⟨e', s', q1, q3, q4⟩
  refine ⟨e, e', _, _, e1, f1, e3, f3, hpr, ?_, ?_⟩
  · obtain ⟨_, _, q1⟩ := import_private_decoded env _ _ _ (e3 (fun _ _ => true) [])
    obtain ⟨_, _, q2⟩ := import_public_decoded env _ _ _ (f3 (fun _ _ => true) [])
    exact (C74_compare_partial t _ _ g g _ _ rfl rfl rfl rfl (priv_decoded_not_default env _ _ _ q1 _ rfl)
      (pub_decoded_not_default env _ _ _ q2 _ rfl)).1 ⟨rfl, e4.trans f4.symm, rfl⟩
  · intro lib hl siglen tbs nonces hn out hsig hret
    exact C99_round_trip lib hl env.octet g t _ _ d ⟨rfl, rfl⟩ ⟨rfl, rfl⟩ (by omega) siglen tbs nonces hn out hsig hret

/-- Surroundings with the codecs of the templates. -/
noncomputable def envDer : Env := ⟨quadSolver, nidsEx, objsEx, C103_contract.1.choose, C103_contract.2.choose, fun _ _ => none⟩

theorem envDer_codecs : TemplateCodecs envDer := ⟨C103_contract.1.choose_spec.1, C103_contract.1.choose_spec.2, C103_contract.2.choose_spec⟩

theorem encodable163 : EncodableCurve envDer g163 := Or.inl ⟨0, g163_named _⟩

/-- A key with an S-box of its own has a file, it has the layout, cut off it is refused, it is accepted as it is but not as a public key, and a key with the same file has the
same number. -/
example : ∃ e, exportPrivate envDer ⟨.be, some (keyEx163 g163)⟩ = some e ∧
    (∃ ep kb, leValue kb = 5 ∧ IsPrivateKeyInfo (keyOid .be) ep kb e) ∧
    (∀ l, l <+: e → l ≠ e → importPrivate envDer (fun _ _ => false) l = none) ∧
    (∃ p ep kb key, BerPrivateKeyInfo (fun _ _ => false) (keyOid .be) ep kb none e ∧ BerParams p ep ∧ key_from_asn1 envDer.sq envDer.nids envDer.objs p false = some key) ∧
    (∀ pk, importPublic envDer (fun _ _ => false) e ≠ some pk) ∧
    ∀ t key d, key.group = some g163 → key.priv = some d → d ≠ 0 → numBytes d ≤ 2 ^ 20 → exportPrivate envDer ⟨t, some key⟩ = some e → t = .be ∧ d = 5 := by
  have h5 : numBytes 5 ≤ 2 ^ 20 := by rw [show numBytes 5 = 1 by decide]; norm_num
  obtain ⟨e, s, Q, h1, h2, h3, _⟩ := C100_private_round_trip_partial envDer envDer_codecs g163 encodable163 .be (keyEx163 g163) 5 rfl rfl (by omega) h5
  have hacc := h3 (fun _ _ => false) []
  rw [List.append_nil] at hacc
  obtain ⟨key, p, d, ep, kb, k1, _, k3, k4, k5, _, _, k8⟩ := C100_private_layout envDer envDer_codecs _ e h1 h2
  cases k1
  cases k4
  refine ⟨e, h1, ⟨ep, kb, k5, (k8 e).mpr rfl⟩, fun l hl hne => (C100_truncated envDer _ _ e l (Or.inl h1) h2 hl hne).1, ?_, ?_, ?_⟩
  · obtain ⟨t, a, p, ep', kb', e', rest, key, g, Q', k1, k2, k4, k5', k6, _, _, k9⟩ := (C100_private_accepts envDer envDer_codecs _ _ _).mp hacc
    obtain rfl : KeyType.be = t := congrArg EvpPkey.type k9
    have hr : rest = [] := by
      by_contra hne
      have hp : e' <+: e := ⟨rest, k2.symm⟩
      have := (C100_truncated envDer (fun _ _ => false) _ e e' (Or.inl h1) h2 hp (by
        intro h
        rw [h] at k2
        exact hne (List.self_eq_append_right.mp k2))).1
      have hacc := (C100_private_accepts envDer envDer_codecs (fun _ _ => false) e' _).mpr ⟨.be, a, p, ep', kb', e', [], key, g, Q', k1, by simp, k4, k5', k6, ‹_›, ‹_›, rfl⟩
      rw [this] at hacc
      cases hacc
    subst hr
    rw [List.append_nil] at k2
    subst k2
    have w1 := (pkcs8Ber_iff (fun _ _ => false) e ((keyOid .be, some (.seq ep')), kb', a) []).mpr ⟨e, ⟨ep', ⟨rfl, params_element _ _ k4⟩, k1⟩, by simp⟩
    have w0 := (pkcs8Ber_iff (fun _ _ => false) e ((keyOid .be, some (.seq ep)), kb, none) []).mpr
      ⟨e, ⟨ep, ⟨rfl, isParams_element _ _ k3⟩, ber_private _ _ _ _ _ ((k8 e).mpr rfl)⟩, by simp⟩
    rw [w0] at w1
    have ha : a = none := by
      simp only [Option.some.injEq, Prod.mk.injEq] at w1
      exact w1.1.2.2.symm
    subst ha
    exact ⟨p, ep', kb', key, k1, k4, k6⟩
  · intro pk hp
    exact C100_not_confused envDer _ _ _ _ _ ⟨hacc, hp⟩
  · intro t key d hk hp hd hs he
    obtain ⟨q1, _, _, q4⟩ := C100_private_distinct envDer envDer_codecs g163 g163 encodable163 encodable163 t .be key (keyEx163 g163) d 5 hk rfl hp rfl hd (by omega) hs h5 e he h1
    exact ⟨q1, q4⟩

/-- The base point as a public key: its file has the layout, is read back and satisfies the condition of acceptance. -/
example : ∃ e s, exportPublic envDer ⟨.le, some ⟨some g163, none, none, some (affine g163.gen)⟩⟩ = some e ∧
    importPublic envDer (fun _ _ => false) (e ++ [1, 2, 3]) = some ⟨.le, some ⟨some g163, s, none, some (affine g163.gen)⟩⟩ ∧
    (∃ ep kb, IsPublicKeyInfo (keyOid .le) ep kb e) ∧ (∃ t ep kb e' rest, BerPublicKeyInfo (keyOid t) ep kb e' ∧ e ++ [1, 2, 3] = e' ++ rest) ∧
    exportPublic envDer ⟨.be, some ⟨some g163, none, none, some (affine g163.gen)⟩⟩ ≠ some e := by
  obtain ⟨_, _, _, _, _, _, _, _, _, hgx⟩ := numbers163
  have hp := goodGroup_p g163
  have hex : ¬ (GF.ofNat g163.p g163.gx = 1 ∧ trace (GF.ofNat g163.p g163.gy) = 0) := by
    rintro ⟨h, _⟩
    have hx := GF.toNat_ofNat g163.p (by omega) g163.gx instGoodGroup163.valid.x_lt
    rw [h, GF.toNat_one g163.p hp] at hx
    exact hgx hx.symm
  obtain ⟨e, s, h1, h2, h3, _⟩ := C100_public_round_trip_partial envDer envDer_codecs g163 g163_dstu encodable163 .le ⟨some g163, none, none, some (affine g163.gen)⟩ rfl _ _
    (binCurve_nonsingular (goodGroup_b g163) instGoodGroup163.valid.onCurve) rfl (instGoodGroup163.valid.order _) hex
  refine ⟨e, s, h1, h3 _ _, ?_, ?_, fun he => ?_⟩
  · obtain ⟨_, _, _, _, _, ep, kb, _, _, _, _, _, _, _, k⟩ := C100_public_layout envDer envDer_codecs _ e h1 h2
    exact ⟨ep, kb, (k e).mpr rfl⟩
  · obtain ⟨t, p, ep, kb, e', rest, _, _, _, _, _, _, k1, k2, _⟩ := (C100_public_accepts envDer envDer_codecs _ _ _).mp (h3 (fun _ _ => false) [1, 2, 3])
    exact ⟨t, ep, kb, e', rest, k1, k2⟩
  · have := (C100_public_distinct_partial envDer envDer_codecs g163 g163 g163_dstu g163_dstu encodable163 encodable163 .le .be _ _ rfl rfl _ _
      (binCurve_nonsingular (goodGroup_b g163) instGoodGroup163.valid.onCurve) rfl (instGoodGroup163.valid.order _) hex _ _
      (binCurve_nonsingular (goodGroup_b g163) instGoodGroup163.valid.onCurve) rfl (instGoodGroup163.valid.order _) hex e h1 he).1
    cases this

/-- The life of a key of the largest curve. -/
example (t : KeyType) : ∃ key e e' priv pub, exportPrivate envDer ⟨t, some key⟩ = some e ∧ exportPublic envDer ⟨t, some key⟩ = some e' ∧
    (∀ ok rest, importPrivate envDer ok (e ++ rest) = some ⟨t, some priv⟩) ∧ (∀ ok rest, importPublic envDer ok (e' ++ rest) = some ⟨t, some pub⟩) ∧
    EVP_PKEY_cmp ⟨t, some priv⟩ ⟨t, some pub⟩ = some 1 := by
  obtain ⟨g, hgood, hg, k, key, h1, h2, h3, h4⟩ := life_ex envDer
  obtain ⟨e, e', priv, pub, a1, a2, a3, a4, _, a6, _⟩ := C100_life_partial envDer envDer_codecs 9 g hg t _ k _ h2 h1 key h3 (Or.inl h4)
  exact ⟨key, e, e', priv, pub, a1, a2, a3, a4, a6⟩

/-- Files: another version and no attributes in a set that is not marked as constructed, an attribute without values, attributes that are none, an algorithm without parameters,
everything of indefinite length with the key in two pieces and the attributes before the end, more unused bits than there are. -/
example : d2i_pkcs8 (fun _ _ => true) ([0x30, 0x81, 27, 2, 1, 7, 0x30, 17, 6, 11] ++ keyOid .le ++ [0x30, 2, 5, 0, 4, 1, 9, 0x80, 0, 0xff]) = some ⟨some .le, some [0x30, 2, 5, 0], [9]⟩ ∧
    d2i_pkcs8 (fun _ _ => true) ([0x30, 0x81, 34, 2, 1, 7, 0x30, 17, 6, 11] ++ keyOid .le ++ [0x30, 2, 5, 0, 4, 1, 9, 0xa0, 7, 0x30, 5, 6, 1, 42, 0x31, 0, 0xff]) =
      some ⟨some .le, some [0x30, 2, 5, 0], [9]⟩ ∧
    d2i_pkcs8 (fun _ _ => true) ([0x30, 28, 2, 1, 7, 0x30, 17, 6, 11] ++ keyOid .le ++ [0x30, 2, 5, 0, 4, 1, 9, 0xa0, 1, 2]) = none ∧
    d2i_pkcs8 (fun _ _ => true) ([0x30, 21, 2, 1, 0, 0x30, 13, 6, 11] ++ keyOid .le ++ [4, 1, 9]) = some ⟨some .le, none, [9]⟩ ∧
    d2i_pkcs8 (fun _ _ => true) ([0x30, 0x80, 2, 1, 0, 0x30, 0x80, 6, 11] ++ keyOid .le ++ [0x30, 0x80, 5, 0, 0, 0, 0, 0, 0x24, 0x80, 4, 1, 8, 4, 1, 9, 0, 0, 0xa0, 0x80, 0, 0, 0, 0, 7]) =
      some ⟨some .le, some [0x30, 0x80, 5, 0, 0, 0], [8, 9]⟩ ∧
    d2i_spki (fun _ _ => true) ([0x30, 21, 0x30, 15, 6, 13] ++ keyOid .be ++ [3, 2, 4, 0xff]) = some ⟨some .be, none, [0xf0]⟩ ∧
    d2i_spki (fun _ _ => true) ([0x30, 21, 0x30, 15, 6, 13] ++ keyOid .be ++ [3, 2, 8, 0xff]) = none := ⟨rfl, rfl, rfl, rfl, rfl, rfl, rfl⟩

end Dstu.Props
