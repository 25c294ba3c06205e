import Verif.Spec.Asn1Keylib
import Verif.Model.Asn1Keylib
import Verif.Props.Asn1
import Verif.Props.Key6

/-! Property C97: the encodings the ASN.1 templates of the key library read. -/

namespace Dstu.Props

open Dstu.Spec

/-- The encoding of the optional field. -/
def padDer : Option (List Byte) → List Byte
  | none => []
  | some p => tlv 0x04 p

theorem i2d_key6 (type mac : List Byte) (pad : Option (List Byte)) (data : List Byte) :
    i2d_IITStore type mac pad data =
      tlv 0x30 (tlv 0x30 (tlv 0x06 type ++ tlv 0x30 (tlv 0x04 mac ++ padDer pad)) ++ tlv 0x04 data) := by
  cases pad <;>
  simp only [padDer, i2d_IITStore, itIITStore, itIITHeader, itIITParams, simple, Item.i2d, Fields.seqI2d, Prim.tag, Prim.enc, List.append_nil]

/-- C97: the file of a container has exactly one encoding. -/
theorem C97_key6_layout (type mac : List Byte) (pad : Option (List Byte)) (data e : List Byte) (hl : (i2d_IITStore type mac pad data).length < 2 ^ 28) :
    IsKey6File type mac pad data e ↔ e = i2d_IITStore type mac pad data := by
  rw [i2d_key6] at hl ⊢
  have h1 := lt_trans (tlv_ge _ _) hl
  rw [List.length_append] at h1
  have h2 := tlv_ge 0x30 (tlv 0x06 type ++ tlv 0x30 (tlv 0x04 mac ++ padDer pad))
  rw [List.length_append] at h2
  have h3 := tlv_ge 0x30 (tlv 0x04 mac ++ padDer pad)
  rw [List.length_append] at h3
  have h4 := tlv_ge 0x06 type
  have h5 := tlv_ge 0x04 mac
  have h6 := tlv_ge 0x04 data
  cases pad with
  | none =>
    simp only [padDer, List.append_nil, List.length_nil, Nat.add_zero] at h1 h2 h3 ⊢
    simp only [IsKey6File, IsSequence, IsOctets]
    constructor
    · rintro ⟨et, em, ep, eh, ed, e1, e2, e3, e4, e5, e6⟩
      rw [element_iff _ _ _ (by omega)] at e1 e2 e5
      subst e1 e2 e5
      rw [element_iff _ _ _ (by flat)] at e3
      simp only [List.flatten_cons, List.flatten_nil, List.append_nil] at e3
      subst e3
      rw [element_iff _ _ _ (by flat)] at e4
      simp only [List.flatten_cons, List.flatten_nil, List.append_nil] at e4
      subst e4
      rw [element_iff _ _ _ (by flat)] at e6
      simpa only [List.flatten_cons, List.flatten_nil, List.append_nil] using e6
    · rintro rfl
      refine ⟨_, _, _, _, _, (element_iff _ _ _ (by omega)).mpr rfl, (element_iff _ _ _ (by omega)).mpr rfl, (element_iff _ _ _ (by flat)).mpr rfl,
        (element_iff _ _ _ (by flat)).mpr rfl, (element_iff _ _ _ (by omega)).mpr rfl, ?_⟩
      rw [element_iff _ _ _ (by flat)]
      simp only [List.flatten_cons, List.flatten_nil, List.append_nil]
  | some pad =>
    have h7 := tlv_ge 0x04 pad
    simp only [padDer] at h1 h2 h3 ⊢
    simp only [IsKey6File, IsSequence, IsOctets]
    constructor
    · rintro ⟨et, em, ep, eh, ed, e1, e2, ⟨eq, e7, e3⟩, e4, e5, e6⟩
      rw [element_iff _ _ _ (by omega)] at e1 e2 e5 e7
      subst e1 e2 e5 e7
      rw [element_iff _ _ _ (by flat)] at e3
      simp only [List.flatten_cons, List.flatten_nil, List.append_nil] at e3
      subst e3
      rw [element_iff _ _ _ (by flat)] at e4
      simp only [List.flatten_cons, List.flatten_nil, List.append_nil] at e4
      subst e4
      rw [element_iff _ _ _ (by flat)] at e6
      simpa only [List.flatten_cons, List.flatten_nil, List.append_nil] using e6
    · rintro rfl
      refine ⟨_, _, _, _, _, (element_iff _ _ _ (by omega)).mpr rfl, (element_iff _ _ _ (by omega)).mpr rfl,
        ⟨_, (element_iff _ _ _ (by omega)).mpr rfl, (element_iff _ _ _ (by flat)).mpr rfl⟩,
        (element_iff _ _ _ (by flat)).mpr rfl, (element_iff _ _ _ (by omega)).mpr rfl, ?_⟩
      rw [element_iff _ _ _ (by flat)]
      simp only [List.flatten_cons, List.flatten_nil, List.append_nil]

theorem wf_key6 : itIITStore.WF := by
  simp [itIITStore, itIITHeader, itIITParams, simple, Item.WF, Fields.SeqWF, Item.tags, Fields.first, Prim.tag]

theorem wf_attr : itAttrCurveSpec.WF := by
  simp [itAttrCurveSpec, itCustomCurveSpec, itBinaryField, itPolynomial, itPentanomial, simple, Item.WF, Fields.SeqWF, Fields.AltWF, Item.tags, Fields.altTags, Prim.tag]

theorem d2i_key6 (type mac : List Byte) (pad : Option (List Byte)) (data rest : List Byte) (ht : Prim.object.dec type = some type)
    (hl : (i2d_IITStore type mac pad data).length < 2 ^ 28) :
    d2i_IITStore (i2d_IITStore type mac pad data ++ rest) = some ⟨some ⟨some type, some ⟨mac, pad⟩⟩, some data⟩ := by
  have hok : itIITStore.Ok ((type, (mac, pad, ()), ()), data, ()) := by
    refine ok_seq (ok_simple (ok_seq (ok_simple ?_ (ok_simple (ok_seq (ok_simple (ok_oct _) (ok_opt (fun w _ => ok_oct w) ok_nil))) ok_nil))) (ok_simple (ok_oct _) ok_nil))
    simp only [Item.Ok, Prim.enc]
    exact ht
  simp only [d2i_IITStore, i2d_IITStore, itIITStore.round_trip wf_key6 _ hok hl false rest]
  rfl

theorem oid_ok : Prim.object.dec oidIitStore = some oidIitStore := by decide

/-- C97: a file, also one followed by other bytes, is imported as the container it is the encoding of: the keys are looked for in the decrypted message. -/
theorem C97_key6_file {κ χ : Type} (keys : List Byte → Option (Option (κ × Option κ))) (g : Garbage) (e rest password : List Byte) (blocks : List (Bytes 8))
    (mac data : List Byte) (pad : Option (List Byte)) (key : Bytes 32) (hk : Key6Key dke1 password key) (he : IsKey6File oidIitStore mac pad data e)
    (hs : (i2d_IITStore oidIitStore mac pad data).length < 2 ^ 28)
    (hd : data ++ pad.getD [] = ecb dke1 key blocks) (hl : password.length < 2 ^ 60) (ks : Option Nat) (m : ImpMem κ χ) :
    ∃ tail, tail.length = 8 ∧
      parseKey6 ⟨d2i_IITStore, keys⟩ g (e ++ rest) password ks m = keysFromPKCS8 keys (blocks.flatMap Vector.toList ++ tail) ks m := by
  rw [C97_key6_layout _ _ _ _ _ hs] at he
  subst he
  have h1 := d2i_key6 oidIitStore mac pad data rest oid_ok hs
  have h2 : Key6Container password blocks mac ⟨some ⟨some oidIitStore, some ⟨mac, pad⟩⟩, some data⟩ := ⟨key, data, pad, hk, rfl, hd⟩
  generalize i2d_IITStore oidIitStore mac pad data ++ rest = file at *
  exact C61_contents ⟨d2i_IITStore, keys⟩ g file password blocks mac _ h1 h2 hl ks m

/-- C97: only such files are accepted: what is imported is, up to superfluous bytes in lengths, the encoding of a container with the identifier, and its
encoding in DER, which is not longer, gives the same. -/
theorem C97_key6_only {κ χ : Type} (keys : List Byte → Option (Option (κ × Option κ))) (g : Garbage) (file password : List Byte) (hf : file.length < 2 ^ 28)
    (ks ks' : Option Nat) (m m' : ImpMem κ χ) (h : parseKey6 ⟨d2i_IITStore, keys⟩ g file password ks m = some (true, ks', m')) :
    ∃ mac pad data e, IsKey6File oidIitStore mac pad data e ∧ e.length ≤ file.length ∧
      ∀ rest, parseKey6 ⟨d2i_IITStore, keys⟩ g (e ++ rest) password ks m = some (true, ks', m') := by
  unfold parseKey6 at h
  split at h
  · rename_i type params data e
    simp only [d2i_IITStore] at e
    split at e
    · rename_i v r hv
      match v, hv with
      | ((ty, (mac, pad, ()), ()), dat, ()), hv =>
        obtain ⟨h1, h2, _⟩ := itIITStore.sound false file _ r hv
        simp only [IITStore.ofVal, Option.some.injEq, IITStore.mk.injEq, IITHeader.mk.injEq] at e
        obtain ⟨⟨e1, e2⟩, e3⟩ := e
        cases e1; cases e2; cases e3
        split at h
        · simp only [Option.some.injEq, Prod.mk.injEq, Bool.false_eq_true, false_and] at h
        · rename_i hty
          have hty := not_not.mp hty
          change type = oidIitStore at hty
          subst hty
          have hlen : (i2d_IITStore oidIitStore mac pad data).length ≤ file.length := by
            simp only [i2d_IITStore]; omega
          refine ⟨mac, pad, data, _, (C97_key6_layout _ _ _ _ _ (by omega)).mpr rfl, hlen, ?_⟩
          intro rest
          unfold parseKey6
          simp only [d2i_key6 _ _ _ _ rest oid_ok (lt_of_le_of_lt hlen hf)]
          exact h
    · cases e
  · simp only [Option.some.injEq, Prod.mk.injEq, Bool.false_eq_true, false_and] at h

/-- C97: a file that is not the encoding of a structure with the identifier is refused, and changes nothing. -/
theorem C97_key6_refused {κ χ : Type} (keys : List Byte → Option (Option (κ × Option κ))) (g : Garbage) (type mac : List Byte) (pad : Option (List Byte))
    (data e rest password : List Byte) (he : IsKey6File type mac pad data e) (hs : (i2d_IITStore type mac pad data).length < 2 ^ 28) (ht : ValidOid type) (hn : type ≠ oidIitStore)
    (ks : Option Nat) (m : ImpMem κ χ) :
    parseKey6 ⟨d2i_IITStore, keys⟩ g (e ++ rest) password ks m = some (false, ks, m) := by
  rw [C97_key6_layout _ _ _ _ _ hs] at he
  subst he
  unfold parseKey6
  simp only [d2i_key6 _ _ _ _ rest (object_ok _ ht) hs]
  exact if_pos hn

theorem i2d_attr (s : CustomCurveSpec) (dke dke1 : List Byte) : i2d_AttrCurveSpec s dke dke1 = tlv 0x30 (derCustom s ++ (tlv 0x04 dke ++ tlv 0x04 dke1)) := by
  have h := i2d_custom s
  simp only [i2d_AttrCurveSpec, itAttrCurveSpec, simple, Item.i2d, Fields.seqI2d, h, Prim.tag, Prim.enc, List.append_nil]

/-- C97: the value of the curve attribute has exactly one encoding, and it is read as the curve it describes. -/
theorem C97_attr (s : CustomCurveSpec) (dke dke1 e : List Byte) (hl : (i2d_AttrCurveSpec s dke dke1).length < 2 ^ 28) :
    (IsCurveAttr s dke dke1 e ↔ e = i2d_AttrCurveSpec s dke dke1) ∧ (IsCurveAttr s dke dke1 e → unpack_AttrCurveSpec e = some s) := by
  have hiff : IsCurveAttr s dke dke1 e ↔ e = i2d_AttrCurveSpec s dke dke1 := by
    rw [i2d_attr] at hl ⊢
    have h1 := lt_trans (tlv_ge _ _) hl
    simp only [List.length_append] at h1
    have h2 := tlv_ge 0x04 dke
    have h3 := tlv_ge 0x04 dke1
    simp only [IsCurveAttr, IsSequence, IsOctets]
    constructor
    · rintro ⟨es, ed, ed1, e1, e2, e3, e4⟩
      rw [custom_iff _ _ (by omega)] at e1
      rw [element_iff _ _ _ (by omega)] at e2 e3
      subst e1 e2 e3
      rw [element_iff _ _ _ (by flat)] at e4
      simpa only [List.flatten_cons, List.flatten_nil, List.append_nil] using e4
    · rintro rfl
      refine ⟨_, _, _, (custom_iff _ _ (by omega)).mpr rfl, (element_iff _ _ _ (by omega)).mpr rfl, (element_iff _ _ _ (by omega)).mpr rfl, ?_⟩
      rw [element_iff _ _ _ (by flat)]
      simp only [List.flatten_cons, List.flatten_nil, List.append_nil]
  refine ⟨hiff, fun h => ?_⟩
  rw [hiff.mp h]
  have hok : itAttrCurveSpec.Ok (s.val, dke, dke1, ()) := ok_seq (ok_simple (ok_custom s) (ok_simple (ok_oct _) (ok_simple (ok_oct _) ok_nil)))
  have := itAttrCurveSpec.round_trip wf_attr _ hok hl false []
  rw [List.append_nil] at this
  simp only [unpack_AttrCurveSpec, i2d_AttrCurveSpec, this, Option.some.injEq]
  obtain ⟨m, poly, a, b, n, bp⟩ := s
  cases poly <;> rfl

/-- C97: a second key is found in attributes that hold the encoded curve and the number, and it is the key with this curve and number. -/
theorem C97_second_key (env : P8Env) (hu : env.unpack_spec = unpack_AttrCurveSpec) (s : CustomCurveSpec) (dke dke1 e num : List Byte)
    (hl : (i2d_AttrCurveSpec s dke dke1).length < 2 ^ 28) (he : IsCurveAttr s dke dke1 e) (bits : Bool) (attrs : List (Option Attr))
    (hc : LastAttr oidCurveAttr attrs ⟨some oidCurveAttr, [.seq e]⟩) (hk : LastAttr oidKeyAttr attrs ⟨some oidKeyAttr, [if bits then .bit num else .octet num]⟩)
    (g : EcGroup) (hg : makeECGROUPFromSpec env.sq s = some (some g)) (d : Nat) (hd : ∀ i, Nat.testBit d i = bitAt num i) (Q : Option (Nat × Nat))
    (hQ : add_public_key env.toEnv g d = some Q) :
    SecondKey env attrs ⟨.le, some ⟨some g, none, some d, some Q⟩⟩ := by
  refine ⟨_, _, num, s, g, d, Q, hc, hk, ?_, hd, ?_, hg, hQ, rfl⟩
  · refine ⟨[], _, [], rfl, ?_, by simp⟩
    cases bits
    · exact Or.inl rfl
    · exact Or.inr rfl
  · refine ⟨[], e, [], rfl, ?_, by simp⟩
    rw [hu]
    exact (C97_attr s dke dke1 e hl).2 he

/-- For every password, MAC and message there is a file, with the ciphertext split anywhere. -/
theorem key6_ex (password : List Byte) (blocks : List (Bytes 8)) (mac : List Byte) (n : Nat) (hm : mac.length < 2 ^ 20) (hb : blocks.length < 2 ^ 20) :
    ∃ key data pad e, Key6Key dke1 password key ∧ IsKey6File oidIitStore mac (some pad) data e ∧ (i2d_IITStore oidIitStore mac (some pad) data).length < 2 ^ 27 ∧
      data ++ pad = ecb dke1 key blocks := by
  obtain ⟨key, _, hk⟩ := pkdfLoop_eq (fun _ => emptyCtx) 9999 (gost34311 dke1 password)
  have hkey : Key6Key dke1 password key := by
    unfold Key6Key
    rw [hashTimes_succ]
    exact hk
  have hlen : (ecb dke1 key blocks).length = 8 * blocks.length := by
    unfold ecb
    induction blocks with
    | nil => rfl
    | cons b l ih => simp only [List.flatMap_cons, List.length_append, List.length_cons, ih (by simp at hb; omega)]; simp; omega
  have hl : (i2d_IITStore oidIitStore mac (some ((ecb dke1 key blocks).drop n)) ((ecb dke1 key blocks).take n)).length < 2 ^ 27 := by
    rw [i2d_key6]
    generalize ecb dke1 key blocks = c at *
    have e1 := tlv_length 0x04 mac (by omega)
    have e2 := tlv_length 0x04 (c.drop n) (by simp; omega)
    have e3 := tlv_length 0x04 (c.take n) (by simp; omega)
    have e4 := tlv_length 0x06 oidIitStore (by decide)
    have e5 : oidIitStore.length = 12 := rfl
    simp only [List.length_drop, List.length_take] at e2 e3
    have e6 := tlv_length 0x30 (tlv 0x04 mac ++ padDer (some (c.drop n))) (by simp only [padDer, List.length_append]; omega)
    simp only [padDer, List.length_append] at e6
    have e7 := tlv_length 0x30 (tlv 0x06 oidIitStore ++ tlv 0x30 (tlv 0x04 mac ++ padDer (some (c.drop n)))) (by simp only [padDer, List.length_append]; omega)
    simp only [padDer, List.length_append] at e7
    have e8 := tlv_length 0x30 (tlv 0x30 (tlv 0x06 oidIitStore ++ tlv 0x30 (tlv 0x04 mac ++ padDer (some (c.drop n)))) ++ tlv 0x04 (c.take n))
      (by simp only [padDer, List.length_append]; omega)
    simp only [padDer, List.length_append] at e8
    simp only [padDer]
    omega
  exact ⟨key, _, _, _, hkey, (C97_key6_layout _ _ _ _ _ (by omega)).mpr rfl, hl, List.take_append_drop n _⟩

/-- A file is accepted, with superfluous bytes too. -/
example : d2i_IITStore [0x30, 0x81, 0x17, 0x30, 0x12, 0x06, 0x0c, 0x2B, 0x06, 0x01, 0x04, 0x01, 0x81, 0x97, 0x46, 0x01, 0x01, 0x01, 0x02, 0x30, 0x02, 0x04, 0x00, 0x04, 0x01, 0x07, 0xff] =
      some ⟨some ⟨some oidIitStore, some ⟨[], none⟩⟩, some [7]⟩ ∧
    i2d_IITStore oidIitStore [] none [7] = [0x30, 0x17, 0x30, 0x12, 0x06, 0x0c, 0x2B, 0x06, 0x01, 0x04, 0x01, 0x81, 0x97, 0x46, 0x01, 0x01, 0x01, 0x02, 0x30, 0x02, 0x04, 0x00, 0x04, 0x01, 0x07] := by
  exact ⟨rfl, by decide +kernel⟩

/-- An identifier that is not the one. -/
example : ValidOid oid257 ∧ oid257 ≠ oidIitStore ∧ ∃ e, IsKey6File oid257 [1] none [2] e := by
  refine ⟨?_, by decide, _, (C97_key6_layout _ _ _ _ _ (by decide +kernel)).mpr rfl⟩
  refine ⟨by decide, by decide, by decide, by decide, ?_⟩
  intro i b c hb hc _ e
  subst e
  have : ∀ i : Fin 13, oid257[i.val + 1]? ≠ some 0x80 := by decide
  by_cases hi : i < 13
  · exact this ⟨i, hi⟩ hc
  · rw [List.getElem?_eq_none (by simp [oid257]; omega)] at hc
    cases hc

/-- A curve attribute. -/
example : unpack_AttrCurveSpec (i2d_AttrCurveSpec ⟨163, .pentanomial 3 6 7, 1, [5, 0xff], 11, [1, 2, 3]⟩ [8] []) = some ⟨163, .pentanomial 3 6 7, 1, [5, 0xff], 11, [1, 2, 3]⟩ ∧
    IsCurveAttr ⟨163, .pentanomial 3 6 7, 1, [5, 0xff], 11, [1, 2, 3]⟩ [8] []
      [0x30, 39, 0x30, 32, 0x30, 15, 2, 2, 0, 163, 0x30, 9, 2, 1, 3, 2, 1, 6, 2, 1, 7, 2, 1, 1, 4, 2, 5, 0xff, 2, 1, 11, 4, 3, 1, 2, 3, 4, 1, 8, 4, 0] := by
  refine ⟨by decide +kernel, ((C97_attr _ _ _ _ ?_).1).mpr ?_⟩ <;> decide +kernel

/-- A Key-6 file of two blocks is read, whatever follows it, and what its reading yields is also what a file the definition writes yields. -/
example (g : Garbage) : ∃ (file : List Byte) (ks' : Option Nat) (m' : ImpMem Unit Unit), parseKey6 ⟨d2i_IITStore, fun _ => some (some ((), none))⟩ g (file ++ [1, 2]) [0x70] none ⟨KsMem.boot, fun _ => none, fun _ => none⟩ = some (true, ks', m') ∧
    ∃ mac pad data e, IsKey6File oidIitStore mac pad data e ∧ e.length ≤ file.length + 2 := by
  obtain ⟨key, data, pad, e, h1, h2, h3, h4⟩ := key6_ex [0x70] [#v[3, 1, 2, 3, 0, 0, 0, 0], #v[4, 0, 0, 0, 0, 0, 0, 0]] [1, 2, 3, 4] 5 (by decide) (by decide)
  obtain ⟨tail, _, h⟩ := C97_key6_file (κ := Unit) (χ := Unit) (fun _ => some (some ((), none))) g e [1, 2] [0x70] _ _ _ (some pad) key h1 h2 (by omega) h4 (by decide) none ⟨KsMem.boot, fun _ => none, fun _ => none⟩
  have hs : ∃ ks' m', keysFromPKCS8 (fun _ => some (some ((), none))) (List.flatMap Vector.toList [#v[(3 : Byte), 1, 2, 3, 0, 0, 0, 0], #v[4, 0, 0, 0, 0, 0, 0, 0]] ++ tail) none
      (⟨KsMem.boot, fun _ => none, fun _ => none⟩ : ImpMem Unit Unit) = some (true, ks', m') := ⟨_, _, rfl⟩
  obtain ⟨ks', m', hs⟩ := hs
  rw [hs] at h
  have he := (C97_key6_layout _ _ _ _ _ (by omega)).mp h2
  obtain ⟨mac, pad', data', e', q1, q2, _⟩ := C97_key6_only _ g (e ++ [1, 2]) [0x70] (by rw [he, List.length_append]; simp only [List.length_cons, List.length_nil]; omega) _ _ _ _ h
  exact ⟨e, ks', m', h, mac, pad', data', e', q1, by simpa using q2⟩

end Dstu.Props
