import Verif.Lemmas.Asn1

/-! Encoding and decoding after any template, under the usual conditions on tags. -/

namespace Dstu

open Spec

mutual
/-- The tags an encoding may start with. -/
def Item.tags : Item → List Byte
  | .prim k => [k.tag]
  | .seq _ => [0x30]
  | .choice as => as.altTags
def Fields.altTags : Fields → List Byte
  | .nil => []
  | .cons _ i r => i.tags ++ r.altTags
end

/-- The tags the encoding of the fields may start with. -/
def Fields.first : Fields → List Byte
  | .nil => []
  | .cons opt i r => i.tags ++ if opt then r.first else []

mutual
/-- A template that can be decoded: alternatives have different tags, an optional field has another tag than what may follow. -/
def Item.WF : Item → Prop
  | .prim _ => True
  | .seq fs => fs.SeqWF
  | .choice as => as.AltWF
def Fields.SeqWF : Fields → Prop
  | .nil => True
  | .cons opt i r => i.WF ∧ r.SeqWF ∧ (opt = true → ∀ t ∈ i.tags, t ∉ r.first)
def Fields.AltWF : Fields → Prop
  | .nil => True
  | .cons _ i r => i.WF ∧ r.AltWF ∧ ∀ t ∈ i.tags, t ∉ r.altTags
end

mutual
/-- All identifiers in a value are valid. -/
def Item.Ok : (i : Item) → i.Val → Prop
  | .prim k, v => k.dec (k.enc v) = some v
  | .seq fs, v => fs.SeqOk v
  | .choice as, v => as.AltOk v
def Fields.SeqOk : (fs : Fields) → fs.SeqVal → Prop
  | .nil, _ => True
  | .cons true i r, (v, vs) => (∀ w, v = some w → i.Ok w) ∧ r.SeqOk vs
  | .cons false i r, (v, vs) => i.Ok v ∧ r.SeqOk vs
def Fields.AltOk : (as : Fields) → as.ChoiceVal → Prop
  | .nil, v => nomatch v
  | .cons _ i r, v => match v with
    | .inl v => i.Ok v
    | .inr v => r.AltOk v
end

theorem getObject_tlv (tag : Byte) (ht : tag &&& 0x1f ≠ 0x1f) (c rest : List Byte) (hc : c.length < 2 ^ 28) :
    getObject (tlv tag c ++ rest) = some (tag, c, rest) := by
  simp only [tlv, List.cons_append, List.append_assoc, getObject, if_neg ht, parseLen_derLen _ hc]
  rw [if_neg (by simp), List.take_left' rfl, List.drop_left' rfl]

theorem checkTag_tlv (tag : Byte) (ht : tag &&& 0x1f ≠ 0x1f) (opt) (c rest : List Byte) (hc : c.length < 2 ^ 28) :
    checkTag tag opt (tlv tag c ++ rest) = .ok c rest := by
  simp only [checkTag, getObject_tlv tag ht c rest hc, if_true]

theorem checkTag_absent (tag : Byte) (l : List Byte) (t c r) (h : getObject l = some (t, c, r)) (ht : t ≠ tag) :
    checkTag tag true l = .absent := by
  simp only [checkTag, h, if_neg ht, if_true]

theorem tlv_ge (tag : Byte) (c : List Byte) : c.length < (tlv tag c).length := by
  simp only [tlv, List.length_cons, List.length_append]
  omega

theorem Prim.tag_low (k : Prim) : k.tag &&& 0x1f ≠ 0x1f := by
  cases k <;> decide

mutual
theorem Item.d2i_absent (i : Item) (l : List Byte) (t c r) (h : getObject l = some (t, c, r)) (ht : t ∉ i.tags) : i.d2i true l = .absent := by
  match i with
  | .prim k =>
    simp only [Item.tags, List.mem_singleton] at ht
    simp only [Item.d2i, checkTag_absent _ _ _ _ _ h ht]
  | .seq fs =>
    simp only [Item.tags, List.mem_singleton] at ht
    simp only [Item.d2i, checkTag_absent _ _ _ _ _ h ht]
  | .choice as =>
    simp only [Item.tags] at ht
    simp only [Item.d2i]
    exact Fields.choice_absent as l t c r h ht
theorem Fields.choice_absent (as : Fields) (l : List Byte) (t c r) (h : getObject l = some (t, c, r)) (ht : t ∉ as.altTags) : as.choiceD2i true l = .absent := by
  match as with
  | .nil => simp only [Fields.choiceD2i, if_true]
  | .cons o i s =>
    simp only [Fields.altTags, List.mem_append, not_or] at ht
    simp only [Fields.choiceD2i, Item.d2i_absent i l t c r h ht.1, Fields.choice_absent s l t c r h ht.2]
    rfl
end

mutual
theorem Item.head (i : Item) (v : i.Val) (rest : List Byte) (hl : (i.i2d v).length < 2 ^ 28) :
    ∃ t c r, getObject (i.i2d v ++ rest) = some (t, c, r) ∧ t ∈ i.tags := by
  match i, v with
  | .prim k, v =>
    simp only [Item.i2d] at hl ⊢
    exact ⟨_, _, _, getObject_tlv _ k.tag_low _ _ (lt_trans (tlv_ge _ _) hl), by simp [Item.tags]⟩
  | .seq fs, v =>
    simp only [Item.i2d] at hl ⊢
    exact ⟨_, _, _, getObject_tlv _ (by decide) _ _ (lt_trans (tlv_ge _ _) hl), by simp [Item.tags]⟩
  | .choice as, v =>
    simp only [Item.i2d] at hl ⊢
    simp only [Item.tags]
    exact Fields.altHead as v rest hl
theorem Fields.altHead (as : Fields) (v : as.ChoiceVal) (rest : List Byte) (hl : (as.choiceI2d v).length < 2 ^ 28) :
    ∃ t c r, getObject (as.choiceI2d v ++ rest) = some (t, c, r) ∧ t ∈ as.altTags := by
  match as, v with
  | .cons o i s, .inl v =>
    simp only [Fields.choiceI2d] at hl ⊢
    obtain ⟨t, c, r, h1, h2⟩ := Item.head i v rest hl
    exact ⟨t, c, r, h1, by simp [Fields.altTags, h2]⟩
  | .cons o i s, .inr v =>
    simp only [Fields.choiceI2d] at hl ⊢
    obtain ⟨t, c, r, h1, h2⟩ := Fields.altHead s v rest hl
    exact ⟨t, c, r, h1, by simp [Fields.altTags, h2]⟩
end

theorem Item.i2d_ne (i : Item) (v : i.Val) (hl : (i.i2d v).length < 2 ^ 28) : i.i2d v ≠ [] := by
  obtain ⟨t, c, r, h, _⟩ := i.head v [] hl
  intro e
  rw [e] at h
  simp [getObject] at h

/-- The encoding of fields is empty, or starts with one of their first tags. -/
theorem Fields.seqHead (fs : Fields) (v : fs.SeqVal) (hl : (fs.seqI2d v).length < 2 ^ 28) :
    (fs.seqI2d v = [] ∧ fs.allAbsent = some v) ∨ ∃ t c r, getObject (fs.seqI2d v) = some (t, c, r) ∧ t ∈ fs.first := by
  match fs, v with
  | .nil, () => exact Or.inl ⟨by simp [Fields.seqI2d], by simp [Fields.allAbsent]⟩
  | .cons true i r, (none, vs) =>
    simp only [Fields.seqI2d, List.nil_append] at hl ⊢
    rcases Fields.seqHead r vs hl with ⟨h1, h2⟩ | ⟨t, c, q, h1, h2⟩
    · exact Or.inl ⟨h1, by simp only [Fields.allAbsent, h2]; rfl⟩
    · exact Or.inr ⟨t, c, q, h1, by simp [Fields.first, h2]⟩
  | .cons true i r, (some w, vs) =>
    simp only [Fields.seqI2d, List.length_append] at hl ⊢
    obtain ⟨t, c, q, h1, h2⟩ := i.head w (r.seqI2d vs) (by omega)
    exact Or.inr ⟨t, c, q, h1, by simp [Fields.first, h2]⟩
  | .cons false i r, (w, vs) =>
    simp only [Fields.seqI2d, List.length_append] at hl ⊢
    obtain ⟨t, c, q, h1, h2⟩ := i.head w (r.seqI2d vs) (by omega)
    exact Or.inr ⟨t, c, q, h1, by simp [Fields.first, h2]⟩

theorem Fields.isNil_nil (fs : Fields) (h : fs.isNil = true) : fs = .nil := by
  cases fs with
  | nil => rfl
  | cons => simp [Fields.isNil] at h

mutual
/-- Decoding undoes encoding. -/
theorem Item.round_trip (i : Item) (hw : i.WF) (v : i.Val) (hv : i.Ok v) (hl : (i.i2d v).length < 2 ^ 28) (opt : Bool) (rest : List Byte) :
    i.d2i opt (i.i2d v ++ rest) = .ok v rest := by
  match i, v with
  | .prim k, v =>
    simp only [Item.i2d, Item.Ok] at hl hv ⊢
    simp only [Item.d2i, checkTag_tlv _ k.tag_low _ _ _ (lt_trans (tlv_ge _ _) hl), hv]
  | .seq fs, v =>
    simp only [Item.i2d, Item.Ok, Item.WF] at hl hv hw ⊢
    have hc := lt_trans (tlv_ge _ _) hl
    simp only [Item.d2i, checkTag_tlv _ (by decide : (0x30 : Byte) &&& 0x1f ≠ 0x1f) _ _ _ hc, Fields.seq_round_trip fs hw v hv hc]
  | .choice as, v =>
    simp only [Item.i2d, Item.Ok, Item.WF] at hl hv hw ⊢
    simp only [Item.d2i]
    exact Fields.alt_round_trip as hw v hv hl opt rest
theorem Fields.seq_round_trip (fs : Fields) (hw : fs.SeqWF) (v : fs.SeqVal) (hv : fs.SeqOk v) (hl : (fs.seqI2d v).length < 2 ^ 28) :
    fs.seqD2i (fs.seqI2d v) = some v := by
  match fs, v with
  | .nil, () => simp [Fields.seqI2d, Fields.seqD2i]
  | .cons true i r, (none, vs) =>
    have hh := Fields.seqHead (.cons true i r) (none, vs) hl
    simp only [Fields.seqI2d, List.nil_append, Fields.SeqOk, Fields.SeqWF] at hl hv hw hh ⊢
    by_cases he : r.seqI2d vs = []
    · simp only [Fields.seqD2i, he, if_true]
      rcases hh with hh | ⟨t, c, q, h1, _⟩
      · exact hh.2
      · rw [he] at h1; simp [getObject] at h1
    · rcases Fields.seqHead r vs hl with ⟨h, _⟩ | ⟨t, c, q, h1, h2⟩
      · exact absurd h he
      · have hnn : r.isNil = false := by
          cases hn : r.isNil with
          | false => rfl
          | true =>
            rw [Fields.isNil_nil r hn] at h2
            simp [Fields.first] at h2
        have ha := Item.d2i_absent i (r.seqI2d vs) t c q h1 (fun ht => hw.2.2 trivial t ht h2)
        simp only [Fields.seqD2i, if_neg he, hnn, Bool.not_false, ha, Fields.seq_round_trip r hw.2.1 vs hv.2 hl]
        rfl
  | .cons true i r, (some w, vs) =>
    simp only [Fields.seqI2d, List.length_append, Fields.SeqOk, Fields.SeqWF] at hl hv hw ⊢
    have hne : i.i2d w ++ r.seqI2d vs ≠ [] := by simp [i.i2d_ne w (by omega)]
    simp only [Fields.seqD2i, if_neg hne, Item.round_trip i hw.1 w (hv.1 w rfl) (by omega), Fields.seq_round_trip r hw.2.1 vs hv.2 (by omega)]
    rfl
  | .cons false i r, (w, vs) =>
    simp only [Fields.seqI2d, List.length_append, Fields.SeqOk, Fields.SeqWF] at hl hv hw ⊢
    have hne : i.i2d w ++ r.seqI2d vs ≠ [] := by simp [i.i2d_ne w (by omega)]
    simp only [Fields.seqD2i, if_neg hne, Item.round_trip i hw.1 w hv.1 (by omega), Fields.seq_round_trip r hw.2.1 vs hv.2 (by omega)]
    rfl
theorem Fields.alt_round_trip (as : Fields) (hw : as.AltWF) (v : as.ChoiceVal) (hv : as.AltOk v) (hl : (as.choiceI2d v).length < 2 ^ 28) (opt : Bool) (rest : List Byte) :
    as.choiceD2i opt (as.choiceI2d v ++ rest) = .ok v rest := by
  match as, v with
  | .cons o i s, .inl v =>
    simp only [Fields.choiceI2d, Fields.AltOk, Fields.AltWF] at hl hv hw ⊢
    simp only [Fields.choiceD2i, Item.round_trip i hw.1 v hv hl]
  | .cons o i s, .inr v =>
    simp only [Fields.choiceI2d, Fields.AltOk, Fields.AltWF] at hl hv hw ⊢
    obtain ⟨t, c, q, h1, h2⟩ := Fields.altHead s v rest hl
    have ha := Item.d2i_absent i _ t c q h1 (fun ht => hw.2.2 t ht h2)
    simp only [Fields.choiceD2i, ha, Fields.alt_round_trip s hw.2.1 v hv hl opt rest]
    rfl
end

end Dstu
