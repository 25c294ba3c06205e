import Verif.Lemmas.TemplateSound
import Verif.Spec.Asn1Ber

/-! What the decoder accepts, for any template. -/

namespace Dstu

open Spec

theorem parseLen_iff (l r : List Byte) (n : Nat) : parseLen l = some (n, r) ↔ ∃ o, AnyLength n o ∧ l = o ++ r := by
  constructor
  · intro h
    cases l with
    | nil => simp [parseLen] at h
    | cons b l =>
      simp only [parseLen] at h
      split at h
      · rename_i hb
        cases h
        exact ⟨[b], Or.inl ⟨hb, by simp⟩, rfl⟩
      · split at h
        · cases h
        · rename_i hb hc
          simp only [Option.some.injEq, Prod.mk.injEq] at h
          obtain ⟨rfl, rfl⟩ := h
          simp only [not_or, not_lt] at hc
          have hb' := b.isLt
          have hlen : (l.take (b.toNat - 128)).length = b.toNat - 128 := by simp; omega
          refine ⟨b :: l.take (b.toNat - 128), Or.inr ⟨l.take (b.toNat - 128), ?_, by omega, (bin2bn_eq _).symm, ?_⟩, by simp⟩
          · intro he
            rw [he] at hlen
            simp at hlen
            omega
          · rw [hlen, show 128 + (b.toNat - 128) = b.toNat by omega]
            simp
  · rintro ⟨o, ⟨hn, rfl⟩ | ⟨q, h1, h2, h3, rfl⟩, rfl⟩
    · have e : (BitVec.ofNat 8 n).toNat = n := by simp; omega
      simp only [List.singleton_append, parseLen, e, if_pos hn]
    · have hq := List.length_pos_of_ne_nil h1
      have e : (BitVec.ofNat 8 (128 + q.length)).toNat = 128 + q.length := by simp; omega
      have e2 : 128 + q.length - 128 = q.length := by omega
      simp only [List.cons_append, parseLen, e, e2]
      rw [if_neg (by omega), if_neg (by simp; omega), List.take_left' rfl, List.drop_left' rfl, bin2bn_eq, h3]

theorem getObject_iff (l c r : List Byte) (t : Byte) : getObject l = some (t, c, r) ↔ t &&& 0x1f ≠ 0x1f ∧ ∃ e, AnyElement t c e ∧ l = e ++ r := by
  constructor
  · intro h
    cases l with
    | nil => simp [getObject] at h
    | cons b l =>
      simp only [getObject] at h
      split at h
      · cases h
      · rename_i ht
        split at h
        · cases h
        · rename_i n q e
          split at h
          · cases h
          · rename_i hn
            cases h
            obtain ⟨o, h1, h2⟩ := (parseLen_iff _ _ _).mp e
            refine ⟨ht, t :: (o ++ q.take n), ⟨o, ?_, rfl⟩, ?_⟩
            · rw [show (q.take n).length = n by simp; omega]; exact h1
            · simp [h2]
  · rintro ⟨ht, e, ⟨o, h1, rfl⟩, rfl⟩
    have := (parseLen_iff (o ++ (c ++ r)) (c ++ r) c.length).mpr ⟨o, h1, rfl⟩
    simp only [List.cons_append, List.append_assoc, getObject, if_neg ht, this]
    rw [if_neg (by simp), List.take_left' rfl, List.drop_left' rfl]

theorem checkTag_iff (tag : Byte) (ht : tag &&& 0x1f ≠ 0x1f) (opt) (l c r : List Byte) : checkTag tag opt l = .ok c r ↔ ∃ e, AnyElement tag c e ∧ l = e ++ r := by
  constructor
  · intro h
    unfold checkTag at h
    split at h
    · cases h
    · rename_i t c' r' e
      split at h
      · rename_i hh
        cases h
        subst hh
        exact ((getObject_iff _ _ _ _).mp e).2
      · split at h <;> cases h
  · intro h
    simp only [checkTag, (getObject_iff _ _ _ _).mpr ⟨ht, h⟩, if_true]

mutual
/-- The encodings of a value. -/
def Item.Enc : (i : Item) → i.Val → List Byte → Prop
  | .prim k, v, e => ∃ c, k.dec c = some v ∧ AnyElement k.tag c e
  | .seq fs, v, e => ∃ c, fs.SeqEnc v c ∧ AnyElement 0x30 c e
  | .choice as, v, e => as.AltEnc v e
def Fields.SeqEnc : (fs : Fields) → fs.SeqVal → List Byte → Prop
  | .nil, _, c => c = []
  | .cons true i r, (v, vs), c => ∃ a b, (match v with | none => a = [] | some w => i.Enc w a) ∧ r.SeqEnc vs b ∧ c = a ++ b
  | .cons false i r, (v, vs), c => ∃ a b, i.Enc v a ∧ r.SeqEnc vs b ∧ c = a ++ b
def Fields.AltEnc : (as : Fields) → as.ChoiceVal → List Byte → Prop
  | .nil, v, _ => nomatch v
  | .cons _ i r, v, e => match v with
    | .inl v => i.Enc v e
    | .inr v => r.AltEnc v e
end

theorem Fields.allAbsent_enc (fs : Fields) (v : fs.SeqVal) (h : fs.allAbsent = some v) : fs.SeqEnc v [] := by
  match fs, v with
  | .nil, () => simp [Fields.SeqEnc]
  | .cons true i r, (w, vs) =>
    simp only [Fields.allAbsent] at h
    obtain ⟨vs', h1, h2⟩ := Option.map_eq_some_iff.1 h
    cases h2
    simp only [Fields.SeqEnc]
    exact ⟨[], [], rfl, Fields.allAbsent_enc r _ h1, rfl⟩
  | .cons false i r, (w, vs) => simp [Fields.allAbsent] at h

mutual
/-- What is accepted is an encoding. -/
theorem Item.only (i : Item) (opt : Bool) (l : List Byte) (v : i.Val) (rest : List Byte) (h : i.d2i opt l = .ok v rest) :
    ∃ e, i.Enc v e ∧ l = e ++ rest := by
  match i, v with
  | .prim k, v =>
    simp only [Item.d2i] at h
    split at h
    · cases h
    · cases h
    · rename_i c r e
      split at h
      · cases h
      · rename_i w hw
        cases h
        obtain ⟨e, h1, h2⟩ := (checkTag_iff _ k.tag_low _ _ _ _).mp e
        exact ⟨e, by simp only [Item.Enc]; exact ⟨c, hw, h1⟩, h2⟩
  | .seq fs, v =>
    simp only [Item.d2i] at h
    split at h
    · cases h
    · cases h
    · rename_i c r e
      split at h
      · cases h
      · rename_i w hw
        cases h
        obtain ⟨e, h1, h2⟩ := (checkTag_iff _ (by decide) _ _ _ _).mp e
        exact ⟨e, by simp only [Item.Enc]; exact ⟨c, Fields.seq_only fs c v hw, h1⟩, h2⟩
  | .choice as, v =>
    simp only [Item.d2i] at h
    simp only [Item.Enc]
    exact Fields.alt_only as opt l v rest h
theorem Fields.seq_only (fs : Fields) (l : List Byte) (v : fs.SeqVal) (h : fs.seqD2i l = some v) : fs.SeqEnc v l := by
  match fs, v with
  | .nil, () =>
    simp only [Fields.seqD2i] at h
    split at h
    · simpa only [Fields.SeqEnc]
    · cases h
  | .cons true i r, (w, vs) =>
    simp only [Fields.seqD2i] at h
    split at h
    · rename_i hl
      rw [hl]
      exact Fields.allAbsent_enc _ _ h
    · split at h
      · cases h
      · obtain ⟨vs', h1, h2⟩ := Option.map_eq_some_iff.1 h
        cases h2
        simp only [Fields.SeqEnc]
        exact ⟨[], l, rfl, Fields.seq_only r l _ h1, rfl⟩
      · rename_i w' l' e
        obtain ⟨vs', h1, h2⟩ := Option.map_eq_some_iff.1 h
        cases h2
        obtain ⟨a, h3, h4⟩ := Item.only i _ l w' l' e
        simp only [Fields.SeqEnc]
        exact ⟨a, l', h3, Fields.seq_only r l' _ h1, h4⟩
  | .cons false i r, (w, vs) =>
    simp only [Fields.seqD2i] at h
    split at h
    · cases h
    · split at h
      · rename_i w' l' e
        obtain ⟨vs', h1, h2⟩ := Option.map_eq_some_iff.1 h
        cases h2
        obtain ⟨a, h3, h4⟩ := Item.only i _ l w l' e
        simp only [Fields.SeqEnc]
        exact ⟨a, l', h3, Fields.seq_only r l' _ h1, h4⟩
      · cases h
theorem Fields.alt_only (as : Fields) (opt : Bool) (l : List Byte) (v : as.ChoiceVal) (rest : List Byte) (h : as.choiceD2i opt l = .ok v rest) :
    ∃ e, as.AltEnc v e ∧ l = e ++ rest := by
  match as, v with
  | .cons o i s, v =>
    simp only [Fields.choiceD2i] at h
    split at h
    · cases hs : s.choiceD2i opt l with
      | absent => rw [hs] at h; cases h
      | error => rw [hs] at h; cases h
      | ok w r =>
        rw [hs] at h
        cases h
        simp only [Fields.AltEnc]
        exact Fields.alt_only s opt l w rest hs
    · cases h
    · rename_i w r e
      cases h
      simp only [Fields.AltEnc]
      exact Item.only i true l w rest e
end

mutual
theorem Item.encHead (i : Item) (v : i.Val) (e rest : List Byte) (h : i.Enc v e) : ∃ t c r, getObject (e ++ rest) = some (t, c, r) ∧ t ∈ i.tags := by
  match i, v with
  | .prim k, v =>
    simp only [Item.Enc] at h
    obtain ⟨c, _, h⟩ := h
    exact ⟨_, _, _, (getObject_iff _ _ _ _).mpr ⟨k.tag_low, e, h, rfl⟩, by simp [Item.tags]⟩
  | .seq fs, v =>
    simp only [Item.Enc] at h
    obtain ⟨c, _, h⟩ := h
    exact ⟨0x30, _, _, (getObject_iff _ _ _ _).mpr ⟨by decide, e, h, rfl⟩, by simp [Item.tags]⟩
  | .choice as, v =>
    simp only [Item.Enc] at h
    simp only [Item.tags]
    exact Fields.altEncHead as v e rest h
theorem Fields.altEncHead (as : Fields) (v : as.ChoiceVal) (e rest : List Byte) (h : as.AltEnc v e) :
    ∃ t c r, getObject (e ++ rest) = some (t, c, r) ∧ t ∈ as.altTags := by
  match as, v with
  | .cons o i s, .inl v =>
    simp only [Fields.AltEnc] at h
    obtain ⟨t, c, r, h1, h2⟩ := Item.encHead i v e rest h
    exact ⟨t, c, r, h1, by simp [Fields.altTags, h2]⟩
  | .cons o i s, .inr v =>
    simp only [Fields.AltEnc] at h
    obtain ⟨t, c, r, h1, h2⟩ := Fields.altEncHead s v e rest h
    exact ⟨t, c, r, h1, by simp [Fields.altTags, h2]⟩
end

theorem Item.enc_ne (i : Item) (v : i.Val) (e : List Byte) (h : i.Enc v e) : e ≠ [] := by
  obtain ⟨t, c, r, h, _⟩ := i.encHead v e [] h
  intro he
  rw [he] at h
  simp [getObject] at h

theorem Fields.seqEncHead (fs : Fields) (v : fs.SeqVal) (e : List Byte) (h : fs.SeqEnc v e) :
    (e = [] ∧ fs.allAbsent = some v) ∨ ∃ t c r, getObject e = some (t, c, r) ∧ t ∈ fs.first := by
  match fs, v with
  | .nil, () =>
    simp only [Fields.SeqEnc] at h
    exact Or.inl ⟨h, by simp [Fields.allAbsent]⟩
  | .cons true i r, (none, vs) =>
    simp only [Fields.SeqEnc] at h
    obtain ⟨a, b, h1, h2, h3⟩ := h
    subst h1
    rw [List.nil_append] at h3
    subst h3
    rcases Fields.seqEncHead r vs _ h2 with ⟨h1, h2⟩ | ⟨t, c, q, h1, h2⟩
    · exact Or.inl ⟨h1, by simp only [Fields.allAbsent, h2]; rfl⟩
    · exact Or.inr ⟨t, c, q, h1, by simp [Fields.first, h2]⟩
  | .cons true i r, (some w, vs) =>
    simp only [Fields.SeqEnc] at h
    obtain ⟨a, b, h1, h2, h3⟩ := h
    subst h3
    obtain ⟨t, c, q, h1, h2⟩ := i.encHead w a b h1
    exact Or.inr ⟨t, c, q, h1, by simp [Fields.first, h2]⟩
  | .cons false i r, (w, vs) =>
    simp only [Fields.SeqEnc] at h
    obtain ⟨a, b, h1, h2, h3⟩ := h
    subst h3
    obtain ⟨t, c, q, h1, h2⟩ := i.encHead w a b h1
    exact Or.inr ⟨t, c, q, h1, by simp [Fields.first, h2]⟩

mutual
/-- Every encoding is accepted. -/
theorem Item.every (i : Item) (hw : i.WF) (v : i.Val) (e : List Byte) (h : i.Enc v e) (opt : Bool) (rest : List Byte) :
    i.d2i opt (e ++ rest) = .ok v rest := by
  match i, v with
  | .prim k, v =>
    simp only [Item.Enc] at h
    obtain ⟨c, h1, h2⟩ := h
    simp only [Item.d2i, (checkTag_iff _ k.tag_low _ _ _ _).mpr ⟨e, h2, rfl⟩, h1]
  | .seq fs, v =>
    simp only [Item.Enc, Item.WF] at h hw
    obtain ⟨c, h1, h2⟩ := h
    simp only [Item.d2i, (checkTag_iff 0x30 (by decide) opt _ _ _).mpr ⟨e, h2, rfl⟩, Fields.seq_every fs hw v c h1]
  | .choice as, v =>
    simp only [Item.Enc, Item.WF] at h hw
    simp only [Item.d2i]
    exact Fields.alt_every as hw v e h opt rest
theorem Fields.seq_every (fs : Fields) (hw : fs.SeqWF) (v : fs.SeqVal) (e : List Byte) (h : fs.SeqEnc v e) : fs.seqD2i e = some v := by
  match fs, v with
  | .nil, () =>
    simp only [Fields.SeqEnc] at h
    simp [h, Fields.seqD2i]
  | .cons true i r, (none, vs) =>
    have hh := Fields.seqEncHead (.cons true i r) (none, vs) e h
    simp only [Fields.SeqEnc, Fields.SeqWF] at h hw
    obtain ⟨a, b, h1, h2, h3⟩ := h
    subst h1
    rw [List.nil_append] at h3
    subst h3
    by_cases he : e = []
    · simp only [Fields.seqD2i, he, if_true]
      rcases hh with hh | ⟨t, c, q, h1, _⟩
      · exact hh.2
      · rw [he] at h1; simp [getObject] at h1
    · rcases Fields.seqEncHead r vs e h2 with ⟨h, _⟩ | ⟨t, c, q, h1, h3⟩
      · exact absurd h he
      · have hnn : r.isNil = false := by
          cases hn : r.isNil with
          | false => rfl
          | true =>
            rw [Fields.isNil_nil r hn] at h3
            simp [Fields.first] at h3
        have ha := Item.d2i_absent i e t c q h1 (fun ht => hw.2.2 trivial t ht h3)
        simp only [Fields.seqD2i, if_neg he, hnn, Bool.not_false, ha, Fields.seq_every r hw.2.1 vs e h2]
        rfl
  | .cons true i r, (some w, vs) =>
    simp only [Fields.SeqEnc, Fields.SeqWF] at h hw
    obtain ⟨a, b, h1, h2, rfl⟩ := h
    have hne : a ++ b ≠ [] := by simp [i.enc_ne w a h1]
    simp only [Fields.seqD2i, if_neg hne, Item.every i hw.1 w a h1, Fields.seq_every r hw.2.1 vs b h2]
    rfl
  | .cons false i r, (w, vs) =>
    simp only [Fields.SeqEnc, Fields.SeqWF] at h hw
    obtain ⟨a, b, h1, h2, rfl⟩ := h
    have hne : a ++ b ≠ [] := by simp [i.enc_ne w a h1]
    simp only [Fields.seqD2i, if_neg hne, Item.every i hw.1 w a h1, Fields.seq_every r hw.2.1 vs b h2]
    rfl
theorem Fields.alt_every (as : Fields) (hw : as.AltWF) (v : as.ChoiceVal) (e : List Byte) (h : as.AltEnc v e) (opt : Bool) (rest : List Byte) :
    as.choiceD2i opt (e ++ rest) = .ok v rest := by
  match as, v with
  | .cons o i s, .inl v =>
    simp only [Fields.AltEnc, Fields.AltWF] at h hw
    simp only [Fields.choiceD2i, Item.every i hw.1 v e h]
  | .cons o i s, .inr v =>
    simp only [Fields.AltEnc, Fields.AltWF] at h hw
    obtain ⟨t, c, q, h1, h2⟩ := Fields.altEncHead s v e rest h
    have ha := Item.d2i_absent i _ t c q h1 (fun ht => hw.2.2 t ht h2)
    simp only [Fields.choiceD2i, ha, Fields.alt_every s hw.2.1 v e h opt rest]
    rfl
end

theorem Item.d2i_iff (i : Item) (hw : i.WF) (opt : Bool) (l : List Byte) (v : i.Val) (rest : List Byte) :
    i.d2i opt l = .ok v rest ↔ ∃ e, i.Enc v e ∧ l = e ++ rest :=
  ⟨i.only opt l v rest, fun ⟨e, h1, h2⟩ => by rw [h2]; exact i.every hw v e h1 opt rest⟩

end Dstu
