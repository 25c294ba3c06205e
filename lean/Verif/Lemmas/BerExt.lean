import Verif.Lemmas.Ber

/-! The decoder for BER reads what the decoder for definite lengths reads; what it reads can be written again. -/

namespace Dstu

open Spec

theorem identifier_low (t : Byte) (ht : t ∈ [(0x02 : Byte), 0x04, 0x06, 0x30]) : BerIdentifier 0 (t == 0x30) (tagNum t) [t] := by
  refine ⟨t, ?_, ?_, Or.inl ⟨?_, rfl, rfl⟩⟩ <;> (revert ht; revert t; decide)

theorem primitive_of_any (k : Prim) (c e : List Byte) (h : AnyElement k.tag c e) : BerPrimitive 0 k.num c e := by
  obtain ⟨l, h1, rfl⟩ := h
  have hi := identifier_low k.tag (by cases k <;> decide)
  rw [show (k.tag == 0x30) = false by cases k <;> rfl, ← k.num_tag] at hi
  exact ⟨[k.tag], l, hi, h1, rfl⟩

theorem constructed_of_any (c e : List Byte) (h : AnyElement 0x30 c e) : BerConstructed 0 16 c e := by
  obtain ⟨l, h1, rfl⟩ := h
  exact ⟨[0x30], identifier_low 0x30 (by decide), Or.inl ⟨l, h1, rfl⟩⟩

mutual
theorem Item.enc_benc (i : Item) (v : i.Val) (e : List Byte) (h : i.Enc v e) : i.BEnc v e := by
  match i, v with
  | .prim k, v =>
    simp only [Item.Enc, Item.BEnc] at h ⊢
    obtain ⟨c, h1, h2⟩ := h
    exact ⟨c, h1, Or.inl (primitive_of_any k c e h2)⟩
  | .seq fs, v =>
    simp only [Item.Enc, Item.BEnc] at h ⊢
    obtain ⟨c, h1, h2⟩ := h
    exact ⟨c, Fields.seqEnc_benc fs v c h1, constructed_of_any c e h2⟩
  | .choice as, v =>
    simp only [Item.Enc, Item.BEnc] at h ⊢
    exact Fields.altEnc_benc as v e h
theorem Fields.seqEnc_benc (fs : Fields) (v : fs.SeqVal) (e : List Byte) (h : fs.SeqEnc v e) : fs.SeqBEnc v e := by
  match fs, v with
  | .nil, () => simpa only [Fields.SeqEnc, Fields.SeqBEnc] using h
  | .cons true i r, (none, vs) =>
    simp only [Fields.SeqEnc, Fields.SeqBEnc] at h ⊢
    obtain ⟨a, b, h1, h2, h3⟩ := h
    exact ⟨a, b, h1, Fields.seqEnc_benc r vs b h2, h3⟩
  | .cons true i r, (some w, vs) =>
    simp only [Fields.SeqEnc, Fields.SeqBEnc] at h ⊢
    obtain ⟨a, b, h1, h2, h3⟩ := h
    exact ⟨a, b, Item.enc_benc i w a h1, Fields.seqEnc_benc r vs b h2, h3⟩
  | .cons false i r, (w, vs) =>
    simp only [Fields.SeqEnc, Fields.SeqBEnc] at h ⊢
    obtain ⟨a, b, h1, h2, h3⟩ := h
    exact ⟨a, b, Item.enc_benc i w a h1, Fields.seqEnc_benc r vs b h2, h3⟩
theorem Fields.altEnc_benc (as : Fields) (v : as.ChoiceVal) (e : List Byte) (h : as.AltEnc v e) : as.AltBEnc v e := by
  match as, v with
  | .cons o i s, .inl v =>
    simp only [Fields.AltEnc, Fields.AltBEnc] at h ⊢
    exact Item.enc_benc i v e h
  | .cons o i s, .inr v =>
    simp only [Fields.AltEnc, Fields.AltBEnc] at h ⊢
    exact Fields.altEnc_benc s v e h
end

/-- What the other decoder reads is read the same. -/
theorem Item.ber_extends (i : Item) (hw : i.WF) (opt opt' : Bool) (l : List Byte) (v : i.Val) (rest : List Byte) (h : i.d2i opt l = .ok v rest) : i.ber opt' l = .ok v rest := by
  obtain ⟨e, h1, rfl⟩ := i.only opt l v rest h
  exact i.bevery hw v e (i.enc_benc v e h1) opt' rest

theorem anyLength_len (n : Nat) (o : List Byte) (h : AnyLength n o) : 1 ≤ o.length := by
  obtain ⟨b, q, rfl, _⟩ := anyLength_head n o h
  simp

theorem primitive_len2 (cls : Byte) (n : Nat) (c e : List Byte) (h : BerPrimitive cls n c e) : c.length + 2 ≤ e.length := by
  obtain ⟨i, o, h1, h2, rfl⟩ := h
  obtain ⟨b, q, rfl, _⟩ := ident_ne _ _ _ _ h1
  have := anyLength_len _ _ h2
  simp only [List.cons_append, List.length_cons, List.length_append]
  omega

theorem constructed_len2 (cls : Byte) (n : Nat) (c e : List Byte) (h : BerConstructed cls n c e) : c.length + 2 ≤ e.length := by
  obtain ⟨i, h1, h2⟩ := h
  obtain ⟨b, q, rfl, _⟩ := ident_ne _ _ _ _ h1
  rcases h2 with ⟨o, h2, rfl⟩ | rfl
  · have := anyLength_len _ _ h2
    simp only [List.cons_append, List.length_cons, List.length_append]
    omega
  · simp only [List.cons_append, List.length_cons, List.length_append]
    omega

theorem pieces_len (d : Nat) (v c : List Byte) (h : Pieces d v c) : v.length ≤ c.length := by
  induction h with
  | nil => simp
  | piece h1 _ _ ih =>
    have := primitive_len2 _ _ _ _ h1
    simp only [List.length_append]
    omega
  | nested _ h1 _ ih1 ih2 =>
    have := constructed_len2 _ _ _ _ h1
    simp only [List.length_append]
    omega

theorem Prim.BEnc_len (k : Prim) (c e : List Byte) (h : k.BEnc c e) : c.length + 2 ≤ e.length := by
  rcases h with h | ⟨_, d, h1, h2⟩
  · exact primitive_len2 _ _ _ _ h
  · have := pieces_len _ _ _ h1
    have := constructed_len2 _ _ _ _ h2
    omega

mutual
theorem Item.bsound (i : Item) (v : i.Val) (e : List Byte) (h : i.BEnc v e) (hl : e.length < 2 ^ 26) : i.Ok v ∧ (i.i2d v).length ≤ 3 * e.length := by
  match i, v with
  | .prim k, v =>
    simp only [Item.BEnc, Item.Ok, Item.i2d] at h ⊢
    obtain ⟨c, h1, h2⟩ := h
    have := k.BEnc_len c e h2
    have he := k.dec_enc c v h1
    rw [he]
    refine ⟨h1, ?_⟩
    have := tlv_length k.tag c (by omega)
    omega
  | .seq fs, v =>
    simp only [Item.BEnc, Item.Ok, Item.i2d] at h ⊢
    obtain ⟨c, h1, h2⟩ := h
    have := constructed_len2 _ _ _ _ h2
    obtain ⟨h3, h4⟩ := Fields.seq_bsound fs v c h1 (by omega)
    refine ⟨h3, ?_⟩
    have := tlv_length 0x30 (fs.seqI2d v) (by omega)
    omega
  | .choice as, v =>
    simp only [Item.BEnc, Item.Ok, Item.i2d] at h ⊢
    exact Fields.alt_bsound as v e h hl
theorem Fields.seq_bsound (fs : Fields) (v : fs.SeqVal) (e : List Byte) (h : fs.SeqBEnc v e) (hl : e.length < 2 ^ 26) : fs.SeqOk v ∧ (fs.seqI2d v).length ≤ 3 * e.length := by
  match fs, v with
  | .nil, () => simp [Fields.SeqOk, Fields.seqI2d]
  | .cons true i r, (none, vs) =>
    simp only [Fields.SeqBEnc, Fields.SeqOk, Fields.seqI2d] at h ⊢
    obtain ⟨a, b, h1, h2, rfl⟩ := h
    rw [List.length_append] at hl
    obtain ⟨h3, h4⟩ := Fields.seq_bsound r vs b h2 (by omega)
    refine ⟨⟨fun _ h => (nomatch h), h3⟩, ?_⟩
    simp only [List.length_append, List.nil_append]
    omega
  | .cons true i r, (some w, vs) =>
    simp only [Fields.SeqBEnc, Fields.SeqOk, Fields.seqI2d] at h ⊢
    obtain ⟨a, b, h1, h2, rfl⟩ := h
    rw [List.length_append] at hl
    obtain ⟨h3, h4⟩ := Fields.seq_bsound r vs b h2 (by omega)
    obtain ⟨h5, h6⟩ := Item.bsound i w a h1 (by omega)
    refine ⟨⟨fun _ h => by cases h; exact h5, h3⟩, ?_⟩
    simp only [List.length_append]
    omega
  | .cons false i r, (w, vs) =>
    simp only [Fields.SeqBEnc, Fields.SeqOk, Fields.seqI2d] at h ⊢
    obtain ⟨a, b, h1, h2, rfl⟩ := h
    rw [List.length_append] at hl
    obtain ⟨h3, h4⟩ := Fields.seq_bsound r vs b h2 (by omega)
    obtain ⟨h5, h6⟩ := Item.bsound i w a h1 (by omega)
    refine ⟨⟨h5, h3⟩, ?_⟩
    simp only [List.length_append]
    omega
theorem Fields.alt_bsound (as : Fields) (v : as.ChoiceVal) (e : List Byte) (h : as.AltBEnc v e) (hl : e.length < 2 ^ 26) : as.AltOk v ∧ (as.choiceI2d v).length ≤ 3 * e.length := by
  match as, v with
  | .cons o i s, .inl v =>
    simp only [Fields.AltBEnc, Fields.AltOk, Fields.choiceI2d] at h ⊢
    exact Item.bsound i v e h hl
  | .cons o i s, .inr v =>
    simp only [Fields.AltBEnc, Fields.AltOk, Fields.choiceI2d] at h ⊢
    exact Fields.alt_bsound s v e h hl
end

end Dstu
