import Verif.Lemmas.Template

/-! What the decoder accepts can be encoded again. -/

namespace Dstu

open Spec

/-- The number whose size decides how many bytes an integer needs. -/
def width (v : Int) : Nat := if 0 ≤ v then v.toNat else (-v - 1).toNat

theorem intBytes_width (v : Int) : intBytes v = numBits (width v) / 8 + 1 := rfl

theorem beValue_two (b d : Byte) (t : List Byte) :
    beValue (b :: d :: t) = (256 * b.toNat + d.toNat) * 256 ^ t.length + beValue t := by
  have h1 : b :: d :: t = [b] ++ ([d] ++ t) := rfl
  rw [h1, beValue_append, beValue_append]
  have e : ∀ x : Byte, beValue [x] = x.toNat := fun x => by simp [beValue, leValue]
  rw [e, e]
  simp only [List.length_append, List.length_singleton]
  rw [Nat.pow_add]
  ring

/-- Superfluous first bytes are those that leave the width below half of the rest. -/
theorem padded_iff (b d : Byte) (t : List Byte) :
    ((b = 0 ∧ d < 0x80) ∨ (b = 0xff ∧ 0x80 ≤ d)) ↔ width (decInt (b :: d :: t)) < 128 * 256 ^ t.length := by
  have hb : ∀ x : Byte, x < 0x80 ↔ x.toNat < 128 := fun x => by rw [BitVec.lt_def]; rfl
  have hd : ∀ x : Byte, 0x80 ≤ x ↔ 128 ≤ x.toNat := fun x => by rw [BitVec.le_def]; rfl
  have h0 : b = 0 ↔ b.toNat = 0 := by rw [← BitVec.toNat_inj]; rfl
  have hf : b = 0xff ↔ b.toNat = 255 := by rw [← BitVec.toNat_inj]; rfl
  rw [hb, hd, h0, hf]
  have lb := b.isLt
  have ld := d.isLt
  have hT := beValue_lt t
  have hv := beValue_two b d t
  have hlen : (256 : Nat) ^ (b :: d :: t).length = 65536 * 256 ^ t.length := by
    simp only [List.length_cons, pow_succ]; ring
  have hPpos : 0 < 256 ^ t.length := Nat.pos_of_ne_zero (by positivity)
  unfold decInt width
  have hlenZ : (256 : Int) ^ (b :: d :: t).length = 65536 * 256 ^ t.length := by exact_mod_cast hlen
  rw [hlenZ, hlen, hv]
  have hPz : ((256 : Int) ^ t.length) = ((256 ^ t.length : Nat) : Int) := by push_cast; rfl
  rw [hPz]
  generalize 256 ^ t.length = P at *
  generalize beValue t = T at *
  generalize hq : 256 * b.toNat + d.toNat = q
  have hdiv : (q * P + T) / P = q := by
    rw [Nat.mul_comm, Nat.mul_add_div hPpos, Nat.div_eq_of_lt hT, Nat.add_zero]
  have lt_iff : ∀ m, q * P + T < m * P ↔ q < m := fun m => by
    rw [← Nat.div_lt_iff_lt_mul hPpos, hdiv]
  have le_iff : ∀ m, m * P ≤ q * P + T ↔ m ≤ q := fun m => by
    rw [← Nat.le_div_iff_mul_le hPpos, hdiv]
  have hsmall := lt_iff 32768
  have hbig := lt_iff 65536
  have h128 := lt_iff 128
  have hneg := le_iff 65408
  generalize q * P + T = V at *
  by_cases h : 2 * V < 65536 * P
  · rw [if_pos h, if_pos (by omega), Int.toNat_natCast]
    omega
  · rw [if_neg h, if_neg (by omega)]
    omega

/-- Contents without superfluous bytes are those of the encoder. -/
theorem encInt_decInt (c : List Byte) (v : Int) (h : Prim.integer.dec c = some v) : encInt v = c := by
  have main : ∀ c : List Byte, c ≠ [] → intBytes (decInt c) = c.length → encInt (decInt c) = c := by
    intro c hc hn
    apply beValue_injective
    · simp only [encInt, bytesBE_length, hn]
    · simp only [encInt, beValue_bytesBE, hn]
      have hlt := beValue_lt c
      have hz : ((256 : Int) ^ c.length) = ((256 ^ c.length : Nat) : Int) := by push_cast; rfl
      unfold decInt
      rw [hz]
      generalize 256 ^ c.length = Q at *
      generalize beValue c = B at *
      split
      · rw [Int.emod_eq_of_lt (by omega) (by omega), Int.toNat_natCast, Nat.mod_eq_of_lt hlt]
      · rw [Int.sub_emod_right, Int.emod_eq_of_lt (by omega) (by omega), Int.toNat_natCast, Nat.mod_eq_of_lt hlt]
  match c with
  | [] => simp [Prim.dec] at h
  | [b] =>
    simp only [Prim.dec, Option.some.injEq] at h
    subst h
    apply main _ (by simp)
    have e : beValue [b] = b.toNat := by simp [beValue, leValue]
    have lb := b.isLt
    have hw : width (decInt [b]) < 2 ^ 7 := by
      unfold width decInt
      rw [e]
      simp only [List.length_singleton, pow_one]
      split <;> split <;> omega
    have := (numBits_le _ 7).mpr hw
    rw [intBytes_width]
    simp only [List.length_singleton]
    omega
  | b :: d :: t =>
    simp only [Prim.dec] at h
    split at h
    · cases h
    · rename_i hp
      simp only [Option.some.injEq] at h
      subst h
      apply main _ (by simp)
      rw [padded_iff b d t] at hp
      have h2 : 128 * 256 ^ t.length = 2 ^ (8 * t.length + 7) := by
        rw [show (256 : Nat) = 2 ^ 8 by norm_num, ← pow_mul, pow_add]; ring
      have hup : width (decInt (b :: d :: t)) < 2 ^ (8 * t.length + 15) := by
        have hlt := beValue_lt (b :: d :: t)
        have e1 : (2 : Nat) ^ (8 * t.length + 15) * 2 = 256 ^ (b :: d :: t).length := by
          rw [show (256 : Nat) = 2 ^ 8 by norm_num, ← pow_mul, ← pow_succ]
          simp only [List.length_cons]
          congr 1
        have hz : ((256 : Int) ^ (b :: d :: t).length) = ((256 ^ (b :: d :: t).length : Nat) : Int) := by push_cast; rfl
        unfold width decInt
        rw [hz]
        generalize 256 ^ (b :: d :: t).length = Q at *
        generalize beValue (b :: d :: t) = B at *
        generalize 2 ^ (8 * t.length + 15) = R at *
        split <;> split <;> omega
      rw [h2, ← numBits_le] at hp
      rw [← numBits_le] at hup
      rw [intBytes_width]
      simp only [List.length_cons]
      omega

theorem encInt_len (v : Int) : (encInt v).length = intBytes v := bytesBE_length _ _

/-- The encoder makes no superfluous bytes. -/
theorem integer_ok (v : Int) : Prim.integer.dec (encInt v) = some v := by
  have hd := decInt_encInt v
  have hlen := encInt_len v
  generalize encInt v = c at *
  match c with
  | [] => simp [intBytes] at hlen
  | [b] => simp only [Prim.dec, hd]
  | b :: d :: t =>
    simp only [Prim.dec, hd]
    rw [if_neg]
    rw [padded_iff b d t, hd]
    have h2 : 128 * 256 ^ t.length = 2 ^ (8 * t.length + 7) := by
      rw [show (256 : Nat) = 2 ^ 8 by norm_num, ← pow_mul, pow_add]; ring
    rw [h2, ← numBits_le]
    rw [intBytes_width] at hlen
    simp only [List.length_cons] at hlen
    omega

theorem Prim.dec_enc (k : Prim) (c : List Byte) (v : k.Val) (h : k.dec c = some v) : k.enc v = c := by
  cases k with
  | integer => exact encInt_decInt c v h
  | octets =>
    simp only [Prim.dec, Option.some.injEq] at h
    exact h.symm
  | object =>
    simp only [Prim.dec] at h
    split at h
    · cases h
    · split at h
      · cases h
      · simp only [Option.some.injEq] at h
        exact h.symm

theorem parseLen_len (l r : List Byte) (n : Nat) (h : parseLen l = some (n, r)) : (derLen n).length + r.length ≤ l.length := by
  cases l with
  | nil => simp [parseLen] at h
  | cons b l =>
    simp only [parseLen] at h
    split at h
    · rename_i hb
      simp only [Option.some.injEq, Prod.mk.injEq] at h
      obtain ⟨rfl, rfl⟩ := h
      simp [derLen, hb, Nat.add_comm]
    · split at h
      · cases h
      · rename_i hb hc
        simp only [Option.some.injEq, Prod.mk.injEq] at h
        obtain ⟨rfl, rfl⟩ := h
        have hk : numBytes (bin2bn (l.take (b.toNat - 128))) ≤ b.toNat - 128 := by
          rw [numBytes_le, bin2bn_eq]
          refine lt_of_lt_of_le (beValue_lt _) (Nat.pow_le_pow_right (by norm_num) (by simp))
        simp only [not_or] at hc
        unfold derLen
        split
        · simp only [List.length_drop, List.length_cons, List.length_nil]; omega
        · simp only [List.length_drop, List.length_cons, bn2bin_length]; omega

theorem getObject_len (l c r : List Byte) (t : Byte) (h : getObject l = some (t, c, r)) :
    (tlv t c).length + r.length ≤ l.length ∧ ∃ used, l = used ++ c ++ r := by
  cases l with
  | nil => simp [getObject] at h
  | cons b l =>
    simp only [getObject] at h
    split at h
    · cases h
    · split at h
      · cases h
      · rename_i n q e
        split at h
        · cases h
        · rename_i hn
          simp only [Option.some.injEq, Prod.mk.injEq] at h
          obtain ⟨rfl, rfl, rfl⟩ := h
          have := parseLen_len l q n e
          refine ⟨?_, ?_⟩
          · have e1 : (q.take n).length = n := by simp; omega
            simp only [tlv, List.length_cons, List.length_append, e1, List.length_drop]
            omega
          · have hsuf : q <:+ l := by
              cases l with
              | nil => simp [parseLen] at e
              | cons x l =>
                simp only [parseLen] at e
                split at e
                · simp only [Option.some.injEq, Prod.mk.injEq] at e
                  rw [← e.2]; exact List.suffix_cons _ _
                · split at e
                  · cases e
                  · simp only [Option.some.injEq, Prod.mk.injEq] at e
                    rw [← e.2]; exact (List.drop_suffix _ _).trans (List.suffix_cons _ _)
            obtain ⟨u, hu⟩ := hsuf
            exact ⟨b :: u, by rw [List.append_assoc, List.take_append_drop, List.cons_append, hu]⟩

theorem checkTag_ok (tag : Byte) (opt) (l c r : List Byte) (h : checkTag tag opt l = .ok c r) :
    (tlv tag c).length + r.length ≤ l.length ∧ r <:+ l := by
  unfold checkTag at h
  split at h
  · cases h
  · rename_i t c' r' e
    split at h
    · rename_i ht
      cases h
      subst ht
      obtain ⟨h1, u, h2⟩ := getObject_len _ _ _ _ e
      exact ⟨h1, u ++ c, h2.symm⟩
    · split at h <;> cases h

theorem tlv_mono (tag : Byte) (a b : List Byte) (h : a.length ≤ b.length) : (tlv tag a).length ≤ (tlv tag b).length := by
  have hm : (derLen a.length).length ≤ (derLen b.length).length := by
    unfold derLen
    have := numBytes_mono h
    split <;> split <;> simp only [List.length_cons, List.length_nil, bn2bin_length] <;> omega
  simp only [tlv, List.length_cons, List.length_append]
  omega

/-- The fields left out are fields that are not there. -/
theorem Fields.allAbsent_ok (fs : Fields) (v : fs.SeqVal) (h : fs.allAbsent = some v) : fs.SeqOk v ∧ fs.seqI2d v = [] := by
  match fs, v with
  | .nil, () => exact ⟨by simp [Fields.SeqOk], by simp [Fields.seqI2d]⟩
  | .cons true i r, (w, vs) =>
    simp only [Fields.allAbsent] at h
    obtain ⟨vs', h1, h2⟩ := Option.map_eq_some_iff.1 h
    cases h2
    obtain ⟨h3, h4⟩ := Fields.allAbsent_ok r _ h1
    refine ⟨?_, ?_⟩
    · simp only [Fields.SeqOk]
      exact ⟨fun _ hw => (nomatch hw), h3⟩
    · simp only [Fields.seqI2d, h4, List.append_nil]
  | .cons false i r, (w, vs) => simp [Fields.allAbsent] at h

mutual
/-- What is accepted is a value the encoder can write, in at most as many bytes. -/
theorem Item.sound (i : Item) (opt : Bool) (l : List Byte) (v : i.Val) (rest : List Byte) (h : i.d2i opt l = .ok v rest) :
    i.Ok v ∧ (i.i2d v).length + rest.length ≤ l.length ∧ rest <:+ l := by
  match i, v with
  | .prim k, v =>
    simp only [Item.d2i] at h
    split at h
    · cases h
    · cases h
    · rename_i c r e
      split at h
      · cases h
      · rename_i w hw
        cases h
        obtain ⟨h1, h2⟩ := checkTag_ok _ _ _ _ _ e
        have he := k.dec_enc c v hw
        refine ⟨?_, ?_, h2⟩
        · simp only [Item.Ok, he, hw]; rfl
        · simp only [Item.i2d, he]; exact h1
  | .seq fs, v =>
    simp only [Item.d2i] at h
    split at h
    · cases h
    · cases h
    · rename_i c r e
      split at h
      · cases h
      · rename_i w hw
        cases h
        obtain ⟨h1, h2⟩ := checkTag_ok _ _ _ _ _ e
        obtain ⟨h3, h4⟩ := Fields.seq_sound fs c v hw
        refine ⟨?_, ?_, h2⟩
        · simp only [Item.Ok]; exact h3
        · simp only [Item.i2d]
          have := tlv_mono 0x30 _ _ h4
          omega
  | .choice as, v =>
    simp only [Item.d2i] at h
    have := Fields.alt_sound as opt l v rest h
    simp only [Item.Ok, Item.i2d]
    exact this
theorem Fields.seq_sound (fs : Fields) (l : List Byte) (v : fs.SeqVal) (h : fs.seqD2i l = some v) :
    fs.SeqOk v ∧ (fs.seqI2d v).length ≤ l.length := by
  match fs, v with
  | .nil, () => exact ⟨by simp [Fields.SeqOk], by simp [Fields.seqI2d]⟩
  | .cons true i r, (w, vs) =>
    simp only [Fields.seqD2i] at h
    split at h
    · obtain ⟨h1, h2⟩ := Fields.allAbsent_ok _ _ h
      exact ⟨h1, by rw [h2]; simp⟩
    · split at h
      · cases h
      · obtain ⟨vs', h1, h2⟩ := Option.map_eq_some_iff.1 h
        cases h2
        obtain ⟨h3, h4⟩ := Fields.seq_sound r l _ h1
        refine ⟨?_, ?_⟩
        · simp only [Fields.SeqOk]
          exact ⟨fun _ hw => (nomatch hw), h3⟩
        · simp only [Fields.seqI2d, List.nil_append]; exact h4
      · rename_i w' l' e
        obtain ⟨vs', h1, h2⟩ := Option.map_eq_some_iff.1 h
        cases h2
        obtain ⟨h3, h4⟩ := Fields.seq_sound r l' _ h1
        obtain ⟨h5, h6, _⟩ := Item.sound i _ l w' l' e
        refine ⟨?_, ?_⟩
        · simp only [Fields.SeqOk]
          refine ⟨fun _ hw => ?_, h3⟩
          cases hw
          exact h5
        · simp only [Fields.seqI2d, List.length_append]; omega
  | .cons false i r, (w, vs) =>
    simp only [Fields.seqD2i] at h
    split at h
    · cases h
    · split at h
      · rename_i w' l' e
        obtain ⟨vs', h1, h2⟩ := Option.map_eq_some_iff.1 h
        cases h2
        obtain ⟨h3, h4⟩ := Fields.seq_sound r l' _ h1
        obtain ⟨h5, h6, _⟩ := Item.sound i _ l w l' e
        refine ⟨?_, ?_⟩
        · simp only [Fields.SeqOk]
          exact ⟨h5, h3⟩
        · simp only [Fields.seqI2d, List.length_append]; omega
      · cases h
theorem Fields.alt_sound (as : Fields) (opt : Bool) (l : List Byte) (v : as.ChoiceVal) (rest : List Byte) (h : as.choiceD2i opt l = .ok v rest) :
    as.AltOk v ∧ (as.choiceI2d v).length + rest.length ≤ l.length ∧ rest <:+ l := by
  match as, v with
  | .cons o i s, v =>
    simp only [Fields.choiceD2i] at h
    split at h
    · cases hs : s.choiceD2i opt l with
      | absent => rw [hs] at h; cases h
      | error => rw [hs] at h; cases h
      | ok w r =>
        rw [hs] at h
        cases h
        have := Fields.alt_sound s opt l w rest hs
        simp only [Fields.AltOk, Fields.choiceI2d]
        exact this
    · cases h
    · rename_i w r e
      cases h
      have := Item.sound i true l w rest e
      simp only [Fields.AltOk, Fields.choiceI2d]
      exact this
end

end Dstu
