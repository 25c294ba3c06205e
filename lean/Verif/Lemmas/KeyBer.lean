import Verif.Lemmas.BerExt
import Verif.Model.KeyDer
import Verif.Spec.KeyDer

/-! What the decoder for the structures around keys accepts. -/

namespace Dstu

open Spec

theorem eoc_getBer (l : List Byte) (h : isEoc l = true) : ∃ r, getBer l = some ⟨0, 0, false, .closed [] r⟩ := by
  obtain ⟨r, rfl⟩ := (isEoc_iff _).mp h
  exact ⟨r, by simp [getBer, getIdent, parseLen]⟩

theorem getBer_ne (l : List Byte) (o : BerElem) (h : getBer l = some o) : l ≠ [] := by
  rintro rfl
  simp [getBer, getIdent] at h

theorem noEoc_of (l : List Byte) (cls : Byte) (n : Nat) (cst : Bool) (b : BerBody) (h : getBer l = some ⟨cls, n, cst, b⟩) (hn : ¬ (cls = 0 ∧ n = 0)) : isEoc l = false := by
  by_contra hc
  obtain ⟨r, hr⟩ := eoc_getBer l (by simpa using hc)
  rw [h] at hr
  cases hr
  exact hn ⟨rfl, rfl⟩

theorem endMark_true : endMark true = [0, 0] := rfl

theorem endMark_false : endMark false = [] := rfl

theorem seqEnd_iff (inf : Bool) (l r : List Byte) : seqEnd inf l = some r ↔ l = endMark inf ++ r ∧ (inf = false → r = []) := by
  unfold seqEnd
  cases inf with
  | true =>
    rw [if_pos rfl, endMark_true]
    constructor
    · intro h
      split at h
      · rename_i he
        obtain ⟨q, rfl⟩ := (isEoc_iff _).mp he
        cases h
        exact ⟨rfl, fun h => by cases h⟩
      · cases h
    · rintro ⟨rfl, _⟩
      rfl
  | false =>
    rw [if_neg (by simp), endMark_false]
    constructor
    · intro h
      split at h
      · rename_i he
        subst he
        cases h
        exact ⟨rfl, fun _ => rfl⟩
      · cases h
    · rintro ⟨rfl, h⟩
      rw [h rfl]
      rfl

/-- The reader takes the encodings. -/
def Reads {α : Type} (f : List Byte → Option (α × List Byte)) (P : α → List Byte → Prop) : Prop :=
  ∀ l v r, isEoc l = false → (f l = some (v, r) ↔ ∃ e, P v e ∧ l = e ++ r)

/-- The encodings are not empty and do not start as an end mark. -/
def Solid {α : Type} (P : α → List Byte → Prop) : Prop := ∀ v e, P v e → e ≠ [] ∧ ∀ r, isEoc (e ++ r) = false

/-- The reader takes the encodings with the end mark or the end. -/
def Fills {α : Type} (f : Bool → List Byte → Option (α × List Byte)) (P : α → List Byte → Prop) : Prop :=
  ∀ inf l v r, f inf l = some (v, r) ↔ ∃ c, P v c ∧ l = c ++ endMark inf ++ r ∧ (inf = false → r = [])

theorem eoc_nil : isEoc [] = false := rfl

theorem field_iff {α : Type} {f : List Byte → Option (α × List Byte)} {P : α → List Byte → Prop} (hf : Reads f P) (hP : Solid P) (l : List Byte) (v : α) (r : List Byte) :
    field f l = some (v, r) ↔ ∃ e, P v e ∧ l = e ++ r := by
  unfold field
  constructor
  · intro h
    split at h
    · cases h
    · rename_i hn
      simp only [not_or, Bool.not_eq_true] at hn
      exact (hf l v r hn.2).mp h
  · rintro ⟨e, he, rfl⟩
    obtain ⟨h1, h2⟩ := hP v e he
    rw [if_neg (by rw [h2]; simp [h1]), hf _ _ _ (h2 r)]
    exact ⟨e, he, rfl⟩

/-- Nothing, or an encoding. -/
def OrNone {α : Type} (P : α → List Byte → Prop) : Option α → List Byte → Prop
  | none, c => c = []
  | some v, c => P v c

theorem lastField_fills {α : Type} {f : List Byte → Option (α × List Byte)} {P : α → List Byte → Prop} (hf : Reads f P) (hP : Solid P) : Fills (lastField f) (OrNone P) := by
  intro inf l o r
  unfold lastField
  constructor
  · intro h
    split at h
    · obtain ⟨r', h1, h2⟩ := Option.map_eq_some_iff.1 h
      cases h2
      obtain ⟨h3, h4⟩ := (seqEnd_iff _ _ _).mp h1
      exact ⟨[], rfl, h3, h4⟩
    · rename_i hn
      simp only [not_or, Bool.not_eq_true] at hn
      split at h
      · cases h
      · rename_i v l' e1
        obtain ⟨r', h1, h2⟩ := Option.map_eq_some_iff.1 h
        cases h2
        obtain ⟨h3, h4⟩ := (seqEnd_iff _ _ _).mp h1
        obtain ⟨e, he, rfl⟩ := (hf l v l' hn.2).mp e1
        exact ⟨e, he, by rw [h3, List.append_assoc], h4⟩
  · rintro ⟨c, h1, rfl, h2⟩
    cases o with
    | none =>
      cases h1
      rw [if_pos, List.nil_append, (seqEnd_iff inf _ r).mpr ⟨rfl, h2⟩]
      · rfl
      · cases inf with
        | true => exact Or.inr rfl
        | false => left; rw [h2 rfl]; rfl
    | some v =>
      obtain ⟨k1, k2⟩ := hP v c h1
      rw [List.append_assoc, if_neg (by rw [k2]; simp [k1]), (hf _ v _ (k2 _)).mpr ⟨c, h1, rfl⟩]
      simp only [(seqEnd_iff inf _ r).mpr ⟨rfl, h2⟩, Option.map_some]

theorem seqBer_iff {α : Type} {f : Bool → List Byte → Option (α × List Byte)} {P : α → List Byte → Prop} (hf : Fills f P) (l : List Byte) (v : α) (r : List Byte) :
    seqBer f l = some (v, r) ↔ ∃ e, (∃ c, P v c ∧ BerConstructed 0 16 c e) ∧ l = e ++ r := by
  unfold seqBer
  constructor
  · intro h
    split at h
    · rename_i c r' q e1
      obtain ⟨⟨v', x⟩, h1, h2⟩ := Option.map_eq_some_iff.1 h
      cases h2
      obtain ⟨c', h3, h4, h5⟩ := (hf _ _ _ _).mp h1
      obtain rfl := h5 rfl
      rw [endMark_false, List.append_nil, List.append_nil] at h4
      subst h4
      obtain ⟨i, o, k1, k2, rfl⟩ := (getBer_closed _ _ _ _ _ _).mp (checkBer_ok _ _ _ _ _ _ e1)
      exact ⟨_, ⟨c, h3, i, k1, Or.inl ⟨o, k2, rfl⟩⟩, rfl⟩
    · rename_i r' q e1
      obtain ⟨_, i, k1, rfl⟩ := (getBer_opened _ _ _ _ _).mp (checkBer_ok _ _ _ _ _ _ e1)
      obtain ⟨c, h3, rfl, _⟩ := (hf _ _ _ _).mp h
      exact ⟨_, ⟨c, h3, i, k1, Or.inr rfl⟩, by rw [endMark_true]; simp⟩
    · cases h
  · rintro ⟨e, ⟨c, h3, i, k1, ⟨o, k2, rfl⟩ | rfl⟩, rfl⟩
    · rw [checkBer_of 16 false _ _ _ ((getBer_closed _ c r _ _ _).mpr ⟨i, o, k1, k2, rfl⟩)]
      simp only
      rw [(hf false c v []).mpr ⟨c, h3, by simp [endMark_false], fun _ => rfl⟩]
      rfl
    · rw [checkBer_of 16 false _ true (.opened (c ++ [0, 0] ++ r)) ((getBer_opened _ _ _ _ _).mpr ⟨rfl, i, k1, by simp⟩)]
      simp only
      rw [(hf true _ v r).mpr ⟨c, h3, by rw [endMark_true], fun h => by cases h⟩]

theorem seqBer_reads {α : Type} {f : Bool → List Byte → Option (α × List Byte)} {P : α → List Byte → Prop} (hf : Fills f P) :
    Reads (seqBer f) (fun v e => ∃ c, P v c ∧ BerConstructed 0 16 c e) := fun l v r _ => seqBer_iff hf l v r

theorem constructed_solid {cls : Byte} {n : Nat} {c e : List Byte} (h : BerConstructed cls n c e) : e ≠ [] ∧ ∀ r, isEoc (e ++ r) = false := by
  refine ⟨?_, fun r => constructed_noEoc _ _ _ _ r h⟩
  rintro rfl
  have := constructed_len _ _ _ _ h
  simp at this

theorem primitive_solid {cls : Byte} {n : Nat} {c e : List Byte} (h : BerPrimitive cls n c e) (hn : ¬ (cls = 0 ∧ n = 0)) : e ≠ [] ∧ ∀ r, isEoc (e ++ r) = false := by
  constructor
  · rintro rfl
    have := primitive_len _ _ _ _ h
    simp at this
  · intro r
    obtain ⟨i, o, h1, h2, rfl⟩ := h
    exact noEoc_of _ cls n false (.closed c r) ((getBer_closed _ _ _ _ _ _).mpr ⟨i, o, h1, h2, rfl⟩) hn

theorem sequence_solid {α : Type} (P : α → List Byte → Prop) : Solid (fun v e => ∃ c, P v c ∧ BerConstructed 0 16 c e) := fun _ _ ⟨_, _, h⟩ => constructed_solid h

theorem many_iff {α : Type} {f : List Byte → Option (α × List Byte)} {P : α → List Byte → Prop} (hf : Reads f P) (hP : Solid P) (n : Nat) (inf : Bool) (l : List Byte) (hn : l.length < n)
    (vs : List α) (r : List Byte) : manyBer f n inf l = some (vs, r) ↔ ∃ c, BerList P vs c ∧ l = c ++ endMark inf ++ r ∧ (inf = false → r = []) := by
  induction n generalizing l vs with
  | zero => omega
  | succ n ih =>
    unfold manyBer
    constructor
    · intro h
      split at h
      · obtain ⟨r', h1, h2⟩ := Option.map_eq_some_iff.1 h
        cases h2
        obtain ⟨h3, h4⟩ := (seqEnd_iff _ _ _).mp h1
        exact ⟨[], .nil, h3, h4⟩
      · rename_i he
        simp only [not_or, Bool.not_eq_true] at he
        split at h
        · cases h
        · rename_i v l' e1
          obtain ⟨⟨vs', r'⟩, h1, h2⟩ := Option.map_eq_some_iff.1 h
          cases h2
          obtain ⟨e, k1, rfl⟩ := (hf l v l' he.2).mp e1
          have := List.length_pos_iff.mpr (hP v e k1).1
          rw [List.length_append] at hn
          obtain ⟨c, k2, k3, k4⟩ := (ih l' (by omega) vs').mp h1
          exact ⟨e ++ c, .cons k1 k2, by rw [k3]; simp, k4⟩
    · rintro ⟨c, h1, rfl, h2⟩
      cases h1 with
      | nil =>
        rw [if_pos, List.nil_append, (seqEnd_iff inf _ r).mpr ⟨rfl, h2⟩]
        · rfl
        · cases inf with
          | true => exact Or.inr rfl
          | false => left; rw [h2 rfl]; rfl
      | @cons v vs' e es k1 k2 =>
        obtain ⟨s1, s2⟩ := hP v e k1
        have := List.length_pos_iff.mpr s1
        simp only [List.length_append] at hn
        rw [List.append_assoc, List.append_assoc, if_neg (by rw [s2]; simp [s1]), (hf _ v _ (s2 _)).mpr ⟨e, k1, rfl⟩]
        simp only
        rw [(ih _ (by simp only [List.length_append]; omega) vs').mpr ⟨es, k2, by simp, h2⟩]
        rfl

theorem setBer_iff {α : Type} {f : List Byte → Option (α × List Byte)} {P : α → List Byte → Prop} (hf : Reads f P) (hP : Solid P) (cls : Byte) (n : Nat) (l : List Byte) (vs : List α)
    (r : List Byte) : setBer cls n f l = some (vs, r) ↔ ∃ e, BerSetOf cls n P vs e ∧ l = e ++ r := by
  unfold setBer BerSetOf
  constructor
  · intro h
    split at h
    · cases h
    rename_i o e1
    obtain ⟨cls', n', cst, b⟩ := o
    split at h
    · rename_i ht
      obtain ⟨rfl, rfl⟩ := ht
      cases b with
      | closed c r' =>
        obtain ⟨⟨vs', x⟩, h1, h2⟩ := Option.map_eq_some_iff.1 h
        cases h2
        obtain ⟨c', h3, h4, h5⟩ := (many_iff hf hP _ _ _ (by omega) _ _).mp h1
        obtain rfl := h5 rfl
        rw [endMark_false, List.append_nil, List.append_nil] at h4
        subst h4
        obtain ⟨i, o, k1, k2, rfl⟩ := (getBer_closed _ _ _ _ _ _).mp e1
        refine ⟨_, ⟨c, h3, ?_⟩, rfl⟩
        cases cst with
        | true => exact Or.inr ⟨i, k1, Or.inl ⟨o, k2, rfl⟩⟩
        | false => exact Or.inl ⟨i, o, k1, k2, rfl⟩
      | opened r' =>
        obtain ⟨_, i, k1, rfl⟩ := (getBer_opened _ _ _ _ _).mp e1
        obtain ⟨c, h3, rfl, _⟩ := (many_iff hf hP _ _ _ (by omega) _ _).mp h
        exact ⟨_, ⟨c, h3, Or.inr ⟨i, k1, Or.inr rfl⟩⟩, by rw [endMark_true]; simp⟩
    · cases h
  · have hc : ∀ c, BerList P vs c → manyBer f (c.length + 1) false c = some (vs, []) := fun c h =>
      (many_iff hf hP _ _ _ (by omega) _ _).mpr ⟨c, h, by simp [endMark_false], fun _ => rfl⟩
    rintro ⟨e, ⟨c, h3, ⟨i, o, k1, k2, rfl⟩ | ⟨i, k1, ⟨o, k2, rfl⟩ | rfl⟩⟩, rfl⟩
    · rw [(getBer_closed _ c r _ _ _).mpr ⟨i, o, k1, k2, rfl⟩]
      simp only [and_self, if_true, hc c h3, Option.map_some]
    · rw [(getBer_closed _ c r _ _ _).mpr ⟨i, o, k1, k2, rfl⟩]
      simp only [and_self, if_true, hc c h3, Option.map_some]
    · rw [show getBer (i ++ 0x80 :: (c ++ [0, 0]) ++ r) = some ⟨cls, n, true, .opened (c ++ [0, 0] ++ r)⟩ from (getBer_opened _ _ _ _ _).mpr ⟨rfl, i, k1, by simp⟩]
      simp only [and_self, if_true]
      exact (many_iff hf hP _ _ _ (by omega) _ _).mpr ⟨c, h3, by rw [endMark_true], fun h => by cases h⟩

theorem setOf_solid {α : Type} (P : α → List Byte → Prop) (cls : Byte) (n : Nat) (hn : ¬ (cls = 0 ∧ n = 0)) : Solid (BerSetOf cls n P) := by
  rintro vs e ⟨c, _, h | h⟩
  · exact primitive_solid h hn
  · exact constructed_solid h

/-! Strings. -/

theorem octets_only (l : List Byte) (n : Nat) (cst : Bool) (b : BerBody) (c r : List Byte) (h : getBer l = some ⟨0, n, cst, b⟩) (hc : Prim.octets.contents cst b = some (c, r)) :
    ∃ e, BerString n c e ∧ l = e ++ r := by
  cases cst with
  | false =>
    cases b with
    | closed c' r' =>
      simp only [Prim.contents, Option.some.injEq, Prod.mk.injEq] at hc
      obtain ⟨rfl, rfl⟩ := hc
      obtain ⟨i, o, k1, k2, rfl⟩ := (getBer_closed _ _ _ _ _ _).mp h
      exact ⟨_, Or.inl ⟨i, o, k1, k2, rfl⟩, rfl⟩
    | opened r' => simp [Prim.contents] at hc
  | true =>
    cases b with
    | closed c' r' =>
      simp only [Prim.contents] at hc
      obtain ⟨⟨v, x⟩, h1, h2⟩ := Option.map_eq_some_iff.1 hc
      cases h2
      obtain ⟨d, k1, k2, k3⟩ := collect_only _ _ _ _ _ _ h1
      obtain rfl := k3 rfl
      rw [endMark_false, List.append_nil, List.append_nil] at k2
      subst k2
      obtain ⟨i, o, q1, q2, rfl⟩ := (getBer_closed _ _ _ _ _ _).mp h
      exact ⟨_, Or.inr ⟨_, k1, i, q1, Or.inl ⟨o, q2, rfl⟩⟩, rfl⟩
    | opened r' =>
      simp only [Prim.contents] at hc
      obtain ⟨d, k1, rfl, _⟩ := collect_only _ _ _ _ _ _ hc
      obtain ⟨_, i, q1, rfl⟩ := (getBer_opened _ _ _ _ _).mp h
      exact ⟨_, Or.inr ⟨_, k1, i, q1, Or.inr rfl⟩, by rw [endMark_true]; simp⟩

theorem octets_every (n : Nat) (c e r : List Byte) (h : BerString n c e) : ∃ cst b, getBer (e ++ r) = some ⟨0, n, cst, b⟩ ∧ Prim.octets.contents cst b = some (c, r) := by
  rcases h with ⟨i, o, h1, h2, rfl⟩ | ⟨d, h1, i, h2, ⟨o, h3, rfl⟩ | rfl⟩
  · exact ⟨false, .closed c r, (getBer_closed _ _ _ _ _ _).mpr ⟨i, o, h1, h2, rfl⟩, rfl⟩
  · refine ⟨true, .closed d r, (getBer_closed _ _ _ _ _ _).mpr ⟨i, o, h2, h3, rfl⟩, ?_⟩
    have := collect_every 5 c d h1 (d.length + 1) (by omega) false [] (fun _ => rfl)
    rw [endMark_false, List.append_nil, List.append_nil] at this
    simp only [Prim.contents, this, Option.map_some]
  · refine ⟨true, .opened (d ++ [0, 0] ++ r), (getBer_opened _ _ _ _ _).mpr ⟨rfl, i, h2, by simp⟩, ?_⟩
    have := collect_every 5 c d h1 ((d ++ [0, 0] ++ r).length + 1) (by simp only [List.length_append]; omega) true r (fun h => by cases h)
    rw [endMark_true] at this
    simp only [Prim.contents, this]

theorem primitive_contents (n : Nat) (c e r : List Byte) (h : BerPrimitive 0 n c e) : getBer (e ++ r) = some ⟨0, n, false, .closed c r⟩ := by
  obtain ⟨i, o, h1, h2, rfl⟩ := h
  exact (getBer_closed _ _ _ _ _ _).mpr ⟨i, o, h1, h2, rfl⟩

theorem integer_only (l : List Byte) (n : Nat) (cst : Bool) (b : BerBody) (c r : List Byte) (h : getBer l = some ⟨0, n, cst, b⟩) (hc : Prim.integer.contents cst b = some (c, r)) :
    ∃ e, BerPrimitive 0 n c e ∧ l = e ++ r := by
  cases cst with
  | false =>
    cases b with
    | closed c' r' =>
      simp only [Prim.contents, Option.some.injEq, Prod.mk.injEq] at hc
      obtain ⟨rfl, rfl⟩ := hc
      obtain ⟨i, o, k1, k2, rfl⟩ := (getBer_closed _ _ _ _ _ _).mp h
      exact ⟨_, ⟨i, o, k1, k2, rfl⟩, rfl⟩
    | opened r' => simp [Prim.contents] at hc
  | true => simp [Prim.contents] at hc

theorem string_solid {n : Nat} {c e : List Byte} (h : BerString n c e) (hn : n ≠ 0) : e ≠ [] ∧ ∀ r, isEoc (e ++ r) = false := by
  rcases h with h | ⟨_, _, h⟩
  · exact primitive_solid h (fun hh => hn hh.2)
  · exact constructed_solid h

theorem mask_toNat (b : Byte) (u : Nat) (hu : u < 8) : b &&& ((0xff : Byte) <<< u) = BitVec.ofNat 8 (b.toNat / 2 ^ u * 2 ^ u) := by
  have : ∀ (u : Fin 8) (b : Byte), b &&& ((0xff : Byte) <<< u.val) = BitVec.ofNat 8 (b.toNat / 2 ^ u.val * 2 ^ u.val) := by decide +kernel
  exact this ⟨u, hu⟩ b

theorem bits_iff (c key : List Byte) : c2i_bits c = some key ↔ ∃ (u : Byte) (raw : List Byte), c = u :: raw ∧ u.toNat < 8 ∧ BitBytes u.toNat raw key := by
  cases c with
  | nil => simp [c2i_bits]
  | cons u raw =>
    simp only [c2i_bits, List.cons.injEq]
    by_cases hu : u.toNat > 7
    · rw [if_pos hu]
      constructor
      · intro h; cases h
      · rintro ⟨_, _, ⟨rfl, rfl⟩, h, _⟩; omega
    · rw [if_neg hu, Option.some.injEq]
      constructor
      · intro h
        refine ⟨u, raw, ⟨rfl, rfl⟩, by omega, ?_⟩
        by_cases hr : raw = []
        · rw [if_pos hr] at h
          exact Or.inl ⟨hr, h.symm⟩
        · rw [if_neg hr] at h
          refine Or.inr ⟨raw.dropLast, raw.getLast hr, (List.dropLast_append_getLast hr).symm, ?_⟩
          rw [← h, mask_toNat _ _ (by omega), List.getLastD_eq_getLast?, List.getLast?_eq_some_getLast hr]
          rfl
      · rintro ⟨_, _, ⟨rfl, rfl⟩, h, ⟨rfl, rfl⟩ | ⟨r, b, rfl, rfl⟩⟩
        · simp
        · rw [if_neg (by simp), List.dropLast_concat, mask_toNat _ _ h]
          simp

theorem bitsBer_iff (l key r : List Byte) : bitsBer l = some (key, r) ↔ ∃ e, BerBits key e ∧ l = e ++ r := by
  unfold bitsBer BerBits
  constructor
  · intro h
    split at h
    · rename_i cst b q e1
      split at h
      · cases h
      rename_i c r' e2
      obtain ⟨v, h1, h2⟩ := Option.map_eq_some_iff.1 h
      cases h2
      obtain ⟨e, h3, rfl⟩ := octets_only _ _ _ _ _ _ (checkBer_ok _ _ _ _ _ _ e1) e2
      obtain ⟨u, raw, rfl, h4, h5⟩ := (bits_iff _ _).mp h1
      exact ⟨e, ⟨u, raw, h4, h5, h3⟩, rfl⟩
    · cases h
  · rintro ⟨e, ⟨u, raw, h4, h5, h3⟩, rfl⟩
    obtain ⟨cst, b, k1, k2⟩ := octets_every 3 _ e r h3
    rw [checkBer_of 3 false _ _ _ k1]
    simp only [k2, (bits_iff _ _).mpr ⟨u, raw, rfl, h4, h5⟩, Option.map_some]

theorem primBer_iff (k : Prim) (l : List Byte) (v : k.Val) (r : List Byte) : primBer k l = some (v, r) ↔ ∃ e, (Item.prim k).BEnc v e ∧ l = e ++ r := by
  have h := (Item.prim k).ber_iff (by simp [Item.WF]) false l v r
  rw [← h]
  unfold primBer
  constructor
  · intro e
    split at e
    · rename_i v' r' hv
      cases e
      exact hv
    · cases e
  · intro e
    rw [e]

/-! Elements that are left as they are. -/

/-- End marks for `k` levels, each after elements. -/
def Closes : Nat → List Byte → List Byte → Prop
  | 0, l, rest => l = rest
  | k + 1, l, rest => ∃ c m, Elements c ∧ l = c ++ 0 :: 0 :: m ∧ Closes k m rest

theorem find_end_only (fuel k : Nat) (l rest : List Byte) (hk : 1 ≤ k) (h : asn1_find_end fuel k l = some rest) : Closes k l rest := by
  induction fuel generalizing k l with
  | zero => simp [asn1_find_end] at h
  | succ fuel ih =>
    obtain ⟨k, rfl⟩ : ∃ j, k = j + 1 := ⟨k - 1, by omega⟩
    simp only [asn1_find_end] at h
    split at h
    · cases h
    split at h
    · rename_i he
      obtain ⟨m, rfl⟩ := (isEoc_iff _).mp he
      refine ⟨[], m, .nil, rfl, ?_⟩
      split at h
      · rename_i h1
        have hk0 : k = 0 := by omega
        subst hk0
        simp only [List.drop_succ_cons, List.drop_zero, Option.some.injEq] at h
        exact h
      · rename_i h1
        have := ih k (List.drop 2 (0 :: 0 :: m)) (by omega) (by simpa using h)
        simpa using this
    · rename_i hne he
      split at h
      · cases h
      · rename_i cls n cst r e1
        obtain ⟨_, i, k1, rfl⟩ := (getBer_opened _ _ _ _ _).mp e1
        obtain ⟨c, m, q1, rfl, c2, m2, q2, rfl, q3⟩ := ih (k + 1 + 1) r (by omega) h
        exact ⟨_, m2, .indefinite k1 q1 q2, by simp, q3⟩
      · rename_i cls n cst c r e1
        obtain ⟨i, o, k1, k2, rfl⟩ := (getBer_closed _ _ _ _ _ _).mp e1
        obtain ⟨c2, m2, q2, rfl, q3⟩ := ih (k + 1) r (by omega) h
        refine ⟨_, m2, .definite k1 k2 ?_ q2, by simp, q3⟩
        intro hz
        rw [hz] at he
        exact he rfl

theorem elements_head (i l : List Byte) (cls : Byte) (cst : Bool) (n : Nat) (h : BerIdentifier cls cst n i) : 1 ≤ (i ++ l).length := by
  obtain ⟨b, q, rfl, _⟩ := ident_ne _ _ _ _ h
  simp

theorem noEoc_definite {cls : Byte} {cst : Bool} {n : Nat} {i o c : List Byte} (h1 : BerIdentifier cls cst n i) (h2 : AnyLength c.length o) (h3 : i ++ (o ++ c) ≠ [0, 0]) (r : List Byte) :
    isEoc (i ++ (o ++ c) ++ r) = false := by
  cases cst with
  | true => exact constructed_noEoc cls n c _ r ⟨i, h1, Or.inl ⟨o, h2, rfl⟩⟩
  | false => exact primitive_noEoc cls n c _ r ⟨i, o, h1, h2, rfl⟩ h3

theorem find_end_every (c : List Byte) (h : Elements c) (fuel k : Nat) (rest : List Byte) (hk : 1 ≤ k) (hf : (c ++ rest).length < fuel) :
    ∃ fuel', rest.length < fuel' ∧ asn1_find_end fuel k (c ++ rest) = asn1_find_end fuel' k rest := by
  induction h generalizing fuel k rest with
  | nil => exact ⟨fuel, hf, rfl⟩
  | @definite cls cst n i o c es h1 h2 h3 _ ih =>
    obtain ⟨fuel, rfl⟩ : ∃ j, fuel = j + 1 := ⟨fuel - 1, by omega⟩
    have hl := elements_head i (o ++ c) _ _ _ h1
    rw [List.append_assoc, List.length_append] at hf
    obtain ⟨f', k1, k2⟩ := ih fuel k rest hk (by omega)
    refine ⟨f', k1, ?_⟩
    rw [← k2, List.append_assoc, asn1_find_end, if_neg, if_neg, (getBer_closed _ c (es ++ rest) _ _ _).mpr ⟨i, o, h1, h2, rfl⟩]
    · rw [noEoc_definite h1 h2 h3]
      simp
    · intro hz
      rw [(List.append_eq_nil_iff.mp hz).1] at hl
      simp at hl
  | @indefinite cls n i c es h1 _ _ ih1 ih2 =>
    obtain ⟨fuel, rfl⟩ : ∃ j, fuel = j + 1 := ⟨fuel - 1, by omega⟩
    have hl := elements_head i (0x80 :: (c ++ [0, 0])) _ _ _ h1
    have hq : i ++ 0x80 :: (c ++ [0, 0]) ++ es ++ rest = i ++ 0x80 :: (c ++ (0 :: 0 :: (es ++ rest))) := by simp
    rw [hq] at hf ⊢
    have hf2 : (c ++ (0 :: 0 :: (es ++ rest))).length < fuel := by
      rw [List.length_append, List.length_cons] at hf
      omega
    obtain ⟨f1, k1, k2⟩ := ih1 fuel (k + 1) (0 :: 0 :: (es ++ rest)) (by omega) hf2
    obtain ⟨f1, rfl⟩ : ∃ j, f1 = j + 1 := ⟨f1 - 1, by omega⟩
    simp only [List.length_cons] at k1
    obtain ⟨f2, k3, k4⟩ := ih2 f1 k rest hk (by omega)
    refine ⟨f2, k3, ?_⟩
    have hne : i ++ 0x80 :: (c ++ (0 :: 0 :: (es ++ rest))) ≠ [] := by simp
    have hno : isEoc (i ++ 0x80 :: (c ++ (0 :: 0 :: (es ++ rest)))) = false := by
      rw [← hq, List.append_assoc]
      exact constructed_noEoc cls n c _ _ ⟨i, h1, Or.inr rfl⟩
    rw [asn1_find_end, if_neg hne, hno, if_neg (by simp), (getBer_opened _ (c ++ (0 :: 0 :: (es ++ rest))) cls n true).mpr ⟨rfl, i, h1, rfl⟩]
    simp only
    rw [k2, ← k4, asn1_find_end, if_neg (by simp), if_pos (by rfl), if_neg (by omega)]
    simp

theorem find_end_iff (l rest : List Byte) : asn1_find_end (l.length + 1) 1 l = some rest ↔ ∃ c, Elements c ∧ l = c ++ 0 :: 0 :: rest := by
  constructor
  · intro h
    obtain ⟨c, m, h1, h2, h3⟩ := find_end_only _ 1 l rest (le_refl _) h
    cases h3
    exact ⟨c, h1, h2⟩
  · rintro ⟨c, h1, rfl⟩
    obtain ⟨f, k1, k2⟩ := find_end_every c h1 ((c ++ 0 :: 0 :: rest).length + 1) 1 (0 :: 0 :: rest) (le_refl _) (by omega)
    obtain ⟨f, rfl⟩ : ∃ j, f = j + 1 := ⟨f - 1, by omega⟩
    rw [k2, asn1_find_end, if_neg (by simp), if_pos (by rfl), if_pos rfl]
    rfl

theorem after_only (l : List Byte) (cls : Byte) (cst : Bool) (n : Nat) (b : BerBody) (r : List Byte) (h : getBer l = some ⟨cls, n, cst, b⟩) (hb : b.after = some r) :
    ∃ e, BerElement cls cst n e ∧ l = e ++ r := by
  cases b with
  | closed c r' =>
    cases hb
    obtain ⟨i, o, k1, k2, rfl⟩ := (getBer_closed _ _ _ _ _ _).mp h
    exact ⟨_, ⟨i, k1, Or.inl ⟨c, o, k2, rfl⟩⟩, rfl⟩
  | opened r' =>
    obtain ⟨rfl, i, k1, rfl⟩ := (getBer_opened _ _ _ _ _).mp h
    obtain ⟨c, k2, rfl⟩ := (find_end_iff _ _).mp hb
    exact ⟨_, ⟨i, k1, Or.inr ⟨rfl, c, k2, rfl⟩⟩, by simp⟩

theorem after_every (cls : Byte) (cst : Bool) (n : Nat) (e r : List Byte) (h : BerElement cls cst n e) : ∃ b, getBer (e ++ r) = some ⟨cls, n, cst, b⟩ ∧ b.after = some r := by
  obtain ⟨i, k1, ⟨c, o, k2, rfl⟩ | ⟨rfl, c, k2, rfl⟩⟩ := h
  · exact ⟨.closed c r, (getBer_closed _ _ _ _ _ _).mpr ⟨i, o, k1, k2, rfl⟩, rfl⟩
  · exact ⟨.opened (c ++ 0 :: 0 :: r), (getBer_opened _ _ _ _ _).mpr ⟨rfl, i, k1, by simp⟩, (find_end_iff _ _).mpr ⟨c, k2, rfl⟩⟩

/-- An element is not a beginning of another. -/
theorem element_unique (cls : Byte) (cst : Bool) (n : Nat) (e r : List Byte) (h : BerElement cls cst n e) (h' : BerElement cls cst n (e ++ r)) : r = [] := by
  obtain ⟨b, h1, h2⟩ := after_every _ _ _ _ r h
  obtain ⟨b', h3, h4⟩ := after_every _ _ _ _ [] h'
  rw [List.append_nil, h1] at h3
  cases h3
  rw [h2] at h4
  exact Option.some.inj h4

theorem element_solid {cls : Byte} {cst : Bool} {n : Nat} {e : List Byte} (h : BerElement cls cst n e) (hn : ¬ (cls = 0 ∧ n = 0)) : e ≠ [] ∧ ∀ r, isEoc (e ++ r) = false := by
  constructor
  · rintro rfl
    obtain ⟨i, k1, ⟨c, o, k2, h⟩ | ⟨rfl, c, k2, h⟩⟩ := h
    · have := elements_head i (o ++ c) _ _ _ k1
      rw [← h] at this
      simp at this
    · simp at h
  · intro r
    obtain ⟨b, h1, _⟩ := after_every _ _ _ _ r h
    exact noEoc_of _ _ _ _ _ h1 hn

theorem take_front (e r : List Byte) : (e ++ r).take ((e ++ r).length - r.length) = e := by
  rw [List.length_append, Nat.add_sub_cancel, List.take_left]

theorem any_reads (ok : Nat → List Byte → Bool) : Reads (d2i_any ok) (BerValue ok) := by
  intro l v r hE
  constructor
  · intro h
    unfold d2i_any at h
    split at h
    · cases h
    rename_i cls num cst b e1
    split at h
    · rename_i hc
      obtain ⟨r', h1, h2⟩ := Option.map_eq_some_iff.1 h
      cases h2
      obtain ⟨e, h3, rfl⟩ := after_only _ _ _ _ _ _ e1 h1
      exact ⟨e, Or.inl ⟨_, _, _, hc, h3⟩, rfl⟩
    rename_i hc
    have hc0 : cls = 0 := by simpa using hc
    subst hc0
    split at h
    · rename_i hn
      split at h
      · rename_i hcst
        subst hcst
        obtain ⟨r', h1, h2⟩ := Option.map_eq_some_iff.1 h
        cases h2
        obtain ⟨e, h3, rfl⟩ := after_only _ _ _ _ _ _ e1 h1
        rcases hn with rfl | rfl
        · rw [if_pos rfl, take_front]
          exact ⟨e, ⟨rfl, h3⟩, rfl⟩
        · exact ⟨e, Or.inr (Or.inl h3), rfl⟩
      · cases h
    rename_i hn
    simp only [not_or] at hn
    split at h
    · cases h
    rename_i c r' e2
    have hs : ∃ e, (BerPrimitive 0 num c e ∨ (num ∉ [1, 2, 5, 6, 10] ∧ BerString num c e)) ∧ l = e ++ r' := by
      split at e2
      · obtain ⟨e, h1, h2⟩ := integer_only _ _ _ _ _ _ e1 e2
        exact ⟨e, Or.inl h1, h2⟩
      · rename_i hni
        obtain ⟨e, h1, h2⟩ := octets_only _ _ _ _ _ _ e1 e2
        exact ⟨e, Or.inr ⟨by simpa using hni, h1⟩, h2⟩
    obtain ⟨e, h1, rfl⟩ := hs
    have hstr : BerString num c e := by
      rcases h1 with h1 | h1
      · exact Or.inl h1
      · exact h1.2
    split at h
    · rename_i h4
      subst h4
      cases h
      exact ⟨e, hstr, rfl⟩
    split at h
    · rename_i h4 h3
      subst h3
      obtain ⟨b', k1, k2⟩ := Option.map_eq_some_iff.1 h
      cases k2
      obtain ⟨u, raw, rfl, k3, k4⟩ := (bits_iff _ _).mp k1
      exact ⟨e, ⟨u, raw, k3, k4, hstr⟩, rfl⟩
    split at h
    · rename_i h4 h3 hok
      cases h
      refine ⟨e, Or.inr (Or.inr ⟨num, c, ?_, hok, ?_, h1⟩), rfl⟩
      · simp only [List.mem_cons, List.not_mem_nil, or_false, not_or]
        exact ⟨h3, h4, hn.1, hn.2⟩
      · rintro rfl
        cases hE
    · cases h
  · rintro ⟨e, h, rfl⟩
    unfold d2i_any
    have hints : ∀ n c, n ∈ [3, 4] → BerString n c e → ∃ cst b, getBer (e ++ r) = some ⟨0, n, cst, b⟩ ∧
        (if n = 1 ∨ n = 2 ∨ n = 5 ∨ n = 6 ∨ n = 10 then Prim.integer else Prim.octets).contents cst b = some (c, r) := by
      intro n c hm hs
      obtain ⟨cst, b, k1, k2⟩ := octets_every n c e r hs
      refine ⟨cst, b, k1, ?_⟩
      rw [if_neg (by simp only [List.mem_cons, List.not_mem_nil, or_false] at hm; omega)]
      exact k2
    cases v with
    | octet c =>
      obtain ⟨cst, b, k1, k2⟩ := hints 4 c (by simp) h
      rw [k1]
      simp only [ne_eq, not_true_eq_false, if_false, k2]
      simp
    | bit key =>
      obtain ⟨u, raw, k3, k4, k5⟩ := h
      obtain ⟨cst, b, k1, k2⟩ := hints 3 _ (by simp) k5
      rw [k1]
      simp only [ne_eq, not_true_eq_false, if_false, k2, (bits_iff _ _).mpr ⟨u, raw, rfl, k3, k4⟩]
      simp
    | seq s =>
      obtain ⟨rfl, h⟩ := h
      obtain ⟨b, k1, k2⟩ := after_every _ _ _ _ r h
      rw [k1]
      simp only [ne_eq, not_true_eq_false, if_false, true_or, if_true, k2, Option.map_some, take_front]
    | other =>
      rcases h with ⟨cls, cst, n, hc, h⟩ | h | ⟨n, c, hm, hok, hne, h⟩
      · obtain ⟨b, k1, k2⟩ := after_every _ _ _ _ r h
        rw [k1]
        simp only [ne_eq, hc, not_false_eq_true, if_true, k2, Option.map_some]
      · obtain ⟨b, k1, k2⟩ := after_every _ _ _ _ r h
        rw [k1]
        simp [k2]
      · simp only [List.mem_cons, List.not_mem_nil, or_false, not_or] at hm
        have hs : ∃ cst b, getBer (e ++ r) = some ⟨0, n, cst, b⟩ ∧
            (if n = 1 ∨ n = 2 ∨ n = 5 ∨ n = 6 ∨ n = 10 then Prim.integer else Prim.octets).contents cst b = some (c, r) := by
          rcases h with h | ⟨hni, h⟩
          · refine ⟨false, .closed c r, primitive_contents n c e r h, ?_⟩
            split <;> rfl
          · obtain ⟨cst, b, k1, k2⟩ := octets_every n c e r h
            refine ⟨cst, b, k1, ?_⟩
            rw [if_neg (by simpa using hni)]
            exact k2
        obtain ⟨cst, b, k1, k2⟩ := hs
        rw [k1]
        simp only [ne_eq, not_true_eq_false, if_false, k2, hok, if_true]
        rw [if_neg (by omega), if_neg hm.2.1, if_neg hm.1]

theorem value_solid (ok : Nat → List Byte → Bool) : Solid (BerValue ok) := by
  intro v e h
  cases v with
  | octet c => exact string_solid (n := 4) h (by omega)
  | bit key =>
    obtain ⟨_, _, _, _, h⟩ := h
    exact string_solid h (by omega)
  | seq s => exact element_solid h.2 (by omega)
  | other =>
    rcases h with ⟨cls, cst, n, hc, h⟩ | h | ⟨n, c, hm, hok, hne, h⟩
    · exact element_solid h (fun hh => hc hh.1)
    · exact element_solid h (by omega)
    · have hp : ∀ h : BerPrimitive 0 n c e, e ≠ [] ∧ ∀ r, isEoc (e ++ r) = false := fun h => by
        refine ⟨?_, fun r => primitive_noEoc _ _ _ _ r h hne⟩
        rintro rfl
        have := primitive_len _ _ _ _ h
        simp at this
      rcases h with h | ⟨_, h | ⟨_, _, h⟩⟩
      · exact hp h
      · exact hp h
      · exact constructed_solid h

/-! Encodings of templates consist of elements. -/

theorem elements_append {a b : List Byte} (ha : Elements a) (hb : Elements b) : Elements (a ++ b) := by
  induction ha with
  | nil => exact hb
  | definite h1 h2 h3 _ ih => rw [List.append_assoc]; exact .definite h1 h2 h3 ih
  | indefinite h1 h2 _ _ ih => rw [List.append_assoc]; exact .indefinite h1 h2 ih

theorem elements_primitive {cls : Byte} {n : Nat} {c e : List Byte} (h : BerPrimitive cls n c e) (hne : e ≠ [0, 0]) : Elements e := by
  obtain ⟨i, o, h1, h2, rfl⟩ := h
  have := Elements.definite h1 h2 hne .nil
  rwa [List.append_nil] at this

theorem elements_constructed {cls : Byte} {n : Nat} {c e : List Byte} (h : BerConstructed cls n c e) (hc : Elements c) : Elements e := by
  have hno := constructed_noEoc _ _ _ _ [] h
  obtain ⟨i, h1, ⟨o, h2, rfl⟩ | rfl⟩ := h
  · have := Elements.definite h1 h2 (by intro hz; rw [hz] at hno; cases hno) .nil
    rwa [List.append_nil] at this
  · have := Elements.indefinite h1 hc .nil
    rwa [List.append_nil] at this

theorem pieces_elements (d : Nat) (v c : List Byte) (h : Pieces d v c) : Elements c := by
  induction h with
  | nil => exact .nil
  | piece h1 h2 _ ih => exact elements_append (elements_primitive h1 h2) ih
  | nested _ h1 _ ih1 ih2 => exact elements_append (elements_constructed h1 ih1) ih2

mutual
theorem Item.benc_elements (i : Item) (v : i.Val) (e : List Byte) (h : i.BEnc v e) : Elements e := by
  match i, v with
  | .prim k, v =>
    simp only [Item.BEnc] at h
    obtain ⟨c, _, h | ⟨_, d, h1, h2⟩⟩ := h
    · refine elements_primitive h ?_
      rintro rfl
      have := (primitive_solid h (by cases k <;> simp [Prim.num])).2 []
      cases this
    · exact elements_constructed h2 (pieces_elements _ _ _ h1)
  | .seq fs, v =>
    simp only [Item.BEnc] at h
    obtain ⟨c, h1, h2⟩ := h
    exact elements_constructed h2 (Fields.benc_elements fs v c h1)
  | .choice as, v =>
    simp only [Item.BEnc] at h
    exact Fields.alt_elements as v e h
theorem Fields.benc_elements (fs : Fields) (v : fs.SeqVal) (e : List Byte) (h : fs.SeqBEnc v e) : Elements e := by
  match fs, v with
  | .nil, () =>
    simp only [Fields.SeqBEnc] at h
    subst h
    exact .nil
  | .cons true i r, (none, vs) =>
    simp only [Fields.SeqBEnc] at h
    obtain ⟨a, b, h1, h2, h3⟩ := h
    rw [h3, h1]
    exact Fields.benc_elements r vs b h2
  | .cons true i r, (some w, vs) =>
    simp only [Fields.SeqBEnc] at h
    obtain ⟨a, b, h1, h2, rfl⟩ := h
    exact elements_append (Item.benc_elements i w a h1) (Fields.benc_elements r vs b h2)
  | .cons false i r, (w, vs) =>
    simp only [Fields.SeqBEnc] at h
    obtain ⟨a, b, h1, h2, rfl⟩ := h
    exact elements_append (Item.benc_elements i w a h1) (Fields.benc_elements r vs b h2)
theorem Fields.alt_elements (as : Fields) (v : as.ChoiceVal) (e : List Byte) (h : as.AltBEnc v e) : Elements e := by
  match as, v with
  | .cons o i s, .inl v =>
    simp only [Fields.AltBEnc] at h
    exact Item.benc_elements i v e h
  | .cons o i s, .inr v =>
    simp only [Fields.AltBEnc] at h
    exact Fields.alt_elements s v e h
end

theorem sequence_element (fs : Fields) (v : fs.SeqVal) (e : List Byte) (h : (Item.seq fs).BEnc v e) : BerElement 0 true 16 e := by
  simp only [Item.BEnc] at h
  obtain ⟨c, h1, i, h2, ⟨o, h3, rfl⟩ | rfl⟩ := h
  · exact ⟨i, h2, Or.inl ⟨c, o, h3, rfl⟩⟩
  · exact ⟨i, h2, Or.inr ⟨rfl, c, fs.benc_elements v c h1, rfl⟩⟩

end Dstu
