import Verif.Model.Ber
import Verif.Spec.Ber
import Verif.Lemmas.TemplateBer

/-! What the decoder for BER accepts, for any template. -/

namespace Dstu

open Spec

theorem septets_append (l : List Byte) (b : Byte) : septets (l ++ [b]) = 128 * septets l + b.toNat % 128 := by
  simp [septets]

theorem septets_fold_mono (l : List Byte) (a : Nat) : a ≤ l.foldl (fun n b => 128 * n + b.toNat % 128) a := by
  induction l generalizing a with
  | nil => simp
  | cons b l ih =>
    simp only [List.foldl_cons]
    exact le_trans (by omega) (ih _)

theorem highTag_iff (l r : List Byte) (acc n : Nat) (ha : acc < 2 ^ 24) : highTag acc l = some (n, r) ↔ n < 2 ^ 31 ∧ ∃ more last, (∀ x ∈ more, (0x80 : Byte) ≤ x) ∧ last < (0x80 : Byte) ∧
    (more ++ [last]).foldl (fun n b => 128 * n + b.toNat % 128) acc = n ∧ l = more ++ last :: r := by
  induction l generalizing acc with
  | nil => simp [highTag]
  | cons b l ih =>
    simp only [highTag]
    have hb := b.isLt
    by_cases h1 : b.toNat < 128
    · rw [if_pos h1]
      constructor
      · intro h
        simp only [Option.some.injEq, Prod.mk.injEq] at h
        obtain ⟨rfl, rfl⟩ := h
        refine ⟨by omega, [], b, by simp, by simpa [BitVec.lt_def] using h1, ?_, rfl⟩
        simp
        omega
      · rintro ⟨_, more, last, h2, h3, h4, h5⟩
        cases more with
        | nil =>
          simp only [List.nil_append, List.cons.injEq] at h5
          obtain ⟨rfl, rfl⟩ := h5
          simp at h4
          simp
          omega
        | cons x more =>
          simp only [List.cons_append, List.cons.injEq] at h5
          have := h2 x (by simp)
          rw [← h5.1, BitVec.le_def] at this
          simp at this
          omega
    · rw [if_neg h1]
      have hm : 128 * acc + b.toNat % 128 = acc * 128 + (b.toNat - 128) := by omega
      by_cases h2 : 2 ^ 24 ≤ acc * 128 + (b.toNat - 128)
      · rw [if_pos h2]
        constructor
        · intro h; cases h
        · rintro ⟨h0, more, last, h3, h4, h5, h6⟩
          exfalso
          cases more with
          | nil =>
            simp only [List.nil_append, List.cons.injEq] at h6
            rw [← h6.1, BitVec.lt_def] at h4
            simp at h4
            omega
          | cons x more =>
            simp only [List.cons_append, List.cons.injEq] at h6
            obtain ⟨rfl, _⟩ := h6
            simp only [List.cons_append, List.foldl_cons, List.foldl_append, List.foldl_nil, hm] at h5
            have := septets_fold_mono more (acc * 128 + (b.toNat - 128))
            omega
      · rw [if_neg h2, ih _ (by omega)]
        refine and_congr Iff.rfl ?_
        constructor
        · rintro ⟨more, last, h3, h4, h5, h6⟩
          refine ⟨b :: more, last, ?_, h4, ?_, by simp [h6]⟩
          · intro x hx
            rcases List.mem_cons.mp hx with rfl | hx
            · rw [BitVec.le_def]; simp; omega
            · exact h3 x hx
          · simp only [List.cons_append, List.foldl_cons, hm]
            exact h5
        · rintro ⟨more, last, h3, h4, h5, h6⟩
          cases more with
          | nil =>
            simp only [List.nil_append, List.cons.injEq] at h6
            rw [← h6.1, BitVec.lt_def] at h4
            simp at h4
            omega
          | cons x more =>
            simp only [List.cons_append, List.cons.injEq] at h6
            obtain ⟨rfl, h6⟩ := h6
            simp only [List.cons_append, List.foldl_cons, hm] at h5
            exact ⟨more, last, fun y hy => h3 y (by simp [hy]), h4, h5, h6⟩

theorem getIdent_iff (l r : List Byte) (cls : Byte) (cst : Bool) (n : Nat) : getIdent l = some (cls, cst, n, r) ↔ ∃ i, BerIdentifier cls cst n i ∧ l = i ++ r := by
  cases l with
  | nil =>
    simp only [getIdent]
    constructor
    · intro h; cases h
    · rintro ⟨i, ⟨b, _, _, ⟨_, _, rfl⟩ | ⟨_, _, _, _, _, _, _, rfl⟩⟩, h⟩ <;> simp at h
  | cons b l =>
    have hc : ∀ cst : Bool, ((b &&& 0x20 != 0) = cst) ↔ (b &&& 0x20 ≠ 0 ↔ cst = true) := by
      intro cst
      cases cst <;> simp
    simp only [getIdent]
    by_cases hb : b &&& 0x1f = 0x1f
    · rw [if_pos hb]
      constructor
      · intro h
        split at h
        · cases h
        · rename_i m q e
          simp only [Option.some.injEq, Prod.mk.injEq] at h
          obtain ⟨h1, h2, rfl, rfl⟩ := h
          obtain ⟨h3, more, last, h4, h5, h6, h7⟩ := (highTag_iff _ _ _ _ (by norm_num)).mp e
          exact ⟨b :: (more ++ [last]), ⟨b, h1, (hc _).mp h2, Or.inr ⟨hb, h3, more, last, h4, h5, h6, rfl⟩⟩, by simp [h7]⟩
      · rintro ⟨i, ⟨b', h1, h2, ⟨h3, _, rfl⟩ | ⟨_, h3, more, last, h4, h5, h6, rfl⟩⟩, h⟩
        · simp only [List.cons_append, List.cons.injEq] at h
          rw [← h.1] at h3
          exact absurd hb h3
        · simp only [List.cons_append, List.cons.injEq, List.append_assoc, List.nil_append] at h
          obtain ⟨rfl, h⟩ := h
          rw [(highTag_iff l r 0 n (by norm_num)).mpr ⟨h3, more, last, h4, h5, h6, h⟩]
          simp only [h1, (hc _).mpr h2]
    · rw [if_neg hb]
      constructor
      · intro h
        simp only [Option.some.injEq, Prod.mk.injEq] at h
        obtain ⟨h1, h2, h3, rfl⟩ := h
        exact ⟨[b], ⟨b, h1, (hc _).mp h2, Or.inl ⟨hb, h3, rfl⟩⟩, rfl⟩
      · rintro ⟨i, ⟨b', h1, h2, ⟨_, h3, rfl⟩ | ⟨h3, _⟩⟩, h⟩
        · simp only [List.cons_append, List.cons.injEq, List.nil_append] at h
          obtain ⟨rfl, rfl⟩ := h
          simp only [h1, h3, (hc _).mpr h2]
        · exfalso
          rename_i h9
          obtain ⟨_, more, last, _, _, _, rfl⟩ := h9
          simp only [List.cons_append, List.cons.injEq] at h
          rw [← h.1] at h3
          exact hb h3

theorem anyLength_head (n : Nat) (o : List Byte) (h : AnyLength n o) : ∃ b q, o = b :: q ∧ b ≠ 0x80 := by
  rcases h with ⟨hn, rfl⟩ | ⟨q, h1, h2, h3, rfl⟩
  · refine ⟨_, [], rfl, ?_⟩
    intro h
    have := congrArg BitVec.toNat h
    simp at this
    omega
  · refine ⟨_, q, rfl, ?_⟩
    intro h
    have := congrArg BitVec.toNat h
    have hq := List.length_pos_of_ne_nil h1
    simp at this
    omega

theorem getBer_closed (l c r : List Byte) (cls : Byte) (n : Nat) (cst : Bool) : getBer l = some ⟨cls, n, cst, .closed c r⟩ ↔
    ∃ i o, BerIdentifier cls cst n i ∧ AnyLength c.length o ∧ l = i ++ (o ++ c) ++ r := by
  unfold getBer
  constructor
  · intro h
    split at h
    · cases h
    · rename_i cls' cst' n' l' e
      obtain ⟨i, h1, rfl⟩ := (getIdent_iff _ _ _ _ _).mp e
      split at h
      · cases h
      · rename_i b q
        split at h
        · split at h <;> simp at h
        · split at h
          · cases h
          · rename_i m q' e'
            split at h
            · cases h
            · rename_i hm
              simp only [Option.some.injEq, BerElem.mk.injEq, BerBody.closed.injEq] at h
              obtain ⟨rfl, rfl, rfl, rfl, rfl⟩ := h
              obtain ⟨o, h2, h3⟩ := (parseLen_iff _ _ _).mp e'
              refine ⟨i, o, h1, ?_, ?_⟩
              · rw [show (q'.take m).length = m by simp; omega]; exact h2
              · simp [h3]
  · rintro ⟨i, o, h1, h2, rfl⟩
    have e1 := (getIdent_iff (i ++ (o ++ c) ++ r) (o ++ (c ++ r)) cls cst n).mpr ⟨i, h1, by simp⟩
    rw [e1]
    obtain ⟨b, q, rfl, hb⟩ := anyLength_head _ _ h2
    have e2 := (parseLen_iff (b :: q ++ (c ++ r)) (c ++ r) c.length).mpr ⟨b :: q, h2, rfl⟩
    simp only [List.cons_append] at e2 ⊢
    simp only [if_neg hb, e2]
    rw [if_neg (by simp), List.take_left' rfl, List.drop_left' rfl]

theorem getBer_opened (l r : List Byte) (cls : Byte) (n : Nat) (cst : Bool) : getBer l = some ⟨cls, n, cst, .opened r⟩ ↔
    cst = true ∧ ∃ i, BerIdentifier cls true n i ∧ l = i ++ 0x80 :: r := by
  unfold getBer
  constructor
  · intro h
    split at h
    · cases h
    · rename_i cls' cst' n' l' e
      obtain ⟨i, h1, rfl⟩ := (getIdent_iff _ _ _ _ _).mp e
      split at h
      · cases h
      · rename_i b q
        split at h
        · rename_i hb
          split at h
          · rename_i hc
            simp only [Option.some.injEq, BerElem.mk.injEq, BerBody.opened.injEq] at h
            obtain ⟨rfl, rfl, rfl, rfl⟩ := h
            subst hb
            subst hc
            exact ⟨rfl, i, h1, rfl⟩
          · cases h
        · split at h
          · cases h
          · split at h <;> simp at h
  · rintro ⟨rfl, i, h1, rfl⟩
    have e1 := (getIdent_iff (i ++ 0x80 :: r) (0x80 :: r) cls true n).mpr ⟨i, h1, rfl⟩
    rw [e1]
    simp

theorem isEoc_iff (l : List Byte) : isEoc l = true ↔ ∃ r, l = 0 :: 0 :: r := by
  unfold isEoc
  split
  · rename_i r; simp
  · rename_i h
    simp only [Bool.false_eq_true, false_iff, not_exists]
    exact fun r e => h r e

/-- The end mark, if one is expected. -/
def endMark (inf : Bool) : List Byte := if inf then [0, 0] else []

theorem ident_ne (cls : Byte) (cst : Bool) (n : Nat) (i : List Byte) (h : BerIdentifier cls cst n i) : ∃ b q, i = b :: q ∧ (b &&& 0x20 ≠ 0 ↔ cst = true) ∧ (b = 0 → q = []) ∧ b &&& 0xc0 = cls := by
  obtain ⟨b, h0, h1, ⟨_, _, rfl⟩ | ⟨h2, _, more, last, _, _, _, rfl⟩⟩ := h
  · exact ⟨b, [], rfl, h1, fun _ => rfl, h0⟩
  · exact ⟨b, _, rfl, h1, fun hb => by rw [hb] at h2; exact absurd h2 (by decide), h0⟩

theorem primitive_noEoc (cls : Byte) (n : Nat) (c e rest : List Byte) (h : BerPrimitive cls n c e) (hne : e ≠ [0, 0]) : isEoc (e ++ rest) = false := by
  obtain ⟨i, o, h1, h2, rfl⟩ := h
  by_contra hc
  obtain ⟨r, hr⟩ := (isEoc_iff _).mp (by simpa using hc)
  obtain ⟨b, q, rfl, _, hq, _⟩ := ident_ne _ _ _ _ h1
  simp only [List.cons_append, List.cons.injEq] at hr
  obtain ⟨rfl, hr⟩ := hr
  rw [hq rfl, List.nil_append] at hr
  rw [hq rfl] at hne
  rcases h2 with ⟨h3, rfl⟩ | ⟨q', h3, _, _, rfl⟩
  · simp only [List.cons_append, List.cons.injEq] at hr
    have := congrArg BitVec.toNat hr.1
    simp at this
    have hc0 : c = [] := by
      have : c.length = 0 := by omega
      exact List.length_eq_zero_iff.mp this
    subst hc0
    exact hne rfl
  · simp only [List.cons_append, List.cons.injEq] at hr
    have := congrArg BitVec.toNat hr.1
    simp at this
    omega

theorem constructed_noEoc (cls : Byte) (n : Nat) (c e rest : List Byte) (h : BerConstructed cls n c e) : isEoc (e ++ rest) = false := by
  obtain ⟨i, h1, h2⟩ := h
  by_contra hc
  obtain ⟨r, hr⟩ := (isEoc_iff _).mp (by simpa using hc)
  obtain ⟨b, q, rfl, hb, _⟩ := ident_ne _ _ _ _ h1
  have : b = 0 := by
    rcases h2 with ⟨o, _, rfl⟩ | rfl <;> simp only [List.cons_append, List.cons.injEq] at hr <;> exact hr.1
  subst this
  simp at hb

/-- What is collected are the pieces. -/
theorem collect_only (fuel d : Nat) (inf : Bool) (l v r : List Byte) (h : asn1_collect fuel d inf l = some (v, r)) :
    ∃ c, Pieces d v c ∧ l = c ++ endMark inf ++ r ∧ (inf = false → r = []) := by
  induction fuel generalizing d inf l v r with
  | zero => simp [asn1_collect] at h
  | succ fuel ih =>
    simp only [asn1_collect] at h
    split at h
    · rename_i hl
      subst hl
      cases inf with
      | true => simp at h
      | false =>
        simp only [Bool.false_eq_true, if_false, Option.some.injEq, Prod.mk.injEq] at h
        obtain ⟨rfl, rfl⟩ := h
        exact ⟨[], Pieces.nil d, rfl, fun _ => rfl⟩
    · split at h
      · rename_i he
        obtain ⟨q, rfl⟩ := (isEoc_iff _).mp he
        cases inf with
        | false => simp at h
        | true =>
          simp only [if_true, Option.some.injEq, Prod.mk.injEq] at h
          obtain ⟨rfl, rfl⟩ := h
          exact ⟨[], Pieces.nil d, rfl, fun h => nomatch h⟩
      · rename_i hl hE
        split at h
        · cases h
        · rename_i o ho
          obtain ⟨cls, n, cst, body⟩ := o
          simp only at h
          cases cst with
          | true =>
            simp only [if_true] at h
            cases d with
            | zero => simp at h
            | succ d =>
              simp only at h
              cases body with
              | closed c q =>
                simp only at h
                split at h
                · cases h
                · rename_i a x e1
                  obtain ⟨y, e2, e3⟩ := Option.map_eq_some_iff.1 h
                  cases e3
                  obtain ⟨c1, p1, q1, z1⟩ := ih d false c a x e1
                  obtain ⟨c2, p2, q2, z2⟩ := ih (d + 1) inf q y.1 y.2 e2
                  obtain ⟨i, o, g1, g2, rfl⟩ := (getBer_closed _ _ _ _ _ _).mp ho
                  rw [z1 rfl] at q1
                  simp only [endMark, Bool.false_eq_true, if_false, List.append_nil] at q1
                  subst q1
                  exact ⟨(i ++ (o ++ c)) ++ c2, Pieces.nested p1 ⟨i, g1, Or.inl ⟨o, g2, rfl⟩⟩ p2, by rw [q2]; simp, z2⟩
              | opened q =>
                simp only at h
                split at h
                · cases h
                · rename_i a q' e1
                  obtain ⟨y, e2, e3⟩ := Option.map_eq_some_iff.1 h
                  cases e3
                  obtain ⟨c1, p1, q1, _⟩ := ih d true q a q' e1
                  obtain ⟨c2, p2, q2, z2⟩ := ih (d + 1) inf q' y.1 y.2 e2
                  obtain ⟨_, i, g1, rfl⟩ := (getBer_opened _ _ _ _ _).mp ho
                  refine ⟨(i ++ 0x80 :: (c1 ++ [0, 0])) ++ c2, Pieces.nested p1 ⟨i, g1, Or.inr rfl⟩ p2, ?_, z2⟩
                  rw [q1, q2]
                  simp [endMark]
          | false =>
            simp only [Bool.false_eq_true, if_false] at h
            cases body with
            | opened q =>  cases h
            | closed c q =>
              simp only at h
              obtain ⟨y, e2, e3⟩ := Option.map_eq_some_iff.1 h
              cases e3
              obtain ⟨c2, p2, q2, z2⟩ := ih d inf q y.1 y.2 e2
              obtain ⟨i, o, g1, g2, rfl⟩ := (getBer_closed _ _ _ _ _ _).mp ho
              refine ⟨(i ++ (o ++ c)) ++ c2, Pieces.piece ⟨i, o, g1, g2, rfl⟩ ?_ p2, by rw [q2]; simp, z2⟩
              intro h9
              rw [h9] at hE
              exact hE ((isEoc_iff _).mpr ⟨q, rfl⟩)

theorem primitive_len (cls : Byte) (n : Nat) (c e : List Byte) (h : BerPrimitive cls n c e) : 1 ≤ e.length := by
  obtain ⟨i, o, h1, h2, rfl⟩ := h
  obtain ⟨b, q, rfl, _⟩ := ident_ne _ _ _ _ h1
  simp only [List.cons_append, List.length_cons]; omega

theorem constructed_len (cls : Byte) (n : Nat) (c e : List Byte) (h : BerConstructed cls n c e) : c.length + 1 ≤ e.length := by
  obtain ⟨i, h1, h2⟩ := h
  obtain ⟨b, q, rfl, _⟩ := ident_ne _ _ _ _ h1
  rcases h2 with ⟨o, _, rfl⟩ | rfl <;> simp only [List.cons_append, List.length_cons, List.length_append] <;> omega

theorem append_ne_of_len (e x : List Byte) (h : 1 ≤ e.length) : e ++ x ≠ [] := by
  intro h1
  rw [(List.append_eq_nil_iff.mp h1).1] at h
  simp at h

/-- All pieces are collected. -/
theorem collect_every (d : Nat) (v c : List Byte) (h : Pieces d v c) (fuel : Nat) (hf : c.length < fuel) (inf : Bool) (r : List Byte) (hr : inf = false → r = []) :
    asn1_collect fuel d inf (c ++ endMark inf ++ r) = some (v, r) := by
  induction h generalizing fuel inf r with
  | nil d =>
    cases fuel with
    | zero => omega
    | succ fuel =>
      cases inf with
      | true => simp [endMark, asn1_collect, isEoc]
      | false => simp [endMark, asn1_collect, hr]
  | @piece d cls n c e v es h1 h2 h3 ih =>
    have hl := primitive_len _ _ _ _ h1
    cases fuel with
    | zero => omega
    | succ fuel =>
      rw [List.length_append] at hf
      have e1 : e ++ es ++ endMark inf ++ r = e ++ (es ++ endMark inf ++ r) := by simp
      have e2 := primitive_noEoc _ _ _ _ (es ++ endMark inf ++ r) h1 h2
      obtain ⟨i, o, g1, g2, g3⟩ := h1
      have e3 := (getBer_closed (e ++ (es ++ endMark inf ++ r)) c (es ++ endMark inf ++ r) cls n false).mpr ⟨i, o, g1, g2, by rw [g3]⟩
      rw [e1, asn1_collect, if_neg (append_ne_of_len _ _ hl), e2, e3]
      simp only [Bool.false_eq_true, if_false]
      rw [ih fuel (by omega) inf r hr]
      rfl
  | @nested d cls n v c e w es h1 h2 h3 ih1 ih2 =>
    have hl := constructed_len _ _ _ _ h2
    cases fuel with
    | zero => omega
    | succ fuel =>
      rw [List.length_append] at hf
      have e1 : e ++ es ++ endMark inf ++ r = e ++ (es ++ endMark inf ++ r) := by simp
      have e2 := constructed_noEoc _ _ _ _ (es ++ endMark inf ++ r) h2
      rw [e1, asn1_collect, if_neg (append_ne_of_len _ _ (by omega)), e2]
      obtain ⟨i, g1, ⟨o, g2, g3⟩ | g3⟩ := h2
      · have e3 := (getBer_closed (e ++ (es ++ endMark inf ++ r)) c (es ++ endMark inf ++ r) cls n true).mpr ⟨i, o, g1, g2, by rw [g3]⟩
        have e4 := ih1 fuel (by omega) false [] (fun _ => rfl)
        simp only [endMark, Bool.false_eq_true, if_false, List.append_nil] at e4
        rw [e3]
        simp only [Bool.false_eq_true, if_false, if_true, e4]
        rw [ih2 fuel (by omega) inf r hr]
        rfl
      · have e3 := (getBer_opened (e ++ (es ++ endMark inf ++ r)) (c ++ [0, 0] ++ (es ++ endMark inf ++ r)) cls n true).mpr ⟨rfl, i, g1, by rw [g3]; simp⟩
        have e4 := ih1 fuel (by omega) true (es ++ endMark inf ++ r) (fun h => nomatch h)
        rw [show endMark true = [0, 0] from rfl] at e4
        rw [e3]
        simp only [Bool.false_eq_true, if_false, if_true, e4]
        rw [ih2 fuel (by omega) inf r hr]
        rfl

/-- The encodings of the contents of a primitive type. -/
def Prim.BEnc (k : Prim) (c e : List Byte) : Prop := BerPrimitive 0 k.num c e ∨ k = .octets ∧ ∃ d, Pieces 5 c d ∧ BerConstructed 0 k.num d e

mutual
/-- The encodings of a value. -/
def Item.BEnc : (i : Item) → i.Val → List Byte → Prop
  | .prim k, v, e => ∃ c, k.dec c = some v ∧ k.BEnc c e
  | .seq fs, v, e => ∃ c, fs.SeqBEnc v c ∧ BerConstructed 0 16 c e
  | .choice as, v, e => as.AltBEnc v e
def Fields.SeqBEnc : (fs : Fields) → fs.SeqVal → List Byte → Prop
  | .nil, _, c => c = []
  | .cons true i r, (v, vs), c => ∃ a b, (match v with | none => a = [] | some w => i.BEnc w a) ∧ r.SeqBEnc vs b ∧ c = a ++ b
  | .cons false i r, (v, vs), c => ∃ a b, i.BEnc v a ∧ r.SeqBEnc vs b ∧ c = a ++ b
def Fields.AltBEnc : (as : Fields) → as.ChoiceVal → List Byte → Prop
  | .nil, v, _ => nomatch v
  | .cons _ i r, v, e => match v with
    | .inl v => i.BEnc v e
    | .inr v => r.AltBEnc v e
end

theorem Fields.allAbsent_benc (fs : Fields) (v : fs.SeqVal) (h : fs.allAbsent = some v) : fs.SeqBEnc v [] := by
  match fs, v with
  | .nil, () => simp [Fields.SeqBEnc]
  | .cons true i r, (w, vs) =>
    simp only [Fields.allAbsent] at h
    obtain ⟨vs', h1, h2⟩ := Option.map_eq_some_iff.1 h
    cases h2
    simp only [Fields.SeqBEnc]
    exact ⟨[], [], rfl, Fields.allAbsent_benc r _ h1, rfl⟩
  | .cons false i r, (w, vs) => simp [Fields.allAbsent] at h

theorem checkBer_ok (num : Nat) (opt : Bool) (l q : List Byte) (cst : Bool) (b : BerBody) (h : checkBer num opt l = .ok (cst, b) q) : getBer l = some ⟨0, num, cst, b⟩ := by
  unfold checkBer at h
  split at h
  · cases h
  · rename_i o e
    obtain ⟨cls, n, c, body⟩ := o
    split at h
    · rename_i hh
      simp only [D2i.ok.injEq, Prod.mk.injEq] at h
      obtain ⟨⟨rfl, rfl⟩, _⟩ := h
      simp only at hh
      obtain ⟨rfl, rfl⟩ := hh
      exact e
    · split at h <;> cases h

theorem checkBer_of (num : Nat) (opt : Bool) (l : List Byte) (cst : Bool) (b : BerBody) (h : getBer l = some ⟨0, num, cst, b⟩) : checkBer num opt l = .ok (cst, b) [] := by
  simp [checkBer, h]

theorem Prim.contents_only (k : Prim) (l : List Byte) (cst : Bool) (b : BerBody) (c r : List Byte) (h : getBer l = some ⟨0, k.num, cst, b⟩) (hc : k.contents cst b = some (c, r)) :
    ∃ e, k.BEnc c e ∧ l = e ++ r := by
  cases cst with
  | false =>
    cases b with
    | closed c' r' =>
      simp only [Prim.contents, Option.some.injEq, Prod.mk.injEq] at hc
      obtain ⟨rfl, rfl⟩ := hc
      obtain ⟨i, o, h1, h2, rfl⟩ := (getBer_closed _ _ _ _ _ _).mp h
      exact ⟨_, Or.inl ⟨i, o, h1, h2, rfl⟩, rfl⟩
    | opened r' => simp [Prim.contents] at hc
  | true =>
    cases k with
    | integer => simp [Prim.contents] at hc
    | object => simp [Prim.contents] at hc
    | octets =>
      cases b with
      | closed c' r' =>
        simp only [Prim.contents] at hc
        obtain ⟨y, e1, e2⟩ := Option.map_eq_some_iff.1 hc
        cases e2
        obtain ⟨d, h1, h2, h3⟩ := collect_only _ _ _ _ y.1 y.2 e1
        rw [h3 rfl] at h2
        simp only [endMark, Bool.false_eq_true, if_false, List.append_nil] at h2
        subst h2
        obtain ⟨i, o, g1, g2, rfl⟩ := (getBer_closed _ _ _ _ _ _).mp h
        exact ⟨_, Or.inr ⟨rfl, c', h1, i, g1, Or.inl ⟨o, g2, rfl⟩⟩, rfl⟩
      | opened r' =>
        simp only [Prim.contents] at hc
        obtain ⟨d, h1, h2, _⟩ := collect_only _ _ _ _ _ _ hc
        obtain ⟨_, i, g1, rfl⟩ := (getBer_opened _ _ _ _ _).mp h
        refine ⟨i ++ 0x80 :: (d ++ [0, 0]), Or.inr ⟨rfl, d, h1, i, g1, Or.inr rfl⟩, ?_⟩
        rw [h2]
        simp [endMark]

theorem Prim.contents_every (k : Prim) (c e r : List Byte) (h : k.BEnc c e) : ∃ cst b, getBer (e ++ r) = some ⟨0, k.num, cst, b⟩ ∧ k.contents cst b = some (c, r) := by
  rcases h with ⟨i, o, h1, h2, rfl⟩ | ⟨rfl, d, h1, i, h2, ⟨o, h3, rfl⟩ | rfl⟩
  · exact ⟨false, .closed c r, (getBer_closed _ _ _ _ _ _).mpr ⟨i, o, h1, h2, rfl⟩, rfl⟩
  · refine ⟨true, .closed d r, (getBer_closed _ _ _ _ _ _).mpr ⟨i, o, h2, h3, rfl⟩, ?_⟩
    have := collect_every 5 c d h1 (d.length + 1) (by omega) false [] (fun _ => rfl)
    simp only [endMark, Bool.false_eq_true, if_false, List.append_nil] at this
    simp only [Prim.contents, this]
    rfl
  · refine ⟨true, .opened (d ++ [0, 0] ++ r), (getBer_opened _ _ _ _ _).mpr ⟨rfl, i, h2, by simp⟩, ?_⟩
    exact collect_every 5 c d h1 ((d ++ [0, 0] ++ r).length + 1) (by simp) true r (fun h => nomatch h)

mutual
/-- What is accepted is an encoding. -/
theorem Item.bonly (i : Item) (opt : Bool) (l : List Byte) (v : i.Val) (rest : List Byte) (h : i.ber opt l = .ok v rest) :
    ∃ e, i.BEnc v e ∧ l = e ++ rest := by
  match i, v with
  | .prim k, v =>
    simp only [Item.ber] at h
    split at h
    · cases h
    · cases h
    · rename_i cst b q e
      have hg := checkBer_ok _ _ _ _ _ _ e
      split at h
      · cases h
      · rename_i c r hc
        split at h
        · cases h
        · rename_i w hw
          cases h
          obtain ⟨e, h1, h2⟩ := k.contents_only l cst b c rest hg hc
          exact ⟨e, by simp only [Item.BEnc]; exact ⟨c, hw, h1⟩, h2⟩
  | .seq fs, v =>
    simp only [Item.ber] at h
    split at h
    · cases h
    · cases h
    · cases h
    · rename_i c r q e
      have hg := checkBer_ok _ _ _ _ _ _ e
      split at h
      · cases h
      · rename_i w x hw
        cases h
        obtain ⟨d, h1, h2, h3⟩ := Fields.seq_bonly fs false c v x hw
        rw [h3 rfl] at h2
        simp only [endMark, Bool.false_eq_true, if_false, List.append_nil] at h2
        subst h2
        obtain ⟨i, o, g1, g2, rfl⟩ := (getBer_closed _ _ _ _ _ _).mp hg
        exact ⟨_, by simp only [Item.BEnc]; exact ⟨c, h1, i, g1, Or.inl ⟨o, g2, rfl⟩⟩, rfl⟩
    · rename_i r q e
      have hg := checkBer_ok _ _ _ _ _ _ e
      split at h
      · cases h
      · rename_i w x hw
        cases h
        obtain ⟨d, h1, h2, _⟩ := Fields.seq_bonly fs true r v rest hw
        obtain ⟨_, i, g1, rfl⟩ := (getBer_opened _ _ _ _ _).mp hg
        refine ⟨i ++ 0x80 :: (d ++ [0, 0]), by simp only [Item.BEnc]; exact ⟨d, h1, i, g1, Or.inr rfl⟩, ?_⟩
        rw [h2]
        simp [endMark]
  | .choice as, v =>
    simp only [Item.ber] at h
    simp only [Item.BEnc]
    exact Fields.alt_bonly as opt l v rest h
theorem Fields.seq_bonly (fs : Fields) (inf : Bool) (l : List Byte) (v : fs.SeqVal) (r : List Byte) (h : fs.seqBer inf l = some (v, r)) :
    ∃ c, fs.SeqBEnc v c ∧ l = c ++ endMark inf ++ r ∧ (inf = false → r = []) := by
  match fs, v with
  | .nil, () =>
    simp only [Fields.seqBer] at h
    cases inf with
    | true =>
      simp only [if_true] at h
      split at h
      · rename_i he
        obtain ⟨q, rfl⟩ := (isEoc_iff _).mp he
        have h2 : _ = r := congrArg Prod.snd (Option.some.inj h)
        exact ⟨[], by simp only [Fields.SeqBEnc], by rw [← h2]; rfl, fun h => nomatch h⟩
      · cases h
    | false =>
      simp only [Bool.false_eq_true, if_false] at h
      split at h
      · rename_i hl
        have h2 : _ = r := congrArg Prod.snd (Option.some.inj h)
        exact ⟨[], by simp only [Fields.SeqBEnc], by rw [← h2, hl]; rfl, fun _ => h2.symm⟩
      · cases h
  | .cons true i s, (w, vs) =>
    simp only [Fields.seqBer] at h
    split at h
    · rename_i hl
      cases inf with
      | true => simp at h
      | false =>
        simp only [Bool.false_eq_true, if_false] at h
        obtain ⟨y, h1, h2⟩ := Option.map_eq_some_iff.1 h
        cases h2
        exact ⟨[], Fields.allAbsent_benc _ _ h1, by rw [hl]; rfl, fun _ => rfl⟩
    · split at h
      · rename_i hE
        obtain ⟨q, rfl⟩ := (isEoc_iff _).mp hE
        cases inf with
        | false => simp at h
        | true =>
          simp only [if_true] at h
          obtain ⟨y, h1, h2⟩ := Option.map_eq_some_iff.1 h
          cases h2
          exact ⟨[], Fields.allAbsent_benc _ _ h1, rfl, fun h => nomatch h⟩
      · split at h
        · cases h
        · obtain ⟨y, h1, h2⟩ := Option.map_eq_some_iff.1 h
          cases h2
          obtain ⟨c, g1, g2, g3⟩ := Fields.seq_bonly s inf l y.1 y.2 h1
          refine ⟨c, ?_, g2, g3⟩
          simp only [Fields.SeqBEnc]
          exact ⟨[], c, rfl, g1, rfl⟩
        · rename_i w' l' e
          obtain ⟨y, h1, h2⟩ := Option.map_eq_some_iff.1 h
          cases h2
          obtain ⟨a, h3, h4⟩ := Item.bonly i _ l w' l' e
          obtain ⟨c, g1, g2, g3⟩ := Fields.seq_bonly s inf l' y.1 y.2 h1
          refine ⟨a ++ c, ?_, by rw [h4, g2]; simp, g3⟩
          simp only [Fields.SeqBEnc]
          exact ⟨a, c, h3, g1, rfl⟩
  | .cons false i s, (w, vs) =>
    simp only [Fields.seqBer] at h
    split at h
    · cases h
    · split at h
      · cases h
      · split at h
        · rename_i w' l' e
          obtain ⟨y, h1, h2⟩ := Option.map_eq_some_iff.1 h
          cases h2
          obtain ⟨a, h3, h4⟩ := Item.bonly i _ l w l' e
          obtain ⟨c, g1, g2, g3⟩ := Fields.seq_bonly s inf l' y.1 y.2 h1
          refine ⟨a ++ c, ?_, by rw [h4, g2]; simp, g3⟩
          simp only [Fields.SeqBEnc]
          exact ⟨a, c, h3, g1, rfl⟩
        · cases h
theorem Fields.alt_bonly (as : Fields) (opt : Bool) (l : List Byte) (v : as.ChoiceVal) (rest : List Byte) (h : as.choiceBer opt l = .ok v rest) :
    ∃ e, as.AltBEnc v e ∧ l = e ++ rest := by
  match as, v with
  | .cons o i s, v =>
    simp only [Fields.choiceBer] at h
    split at h
    · cases hs : s.choiceBer opt l with
      | absent => rw [hs] at h; cases h
      | error => rw [hs] at h; cases h
      | ok w r =>
        rw [hs] at h
        cases h
        simp only [Fields.AltBEnc]
        exact Fields.alt_bonly s opt l w rest hs
    · cases h
    · rename_i w r e
      cases h
      simp only [Fields.AltBEnc]
      exact Item.bonly i true l w rest e
end

/-- The number of a tag. -/
def tagNum (t : Byte) : Nat := (t &&& 0x1f).toNat

theorem tagNum_inj (s t : Byte) (hs : s ∈ [(0x02 : Byte), 0x04, 0x06, 0x30]) (ht : t ∈ [(0x02 : Byte), 0x04, 0x06, 0x30]) (h : tagNum s = tagNum t) : s = t := by
  revert s t
  decide

theorem Prim.num_tag (k : Prim) : k.num = tagNum k.tag := by cases k <;> rfl

mutual
theorem Item.tags_four (i : Item) (t : Byte) (h : t ∈ i.tags) : t ∈ [(0x02 : Byte), 0x04, 0x06, 0x30] := by
  match i with
  | .prim k =>
    simp only [Item.tags, List.mem_singleton] at h
    subst h
    cases k <;> decide
  | .seq fs =>
    simp only [Item.tags, List.mem_singleton] at h
    subst h
    decide
  | .choice as =>
    simp only [Item.tags] at h
    exact Fields.altTags_four as t h
theorem Fields.altTags_four (as : Fields) (t : Byte) (h : t ∈ as.altTags) : t ∈ [(0x02 : Byte), 0x04, 0x06, 0x30] := by
  match as with
  | .nil => simp [Fields.altTags] at h
  | .cons o i s =>
    simp only [Fields.altTags, List.mem_append] at h
    rcases h with h | h
    · exact Item.tags_four i t h
    · exact Fields.altTags_four s t h
end

/-- The input starts with an element with this tag, and not with the end mark. -/
def BHead (t : Byte) (l : List Byte) : Prop := t ∈ [(0x02 : Byte), 0x04, 0x06, 0x30] ∧ isEoc l = false ∧ ∃ cst b, getBer l = some ⟨0, tagNum t, cst, b⟩

theorem checkBer_absent (t s : Byte) (l : List Byte) (h : BHead t l) (hs : s ∈ [(0x02 : Byte), 0x04, 0x06, 0x30]) (hts : t ≠ s) : checkBer (tagNum s) true l = .absent := by
  obtain ⟨h1, _, cst, b, h2⟩ := h
  simp only [checkBer, h2]
  rw [if_neg (fun hh => hts (tagNum_inj t s h1 hs hh.2)), if_pos trivial]

mutual
theorem Item.ber_absent (i : Item) (t : Byte) (l : List Byte) (h : BHead t l) (ht : t ∉ i.tags) : i.ber true l = .absent := by
  match i with
  | .prim k =>
    simp only [Item.tags, List.mem_singleton] at ht
    simp only [Item.ber, k.num_tag, checkBer_absent t k.tag l h (by cases k <;> decide) ht]
  | .seq fs =>
    simp only [Item.tags, List.mem_singleton] at ht
    have := checkBer_absent t 0x30 l h (by decide) ht
    rw [show tagNum 0x30 = 16 from rfl] at this
    simp only [Item.ber, this]
  | .choice as =>
    simp only [Item.tags] at ht
    simp only [Item.ber]
    exact Fields.choiceBer_absent as t l h ht
theorem Fields.choiceBer_absent (as : Fields) (t : Byte) (l : List Byte) (h : BHead t l) (ht : t ∉ as.altTags) : as.choiceBer true l = .absent := by
  match as with
  | .nil => simp only [Fields.choiceBer, if_true]
  | .cons o i s =>
    simp only [Fields.altTags, List.mem_append, not_or] at ht
    simp only [Fields.choiceBer, Item.ber_absent i t l h ht.1, Fields.choiceBer_absent s t l h ht.2]
    rfl
end

theorem isEoc_getBer (l : List Byte) (n : Nat) (cst : Bool) (b : BerBody) (hn : n ≠ 0) (h : getBer l = some ⟨0, n, cst, b⟩) : isEoc l = false := by
  by_contra hc
  obtain ⟨r, rfl⟩ := (isEoc_iff _).mp (by simpa using hc)
  have : getBer (0 :: 0 :: r) = some ⟨0, 0, false, .closed [] r⟩ := by
    simp [getBer, getIdent, parseLen]
  rw [this] at h
  cases h
  exact hn rfl

theorem bhead_of (t : Byte) (l : List Byte) (cst : Bool) (b : BerBody) (ht : t ∈ [(0x02 : Byte), 0x04, 0x06, 0x30]) (h : getBer l = some ⟨0, tagNum t, cst, b⟩) : BHead t l :=
  ⟨ht, isEoc_getBer l _ cst b (by clear h; revert ht; revert t; decide) h, cst, b, h⟩

mutual
theorem Item.bencHead (i : Item) (v : i.Val) (e rest : List Byte) (h : i.BEnc v e) : ∃ t, BHead t (e ++ rest) ∧ t ∈ i.tags := by
  match i, v with
  | .prim k, v =>
    simp only [Item.BEnc] at h
    obtain ⟨c, _, h⟩ := h
    obtain ⟨cst, b, h1, _⟩ := k.contents_every c e rest h
    rw [k.num_tag] at h1
    exact ⟨k.tag, bhead_of _ _ cst b (by cases k <;> decide) h1, by simp [Item.tags]⟩
  | .seq fs, v =>
    simp only [Item.BEnc] at h
    obtain ⟨c, _, i, h1, ⟨o, h2, rfl⟩ | rfl⟩ := h
    · exact ⟨0x30, bhead_of _ _ true (.closed c rest) (by decide) ((getBer_closed _ _ _ _ _ _).mpr ⟨i, o, h1, h2, rfl⟩), by simp [Item.tags]⟩
    · exact ⟨0x30, bhead_of _ _ true (.opened (c ++ [0, 0] ++ rest)) (by decide) ((getBer_opened _ _ _ _ _).mpr ⟨rfl, i, h1, by simp⟩), by simp [Item.tags]⟩
  | .choice as, v =>
    simp only [Item.BEnc] at h
    simp only [Item.tags]
    exact Fields.altBencHead as v e rest h
theorem Fields.altBencHead (as : Fields) (v : as.ChoiceVal) (e rest : List Byte) (h : as.AltBEnc v e) : ∃ t, BHead t (e ++ rest) ∧ t ∈ as.altTags := by
  match as, v with
  | .cons o i s, .inl v =>
    simp only [Fields.AltBEnc] at h
    obtain ⟨t, h1, h2⟩ := Item.bencHead i v e rest h
    exact ⟨t, h1, by simp [Fields.altTags, h2]⟩
  | .cons o i s, .inr v =>
    simp only [Fields.AltBEnc] at h
    obtain ⟨t, h1, h2⟩ := Fields.altBencHead s v e rest h
    exact ⟨t, h1, by simp [Fields.altTags, h2]⟩
end

theorem bhead_ne (t : Byte) (l : List Byte) (h : BHead t l) : l ≠ [] := by
  rintro rfl
  obtain ⟨_, _, cst, b, h⟩ := h
  simp [getBer, getIdent] at h

theorem Fields.seqBencHead (fs : Fields) (v : fs.SeqVal) (e : List Byte) (h : fs.SeqBEnc v e) :
    (e = [] ∧ fs.allAbsent = some v) ∨ ∃ t, t ∈ fs.first ∧ ∀ rest, BHead t (e ++ rest) := by
  have key : ∀ (i : Item) (w : i.Val) (a b : List Byte), i.BEnc w a → ∃ t, t ∈ i.tags ∧ ∀ rest, BHead t (a ++ b ++ rest) := by
    intro i w a b h
    obtain ⟨t, h1, h2⟩ := i.bencHead w a [] h
    refine ⟨t, h2, fun rest => ?_⟩
    obtain ⟨t', h1', h2'⟩ := i.bencHead w a (b ++ rest) h
    have : t' = t := by
      obtain ⟨m, _, c1, b1, g⟩ := h1
      obtain ⟨m', _, c2, b2, g'⟩ := h1'
      refine tagNum_inj _ _ m' m ?_
      have hid : ∀ (l x : List Byte) (cls : Byte) (n : Nat) (c : Bool) (bb : BerBody), getBer l = some ⟨cls, n, c, bb⟩ → ∃ c' bb', getIdent (l ++ x) = some (cls, c', n, bb') := by
        intro l x cls n c bb hl
        cases bb with
        | closed p q =>
          obtain ⟨i, o, k1, k2, rfl⟩ := (getBer_closed _ _ _ _ _ _).mp hl
          exact ⟨_, _, (getIdent_iff _ _ _ _ _).mpr ⟨i, k1, by rw [List.append_assoc, List.append_assoc]⟩⟩
        | opened q =>
          obtain ⟨_, i, k1, rfl⟩ := (getBer_opened _ _ _ _ _).mp hl
          exact ⟨_, _, (getIdent_iff _ _ _ _ _).mpr ⟨i, k1, by rw [List.append_assoc]⟩⟩
      obtain ⟨_, _, k1⟩ := hid _ (b ++ rest) _ _ _ _ g
      obtain ⟨_, _, k2⟩ := hid _ [] _ _ _ _ g'
      rw [List.append_nil] at k1 k2
      rw [k1] at k2
      simp only [Option.some.injEq, Prod.mk.injEq] at k2
      exact k2.2.2.1.symm
    subst this
    rw [List.append_assoc]
    exact h1'
  match fs, v with
  | .nil, () =>
    simp only [Fields.SeqBEnc] at h
    exact Or.inl ⟨h, by simp [Fields.allAbsent]⟩
  | .cons true i r, (none, vs) =>
    simp only [Fields.SeqBEnc] at h
    obtain ⟨a, b, h1, h2, h3⟩ := h
    subst h1
    rw [List.nil_append] at h3
    subst h3
    rcases Fields.seqBencHead r vs _ h2 with ⟨h1, h2⟩ | ⟨t, h1, h2⟩
    · exact Or.inl ⟨h1, by simp only [Fields.allAbsent, h2]; rfl⟩
    · exact Or.inr ⟨t, by simp [Fields.first, h1], h2⟩
  | .cons true i r, (some w, vs) =>
    simp only [Fields.SeqBEnc] at h
    obtain ⟨a, b, h1, h2, h3⟩ := h
    subst h3
    obtain ⟨t, h1, h2⟩ := key i w a b h1
    exact Or.inr ⟨t, by simp [Fields.first, h1], h2⟩
  | .cons false i r, (w, vs) =>
    simp only [Fields.SeqBEnc] at h
    obtain ⟨a, b, h1, h2, h3⟩ := h
    subst h3
    obtain ⟨t, h1, h2⟩ := key i w a b h1
    exact Or.inr ⟨t, by simp [Fields.first, h1], h2⟩

mutual
/-- Every encoding is accepted. -/
theorem Item.bevery (i : Item) (hw : i.WF) (v : i.Val) (e : List Byte) (h : i.BEnc v e) (opt : Bool) (rest : List Byte) :
    i.ber opt (e ++ rest) = .ok v rest := by
  match i, v with
  | .prim k, v =>
    simp only [Item.BEnc] at h
    obtain ⟨c, h1, h2⟩ := h
    obtain ⟨cst, b, h3, h4⟩ := k.contents_every c e rest h2
    simp only [Item.ber, checkBer_of _ opt _ _ _ h3, h4, h1]
  | .seq fs, v =>
    simp only [Item.BEnc, Item.WF] at h hw
    obtain ⟨c, h1, i, h2, ⟨o, h3, rfl⟩ | rfl⟩ := h
    · have := Fields.seq_bevery fs hw v c h1 false [] (fun _ => rfl)
      simp only [endMark, Bool.false_eq_true, if_false, List.append_nil] at this
      simp only [Item.ber, checkBer_of 16 opt _ true (.closed c rest) ((getBer_closed _ _ _ _ _ _).mpr ⟨i, o, h2, h3, rfl⟩), this]
    · have := Fields.seq_bevery fs hw v c h1 true rest (fun h => nomatch h)
      simp only [endMark, if_true] at this
      have e1 := checkBer_of 16 opt (i ++ 0x80 :: (c ++ [0, 0]) ++ rest) true (.opened (c ++ [0, 0] ++ rest)) ((getBer_opened _ _ _ _ _).mpr ⟨rfl, i, h2, by simp⟩)
      simp only [Item.ber, e1, this]
  | .choice as, v =>
    simp only [Item.BEnc, Item.WF] at h hw
    simp only [Item.ber]
    exact Fields.alt_bevery as hw v e h opt rest
theorem Fields.seq_bevery (fs : Fields) (hw : fs.SeqWF) (v : fs.SeqVal) (e : List Byte) (h : fs.SeqBEnc v e) (inf : Bool) (q : List Byte) (hq : inf = false → q = []) :
    fs.seqBer inf (e ++ endMark inf ++ q) = some (v, q) := by
  match fs, v with
  | .nil, () =>
    simp only [Fields.SeqBEnc] at h
    subst h
    cases inf with
    | true => simp [Fields.seqBer, endMark, isEoc]
    | false => simp [Fields.seqBer, endMark, hq]
  | .cons true i r, (none, vs) =>
    have hh := Fields.seqBencHead (.cons true i r) (none, vs) e h
    simp only [Fields.SeqBEnc, Fields.SeqWF] at h hw
    obtain ⟨a, b, h1, h2, h3⟩ := h
    subst h1
    rw [List.nil_append] at h3
    subst h3
    by_cases he : e = []
    · subst he
      have ha : (Fields.cons true i r).allAbsent = some (none, vs) := by
        rcases hh with hh | ⟨t, _, h1⟩
        · exact hh.2
        · exact absurd rfl (bhead_ne _ _ (h1 []))
      cases inf with
      | true =>
        simp only [Fields.seqBer, endMark, if_true, List.nil_append, List.cons_append, ha, isEoc]
        rfl
      | false =>
        simp only [Fields.seqBer, endMark, Bool.false_eq_true, if_false, List.append_nil, hq rfl, if_true, ha]
        rfl
    · rcases Fields.seqBencHead r vs e h2 with ⟨h, _⟩ | ⟨t, h1, h3⟩
      · exact absurd h he
      · have hnn : r.isNil = false := by
          cases hn : r.isNil with
          | false => rfl
          | true =>
            rw [Fields.isNil_nil r hn] at h1
            simp [Fields.first] at h1
        have hb := h3 (endMark inf ++ q)
        rw [← List.append_assoc] at hb
        have ha := Item.ber_absent i t _ hb (fun ht => hw.2.2 trivial t ht h1)
        simp only [Fields.seqBer, if_neg (bhead_ne _ _ hb), hb.2.1, hnn, Bool.not_false, ha, Fields.seq_bevery r hw.2.1 vs e h2 inf q hq, Bool.false_eq_true, if_false]
        rfl
  | .cons true i r, (some w, vs) =>
    simp only [Fields.SeqBEnc, Fields.SeqWF] at h hw
    obtain ⟨a, b, h1, h2, rfl⟩ := h
    have e1 : a ++ b ++ endMark inf ++ q = a ++ (b ++ endMark inf ++ q) := by simp
    obtain ⟨t, hb, _⟩ := i.bencHead w a (b ++ endMark inf ++ q) h1
    rw [e1]
    simp only [Fields.seqBer, if_neg (bhead_ne _ _ hb), hb.2.1, Item.bevery i hw.1 w a h1, Fields.seq_bevery r hw.2.1 vs b h2 inf q hq, Bool.false_eq_true, if_false]
    rfl
  | .cons false i r, (w, vs) =>
    simp only [Fields.SeqBEnc, Fields.SeqWF] at h hw
    obtain ⟨a, b, h1, h2, rfl⟩ := h
    have e1 : a ++ b ++ endMark inf ++ q = a ++ (b ++ endMark inf ++ q) := by simp
    obtain ⟨t, hb, _⟩ := i.bencHead w a (b ++ endMark inf ++ q) h1
    rw [e1]
    simp only [Fields.seqBer, if_neg (bhead_ne _ _ hb), hb.2.1, Item.bevery i hw.1 w a h1, Fields.seq_bevery r hw.2.1 vs b h2 inf q hq, Bool.false_eq_true, if_false]
    rfl
theorem Fields.alt_bevery (as : Fields) (hw : as.AltWF) (v : as.ChoiceVal) (e : List Byte) (h : as.AltBEnc v e) (opt : Bool) (rest : List Byte) :
    as.choiceBer opt (e ++ rest) = .ok v rest := by
  match as, v with
  | .cons o i s, .inl v =>
    simp only [Fields.AltBEnc, Fields.AltWF] at h hw
    simp only [Fields.choiceBer, Item.bevery i hw.1 v e h]
  | .cons o i s, .inr v =>
    simp only [Fields.AltBEnc, Fields.AltWF] at h hw
    obtain ⟨t, h1, h2⟩ := Fields.altBencHead s v e rest h
    have ha := Item.ber_absent i t _ h1 (fun ht => hw.2.2 t ht h2)
    simp only [Fields.choiceBer, ha, Fields.alt_bevery s hw.2.1 v e h opt rest]
    rfl
end

theorem Item.ber_iff (i : Item) (hw : i.WF) (opt : Bool) (l : List Byte) (v : i.Val) (rest : List Byte) :
    i.ber opt l = .ok v rest ↔ ∃ e, i.BEnc v e ∧ l = e ++ rest :=
  ⟨i.bonly opt l v rest, fun ⟨e, h1, h2⟩ => by rw [h2]; exact i.bevery hw v e h1 opt rest⟩

end Dstu
