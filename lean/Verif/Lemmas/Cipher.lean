import Verif.Lemmas.Mac
import Verif.Model.Cipher
import Verif.Spec.Cfb

/-! Helper lemmas about the CFB cipher: the update function is a byte-at-a-time machine. -/

namespace Dstu

/-- State of the byte machine: feedback register, key stream block, position in the block. -/
structure BState where
  iv : Bytes 8
  buf : Bytes 8
  pos : Fin 8

/-- Process one byte. -/
def bstep (E : Bytes 8 → Bytes 8) (enc : Bool) (s : BState) (b : Byte) : BState × Byte :=
  let o := b ^^^ s.buf[s.pos]
  let iv := s.iv.set s.pos.val (if enc then o else b)
  if s.pos = 7 then (⟨iv, E iv, 0⟩, o) else (⟨iv, s.buf, s.pos + 1⟩, o)

/-- Process a list of bytes. -/
def brun (E : Bytes 8 → Bytes 8) (enc : Bool) (s : BState) : List Byte → BState × List Byte
  | [] => (s, [])
  | b :: l =>
    let r := bstep E enc s b
    let q := brun E enc r.1 l
    (q.1, r.2 :: q.2)

theorem brun_append (E enc s) (l l' : List Byte) :
    brun E enc s (l ++ l') =
      ((brun E enc (brun E enc s l).1 l').1, (brun E enc s l).2 ++ (brun E enc (brun E enc s l).1 l').2) := by
  induction l generalizing s with
  | nil => rfl
  | cons b l ih => simp only [List.cons_append, brun, ih]

theorem brun_length (E enc s) (l : List Byte) : (brun E enc s l).2.length = l.length := by
  induction l generalizing s with
  | nil => rfl
  | cons b l ih => simp only [brun, List.length_cons, ih]

/-- The byte loop in closed form. -/
theorem xorLoop_eq (enc : Bool) (buf iv : Bytes 8) (k : Nat) (l : List Byte) (h : k + l.length ≤ 8) :
    xorLoop enc buf iv k l = some
      (Vector.ofFn fun i : Fin 8 =>
        if k ≤ i.val ∧ i.val < k + l.length then
          (if enc then (l[i.val - k]?).getD 0 ^^^ buf[i] else (l[i.val - k]?).getD 0)
        else iv[i],
       List.zipWith (· ^^^ ·) l (buf.toList.drop k)) := by
  induction l generalizing iv k with
  | nil =>
    simp only [xorLoop, List.zipWith_nil_left, Option.some.injEq, Prod.mk.injEq, and_true]
    apply Vector.ext
    intro i hi
    simp
  | cons b l ih =>
    simp only [List.length_cons] at h
    have hk : k < 8 := by omega
    simp only [xorLoop, hk, dite_true]
    rw [ih _ _ (by omega)]
    simp only [Option.map_some, Option.some.injEq, Prod.mk.injEq]
    constructor
    · apply Vector.ext
      intro i hi
      simp only [Vector.getElem_ofFn, Fin.getElem_fin, List.length_cons]
      by_cases h1 : k = i
      · subst h1
        simp
      · by_cases h2 : k + 1 ≤ i ∧ i < k + 1 + l.length
        · have h3 : k ≤ i ∧ i < k + (l.length + 1) := by omega
          have h4 : i - k = (i - (k + 1)) + 1 := by omega
          simp only [h2, h3, and_self, if_true, h4, List.getElem?_cons_succ]
        · have h3 : ¬ (k ≤ i ∧ i < k + (l.length + 1)) := by omega
          simp only [h2, h3, if_false]
          rw [Vector.getElem_set_ne _ _ h1]
    · have hb : buf.toList.drop k = buf[k] :: buf.toList.drop (k + 1) := by
        rw [List.drop_eq_getElem_cons (by simpa using hk)]; simp
      rw [hb, List.zipWith_cons_cons]

/-- The byte loop is a run of the byte machine inside a block. -/
theorem xorLoop_brun (E) (enc : Bool) (buf iv : Bytes 8) (k : Nat) (l : List Byte)
    (h : k + l.length ≤ 8) (hk : k < 8) :
    ∃ iv' out, xorLoop enc buf iv k l = some (iv', out) ∧
      brun E enc ⟨iv, buf, ⟨k, hk⟩⟩ l =
        (if h8 : k + l.length < 8 then ⟨iv', buf, ⟨k + l.length, h8⟩⟩ else ⟨iv', E iv', 0⟩, out) := by
  induction l generalizing iv k with
  | nil => exact ⟨iv, [], rfl, by simp [brun, hk]⟩
  | cons b l ih =>
    simp only [List.length_cons] at h
    simp only [xorLoop, hk, dite_true, brun, bstep]
    by_cases h7 : k = 7
    · subst h7
      have : l = [] := by
        cases l with
        | nil => rfl
        | cons _ _ => simp only [List.length_cons] at h; omega
      subst this
      refine ⟨_, _, rfl, ?_⟩
      simp [brun]
      exact ⟨⟨rfl, rfl⟩, rfl⟩
    · have hk1 : k + 1 < 8 := by omega
      obtain ⟨iv', out, e1, e2⟩ := ih (iv.set k (if enc then b ^^^ buf[k] else b)) (k + 1) (by omega) hk1
      refine ⟨iv', (b ^^^ buf[k]) :: out, by rw [e1]; rfl, ?_⟩
      have hne : ¬ ((⟨k, hk⟩ : Fin 8) = 7) := by
        intro hh; exact h7 (congrArg Fin.val hh)
      have hs : (⟨k, hk⟩ : Fin 8) + 1 = ⟨k + 1, hk1⟩ := by
        apply Fin.ext
        simp [Fin.val_add]
        omega
      simp only [hne, if_false, hs, List.length_cons, Fin.getElem_fin]
      rw [e2]
      simp only [show k + 1 + l.length = k + (l.length + 1) by omega]

/-- A whole block. -/
theorem brun_block (E) (enc : Bool) (iv buf blk : Bytes 8) :
    brun E enc ⟨iv, buf, 0⟩ blk.toList =
      (let v := if enc then xorV blk buf else blk; ⟨v, E v, 0⟩, (xorV blk buf).toList) := by
  obtain ⟨iv', out, e1, e2⟩ := xorLoop_brun E enc buf iv 0 blk.toList (by simp) (by omega)
  rw [xorLoop_eq _ _ _ _ _ (by simp)] at e1
  simp only [Option.some.injEq, Prod.mk.injEq] at e1
  have h0 : (⟨0, by omega⟩ : Fin 8) = 0 := rfl
  rw [h0] at e2
  rw [e2]
  have hv : iv' = if enc then xorV blk buf else blk := by
    rw [← e1.1]
    apply Vector.ext
    intro i hi
    cases enc <;> simp [xorV]
  have ho : out = (xorV blk buf).toList := by
    rw [← e1.2]
    apply List.ext_getElem
    · simp
    · intro i h1 h2
      simp [xorV]
  simp [hv, ho]

theorem toList_sub (l : List Byte) (h : 0 + 8 ≤ l.length) : (sub l 0 8 h).toList = l.take 8 := by
  simp [sub, Vector.toList]

theorem brun_block' (E) (enc : Bool) (iv buf : Bytes 8) (l : List Byte) (h : 0 + 8 ≤ l.length) :
    brun E enc ⟨iv, buf, 0⟩ (l.take 8) =
      (let v := if enc then xorV (sub l 0 8 h) buf else sub l 0 8 h; ⟨v, E v, 0⟩,
        (xorV (sub l 0 8 h) buf).toList) := by
  rw [← toList_sub l h, brun_block]

theorem sub_congr {l l' : List Byte} {o o' n : Nat} (h : l.drop o = l'.drop o') (h1 h2) :
    sub l o n h1 = sub l' o' n h2 := by
  simp only [sub, h]

/-- Whole blocks, encryption. -/
theorem enc_cfb_brun (g : GostCtx) (iv : Bytes 8) (l : List Byte) (n : Nat) (h : 8 * n ≤ l.length) :
    ∃ out v, gost_enc_cfb g iv l n = some out ∧ out.length = 8 * n ∧
      brun (gostcrypt g) true ⟨iv, gostcrypt g iv, 0⟩ (l.take (8 * n)) = (⟨v, gostcrypt g v, 0⟩, out) ∧
      (n = 0 → v = iv) ∧ (∀ h, n ≠ 0 → v = sub out (n * 8 - 8) 8 h) := by
  induction n generalizing iv l with
  | zero => exact ⟨[], iv, rfl, rfl, by simp [brun], fun _ => rfl, fun _ h => absurd rfl h⟩
  | succ n ih =>
    have h8 : 0 + 8 ≤ l.length := by omega
    obtain ⟨out, v, e1, e2, e3, e4, e5⟩ := ih (xorV (sub l 0 8 h8) (gostcrypt g iv)) (l.drop 8)
      (by simp; omega)
    refine ⟨_, v, by simp only [gost_enc_cfb, h8, dite_true]; rw [e1]; rfl, by simp [e2]; omega, ?_,
      fun h => absurd h (by omega), fun h _ => ?_⟩
    · have ht : l.take (8 * (n + 1)) = l.take 8 ++ (l.drop 8).take (8 * n) := by
        rw [show 8 * (n + 1) = 8 + 8 * n by omega, List.take_add]
      rw [ht, brun_append, brun_block' _ _ _ _ _ h8]
      simp only [if_true]
      rw [e3]
    · by_cases hn : n = 0
      · subst hn
        rw [e4 rfl]
        exact (sub_append _ _ h).symm
      · rw [e5 (by omega) hn]
        apply sub_congr
        rw [show (n + 1) * 8 - 8 = 8 + (n * 8 - 8) by omega, ← List.drop_drop, List.drop_left' (by simp)]

/-- Whole blocks, decryption. -/
theorem dec_cfb_brun (g : GostCtx) (iv : Bytes 8) (l : List Byte) (n : Nat) (h : 8 * n ≤ l.length) :
    ∃ out v, gost_dec_cfb g iv l n = some out ∧ out.length = 8 * n ∧
      brun (gostcrypt g) false ⟨iv, gostcrypt g iv, 0⟩ (l.take (8 * n)) = (⟨v, gostcrypt g v, 0⟩, out) ∧
      (n = 0 → v = iv) ∧ (∀ h, n ≠ 0 → v = sub l (n * 8 - 8) 8 h) := by
  induction n generalizing iv l with
  | zero => exact ⟨[], iv, rfl, rfl, by simp [brun], fun _ => rfl, fun _ h => absurd rfl h⟩
  | succ n ih =>
    have h8 : 0 + 8 ≤ l.length := by omega
    obtain ⟨out, v, e1, e2, e3, e4, e5⟩ := ih (sub l 0 8 h8) (l.drop 8) (by simp; omega)
    refine ⟨_, v, by simp only [gost_dec_cfb, h8, dite_true]; rw [e1]; rfl, by simp [e2]; omega, ?_,
      fun h => absurd h (by omega), fun h _ => ?_⟩
    · have ht : l.take (8 * (n + 1)) = l.take 8 ++ (l.drop 8).take (8 * n) := by
        rw [show 8 * (n + 1) = 8 + 8 * n by omega, List.take_add]
      rw [ht, brun_append, brun_block' _ _ _ _ _ h8]
      simp only [Bool.false_eq_true, if_false]
      rw [e3]
    · by_cases hn : n = 0
      · subst hn
        rw [e4 rfl]
      · rw [e5 (by simp; omega) hn]
        apply sub_congr
        rw [List.drop_drop]
        congr 1
        omega

/-- The state kept between updates. -/
structure CipherCtx.Inv (ctx : CipherCtx) : Prop where
  num_lt : ctx.num < 8
  fresh : ctx.num = 0 → ctx.buf = gostcrypt ctx.g ctx.iv

/-- The byte machine state of a context. -/
def CipherCtx.bs (ctx : CipherCtx) : BState := ⟨ctx.iv, ctx.buf, ⟨(8 - ctx.num) % 8, by omega⟩⟩

/-- The fields an update does not change. -/
def CipherCtx.Same (a b : CipherCtx) : Prop :=
  a.g = b.g ∧ a.oiv = b.oiv ∧ a.encrypting = b.encrypting

theorem dcHead_brun (ctx : CipherCtx) (hi : ctx.Inv) (l : List Byte) (hl : l ≠ []) :
    ∃ ctx' out rest, dcHead ctx l = some (ctx', out, rest) ∧ ctx'.Inv ∧ ctx'.Same ctx ∧
      (rest ≠ [] → ctx'.num = 0) ∧
      ∃ n, rest = l.drop n ∧
      brun (gostcrypt ctx.g) ctx.encrypting ctx.bs (l.take n) = (ctx'.bs, out) := by
  unfold dcHead
  by_cases h0 : ctx.num = 0
  · refine ⟨ctx, [], l, by simp [h0], hi, ⟨rfl, rfl, rfl⟩, fun _ => h0, 0, by simp, by simp [brun]⟩
  · have h8 : ctx.num ≤ 8 := by have := hi.num_lt; omega
    have hl0 : 0 < l.length := List.length_pos_iff.mpr hl
    simp only [h0, ne_eq, not_false_eq_true, if_true, h8]
    have hn : ∃ n, (if ctx.num < l.length then ctx.num else l.length) = n ∧ n ≤ ctx.num ∧
        n ≤ l.length ∧ 0 < n ∧ (n = ctx.num ∨ n = l.length) := by
      refine ⟨_, rfl, ?_⟩
      split <;> omega
    obtain ⟨n, e, hn1, hn2, hn3, hn4⟩ := hn
    simp only [e]
    have hlt := hi.num_lt
    have hlen : (l.take n).length = n := by simp; omega
    obtain ⟨iv', out, e1, e2⟩ := xorLoop_brun (gostcrypt ctx.g) ctx.encrypting ctx.buf ctx.iv
      (8 - ctx.num) (l.take n) (by omega) (by omega)
    rw [e1]
    have hbs : ctx.bs = ⟨ctx.iv, ctx.buf, ⟨8 - ctx.num, by omega⟩⟩ := by
      simp only [CipherCtx.bs]
      congr 2
      omega
    by_cases hz : ctx.num - n = 0
    · refine ⟨{ ctx with iv := iv', num := 0, buf := gostcrypt ctx.g iv' }, out, l.drop n, ?_, ?_, ?_, ?_,
        n, rfl, ?_⟩
      · simp [hz]
      · exact ⟨by simp, fun _ => rfl⟩
      · exact ⟨rfl, rfl, rfl⟩
      · intro _; rfl
      · rw [hbs, e2, dif_neg (by omega)]
        simp only [CipherCtx.bs]
        rfl
    · refine ⟨{ ctx with iv := iv', num := ctx.num - n }, out, l.drop n, ?_, ?_, ?_, ?_, n, rfl, ?_⟩
      · simp [hz]
      · exact ⟨by simp; omega, fun h => absurd h hz⟩
      · exact ⟨rfl, rfl, rfl⟩
      · intro hr
        exfalso
        apply hr
        rw [List.drop_eq_nil_iff]
        omega
      · rw [hbs, e2, dif_pos (by omega)]
        simp only [CipherCtx.bs, Prod.mk.injEq, and_true]
        congr 2
        omega

theorem dcBlocks_brun (ctx : CipherCtx) (hi : ctx.Inv) (l : List Byte) (h0 : l ≠ [] → ctx.num = 0) :
    ∃ ctx' out rest, dcBlocks ctx l = some (ctx', out, rest) ∧ ctx'.Inv ∧ ctx'.Same ctx ∧
      (rest ≠ [] → ctx'.num = 0) ∧ rest.length < 8 ∧
      ∃ n, rest = l.drop n ∧
      brun (gostcrypt ctx.g) ctx.encrypting ctx.bs (l.take n) = (ctx'.bs, out) := by
  unfold dcBlocks
  have hsh : l.length >>> 3 = l.length / 8 := by rw [Nat.shiftRight_eq_div_pow]
  simp only [hsh]
  by_cases hb : l.length / 8 = 0
  · refine ⟨ctx, [], l, by simp [hb], hi, ⟨rfl, rfl, rfl⟩, h0, by omega, 0, by simp, by simp [brun]⟩
  · have hl : l ≠ [] := by
      rintro rfl
      simp at hb
    have hnum := h0 hl
    have hbs : ctx.bs = ⟨ctx.iv, gostcrypt ctx.g ctx.iv, 0⟩ := by
      simp only [CipherCtx.bs, hi.fresh hnum, hnum]
      rfl
    have hbs' : ∀ v, ({ ctx with iv := v, buf := gostcrypt ctx.g v } : CipherCtx).bs =
        ⟨v, gostcrypt ctx.g v, 0⟩ := by
      intro v
      simp only [CipherCtx.bs, hnum]
      rfl
    have hle : 8 * (l.length / 8) ≤ l.length := by omega
    simp only [hb, ne_eq, not_false_eq_true, if_true]
    cases henc : ctx.encrypting with
    | true =>
      simp only [if_true]
      obtain ⟨out, v, e1, e2, e3, e4, e5⟩ := enc_cfb_brun ctx.g ctx.iv l (l.length / 8) hle
      have hA : l.length / 8 * 8 - 8 + 8 ≤ out.length := by omega
      rw [e1]
      have hv := e5 hA hb
      refine ⟨{ ctx with iv := v, buf := gostcrypt ctx.g v }, out, l.drop (l.length / 8 * 8),
        by simp [hA, ← hv, henc], ⟨by simp [hnum], fun _ => rfl⟩, ⟨rfl, rfl, rfl⟩, fun _ => hnum, ?_,
        8 * (l.length / 8), by rw [Nat.mul_comm], ?_⟩
      · simp; omega
      · rw [hbs, e3, hbs']
    | false =>
      simp only [Bool.false_eq_true, if_false]
      obtain ⟨out, v, e1, e2, e3, e4, e5⟩ := dec_cfb_brun ctx.g ctx.iv l (l.length / 8) hle
      have hA : l.length / 8 * 8 - 8 + 8 ≤ l.length := by omega
      rw [e1]
      have hv := e5 hA hb
      refine ⟨{ ctx with iv := v, buf := gostcrypt ctx.g v }, out, l.drop (l.length / 8 * 8),
        by simp [hA, ← hv, henc], ⟨by simp [hnum], fun _ => rfl⟩, ⟨rfl, rfl, rfl⟩, fun _ => hnum, ?_,
        8 * (l.length / 8), by rw [Nat.mul_comm], ?_⟩
      · simp; omega
      · rw [hbs, e3, hbs']

theorem dcTail_brun (ctx : CipherCtx) (hi : ctx.Inv) (l : List Byte) (h0 : l ≠ [] → ctx.num = 0)
    (h8 : l.length < 8) :
    ∃ ctx' out, dcTail ctx l = some (ctx', out) ∧ ctx'.Inv ∧ ctx'.Same ctx ∧
      brun (gostcrypt ctx.g) ctx.encrypting ctx.bs l = (ctx'.bs, out) := by
  unfold dcTail
  by_cases hl : l = []
  · subst hl
    exact ⟨ctx, [], by simp, hi, ⟨rfl, rfl, rfl⟩, rfl⟩
  · have hnum := h0 hl
    have hl0 : 0 < l.length := List.length_pos_iff.mpr hl
    obtain ⟨iv', out, e1, e2⟩ := xorLoop_brun (gostcrypt ctx.g) ctx.encrypting ctx.buf ctx.iv
      0 l (by omega) (by omega)
    refine ⟨{ ctx with iv := iv', num := 8 - l.length }, out, by simp [hl, e1],
      ⟨by simp; omega, fun h => ?_⟩, ⟨rfl, rfl, rfl⟩, ?_⟩
    · simp at h; omega
    · have hbs : ctx.bs = ⟨ctx.iv, ctx.buf, ⟨0, by omega⟩⟩ := by
        simp only [CipherCtx.bs, hnum]
      rw [hbs, e2, dif_pos (by omega)]
      simp only [CipherCtx.bs, Prod.mk.injEq, and_true]
      congr 2
      omega

/-- One update is a run of the byte machine over its input. -/
theorem do_cipher_brun (ctx : CipherCtx) (hi : ctx.Inv) (l : List Byte) (hl : l ≠ []) :
    ∃ ctx', dstu_cipher_do_cipher ctx (.buf l) =
        some ⟨l.length, (brun (gostcrypt ctx.g) ctx.encrypting ctx.bs l).2, ctx'⟩ ∧
      ctx'.Inv ∧ ctx'.Same ctx ∧
      ctx'.bs = (brun (gostcrypt ctx.g) ctx.encrypting ctx.bs l).1 := by
  obtain ⟨c1, o1, r1, a1, a2, a3, a4, n1, a5, a6⟩ := dcHead_brun ctx hi l hl
  obtain ⟨c2, o2, r2, b1, b2, b3, b4, b5, n2, b6, b7⟩ := dcBlocks_brun c1 a2 r1 a4
  obtain ⟨c3, o3, d1, d2, d3, d4⟩ := dcTail_brun c2 b2 r2 b4 b5
  rw [a3.1, a3.2.2] at b7
  rw [b3.1, b3.2.2, a3.1, a3.2.2] at d4
  have hrun : brun (gostcrypt ctx.g) ctx.encrypting ctx.bs l = (c3.bs, o1 ++ (o2 ++ o3)) := by
    rw [← List.take_append_drop n1 l, brun_append, a6, ← a5, ← List.take_append_drop n2 r1,
      brun_append, b7, ← b6, d4]
  have hlen : (o1 ++ o2 ++ o3).length = l.length := by
    rw [← brun_length (gostcrypt ctx.g) ctx.encrypting ctx.bs l, hrun]
    simp
  refine ⟨c3, ?_, d2, ⟨?_, ?_, ?_⟩, by rw [hrun]⟩
  · cases l with
    | nil => exact absurd rfl hl
    | cons b l =>
      simp only [dstu_cipher_do_cipher]
      rw [a1]
      simp only [Option.bind_eq_bind, Option.bind_some]
      rw [b1]
      simp only [Option.bind_some]
      rw [d1]
      simp only [Option.bind_some, hrun, hlen]
      simp only [List.append_assoc]
      rfl
  · rw [d3.1, b3.1, a3.1]
  · rw [d3.2.1, b3.2.1, a3.2.1]
  · rw [d3.2.2, b3.2.2, a3.2.2]

/-- The byte machine from a block boundary is CFB encryption. -/
theorem brun_cfbEncrypt (E : Bytes 8 → Bytes 8) (iv : Bytes 8) (m : List Byte) :
    (brun E true ⟨iv, E iv, 0⟩ m).2 = Spec.cfbEncrypt E iv m := by
  induction hn : m.length using Nat.strongRecOn generalizing iv m with
  | ind n ih =>
    rw [Spec.cfbEncrypt]
    split
    · rename_i h
      have h8 : 0 + 8 ≤ m.length := by omega
      conv => lhs; rw [← List.take_append_drop 8 m, brun_append, brun_block' _ _ _ _ _ h8]
      simp only [if_true]
      rw [ih (m.drop 8).length (by simp; omega) _ _ rfl]
      have hc : xorV (sub m 0 8 h8) (E iv) = Vector.ofFn fun i : Fin 8 => m[i.val] ^^^ (E iv)[i] := by
        apply Vector.ext
        intro i hi
        simp [xorV, sub]
      rw [hc]
    · rename_i h
      obtain ⟨iv', out, e1, e2⟩ := xorLoop_brun E true (E iv) iv 0 m (by omega) (by omega)
      have h0 : (⟨0, by omega⟩ : Fin 8) = 0 := rfl
      rw [h0] at e2
      rw [e2]
      rw [xorLoop_eq _ _ _ _ _ (by omega)] at e1
      simp only [Option.some.injEq, Prod.mk.injEq, List.drop_zero] at e1
      exact e1.2.symm

/-- The byte machine from a block boundary is CFB decryption. -/
theorem brun_cfbDecrypt (E : Bytes 8 → Bytes 8) (iv : Bytes 8) (m : List Byte) :
    (brun E false ⟨iv, E iv, 0⟩ m).2 = Spec.cfbDecrypt E iv m := by
  induction hn : m.length using Nat.strongRecOn generalizing iv m with
  | ind n ih =>
    rw [Spec.cfbDecrypt]
    split
    · rename_i h
      have h8 : 0 + 8 ≤ m.length := by omega
      conv => lhs; rw [← List.take_append_drop 8 m, brun_append, brun_block' _ _ _ _ _ h8]
      simp only [Bool.false_eq_true, if_false]
      rw [ih (m.drop 8).length (by simp; omega) _ _ rfl]
      have hc : sub m 0 8 h8 = Vector.ofFn fun i : Fin 8 => m[i.val] := by
        apply Vector.ext
        intro i hi
        simp [sub]
      rw [hc]
      congr 1
      apply List.ext_getElem
      · simp
      · intro i h1 h2
        simp [xorV]
    · rename_i h
      obtain ⟨iv', out, e1, e2⟩ := xorLoop_brun E false (E iv) iv 0 m (by omega) (by omega)
      have h0 : (⟨0, by omega⟩ : Fin 8) = 0 := rfl
      rw [h0] at e2
      rw [e2]
      rw [xorLoop_eq _ _ _ _ _ (by omega)] at e1
      simp only [Option.some.injEq, Prod.mk.injEq, List.drop_zero] at e1
      exact e1.2.symm

/-- Decrypting machine undoes the encrypting machine and stays in the same state. -/
theorem brun_dec_enc (E) (s : BState) (m : List Byte) :
    (brun E false s (brun E true s m).2) = ((brun E true s m).1, m) := by
  induction m generalizing s with
  | nil => rfl
  | cons b m ih =>
    have h1 : ∀ s : BState, ∀ b, (bstep E false s (bstep E true s b).2) = ((bstep E true s b).1, b) := by
      intro s b
      have hx : b ^^^ s.buf[s.pos] ^^^ s.buf[s.pos] = b := by
        rw [BitVec.xor_assoc, BitVec.xor_self, BitVec.xor_zero]
      unfold bstep
      by_cases h : s.pos = 7
      · simp only [h, if_true, Bool.false_eq_true, if_false] at hx ⊢
        rw [hx]
      · simp only [h, if_true, Bool.false_eq_true, if_false] at hx ⊢
        rw [hx]
    simp only [brun, h1, ih]

end Dstu
