import Verif.Spec.Steps
import Verif.Lemmas.Gost89

/-! The functions with steps compute what the functions without them compute, and two runs on inputs of the same lengths take the same steps up to the indices. -/

namespace Dstu

open Tr

namespace Tr

/-- The result without the steps. -/
def result {α : Type} (x : Tr α) : Option α := Option.map Prod.fst x

theorem result_pure {α : Type} (a : α) : result (Pure.pure a : Tr α) = some a := rfl

theorem result_bind {α β : Type} (x : Tr α) (f : α → Tr β) : result (x >>= f) = (result x).bind fun a => result (f a) := by
  change result (Tr.bind x f) = _
  rcases x with _ | ⟨a, t⟩
  · rfl
  · simp only [Tr.bind, result, Option.map_some, Option.bind_some]
    rcases f a with _ | ⟨b, u⟩ <;> rfl

@[simp] theorem result_test (b : Bool) : result (test b) = some () := rfl
@[simp] theorem result_steps {α : Type} (x : α × List CpuStep) : result (steps x) = some x.1 := rfl
@[simp] theorem result_lift {α : Type} (x : Option α) : result (lift x) = x := by cases x <;> rfl
@[simp] theorem result_undefined {α : Type} : result (undefined : Tr α) = none := rfl

end Tr

theorem timing_append (t u : List CpuStep) : Spec.timing (t ++ u) = Spec.timing t ++ Spec.timing u := List.map_append

/-- Both undefined, or results in a relation after the same steps up to the indices. -/
def Alike {α β : Type} (R : α → β → Prop) : Tr α → Tr β → Prop
  | none, none => True
  | some (a, t), some (b, u) => R a b ∧ Spec.timing t = Spec.timing u
  | _, _ => False

theorem Alike.pure {α β : Type} {R : α → β → Prop} {a : α} {b : β} (h : R a b) : Alike R (Pure.pure a : Tr α) (Pure.pure b : Tr β) := ⟨h, rfl⟩

theorem Alike.bind {α β α' β' : Type} {R : α → β → Prop} {S : α' → β' → Prop} {x : Tr α} {y : Tr β} {f : α → Tr α'} {g : β → Tr β'} (h : Alike R x y)
    (hf : ∀ a b, R a b → Alike S (f a) (g b)) : Alike S (x >>= f) (y >>= g) := by
  change Alike S (Tr.bind x f) (Tr.bind y g)
  rcases x with _ | ⟨a, t⟩ <;> rcases y with _ | ⟨b, u⟩
  · trivial
  · exact h.elim
  · exact h.elim
  · obtain ⟨hr, ht⟩ := h
    have := hf a b hr
    simp only [Tr.bind]
    generalize f a = p at this ⊢
    generalize g b = q at this ⊢
    rcases p with _ | ⟨a', t'⟩ <;> rcases q with _ | ⟨b', u'⟩
    · trivial
    · exact this.elim
    · exact this.elim
    · obtain ⟨h1, h2⟩ := this
      exact ⟨h1, by rw [timing_append, timing_append, ht, h2]⟩

theorem Alike.test (b : Bool) : Alike (fun _ _ => True) (test b) (test b) := ⟨trivial, rfl⟩

theorem Alike.steps {α β : Type} {R : α → β → Prop} {x : α × List CpuStep} {y : β × List CpuStep} (h : R x.1 y.1) (ht : Spec.timing x.2 = Spec.timing y.2) :
    Alike R (Tr.steps x) (Tr.steps y) := ⟨h, ht⟩

theorem Alike.undefined {α β : Type} {R : α → β → Prop} : Alike R (Tr.undefined : Tr α) (Tr.undefined : Tr β) := trivial

theorem Alike.lift {α β : Type} {R : α → β → Prop} {x : Option α} {y : Option β} (h : Option.Rel R x y) : Alike R (Tr.lift x) (Tr.lift y) := by
  cases h
  · exact ⟨by assumption, rfl⟩
  · trivial

theorem Alike.mono {α β : Type} {R S : α → β → Prop} {x : Tr α} {y : Tr β} (h : Alike R x y) (hs : ∀ a b, R a b → S a b) : Alike S x y := by
  rcases x with _ | ⟨a, t⟩ <;> rcases y with _ | ⟨b, u⟩
  · trivial
  · exact h.elim
  · exact h.elim
  · exact ⟨hs _ _ h.1, h.2⟩

/-! ### The block cipher -/

theorem rounds_result (c : GostCtx) (o : List (Fin 8 × Fin 8)) (s : W32 × W32) : (rounds_steps c o s).1 = o.foldl (lines2 c) s := by
  induction o generalizing s with
  | nil => rfl
  | cons ij o ih =>
    rw [List.foldl_cons, rounds_steps, ih]
    rfl

theorem gostcrypt_result (c : GostCtx) (b : Bytes 8) : (gostcrypt_steps c b).1 = gostcrypt c b := by
  simp only [gostcrypt_steps, gostcrypt, rounds_result]

theorem gostdecrypt_result (c : GostCtx) (b : Bytes 8) : (gostdecrypt_steps c b).1 = gostdecrypt c b := by
  simp only [gostdecrypt_steps, gostdecrypt, rounds_result]

theorem fLooks_hidden (x y : W32) : Spec.timing (fLooks x) = Spec.timing (fLooks y) := rfl

theorem rounds_hidden (c c' : GostCtx) (o : List (Fin 8 × Fin 8)) (s s' : W32 × W32) : Spec.timing (rounds_steps c o s).2 = Spec.timing (rounds_steps c' o s').2 := by
  induction o generalizing s s' with
  | nil => rfl
  | cons ij o ih =>
    simp only [rounds_steps, timing_append]
    rw [ih _ (lines2_steps c' s' ij).1]
    rfl

theorem gostcrypt_hidden (c c' : GostCtx) (b b' : Bytes 8) : Spec.timing (gostcrypt_steps c b).2 = Spec.timing (gostcrypt_steps c' b').2 := rounds_hidden c c' _ _ _

theorem gostdecrypt_hidden (c c' : GostCtx) (b b' : Bytes 8) : Spec.timing (gostdecrypt_steps c b).2 = Spec.timing (gostdecrypt_steps c' b').2 := rounds_hidden c c' _ _ _

/-! ### CFB -/

theorem bind_some' {α β : Type} (a : α) (f : α → Option β) : (some a).bind f = f a := rfl

theorem enc_cfb_result (c : GostCtx) (iv : Bytes 8) (l : List Byte) (n : Nat) : result (gost_enc_cfb_steps c iv l n) = gost_enc_cfb c iv l n := by
  induction n generalizing iv l with
  | zero => rfl
  | succ n ih =>
    simp only [gost_enc_cfb_steps, gost_enc_cfb, result_bind, result_test, bind_some']
    split
    · simp only [result_bind, result_steps, bind_some', gostcrypt_result, ih]
      cases gost_enc_cfb c (xorV (sub l 0 8 (by assumption)) (gostcrypt c iv)) (l.drop 8) n <;> rfl
    · rfl

theorem dec_cfb_result (c : GostCtx) (iv : Bytes 8) (l : List Byte) (n : Nat) : result (gost_dec_cfb_steps c iv l n) = gost_dec_cfb c iv l n := by
  induction n generalizing iv l with
  | zero => rfl
  | succ n ih =>
    simp only [gost_dec_cfb_steps, gost_dec_cfb, result_bind, result_test, bind_some']
    split
    · simp only [result_bind, result_steps, bind_some', gostcrypt_result, ih]
      cases gost_dec_cfb c (sub l 0 8 (by assumption)) (l.drop 8) n <;> rfl
    · rfl

theorem xorLoop_result (enc : Bool) (buf iv : Bytes 8) (k : Nat) (l : List Byte) : result (xorLoop_steps enc buf iv k l) = xorLoop enc buf iv k l := by
  induction l generalizing iv k with
  | nil => rfl
  | cons b l ih =>
    simp only [xorLoop_steps, xorLoop, result_bind, result_test, bind_some']
    split
    · simp only [result_bind, ih]
      rename_i h
      cases xorLoop enc buf (iv.set k (if enc = true then b ^^^ buf[k] else b) h) (k + 1) l <;> rfl
    · rfl

theorem init_result (ctx : CipherCtx) (r : Vector W32 8) (key : Option (Bytes 32)) (iv : Option (Bytes 8)) :
    result (dstu_cipher_init_steps ctx r key iv) = some (dstu_cipher_init ctx r key iv) := by
  cases key <;> cases iv <;> simp only [dstu_cipher_init_steps, result_bind, result_test, bind_some', result_steps, gostcrypt_result] <;> rfl

theorem dcHead_result (ctx : CipherCtx) (l : List Byte) : result (dcHead_steps ctx l) = dcHead ctx l := by
  simp only [dcHead_steps, dcHead, result_bind, result_test, bind_some']
  split
  · split
    · simp only [result_bind, result_test, bind_some', xorLoop_result]
      cases xorLoop ctx.encrypting ctx.buf ctx.iv (8 - ctx.num) (l.take (if ctx.num < l.length then ctx.num else l.length)) with
      | none => rfl
      | some r =>
        simp only [bind_some', Option.bind_eq_bind]
        by_cases h : ctx.num - (if ctx.num < l.length then ctx.num else l.length) = 0
        · simp only [if_pos h, result_bind, result_steps, bind_some', gostcrypt_result]
          rfl
        · simp only [if_neg h]
          rfl
    · rfl
  · rfl

theorem dcBlocks_result (ctx : CipherCtx) (l : List Byte) : result (dcBlocks_steps ctx l) = dcBlocks ctx l := by
  simp only [dcBlocks_steps, result_bind, result_test, bind_some']
  split
  · simp only [dcBlocks, result_bind, result_test, bind_some']
    split
    · simp only [dcWhole_steps, result_bind, result_test, bind_some']
      split
      · simp only [result_bind, enc_cfb_result]
        cases gost_enc_cfb ctx.g ctx.iv l (l.length >>> 3) with
        | none => rfl
        | some out =>
          simp only [bind_some', Option.bind_eq_bind]
          by_cases h : l.length >>> 3 * 8 - 8 + 8 ≤ out.length
          · simp only [dif_pos h, result_bind, result_steps, bind_some', gostcrypt_result]
            rfl
          · simp only [dif_neg h]
            rfl
      · by_cases h : l.length >>> 3 * 8 - 8 + 8 ≤ l.length
        · simp only [dif_pos h, result_bind, dec_cfb_result, result_steps, gostcrypt_result]
          cases gost_dec_cfb ctx.g ctx.iv l (l.length >>> 3) <;> rfl
        · simp only [dif_neg h]
          rfl
    · rfl
  · rename_i h
    simp only [not_not] at h
    subst h
    rfl

theorem dcTail_result (ctx : CipherCtx) (l : List Byte) : result (dcTail_steps ctx l) = dcTail ctx l := by
  simp only [dcTail_steps, dcTail, result_bind, result_test, bind_some']
  split
  · simp only [result_bind, xorLoop_result]
    cases xorLoop ctx.encrypting ctx.buf ctx.iv 0 l <;> rfl
  · rfl

theorem do_cipher_result (ctx : CipherCtx) (l : List Byte) : result (dstu_cipher_do_cipher_steps ctx l) = dstu_cipher_do_cipher ctx (.buf l) := by
  cases l with
  | nil => rfl
  | cons b l =>
    simp only [dstu_cipher_do_cipher_steps, result_bind, result_test, bind_some', if_neg (List.cons_ne_nil b l), dcHead_result, dcBlocks_result, dcTail_result, dstu_cipher_do_cipher]
    cases dcHead ctx (b :: l) with
    | none => rfl
    | some r =>
      simp only [bind_some', Option.bind_eq_bind]
      cases dcBlocks r.1 r.2.2 with
      | none => rfl
      | some r' =>
        simp only [bind_some']
        cases dcTail r'.1 r'.2.2 <;> rfl

/-! ### The digest -/

theorem enc_with_key_result (c : GostCtx) (k : Bytes 32) (b : Bytes 8) : (gost_enc_with_key_steps c k b).1 = gost_enc_with_key c k b := by
  simp only [gost_enc_with_key_steps, gost_enc_with_key, gostcrypt_result]

theorem hash_step_result (c : GostCtx) (H M : Bytes 32) : (hash_step_steps c H M).1 = hash_step c H M := by
  simp only [hash_step_steps, hash_step, enc_with_key_result]

theorem hashOne_result (c : GostCtx) (h : HashCtx) (M : Bytes 32) : result (hashOne_steps c h M) = hashOne c h M := by
  simp only [hashOne_steps, hashOne, result_bind, result_steps, bind_some', result_lift, hash_step_result]
  cases addLen h.len 32 <;> rfl

theorem hashLoop_result (c : GostCtx) (h : HashCtx) (l : List Byte) (n : Nat) : result (hashLoop_steps c h l n) = hashLoop c h l n := by
  induction n generalizing c h l with
  | zero => rfl
  | succ n ih =>
    simp only [hashLoop_steps, hashLoop, result_bind, result_test, bind_some']
    split
    · simp only [result_bind, hashOne_result, ih]
      rfl
    · rfl

theorem hashRest_result (c : GostCtx) (h : HashCtx) (l : List Byte) : result (hashRest_steps c h l) = hashRest c h l := by
  simp only [hashRest_steps, hashRest, result_bind, hashLoop_result]
  cases hashLoop c h l (l.length / 32) with
  | none => rfl
  | some r =>
    simp only [bind_some', Option.bind_eq_bind, result_test]
    by_cases h0 : r.2.2.length ≠ 0
    · simp only [if_pos h0, result_bind, result_lift]
      cases memcpyAt r.2.1.remainder 0 r.2.2 <;> rfl
    · simp only [if_neg h0]
      rfl

theorem hash_block_result (c : GostCtx) (h : HashCtx) (l : List Byte) : result (hash_block_steps c h l) = hash_block c h l := by
  simp only [hash_block_steps, hash_block, result_bind, result_test, bind_some']
  split
  · split
    · simp only [result_bind, result_test, bind_some', result_lift]
      cases memcpyAt h.remainder h.left (l.take (if 32 - h.left > l.length then l.length else 32 - h.left)) with
      | none => rfl
      | some rem =>
        simp only [bind_some', Option.bind_eq_bind]
        by_cases h0 : h.left + (if 32 - h.left > l.length then l.length else 32 - h.left) < 32
        · simp only [if_pos h0]
          rfl
        · simp only [if_neg h0, result_bind, hashOne_result, hashRest_result]
    · rfl
  · exact hashRest_result c h l

theorem lenBytes_result (f n : Nat) : (lenBytes_steps f n).1 = lenBytes f n := by
  induction f generalizing n with
  | zero => rfl
  | succ f ih =>
    unfold lenBytes_steps lenBytes
    split
    · rfl
    · simp only [ih]

theorem finishPartial_result (c : GostCtx) (h : HashCtx) : result (finishPartial_steps c h) = finishPartial c h := by
  simp only [finishPartial_steps, finishPartial, result_bind, result_test, bind_some']
  split
  · split
    · simp only [result_bind, result_lift, result_steps, bind_some', hash_step_result]
      rfl
    · rfl
  · rfl

theorem finish_hash_result (c : GostCtx) (h : HashCtx) : result (finish_hash_steps c h) = finish_hash c h := by
  simp only [finish_hash_steps, finish_hash, result_bind, finishPartial_result]
  cases finishPartial c h with
  | none => rfl
  | some p =>
    have hq : (if p.2.2.2 = 0 then hash_step_steps p.1 p.2.1 (zeros 32) else ((p.1, p.2.1), [])).1 = if p.2.2.2 = 0 then hash_step p.1 p.2.1 (zeros 32) else (p.1, p.2.1) := by
      split
      · exact hash_step_result _ _ _
      · rfl
    simp only [bind_some', Option.bind_eq_bind, result_test, result_steps, hq]
    by_cases h0 : p.2.2.2 * 8 < 2 ^ 63
    · simp only [if_pos h0, result_bind, result_steps, bind_some', result_lift, lenBytes_result, hash_step_result]
    · simp only [if_neg h0]
      rfl

/-! ### The generator -/

theorem rbg_init_result (e : RandEnv) (seed : Bytes 40) (h : e.seed = some seed) (m : Rbg) : dstu_rbg_init e m = (true, (rbg_init_steps seed e.curr m).1) := by
  simp only [dstu_rbg_init, h, rbg_init_steps, gostcrypt_result]

theorem rbg_get_bit_result (m : Rbg) : (rbg_get_bit_steps m).1 = dstu_rbg_get_bit m := by
  simp only [rbg_get_bit_steps, dstu_rbg_get_bit, gostcrypt_result]

/-! ### Two runs -/

theorem enc_cfb_alike (c c' : GostCtx) (iv iv' : Bytes 8) (l l' : List Byte) (n : Nat) (hl : l.length = l'.length) :
    Alike (fun a b : List Byte => a.length = b.length) (gost_enc_cfb_steps c iv l n) (gost_enc_cfb_steps c' iv' l' n) := by
  induction n generalizing iv iv' l l' with
  | zero => exact .bind (.test _) fun _ _ _ => .pure rfl
  | succ n ih =>
    refine .bind (.test _) fun _ _ _ => ?_
    by_cases h : 0 + 8 ≤ l.length
    · rw [dif_pos h, dif_pos (hl ▸ h)]
      refine .bind (R := fun _ _ => True) (.steps trivial (gostcrypt_hidden _ _ _ _)) fun a b _ => ?_
      refine .bind (ih _ _ _ _ (by simp [hl])) fun r r' hr => .pure ?_
      simp [hr]
    · rw [dif_neg h, dif_neg (hl ▸ h)]
      exact .undefined

theorem dec_cfb_alike (c c' : GostCtx) (iv iv' : Bytes 8) (l l' : List Byte) (n : Nat) (hl : l.length = l'.length) :
    Alike (fun a b : List Byte => a.length = b.length) (gost_dec_cfb_steps c iv l n) (gost_dec_cfb_steps c' iv' l' n) := by
  induction n generalizing iv iv' l l' with
  | zero => exact .bind (.test _) fun _ _ _ => .pure rfl
  | succ n ih =>
    refine .bind (.test _) fun _ _ _ => ?_
    by_cases h : 0 + 8 ≤ l.length
    · rw [dif_pos h, dif_pos (hl ▸ h)]
      refine .bind (R := fun _ _ => True) (.steps trivial (gostcrypt_hidden _ _ _ _)) fun a b _ => ?_
      refine .bind (ih _ _ _ _ (by simp [hl])) fun r r' hr => .pure ?_
      simp [hr]
    · rw [dif_neg h, dif_neg (hl ▸ h)]
      exact .undefined

theorem xorLoop_alike (enc : Bool) (buf buf' iv iv' : Bytes 8) (k : Nat) (l l' : List Byte) (hl : l.length = l'.length) :
    Alike (fun a b : Bytes 8 × List Byte => a.2.length = b.2.length) (xorLoop_steps enc buf iv k l) (xorLoop_steps enc buf' iv' k l') := by
  induction l generalizing iv iv' k l' with
  | nil =>
    obtain rfl : l' = [] := List.length_eq_zero_iff.1 hl.symm
    exact .bind (.test _) fun _ _ _ => .pure rfl
  | cons b l ih =>
    cases l' with
    | nil => simp at hl
    | cons b' l' =>
      refine .bind (.test _) fun _ _ _ => .bind (.test _) fun _ _ _ => ?_
      by_cases h : k < 8
      · rw [dif_pos h, dif_pos h]
        exact .bind (ih _ _ _ _ (by simpa using hl)) fun r r' hr => .pure (by simp [hr])
      · rw [dif_neg h, dif_neg h]
        exact .undefined

/-- The same direction, and the same number of bytes of gamma left. -/
def CipherCtx.Alike (a b : CipherCtx) : Prop := a.num = b.num ∧ a.encrypting = b.encrypting

theorem init_alike (ctx ctx' : CipherCtx) (rnd rnd' : Vector W32 8) (key key' : Option (Bytes 32)) (iv iv' : Option (Bytes 8)) (h : ctx.Alike ctx') (hk : key.isSome = key'.isSome)
    (hv : iv.isSome = iv'.isSome) : Alike CipherCtx.Alike (dstu_cipher_init_steps ctx rnd key iv) (dstu_cipher_init_steps ctx' rnd' key' iv') := by
  simp only [dstu_cipher_init_steps, ← hk, ← hv]
  refine .bind (.test _) fun _ _ _ => .bind (.test _) fun _ _ _ => ?_
  cases iv with
  | none =>
    cases iv' with
    | none => exact .pure h
    | some v => simp at hv
  | some v =>
    cases iv' with
    | none => simp at hv
    | some v' => exact .bind (R := fun _ _ => True) (.steps trivial (gostcrypt_hidden _ _ _ _)) fun a b _ => .pure ⟨rfl, h.2⟩

theorem dcHead_alike (ctx ctx' : CipherCtx) (l l' : List Byte) (h : ctx.Alike ctx') (hl : l.length = l'.length) :
    Alike (fun a b : CipherCtx × List Byte × List Byte => a.1.Alike b.1 ∧ a.2.1.length = b.2.1.length ∧ a.2.2.length = b.2.2.length) (dcHead_steps ctx l) (dcHead_steps ctx' l') := by
  obtain ⟨h1, h2⟩ := h
  simp only [dcHead_steps, ← h1, ← h2, ← hl]
  refine .bind (.test _) fun _ _ _ => ?_
  split
  · split
    · refine .bind (.test _) fun _ _ _ => ?_
      generalize (if ctx.num < l.length then ctx.num else l.length) = k
      refine .bind (xorLoop_alike _ _ _ _ _ _ _ _ (by simp [hl])) fun r r' hr => .bind (.test _) fun _ _ _ => ?_
      split
      · exact .bind (R := fun _ _ => True) (.steps trivial (gostcrypt_hidden _ _ _ _)) fun a b _ => .pure ⟨⟨rfl, rfl⟩, hr, by simp [hl]⟩
      · exact .pure ⟨⟨rfl, rfl⟩, hr, by simp [hl]⟩
    · exact .undefined
  · exact .pure ⟨⟨h1, h2⟩, rfl, hl⟩

theorem nil_iff {l l' : List Byte} (hl : l.length = l'.length) : (l = []) = (l' = []) := by
  rw [← List.length_eq_zero_iff, ← List.length_eq_zero_iff, hl]

theorem dcWhole_alike (ctx ctx' : CipherCtx) (l l' : List Byte) (n : Nat) (h : ctx.Alike ctx') (hl : l.length = l'.length) :
    Alike (fun a b : CipherCtx × List Byte × List Byte => a.1.Alike b.1 ∧ a.2.1.length = b.2.1.length ∧ a.2.2.length = b.2.2.length) (dcWhole_steps ctx l n) (dcWhole_steps ctx' l' n) := by
  obtain ⟨h1, h2⟩ := h
  simp only [dcWhole_steps, ← h2]
  refine .bind (.test _) fun _ _ _ => ?_
  split
  · refine .bind (enc_cfb_alike _ _ _ _ _ _ _ hl) fun r r' hr => ?_
    by_cases h : n * 8 - 8 + 8 ≤ r.length
    · rw [dif_pos h, dif_pos (hr ▸ h)]
      exact .bind (R := fun _ _ => True) (.steps trivial (gostcrypt_hidden _ _ _ _)) fun a b _ => .pure ⟨⟨h1, rfl⟩, hr, by simp [hl]⟩
    · rw [dif_neg h, dif_neg (hr ▸ h)]
      exact .undefined
  · by_cases h : n * 8 - 8 + 8 ≤ l.length
    · rw [dif_pos h, dif_pos (hl ▸ h)]
      refine .bind (dec_cfb_alike _ _ _ _ _ _ _ hl) fun r r' hr => ?_
      exact .bind (R := fun _ _ => True) (.steps trivial (gostcrypt_hidden _ _ _ _)) fun a b _ => .pure ⟨⟨h1, rfl⟩, hr, by simp [hl]⟩
    · rw [dif_neg h, dif_neg (hl ▸ h)]
      exact .undefined

theorem dcBlocks_alike (ctx ctx' : CipherCtx) (l l' : List Byte) (h : ctx.Alike ctx') (hl : l.length = l'.length) :
    Alike (fun a b : CipherCtx × List Byte × List Byte => a.1.Alike b.1 ∧ a.2.1.length = b.2.1.length ∧ a.2.2.length = b.2.2.length) (dcBlocks_steps ctx l) (dcBlocks_steps ctx' l') := by
  simp only [dcBlocks_steps, ← hl, ne_eq, nil_iff hl]
  refine .bind (.test _) fun _ _ _ => ?_
  split
  · refine .bind (.test _) fun _ _ _ => ?_
    split
    · exact dcWhole_alike _ _ _ _ _ h hl
    · exact .pure ⟨h, rfl, hl⟩
  · exact .pure ⟨h, rfl, hl⟩

theorem dcTail_alike (ctx ctx' : CipherCtx) (l l' : List Byte) (h : ctx.Alike ctx') (hl : l.length = l'.length) :
    Alike (fun a b : CipherCtx × List Byte => a.1.Alike b.1 ∧ a.2.length = b.2.length) (dcTail_steps ctx l) (dcTail_steps ctx' l') := by
  obtain ⟨h1, h2⟩ := h
  simp only [dcTail_steps, ← hl, ne_eq, nil_iff hl, ← h2]
  refine .bind (.test _) fun _ _ _ => ?_
  split
  · exact .bind (xorLoop_alike _ _ _ _ _ _ _ _ hl) fun r r' hr => .pure ⟨⟨rfl, rfl⟩, hr⟩
  · exact .pure ⟨⟨h1, h2⟩, rfl⟩

theorem do_cipher_alike (ctx ctx' : CipherCtx) (l l' : List Byte) (h : ctx.Alike ctx') (hl : l.length = l'.length) :
    Alike (fun a b : CipherRes => a.ctx.Alike b.ctx) (dstu_cipher_do_cipher_steps ctx l) (dstu_cipher_do_cipher_steps ctx' l') := by
  simp only [dstu_cipher_do_cipher_steps, nil_iff hl]
  refine .bind (.test _) fun _ _ _ => ?_
  split
  · exact .bind (.test _) fun _ _ _ => .bind (.test _) fun _ _ _ => .pure h
  · refine .bind (.test _) fun _ _ _ => .bind (.test _) fun _ _ _ => ?_
    refine .bind (dcHead_alike _ _ _ _ h hl) fun r r' hr => ?_
    refine .bind (dcBlocks_alike _ _ _ _ hr.1 hr.2.2) fun q q' hq => ?_
    exact .bind (dcTail_alike _ _ _ _ hq.1 hq.2.2) fun s s' hs => .pure hs.1

theorem updates_alike (ctx ctx' : CipherCtx) (ps ps' : List (List Byte)) (h : ctx.Alike ctx') (hl : ps.map List.length = ps'.map List.length) :
    Alike (fun a b : List Byte × CipherCtx => a.2.Alike b.2) (updates_steps ctx ps) (updates_steps ctx' ps') := by
  induction ps generalizing ctx ctx' ps' with
  | nil =>
    obtain rfl : ps' = [] := by simpa using hl.symm
    exact .pure h
  | cons p ps ih =>
    cases ps' with
    | nil => simp at hl
    | cons p' ps' =>
      simp only [List.map_cons, List.cons.injEq] at hl
      exact .bind (do_cipher_alike _ _ _ _ h hl.1) fun r r' hr => .bind (ih _ _ _ hr hl.2) fun q q' hq => .pure hq

theorem enc_with_key_hidden (c c' : GostCtx) (k k' : Bytes 32) (b b' : Bytes 8) :
    Spec.timing (gost_enc_with_key_steps c k b).2 = Spec.timing (gost_enc_with_key_steps c' k' b').2 := gostcrypt_hidden _ _ _ _

theorem hidden_append {a a' b b' : List CpuStep} (h : Spec.timing a = Spec.timing a') (h' : Spec.timing b = Spec.timing b') :
    Spec.timing (a ++ b) = Spec.timing (a' ++ b') := by
  rw [timing_append, timing_append, h, h']

theorem hash_step_hidden (c c' : GostCtx) (H H' M M' : Bytes 32) : Spec.timing (hash_step_steps c H M).2 = Spec.timing (hash_step_steps c' H' M').2 := by
  simp only [hash_step_steps]
  exact hidden_append (enc_with_key_hidden _ _ _ _ _ _) (hidden_append (enc_with_key_hidden _ _ _ _ _ _) (hidden_append (enc_with_key_hidden _ _ _ _ _ _) (enc_with_key_hidden _ _ _ _ _ _)))

/-- As many bytes hashed, and as many left. -/
def HashCtx.Alike (a b : HashCtx) : Prop := a.len = b.len ∧ a.left = b.left

theorem rel_refl {α : Type} (x : Option α) : Option.Rel (fun a b => a = b) x x := by
  cases x
  · exact .none
  · exact .some rfl

theorem hashOne_alike (c c' : GostCtx) (h h' : HashCtx) (M M' : Bytes 32) (hh : h.Alike h') :
    Alike (fun a b : GostCtx × HashCtx => a.2.Alike b.2) (hashOne_steps c h M) (hashOne_steps c' h' M') := by
  simp only [hashOne_steps, ← hh.1]
  refine .bind (R := fun _ _ => True) (.steps trivial (hash_step_hidden _ _ _ _ _ _)) fun r r' _ => ?_
  exact .bind (.lift (rel_refl _)) fun a b hab => .pure ⟨hab, hh.2⟩

theorem hashLoop_alike (c c' : GostCtx) (h h' : HashCtx) (l l' : List Byte) (n : Nat) (hh : h.Alike h') (hl : l.length = l'.length) :
    Alike (fun a b : GostCtx × HashCtx × List Byte => a.2.1.Alike b.2.1 ∧ a.2.2.length = b.2.2.length) (hashLoop_steps c h l n) (hashLoop_steps c' h' l' n) := by
  induction n generalizing c c' h h' l l' with
  | zero => exact .bind (.test _) fun _ _ _ => .pure ⟨hh, hl⟩
  | succ n ih =>
    refine .bind (.test _) fun _ _ _ => ?_
    by_cases h0 : 0 + 32 ≤ l.length
    · rw [dif_pos h0, dif_pos (hl ▸ h0)]
      exact .bind (hashOne_alike _ _ _ _ _ _ hh) fun r r' hr => ih _ _ _ _ _ _ hr (by simp [hl])
    · rw [dif_neg h0, dif_neg (hl ▸ h0)]
      exact .undefined

theorem memcpyAt_rel {n : Nat} (v v' : Bytes n) (i : Nat) (l l' : List Byte) (hl : l.length = l'.length) : Option.Rel (fun _ _ => True) (memcpyAt v i l) (memcpyAt v' i l') := by
  unfold memcpyAt
  rw [← hl]
  split
  · exact .some trivial
  · exact .none

theorem hashRest_alike (c c' : GostCtx) (h h' : HashCtx) (l l' : List Byte) (hh : h.Alike h') (hl : l.length = l'.length) :
    Alike (fun a b : GostCtx × HashCtx => a.2.Alike b.2) (hashRest_steps c h l) (hashRest_steps c' h' l') := by
  simp only [hashRest_steps, ← hl]
  refine .bind (hashLoop_alike _ _ _ _ _ _ _ hh hl) fun r r' hr => ?_
  rw [← hr.2]
  refine .bind (.test _) fun _ _ _ => ?_
  split
  · exact .bind (.lift (memcpyAt_rel _ _ _ _ _ hr.2)) fun a b _ => .pure ⟨hr.1.1, rfl⟩
  · exact .pure hr.1

theorem hash_block_alike (c c' : GostCtx) (h h' : HashCtx) (l l' : List Byte) (hh : h.Alike h') (hl : l.length = l'.length) :
    Alike (fun a b : GostCtx × HashCtx => a.2.Alike b.2) (hash_block_steps c h l) (hash_block_steps c' h' l') := by
  simp only [hash_block_steps, ← hl, ← hh.2]
  refine .bind (.test _) fun _ _ _ => ?_
  split
  · split
    · refine .bind (.test _) fun _ _ _ => ?_
      generalize (if 32 - h.left > l.length then l.length else 32 - h.left) = k
      refine .bind (.lift (memcpyAt_rel _ _ _ _ _ (by simp [hl]))) fun a b _ => .bind (.test _) fun _ _ _ => ?_
      split
      · exact .pure ⟨hh.1, rfl⟩
      · exact .bind (hashOne_alike _ _ _ _ _ _ ⟨hh.1, rfl⟩) fun r r' hr => hashRest_alike _ _ _ _ _ _ ⟨hr.1, rfl⟩ (by simp [hl])
    · exact .undefined
  · exact hashRest_alike _ _ _ _ _ _ hh hl

theorem finishPartial_alike (c c' : GostCtx) (h h' : HashCtx) (hh : h.Alike h') :
    Alike (fun a b : GostCtx × Bytes 32 × Bytes 32 × Nat => a.2.2.2 = b.2.2.2) (finishPartial_steps c h) (finishPartial_steps c' h') := by
  simp only [finishPartial_steps, ← hh.1, ← hh.2]
  refine .bind (.test _) fun _ _ _ => ?_
  split
  · split
    · refine .bind (.lift (memcpyAt_rel _ _ _ _ _ (by simp))) fun a b _ => ?_
      refine .bind (R := fun _ _ => True) (.steps trivial (hash_step_hidden _ _ _ _ _ _)) fun r r' _ => ?_
      exact .bind (.lift (rel_refl _)) fun a b hab => .pure hab
    · exact .undefined
  · exact .pure rfl

theorem finish_hash_alike (c c' : GostCtx) (h h' : HashCtx) (hh : h.Alike h') : Alike (fun _ _ => True) (finish_hash_steps c h) (finish_hash_steps c' h') := by
  simp only [finish_hash_steps]
  refine .bind (finishPartial_alike _ _ _ _ hh) fun p p' hp => ?_
  rw [← hp]
  refine .bind (.test _) fun _ _ _ => ?_
  refine .bind (R := fun _ _ => True) (.steps trivial ?_) fun q q' _ => ?_
  · split
    · exact hash_step_hidden _ _ _ _ _ _
    · rfl
  · split
    · refine .bind (R := fun a b => a = b) (.steps rfl rfl) fun a b hab => ?_
      subst hab
      refine .bind (.lift (memcpyAt_rel _ _ _ _ _ rfl)) fun a b _ => ?_
      refine .bind (R := fun _ _ => True) (.steps trivial (hash_step_hidden _ _ _ _ _ _)) fun r r' _ => ?_
      exact .steps trivial (hash_step_hidden _ _ _ _ _ _)
    · exact .undefined

theorem blocks_alike (c c' : GostCtx) (h h' : HashCtx) (ps ps' : List (List Byte)) (hh : h.Alike h') (hl : ps.map List.length = ps'.map List.length) :
    Alike (fun _ _ => True) (blocks_steps c h ps) (blocks_steps c' h' ps') := by
  induction ps generalizing c c' h h' ps' with
  | nil =>
    obtain rfl : ps' = [] := by simpa using hl.symm
    exact .bind (finish_hash_alike _ _ _ _ hh) fun _ _ _ => .pure trivial
  | cons p ps ih =>
    cases ps' with
    | nil => simp at hl
    | cons p' ps' =>
      simp only [List.map_cons, List.cons.injEq] at hl
      exact .bind (hash_block_alike _ _ _ _ _ _ hh hl.1) fun r r' hr => ih _ _ _ _ _ hr hl.2

theorem rbg_get_bit_hidden (m m' : Rbg) : Spec.timing (rbg_get_bit_steps m).2 = Spec.timing (rbg_get_bit_steps m').2 := by
  simp only [rbg_get_bit_steps]
  exact hidden_append (gostcrypt_hidden _ _ _ _) (gostcrypt_hidden _ _ _ _)

theorem rbg_bits_hidden (n : Nat) (m m' : Rbg) : Spec.timing (rbg_bits_steps n m).2 = Spec.timing (rbg_bits_steps n m').2 := by
  induction n generalizing m m' with
  | zero => rfl
  | succ n ih =>
    simp only [rbg_bits_steps, timing_append]
    rw [rbg_get_bit_hidden m m', ih _ (rbg_get_bit_steps m').1.2]

end Dstu
