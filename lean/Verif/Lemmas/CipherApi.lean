import Verif.Lemmas.Cipher
import Verif.Spec.Feed

namespace Dstu

theorem feed_brun (ctx : CipherCtx) (hi : ctx.Inv) (cs : List (List Byte)) (hc : ∀ c ∈ cs, c ≠ []) :
    ∃ ctx', Spec.feed ctx cs =
        some ((brun (gostcrypt ctx.g) ctx.encrypting ctx.bs cs.flatten).2, ctx') ∧
      ctx'.Inv ∧ ctx'.Same ctx ∧
      ctx'.bs = (brun (gostcrypt ctx.g) ctx.encrypting ctx.bs cs.flatten).1 := by
  induction cs generalizing ctx with
  | nil => exact ⟨ctx, rfl, hi, ⟨rfl, rfl, rfl⟩, rfl⟩
  | cons c cs ih =>
    obtain ⟨c1, a1, a2, a3, a4⟩ := do_cipher_brun ctx hi c (hc c (by simp))
    obtain ⟨c2, b1, b2, b3, b4⟩ := ih c1 a2 (fun x hx => hc x (by simp [hx]))
    refine ⟨c2, ?_, b2, ⟨?_, ?_, ?_⟩, ?_⟩
    · simp only [Spec.feed, a1, brun_length, and_self, if_true, b1]
      rw [List.flatten_cons, brun_append, a4, a3.1, a3.2.2]
    · rw [b3.1, a3.1]
    · rw [b3.2.1, a3.2.1]
    · rw [b3.2.2, a3.2.2]
    · rw [b4, List.flatten_cons, brun_append, a4, a3.1, a3.2.2]

/-- A context at a block boundary. -/
structure CipherCtx.Start (ctx : CipherCtx) (iv : Bytes 8) : Prop where
  num : ctx.num = 0
  buf : ctx.buf = gostcrypt ctx.g iv
  iv : ctx.iv = iv

theorem CipherCtx.Start.inv {ctx : CipherCtx} {iv} (h : ctx.Start iv) : ctx.Inv :=
  ⟨by rw [h.num]; omega, fun _ => by rw [h.buf, h.iv]⟩

theorem CipherCtx.Start.bs {ctx : CipherCtx} {iv} (h : ctx.Start iv) :
    ctx.bs = ⟨iv, gostcrypt ctx.g iv, 0⟩ := by
  simp only [CipherCtx.bs, h.num, h.iv, h.buf]
  rfl

theorem feed_start_enc (ctx : CipherCtx) (iv) (h : ctx.Start iv) (he : ctx.encrypting = true)
    (cs : List (List Byte)) (hc : ∀ c ∈ cs, c ≠ []) :
    ∃ ctx', Spec.feed ctx cs = some (Spec.cfbEncrypt (gostcrypt ctx.g) iv cs.flatten, ctx') ∧
      ctx'.Inv ∧ ctx'.Same ctx := by
  obtain ⟨c, a1, a2, a3, a4⟩ := feed_brun ctx h.inv cs hc
  refine ⟨c, ?_, a2, a3⟩
  rw [a1, h.bs, he, brun_cfbEncrypt]

theorem feed_start_dec (ctx : CipherCtx) (iv) (h : ctx.Start iv) (he : ctx.encrypting = false)
    (cs : List (List Byte)) (hc : ∀ c ∈ cs, c ≠ []) :
    ∃ ctx', Spec.feed ctx cs = some (Spec.cfbDecrypt (gostcrypt ctx.g) iv cs.flatten, ctx') ∧
      ctx'.Inv ∧ ctx'.Same ctx := by
  obtain ⟨c, a1, a2, a3, a4⟩ := feed_brun ctx h.inv cs hc
  refine ⟨c, ?_, a2, a3⟩
  rw [a1, h.bs, he, brun_cfbDecrypt]

/-- CFB decryption undoes CFB encryption, whatever the block function. -/
theorem cfb_dec_enc (E : Bytes 8 → Bytes 8) (iv : Bytes 8) (m : List Byte) :
    Spec.cfbDecrypt E iv (Spec.cfbEncrypt E iv m) = m := by
  rw [← brun_cfbEncrypt, ← brun_cfbDecrypt, brun_dec_enc]

theorem init_start (ctx : CipherCtx) (rnd) (key : Option (Bytes 32)) (iv : Bytes 8) :
    (dstu_cipher_init ctx rnd key (some iv)).Start iv := by
  unfold dstu_cipher_init
  exact ⟨rfl, rfl, rfl⟩

/-- The block function of a context initialised with a key. -/
theorem init_encrypt (ctx : CipherCtx) (rnd) (key : Bytes 32) (iv) :
    gostcrypt (dstu_cipher_init ctx rnd (some key) iv).g =
      Spec.encrypt (Spec.tableOf default_sbox) key := by
  funext blk
  have hg : (dstu_cipher_init ctx rnd (some key) iv).g =
      gost_key (gost_init ctx.g (some (unpack_sbox default_sbox))) rnd key := by
    unfold dstu_cipher_init
    cases iv <;> rfl
  have ht := tables_gost_key (gost_init ctx.g (some (unpack_sbox default_sbox))) rnd key _
    (kboxinit_tables ctx.g _ _ (unpack_holds default_sbox))
  rw [hg, gostcrypt_spec _ _ ht, keys_gost_key]
  rfl

theorem init_encrypting (ctx : CipherCtx) (rnd key iv) :
    (dstu_cipher_init ctx rnd key iv).encrypting = ctx.encrypting := by
  unfold dstu_cipher_init
  cases key <;> cases iv <;> rfl

/-- The block function depends only on the tables and the key words. -/
theorem gostcrypt_congr (c d : GostCtx) (S) (hc : c.Tables S) (hd : d.Tables S)
    (hk : c.keys = d.keys) : gostcrypt c = gostcrypt d := by
  funext b
  rw [gostcrypt_spec c S hc, gostcrypt_spec d S hd, hk]

theorem keys_gost_init (c : GostCtx) (b) : (gost_init c b).keys = c.keys := by
  cases b <;> simp [gost_init, kboxinit, GostCtx.keys]

/-! ### Positions -/

theorem brun_pos (E enc s) (l : List Byte) : ((brun E enc s l).1.pos.val) = (s.pos.val + l.length) % 8 := by
  induction l generalizing s with
  | nil => simp [brun, Nat.mod_eq_of_lt s.pos.isLt]
  | cons b l ih =>
    simp only [brun, ih, List.length_cons]
    unfold bstep
    by_cases h : s.pos = 7
    · simp only [h, if_true]
      show (0 + l.length) % 8 = (7 + (l.length + 1)) % 8
      omega
    · simp only [h, if_false, Fin.val_add]
      show ((s.pos.val + 1) % 8 + l.length) % 8 = _
      omega

/-- At a block boundary, the state after a full block depends on the ciphertext block only. -/
theorem brun_resync (E) (s t : BState) (hs : s.pos = 0) (ht : t.pos = 0) (l : List Byte)
    (hl : 8 ≤ l.length) : (brun E false s (l.take 8)).1 = (brun E false t (l.take 8)).1 := by
  obtain ⟨i1, b1, p1⟩ := s
  obtain ⟨i2, b2, p2⟩ := t
  simp only at hs ht
  subst hs ht
  rw [brun_block' _ _ _ _ _ (by omega), brun_block' _ _ _ _ _ (by omega)]
  simp

end Dstu
