import Verif.Props.Envelope

/-!
# Properties C11, C12, C83, C84: exactly what comes out when they are violated

When the IV is set before the key, or the S-box in the middle of a block, the first key stream block
is not the one it should be.  These theorems give the output for every sequence of updates, so also
for those the theorems `C11_iv_then_key_partial`, `C12_restart_partial`, `C83_open_partial` and
`C84_standard_partial` leave out.
-/

namespace Dstu.Props

open Dstu

/-- The two specifications agree with plain CFB when the first key stream block is the right one. -/
theorem cfbEncryptFrom_self (E : Bytes 8 → Bytes 8) (iv : Bytes 8) (m : List Byte) :
    Spec.cfbEncryptFrom E (E iv) m = Spec.cfbEncrypt E iv m := by
  rw [Spec.cfbEncryptFrom, Spec.cfbEncrypt]

theorem cfbDecryptFrom_self (E : Bytes 8 → Bytes 8) (iv : Bytes 8) (m : List Byte) :
    Spec.cfbDecryptFrom E (E iv) m = Spec.cfbDecrypt E iv m := by
  rw [Spec.cfbDecryptFrom, Spec.cfbDecrypt]

theorem brun_encryptFrom (E : Bytes 8 → Bytes 8) (iv b : Bytes 8) (m : List Byte) :
    (brun E true ⟨iv, b, 0⟩ m).2 = Spec.cfbEncryptFrom E b m := by
  rw [Spec.cfbEncryptFrom]
  split
  · rename_i h
    have h8 : 0 + 8 ≤ m.length := by omega
    conv => lhs; rw [← List.take_append_drop 8 m, brun_append, brun_block' _ _ _ _ _ h8]
    simp only [if_true]
    rw [brun_cfbEncrypt]
    have hc : xorV (sub m 0 8 h8) b = Vector.ofFn fun i : Fin 8 => m[i.val] ^^^ b[i] := by
      apply Vector.ext
      intro i hi
      simp [xorV, sub]
    rw [hc]
  · rename_i h
    obtain ⟨iv', out, e1, e2⟩ := xorLoop_brun E true b iv 0 m (by omega) (by omega)
    have h0 : (⟨0, by omega⟩ : Fin 8) = 0 := rfl
    rw [h0] at e2
    rw [e2]
    rw [xorLoop_eq _ _ _ _ _ (by omega)] at e1
    simp only [Option.some.injEq, Prod.mk.injEq, List.drop_zero] at e1
    exact e1.2.symm

theorem brun_decryptFrom (E : Bytes 8 → Bytes 8) (iv b : Bytes 8) (m : List Byte) :
    (brun E false ⟨iv, b, 0⟩ m).2 = Spec.cfbDecryptFrom E b m := by
  rw [Spec.cfbDecryptFrom]
  split
  · rename_i h
    have h8 : 0 + 8 ≤ m.length := by omega
    conv => lhs; rw [← List.take_append_drop 8 m, brun_append, brun_block' _ _ _ _ _ h8]
    simp only [Bool.false_eq_true, if_false]
    rw [brun_cfbDecrypt]
    have hc : sub m 0 8 h8 = Vector.ofFn fun i : Fin 8 => m[i.val] := by
      apply Vector.ext
      intro i hi
      simp [sub]
    rw [hc]
    congr 1
    apply List.ext_getElem
    · simp
    · intro i h1 h2
      simp [xorV]
  · rename_i h
    obtain ⟨iv', out, e1, e2⟩ := xorLoop_brun E false b iv 0 m (by omega) (by omega)
    have h0 : (⟨0, by omega⟩ : Fin 8) = 0 := rfl
    rw [h0] at e2
    rw [e2]
    rw [xorLoop_eq _ _ _ _ _ (by omega)] at e1
    simp only [Option.some.injEq, Prod.mk.injEq, List.drop_zero] at e1
    exact e1.2.symm

/-- Updates of a context at a block boundary whose stored key stream block is any block, the first
update being shorter than a block: a run of the byte machine. -/
theorem feed_brun_short (x : CipherCtx) (hx : x.num = 0) (c : List Byte) (cs : List (List Byte))
    (hc : ∀ y ∈ c :: cs, y ≠ []) (h8 : c.length < 8) :
    ∃ x', Spec.feed x (c :: cs) =
      some ((brun (gostcrypt x.g) x.encrypting ⟨x.iv, x.buf, 0⟩ (c :: cs).flatten).2, x') := by
  obtain ⟨a, c', rfl⟩ := List.exists_cons_of_ne_nil (hc c (by simp))
  have hb : (a :: c').length >>> 3 = 0 := by
    rw [Nat.shiftRight_eq_div_pow]
    omega
  have h1 : dcHead x (a :: c') = some (x, [], a :: c') := by
    simp only [dcHead, hx, ne_eq, not_true_eq_false, if_false]
  have h2 : dcBlocks x (a :: c') = some (x, [], a :: c') := by
    simp only [dcBlocks, hb, ne_eq, not_true_eq_false, if_false]
  obtain ⟨iv', out, e1, e2⟩ := xorLoop_brun (gostcrypt x.g) x.encrypting x.buf x.iv 0 (a :: c')
    (by omega) (by omega)
  have h0 : (⟨0, by omega⟩ : Fin 8) = 0 := rfl
  rw [h0] at e2
  have hlt : 0 + (a :: c').length < 8 := by omega
  rw [dif_pos hlt] at e2
  have hpos : 0 < (a :: c').length := by simp
  generalize hl : a :: c' = l at *
  have hne : l ≠ [] := by rw [← hl]; simp
  have hlen : out.length = l.length := by
    have := brun_length (gostcrypt x.g) x.encrypting ⟨x.iv, x.buf, 0⟩ l
    rw [e2] at this
    exact this
  have hd : dstu_cipher_do_cipher x (.buf l) =
      some ⟨out.length, out, { x with iv := iv', num := 8 - l.length }⟩ := by
    rw [← hl]
    simp only [dstu_cipher_do_cipher]
    rw [hl, h1]
    simp only [Option.bind_eq_bind, Option.bind_some]
    rw [h2]
    simp only [Option.bind_some, dcTail, ne_eq, hne, not_false_eq_true, if_true, e1,
      Option.bind_eq_bind, Option.pure_def, List.nil_append]
  have hinv : ({ x with iv := iv', num := 8 - l.length } : CipherCtx).Inv :=
    ⟨by show 8 - l.length < 8; omega, fun h => by
      exfalso
      have : 8 - l.length = 0 := h
      omega⟩
  obtain ⟨x', f1, _⟩ := feed_brun _ hinv cs (fun y hy => hc y (by simp [hy]))
  refine ⟨x', ?_⟩
  simp only [Spec.feed, hd, hlen, and_self, if_true, f1]
  rw [List.flatten_cons, brun_append, e2]
  have hbs : ({ x with iv := iv', num := 8 - l.length } : CipherCtx).bs =
      ⟨iv', x.buf, ⟨0 + l.length, hlt⟩⟩ := by
    simp only [CipherCtx.bs, BState.mk.injEq, Fin.mk.injEq, true_and]
    omega
  rw [hbs]

/-- All updates of a context at a block boundary with any stored key stream block `b`: a first update
shorter than a block makes `b` the first key stream block, a longer one does not use it. -/
theorem feed_any_block (x : CipherCtx) (hx : x.num = 0) (c : List Byte) (cs : List (List Byte))
    (hc : ∀ y ∈ c :: cs, y ≠ []) :
    ∃ x', Spec.feed x (c :: cs) = some (if x.encrypting
      then Spec.cfbEncryptFrom (gostcrypt x.g) (if 8 ≤ c.length then gostcrypt x.g x.iv else x.buf)
        (c :: cs).flatten
      else Spec.cfbDecryptFrom (gostcrypt x.g) (if 8 ≤ c.length then gostcrypt x.g x.iv else x.buf)
        (c :: cs).flatten, x') := by
  by_cases h8 : 8 ≤ c.length
  · have hs : ({ x with buf := gostcrypt x.g x.iv } : CipherCtx).Start x.iv := ⟨hx, rfl, rfl⟩
    have hst := feed_stale x (gostcrypt x.g x.iv) hx c cs h8
    simp only [h8, if_true, cfbEncryptFrom_self, cfbDecryptFrom_self]
    rw [← hst]
    cases he : x.encrypting
    · obtain ⟨x', f, _⟩ := feed_start_dec _ x.iv hs he (c :: cs) hc
      exact ⟨x', by rw [he] at f; rw [f]; simp⟩
    · obtain ⟨x', f, _⟩ := feed_start_enc _ x.iv hs he (c :: cs) hc
      exact ⟨x', by rw [he] at f; rw [f]; simp⟩
  · obtain ⟨x', f⟩ := feed_brun_short x hx c cs hc (by omega)
    refine ⟨x', ?_⟩
    rw [f]
    simp only [h8, if_false]
    cases he : x.encrypting
    · rw [brun_decryptFrom]; simp
    · rw [brun_encryptFrom]; simp

/-! ## C11 -/

/-- C11, IV first and key second, exactly: a context that had the key `old` gets the IV and then the
key `key`.  For all later updates, in both directions, the output is that of CFB under `key` and `iv`,
except that the first key stream block is the one of `old` if the first update is shorter than eight
bytes. -/
theorem C11_iv_then_key_exact (ctx : CipherCtx) (rnd rnd' rnd'' : Vector W32 8) (old key : Bytes 32)
    (iv₀ : Option (Bytes 8)) (iv : Bytes 8) (c : List Byte) (cs : List (List Byte))
    (hc : ∀ y ∈ c :: cs, y ≠ []) :
    ∃ x', Spec.feed (dstu_cipher_init (dstu_cipher_init (dstu_cipher_init ctx rnd (some old) iv₀)
        rnd' none (some iv)) rnd'' (some key) none) (c :: cs) =
      some ((if ctx.encrypting then Spec.cfbEncryptFrom else Spec.cfbDecryptFrom)
        (Spec.encrypt (Spec.tableOf default_sbox) key)
        (Spec.encrypt (Spec.tableOf default_sbox) (if 8 ≤ c.length then key else old) iv)
        (c :: cs).flatten, x') := by
  obtain ⟨x', f⟩ := feed_any_block (dstu_cipher_init (dstu_cipher_init
    (dstu_cipher_init ctx rnd (some old) iv₀) rnd' none (some iv)) rnd'' (some key) none) rfl c cs hc
  refine ⟨x', ?_⟩
  rw [f, init_encrypt]
  have hb : (dstu_cipher_init (dstu_cipher_init (dstu_cipher_init ctx rnd (some old) iv₀)
      rnd' none (some iv)) rnd'' (some key) none).buf =
      Spec.encrypt (Spec.tableOf default_sbox) old iv := by
    rw [← init_encrypt ctx rnd old iv₀]
    show gostcrypt (gost_init (dstu_cipher_init ctx rnd (some old) iv₀).g
      (some (unpack_sbox default_sbox))) iv = _
    cases iv₀ <;> rfl
  have hi : (dstu_cipher_init (dstu_cipher_init (dstu_cipher_init ctx rnd (some old) iv₀)
      rnd' none (some iv)) rnd'' (some key) none).iv = iv := rfl
  rw [hb, hi, init_encrypting, init_encrypting, init_encrypting]
  cases ctx.encrypting <;> by_cases h8 : 8 ≤ c.length <;> simp [h8]

example := C11_iv_then_key_exact (blankCtx true) demoMask demoMask demoMask (zeros 32) demoKey none demoIv
  [0x31, 0x32] [[0x33, 0x34, 0x35, 0x36, 0x37, 0x38, 0x39]] (by decide)

/-- The difference is seen: the old key's block is not the new key's. -/
example : Spec.cfbEncryptFrom (Spec.encrypt (Spec.tableOf default_sbox) demoKey)
    (Spec.encrypt (Spec.tableOf default_sbox) (zeros 32) demoIv) [0x31] ≠
    Spec.cfbEncrypt (Spec.encrypt (Spec.tableOf default_sbox) demoKey) demoIv [0x31] := by
  decide +kernel

/-! ## C12 -/

/-- Bytes whose encryption is the beginning of the IV leave the feedback register as it is. -/
theorem pad_run (E : Bytes 8 → Bytes 8) (iv : Bytes 8) (j : Nat) (hj : j < 8) :
    ∃ pad : List Byte, pad.length = j ∧
      brun E true ⟨iv, E iv, 0⟩ pad = (⟨iv, E iv, ⟨j, hj⟩⟩, iv.toList.take j) := by
  induction j with
  | zero => exact ⟨[], rfl, rfl⟩
  | succ j ih =>
    obtain ⟨pad, hl, hr⟩ := ih (by omega)
    refine ⟨pad ++ [iv[j] ^^^ (E iv)[j]], by simp [hl], ?_⟩
    rw [brun_append, hr]
    have h7 : (⟨j, by omega⟩ : Fin 8) ≠ 7 := by
      intro h
      have := congrArg Fin.val h
      simp at this
      omega
    have hx : iv[j] ^^^ (E iv)[j] ^^^ (E iv)[j] = iv[j] := by
      rw [BitVec.xor_assoc, BitVec.xor_self, BitVec.xor_zero]
    have hp : (⟨j, by omega⟩ : Fin 8) + 1 = ⟨j + 1, hj⟩ := by
      apply Fin.ext
      simp [Fin.val_add]
      omega
    simp only [brun, bstep, h7, if_false, Fin.getElem_fin, hx, if_true, hp, Vector.set_getElem_self,
      Prod.mk.injEq, true_and]
    rw [List.take_succ_eq_append_getElem (by simp; omega)]
    simp

/-- C12, first half, exactly: the S-box is set after any number of bytes were encrypted.  With `j` the
number of bytes used of the last block, everything encrypted afterwards is what a fresh context with the
new S-box, the key and the IV gives after `j` bytes, chosen so that their encryption is the beginning of
the IV. -/
theorem C12_restart_exact (ctx : CipherCtx) (he : ctx.encrypting = true) (rnd : Vector W32 8)
    (key : Bytes 32) (iv : Bytes 8) (p : Bytes 64) (before after : List (List Byte))
    (hb : ∀ c ∈ before, c ≠ []) (ha : ∀ c ∈ after, c ≠ []) :
    ∃ o ctx1 ctx2 ctx3 pad out,
      Spec.feed (dstu_cipher_init ctx rnd (some key) (some iv)) before = some (o, ctx1) ∧
      dstu_cipher_ctrl ctx1 (.setSbox 64 (some p.toList)) = some (1, ctx2) ∧
      Spec.feed ctx2 after = some (out, ctx3) ∧
      pad.length = before.flatten.length % 8 ∧
      Spec.cfbEncrypt (Spec.encrypt (Spec.tableOf p) key) iv (pad ++ after.flatten) =
        iv.toList.take (before.flatten.length % 8) ++ out := by
  have s := init_start ctx rnd (some key) iv
  obtain ⟨c1, f1, i1, m1, b1⟩ := feed_brun _ s.inv before hb
  generalize hj : before.flatten.length % 8 = j
  have hj8 : j < 8 := by omega
  have hnum : (8 - c1.num) % 8 = j := by
    have := congrArg (fun t => t.pos.val) b1
    simp only [brun_pos, CipherCtx.bs] at this
    rw [this, s.num, ← hj]
    simp
  have hnl := i1.num_lt
  have hoiv : c1.oiv = iv := by rw [m1.2.1]; rfl
  have hk : c1.g.keys = Spec.subkeys key := by rw [m1.1]; exact keys_gost_key _ _ _
  have henc : c1.encrypting = true := by rw [m1.2.2, init_encrypting, he]
  have ht : (gost_init c1.g (some (unpack_sbox p))).Tables (Spec.tableOf p) :=
    kboxinit_tables c1.g _ _ (unpack_holds p)
  have hE : gostcrypt (gost_init c1.g (some (unpack_sbox p))) =
      Spec.encrypt (Spec.tableOf p) key := by
    funext blk
    rw [gostcrypt_spec _ _ ht]
    rw [keys_gost_init, hk]
    rfl
  obtain ⟨c3, f3, _⟩ := feed_brun
    { c1 with g := gost_init c1.g (some (unpack_sbox p)), iv := c1.oiv,
              buf := gostcrypt (gost_init c1.g (some (unpack_sbox p))) c1.oiv }
    ⟨hnl, fun _ => rfl⟩ after ha
  generalize hEE : Spec.encrypt (Spec.tableOf p) key = E at *
  obtain ⟨pad, hpl, hrun⟩ := pad_run E iv j hj8
  refine ⟨_, c1, _, c3, pad, _, f1, setSbox_eq c1 p, f3, hpl, ?_⟩
  rw [← brun_cfbEncrypt, brun_append, hrun]
  have hbs : ({ c1 with g := gost_init c1.g (some (unpack_sbox p)), iv := c1.oiv,
                        buf := gostcrypt (gost_init c1.g (some (unpack_sbox p))) c1.oiv } : CipherCtx).bs =
      ⟨iv, E iv, ⟨j, hj8⟩⟩ := by
    simp only [CipherCtx.bs, hoiv, hE, hnum]
  rw [hbs]
  simp only [hE, henc]

example (p : Bytes 64) := C12_restart_exact (blankCtx true) rfl demoMask demoKey demoIv p
  [[1, 2, 3], [4]] [[1, 2, 3, 4, 5, 6, 7, 8, 9]] (by decide) (by decide)

/-! ## C83 and C84 -/

/-- The block stored when the parameters come before the key is that of the key of 32 zero bytes. -/
theorem staleBlock_eq (iv : Bytes 8) (p : Bytes 64) :
    staleBlock iv p = Spec.encrypt (Spec.tableOf p) (zeros 32) iv := by
  unfold staleBlock
  have ht : (gost_init (gost_init (freshCipher true).g (some (unpack_sbox default_sbox)))
      (some (unpack_sbox p))).Tables (Spec.tableOf p) := kboxinit_tables _ _ _ (unpack_holds p)
  rw [gostcrypt_spec _ _ ht, keys_gost_init, keys_gost_init]
  have hk : (freshCipher true).g.keys = Spec.subkeys (zeros 32) := by decide +kernel
  rw [hk]
  rfl

/-- C83 and C84, exactly: a context whose parameters (IV and S-box `p`) came before the key treats all
later updates as CFB under the key, the IV and the default S-box, except that for a first update of fewer
than eight bytes the first key stream block is that of S-box `p` and the key of zero bytes.  This is
receiving with CMS and PKCS#7 (`enc = false`), and both directions of password based encryption. -/
theorem C83_open_exact (enc : Bool) (r : Vector W32 8) (key : Bytes 32) (iv : Bytes 8) (p : Bytes 64)
    (c : List Byte) (cs : List (List Byte)) (hc : ∀ y ∈ c :: cs, y ≠ []) :
    ∃ ctx ctx', paramsThenKey enc r ⟨16, Spec.cipherParams iv.toList p.toList⟩ key =
        some (some ctx) ∧
      Spec.feed ctx (c :: cs) =
        some ((if enc then Spec.cfbEncryptFrom else Spec.cfbDecryptFrom)
          (Spec.encrypt (Spec.tableOf default_sbox) key)
          (if 8 ≤ c.length then Spec.encrypt (Spec.tableOf default_sbox) key iv
            else Spec.encrypt (Spec.tableOf p) (zeros 32) iv)
          (c :: cs).flatten, ctx') := by
  rw [paramsThenKey_eq]
  obtain ⟨x', f⟩ := feed_any_block { dstu_cipher_init (freshCipher enc) r (some key) (some iv) with
    buf := staleBlock iv p } rfl c cs hc
  refine ⟨_, x', rfl, ?_⟩
  rw [f, init_encrypt, staleBlock_eq]
  have hi : (dstu_cipher_init (freshCipher enc) r (some key) (some iv)).iv = iv := rfl
  have he : (dstu_cipher_init (freshCipher enc) r (some key) (some iv)).encrypting = enc := by
    rw [init_encrypting]; rfl
  simp only [hi, he]
  cases enc <;> by_cases h8 : 8 ≤ c.length <;> simp [h8]

example := C83_open_exact false demoMask demoKey demoIv demoSbox [1, 2, 3] [[4, 5, 6, 7, 8, 9]] (by decide)

/-- C83: after the first eight bytes the content is recovered however it is cut, if the default S-box was
used to seal it. -/
theorem C83_open_tail_partial (r : Vector W32 8) (key : Bytes 32) (iv : Bytes 8) (m : List Byte)
    (chunks : List (List Byte))
    (hc : Spec.Cuts chunks (Spec.cfbEncrypt (Spec.encrypt (Spec.tableOf default_sbox) key) iv m)) :
    ∃ ctx ctx' out, paramsThenKey false r ⟨16, Spec.cipherParams iv.toList default_sbox.toList⟩ key =
        some (some ctx) ∧ Spec.feed ctx chunks = some (out, ctx') ∧
      out.length = m.length ∧ out.drop 8 = m.drop 8 := by
  have hlen : ∀ m : List Byte,
      (Spec.cfbEncrypt (Spec.encrypt (Spec.tableOf default_sbox) key) iv m).length = m.length :=
    fun m => by rw [← brun_cfbEncrypt, brun_length]
  cases chunks with
  | nil =>
    have h0 : m = [] := by
      have := hlen m
      rw [← hc.2] at this
      exact List.length_eq_zero_iff.mp this.symm
    subst h0
    rw [paramsThenKey_eq]
    exact ⟨_, _, [], rfl, rfl, rfl, rfl⟩
  | cons c cs =>
    obtain ⟨x, x', h1, h2⟩ := C83_open_exact false r key iv default_sbox c cs hc.1
    refine ⟨x, x', _, h1, h2, ?_⟩
    simp only [Bool.false_eq_true, if_false]
    rw [hc.2]
    generalize (if 8 ≤ c.length then Spec.encrypt (Spec.tableOf default_sbox) key iv
      else Spec.encrypt (Spec.tableOf default_sbox) (zeros 32) iv) = b
    generalize Spec.encrypt (Spec.tableOf default_sbox) key = E at *
    rw [← brun_decryptFrom E iv]
    have hm : Spec.cfbDecrypt E iv (Spec.cfbEncrypt E iv m) = m := cfb_dec_enc E iv m
    refine ⟨by rw [brun_length, hlen], ?_⟩
    conv => rhs; rw [← hm, ← brun_cfbDecrypt]
    generalize Spec.cfbEncrypt E iv m = ct
    by_cases h8 : 8 ≤ ct.length
    · conv => lhs; rw [← List.take_append_drop 8 ct, brun_append]
      conv => rhs; rw [← List.take_append_drop 8 ct, brun_append]
      rw [brun_resync E ⟨iv, b, 0⟩ ⟨iv, E iv, 0⟩ rfl rfl ct h8]
      rw [List.drop_append_of_le_length (by rw [brun_length]; simp; omega),
        List.drop_append_of_le_length (by rw [brun_length]; simp; omega)]
      congr 1
      rw [List.drop_eq_nil_of_le (by rw [brun_length]; simp),
        List.drop_eq_nil_of_le (by rw [brun_length]; simp)]
    · rw [List.drop_eq_nil_of_le (by rw [brun_length]; omega),
        List.drop_eq_nil_of_le (by rw [brun_length]; omega)]

example := C83_open_tail_partial demoMask demoKey demoIv [1, 2, 3, 4, 5, 6, 7, 8, 9]
  [(Spec.cfbEncrypt (Spec.encrypt (Spec.tableOf default_sbox) demoKey) demoIv [1, 2, 3, 4, 5, 6, 7, 8, 9]).take 3,
    (Spec.cfbEncrypt (Spec.encrypt (Spec.tableOf default_sbox) demoKey) demoIv [1, 2, 3, 4, 5, 6, 7, 8, 9]).drop 3]
  ⟨by decide +kernel, by simp⟩

end Dstu.Props
