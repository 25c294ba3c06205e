import Verif.Lemmas.CipherApi
import Verif.Lemmas.CipherMem
import Verif.Props.BlockCipher

/-!
# Properties C06-C14: the CFB cipher of the engine
-/

namespace Dstu.Props

open Dstu

/-- A cipher context before its first initialisation, for encryption or decryption. -/
def blankCtx (enc : Bool) : CipherCtx := ⟨emptyCtx, zeros 8, zeros 8, zeros 8, 0, enc⟩

def demoIv : Bytes 8 := #v[7, 6, 5, 4, 3, 2, 1, 0]

/-- An S-box different from the default one. -/
def demoSbox : Bytes 64 := Vector.ofFn fun i => BitVec.ofNat 8 (17 * i.val + 3)

/-! ## C06 -/

/-- C06: for every key, IV, earlier state of the context, random mask and message, and every way of
cutting the message into non-empty updates, all updates succeed and their outputs together are the
CFB encryption of the message under GOST 28147-89 with the default S-box. -/
theorem C06_cfb_encrypt (ctx : CipherCtx) (he : ctx.encrypting = true) (rnd : Vector W32 8)
    (key : Bytes 32) (iv : Bytes 8) (m : List Byte) (chunks : List (List Byte))
    (hc : Spec.Cuts chunks m) :
    ∃ ctx', Spec.feed (dstu_cipher_init ctx rnd (some key) (some iv)) chunks =
      some (Spec.cfbEncrypt (Spec.encrypt (Spec.tableOf default_sbox) key) iv m, ctx') := by
  obtain ⟨c, h, _⟩ := feed_start_enc _ iv (init_start ctx rnd (some key) iv)
    (by rw [init_encrypting, he]) chunks hc.1
  exact ⟨c, by rw [h, init_encrypt, hc.2]⟩

example := C06_cfb_encrypt (blankCtx true) rfl demoMask demoKey demoIv [0x31, 0x32, 0x33, 0x34, 0x35, 0x36] [[0x31], [0x32, 0x33, 0x34], [0x35, 0x36]] ⟨by decide, by decide⟩

/-- Splitting is not vacuous: `"123456"` cut as 1 + 3 + 2 bytes gives the ciphertext of the repository's
test vector (/repo/tests/test.cpp:258-268). -/
example : (Spec.feed (dstu_cipher_init (blankCtx true) demoMask (some demoKey) (some demoIv))
    [[0x31], [0x32, 0x33, 0x34], [0x35, 0x36]]).map (·.1) =
    some [0x23, 0xa8, 0x38, 0x29, 0x32, 0xae] := by decide +kernel

example : Spec.Cuts [[0x31], [0x32, 0x33, 0x34], [0x35, 0x36]] [0x31, 0x32, 0x33, 0x34, 0x35, 0x36] :=
  ⟨by decide, by decide⟩

/-! ## C07 -/

/-- C07: the receiver's updates give the message back, whatever chunking either side uses and
whatever their contexts were before. -/
theorem C07_cfb_decrypt (snd rcv : CipherCtx) (hs : snd.encrypting = true)
    (hr : rcv.encrypting = false) (rnd rnd' : Vector W32 8) (key : Bytes 32) (iv : Bytes 8)
    (m : List Byte) (chunks : List (List Byte)) (hc : Spec.Cuts chunks m) :
    ∃ c snd', Spec.feed (dstu_cipher_init snd rnd (some key) (some iv)) chunks = some (c, snd') ∧
      c.length = m.length ∧
      ∀ chunks', Spec.Cuts chunks' c →
        ∃ rcv', Spec.feed (dstu_cipher_init rcv rnd' (some key) (some iv)) chunks' =
          some (m, rcv') := by
  obtain ⟨s', h⟩ := C06_cfb_encrypt snd hs rnd key iv m chunks hc
  refine ⟨_, s', h, ?_, ?_⟩
  · rw [← brun_cfbEncrypt, brun_length]
  · intro chunks' hc'
    obtain ⟨c, h', _⟩ := feed_start_dec _ iv (init_start rcv rnd' (some key) iv)
      (by rw [init_encrypting, hr]) chunks' hc'.1
    refine ⟨c, ?_⟩
    rw [h', init_encrypt, hc'.2, cfb_dec_enc]

example := C07_cfb_decrypt (blankCtx true) (blankCtx false) rfl rfl demoMask demoMask demoKey demoIv [0x31, 0x32, 0x33] [[0x31], [0x32, 0x33]] ⟨by decide, by decide⟩

example : (Spec.feed (dstu_cipher_init (blankCtx false) demoMask (some demoKey) (some demoIv))
    [[0x23, 0xa8], [0x38, 0x29, 0x32, 0xae]]).map (·.1) =
    some [0x31, 0x32, 0x33, 0x34, 0x35, 0x36] := by decide +kernel

/-! ## C08 -/

/-- C08: on memory, whenever the output does not start inside the input after its first byte (so in
particular when the two are equal or disjoint), an update reports and leaves exactly what the
update on separate buffers reports and leaves, its output being stored at `out`. -/
theorem C08_overlap (ctx : CipherCtx) (m : Mem) (inp out inl : Nat)
    (h : out ≤ inp ∨ inp + inl ≤ out) :
    do_cipher_mem ctx m (some inp) out inl =
      (dstu_cipher_do_cipher ctx (.buf (rd m inp inl))).map fun r => (r.ret, r.ctx, wr m out r.out) :=
  do_cipher_mem_eq ctx m inp out inl h

example (m : Mem) := C08_overlap (blankCtx true) m 100 95 20 (Or.inl (by decide))

/-- C08: in-place operation and operation into any disjoint buffer give the same return value, the
same context and the same output bytes, and change nothing outside the output range. -/
theorem C08_in_place (ctx : CipherCtx) (m : Mem) (inp out inl : Nat) (hctx : ctx.Inv)
    (hl : 0 < inl) (h : out + inl ≤ inp ∨ inp + inl ≤ out) :
    ∃ ctx' m1 m2,
      do_cipher_mem ctx m (some inp) inp inl = some ((inl : Int), ctx', m1) ∧
      do_cipher_mem ctx m (some inp) out inl = some ((inl : Int), ctx', m2) ∧
      (∀ i, i < inl → m1 (inp + i) = m2 (out + i)) ∧
      (∀ a, a < inp ∨ inp + inl ≤ a → m1 a = m a) ∧
      (∀ a, a < out ∨ out + inl ≤ a → m2 a = m a) := by
  have hne : rd m inp inl ≠ [] := by
    intro hh
    have := congrArg List.length hh
    rw [rd_length] at this
    simp at this
    omega
  obtain ⟨c, e, _⟩ := do_cipher_brun ctx hctx (rd m inp inl) hne
  have hlen := brun_length (gostcrypt ctx.g) ctx.encrypting ctx.bs (rd m inp inl)
  rw [rd_length] at e hlen
  refine ⟨c, wr m inp (brun (gostcrypt ctx.g) ctx.encrypting ctx.bs (rd m inp inl)).2,
    wr m out (brun (gostcrypt ctx.g) ctx.encrypting ctx.bs (rd m inp inl)).2, ?_, ?_, ?_, ?_, ?_⟩
  · rw [C08_overlap _ _ _ _ _ (Or.inl (Nat.le_refl _)), e]; rfl
  · rw [C08_overlap _ _ _ _ _ (by omega), e]; rfl
  · intro i hi
    rw [wr_inside _ _ _ _ (by omega), wr_inside _ _ _ _ (by omega)]
  · intro a ha
    exact wr_outside _ _ _ _ (by omega)
  · intro a ha
    exact wr_outside _ _ _ _ (by omega)

example (m : Mem) := C08_in_place (dstu_cipher_init (blankCtx true) demoMask (some demoKey) (some demoIv)) m 100 150 20 (init_start _ _ _ _).inv (by decide) (Or.inr (by decide))

/-- Every context that was initialised with an IV and then used satisfies the hypothesis. -/
theorem C08_reachable (ctx : CipherCtx) (rnd : Vector W32 8) (key : Option (Bytes 32)) (iv : Bytes 8)
    (chunks : List (List Byte)) (hc : ∀ c ∈ chunks, c ≠ []) :
    ∃ o ctx', Spec.feed (dstu_cipher_init ctx rnd key (some iv)) chunks = some (o, ctx') ∧
      ctx'.Inv := by
  obtain ⟨c, h, hi, _⟩ := feed_brun _ (init_start ctx rnd key iv).inv chunks hc
  exact ⟨_, c, h, hi⟩

example := C08_reachable (blankCtx true) demoMask (some demoKey) demoIv [[1, 2, 3], [4]] (by decide)

example : (dstu_cipher_init (blankCtx true) demoMask (some demoKey) (some demoIv)).Inv :=
  (init_start _ _ _ _).inv

/-- The restriction on overlap is needed: output one byte after the start of the input is wrong. -/
example :
    let m : Mem := fun a => BitVec.ofNat 8 a
    let ctx := dstu_cipher_init (blankCtx true) demoMask (some demoKey) (some demoIv)
    (do_cipher_mem ctx m (some 0) 1 3).map (fun r => rd r.2.2 1 3) ≠
      (dstu_cipher_do_cipher ctx (.buf (rd m 0 3))).map (·.out) := by decide +kernel

/-! ## C09 -/

/-- C09: the three cases of an update.  In the successful case exactly `n` bytes are produced. -/
theorem C09_return_value (ctx : CipherCtx) (hctx : ctx.Inv) :
    (∀ l : List Byte, l ≠ [] → ∃ r, dstu_cipher_do_cipher ctx (.buf l) = some r ∧
      r.ret = l.length ∧ r.out.length = l.length) ∧
    dstu_cipher_do_cipher ctx (.null 0) = some ⟨0, [], ctx⟩ ∧
    (∀ n, 0 < n → dstu_cipher_do_cipher ctx (.null n) = some ⟨-1, [], ctx⟩) ∧
    dstu_cipher_do_cipher ctx (.buf []) = some ⟨-1, [], ctx⟩ := by
  refine ⟨?_, rfl, ?_, rfl⟩
  · intro l hl
    obtain ⟨c, e, _⟩ := do_cipher_brun ctx hctx l hl
    exact ⟨_, e, rfl, brun_length _ _ _ _⟩
  · intro n hn
    cases n with
    | zero => omega
    | succ n => rfl

/-- C09 on memory: the failing and the final call write nothing. -/
theorem C09_no_write (ctx : CipherCtx) (m : Mem) (out : Nat) :
    do_cipher_mem ctx m none out 0 = some (0, ctx, m) ∧
    (∀ n, 0 < n → do_cipher_mem ctx m none out n = some (-1, ctx, m)) ∧
    (∀ p, do_cipher_mem ctx m (some p) out 0 = some (-1, ctx, m)) := by
  refine ⟨rfl, ?_, fun p => rfl⟩
  intro n hn
  simp only [do_cipher_mem]
  rw [if_neg (by omega)]

example : (dstu_cipher_do_cipher (dstu_cipher_init (blankCtx true) demoMask (some demoKey) (some demoIv))
    (.buf [1, 2, 3])).map (·.ret) = some 3 := by decide +kernel

/-! ## C10 -/

/-- C10: two decryptors with the same key but any IVs get ciphertexts `x1 ++ c` and `x2 ++ c` with
`x1`, `x2` of equal length `n` but otherwise arbitrary, each with its own chunking.  Their outputs
agree at every position from eight bytes after the first block boundary at or after `n`. -/
theorem C10_resync (d1 d2 : CipherCtx) (h1 : d1.encrypting = false) (h2 : d2.encrypting = false)
    (rnd1 rnd2 : Vector W32 8) (key : Bytes 32) (iv1 iv2 : Bytes 8) (x1 x2 c : List Byte)
    (hx : x1.length = x2.length) (ch1 ch2 : List (List Byte)) (hc1 : Spec.Cuts ch1 (x1 ++ c))
    (hc2 : Spec.Cuts ch2 (x2 ++ c)) :
    ∃ o1 o2 e1 e2,
      Spec.feed (dstu_cipher_init d1 rnd1 (some key) (some iv1)) ch1 = some (o1, e1) ∧
      Spec.feed (dstu_cipher_init d2 rnd2 (some key) (some iv2)) ch2 = some (o2, e2) ∧
      ∀ i, 8 * ((x1.length + 7) / 8) + 8 ≤ i → o1[i]? = o2[i]? := by
  have s1 := init_start d1 rnd1 (some key) iv1
  have s2 := init_start d2 rnd2 (some key) iv2
  obtain ⟨a1, f1, _⟩ := feed_brun _ s1.inv ch1 hc1.1
  obtain ⟨a2, f2, _⟩ := feed_brun _ s2.inv ch2 hc2.1
  rw [s1.bs, init_encrypting, h1, init_encrypt, hc1.2] at f1
  rw [s2.bs, init_encrypting, h2, init_encrypt, hc2.2] at f2
  refine ⟨_, _, a1, a2, f1, f2, ?_⟩
  intro i hi
  generalize Spec.encrypt (Spec.tableOf default_sbox) key = E
  generalize hS : (⟨iv1, E iv1, 0⟩ : BState) = S
  generalize hT : (⟨iv2, E iv2, 0⟩ : BState) = T
  have pS : S.pos = 0 := by rw [← hS]
  have pT : T.pos = 0 := by rw [← hT]
  by_cases hlen : i < (x1 ++ c).length
  swap
  · rw [List.getElem?_eq_none (by rw [brun_length]; omega),
      List.getElem?_eq_none (by rw [brun_length]; simp at hlen ⊢; omega)]
  -- split the common part at the block boundary and after the following block
  obtain ⟨k, hk⟩ : ∃ k, k = 8 * ((x1.length + 7) / 8) - x1.length := ⟨_, rfl⟩
  have hkb : x1.length + k = 8 * ((x1.length + 7) / 8) := by omega
  simp only [List.length_append] at hlen
  have hkc : k + 8 ≤ c.length := by omega
  have hsplit : ∀ x : List Byte, x ++ c = (x ++ c.take k) ++ ((c.drop k).take 8 ++ c.drop (k + 8)) := by
    intro x
    rw [← List.drop_drop, List.take_append_drop, List.append_assoc, List.take_append_drop]
  have hp1 : (brun E false S (x1 ++ c.take k)).1.pos = 0 := by
    apply Fin.ext
    rw [brun_pos, pS]
    simp only [List.length_append, List.length_take]
    show (0 + _) % 8 = 0
    omega
  have hp2 : (brun E false T (x2 ++ c.take k)).1.pos = 0 := by
    apply Fin.ext
    rw [brun_pos, pT]
    simp only [List.length_append, List.length_take]
    show (0 + _) % 8 = 0
    omega
  rw [hsplit x1, hsplit x2, brun_append, brun_append E false T, brun_append, brun_append E false _ (List.take 8 _)]
  simp only
  rw [brun_resync E _ _ hp1 hp2 (c.drop k) (by simp; omega)]
  rw [← List.append_assoc, ← List.append_assoc]
  rw [List.getElem?_append_right (by simp [brun_length]; omega),
    List.getElem?_append_right (by simp [brun_length]; omega)]
  simp [brun_length, hx]

example := C10_resync (blankCtx false) (blankCtx false) rfl rfl demoMask demoMask demoKey demoIv (zeros 8) [5] [200] [0, 1, 2] rfl [[5], [0, 1, 2]] [[200, 0], [1, 2]]
  ⟨by decide, by decide⟩ ⟨by decide, by decide⟩

example :
    let d := dstu_cipher_init (blankCtx false) demoMask (some demoKey)
    let c : List Byte := [0, 0, 1, 2, 3, 4, 5, 6, 7, 8, 9, 10, 11, 12, 13, 14, 15, 16, 17, 18, 19]
    (Spec.feed (d (some demoIv)) [[5] ++ c]).map (fun r => r.1.drop 16) =
      (Spec.feed (d (some (zeros 8))) [[200] ++ c]).map (fun r => r.1.drop 16) ∧
    (Spec.feed (d (some demoIv)) [[5] ++ c]).map (fun r => r.1.drop 15) ≠
      (Spec.feed (d (some (zeros 8))) [[200] ++ c]).map (fun r => r.1.drop 15) := by
  decide +kernel

/-! ## C11 -/

/-- C11, key first: the context is the same as after one call with both. -/
theorem C11_key_then_iv (ctx : CipherCtx) (rnd rnd' : Vector W32 8) (key : Bytes 32) (iv : Bytes 8) :
    dstu_cipher_init (dstu_cipher_init ctx rnd (some key) none) rnd' none (some iv) =
      dstu_cipher_init ctx rnd (some key) (some iv) := by
  simp only [dstu_cipher_init, gost_init, kboxinit, gost_key, gost_key_impl]

/-- C11 as stated: in either order the two calls are equivalent to one, i.e. give the same outputs for
all later updates. -/
def C11_full : Prop :=
  ∀ (ctx : CipherCtx) (rnd rnd' : Vector W32 8) (key : Bytes 32) (iv : Bytes 8)
    (chunks : List (List Byte)),
    (Spec.feed (dstu_cipher_init (dstu_cipher_init ctx rnd (some key) none) rnd' none (some iv))
      chunks).map (·.1) =
      (Spec.feed (dstu_cipher_init ctx rnd (some key) (some iv)) chunks).map (·.1) ∧
    (Spec.feed (dstu_cipher_init (dstu_cipher_init ctx rnd none (some iv)) rnd' (some key) none)
      chunks).map (·.1) =
      (Spec.feed (dstu_cipher_init ctx rnd (some key) (some iv)) chunks).map (·.1)

/-- The code violates C11: with the IV first, the key stream block computed with the old key is used
for a first update shorter than a block. -/
theorem C11_full_refuted : ¬ C11_full := by
  intro h
  have := (h (blankCtx true) demoMask demoMask demoKey demoIv [[0x31]]).2
  revert this
  decide +kernel

/-- C11, IV first, what does hold: all outputs are right if the first update has at least eight
bytes.  Missing for the full property: a first update of 1 to 7 bytes. -/
theorem C11_iv_then_key_partial (ctx : CipherCtx) (rnd rnd' : Vector W32 8) (key : Bytes 32)
    (iv : Bytes 8) (c : List Byte) (cs : List (List Byte)) (hc : 8 ≤ c.length) :
    Spec.feed (dstu_cipher_init (dstu_cipher_init ctx rnd none (some iv)) rnd' (some key) none)
      (c :: cs) =
      Spec.feed (dstu_cipher_init ctx rnd' (some key) (some iv)) (c :: cs) := by
  have key' : ∀ (x : CipherCtx) (b : Bytes 8), x.num = 0 →
      dstu_cipher_do_cipher { x with buf := b } (.buf c) = dstu_cipher_do_cipher x (.buf c) := by
    intro x b hx
    have hb : c.length >>> 3 ≠ 0 := by rw [Nat.shiftRight_eq_div_pow]; omega
    cases c with
    | nil => simp at hc
    | cons a c =>
      have hblocks : dcBlocks { x with buf := b } (a :: c) = dcBlocks x (a :: c) := by
        simp only [dcBlocks, hb, ne_eq, not_false_eq_true, if_true]
      simp only [dstu_cipher_do_cipher, dcHead, hx, ne_eq, not_true_eq_false, if_false,
        Option.bind_eq_bind, Option.bind_some]
      rw [hx] at hblocks
      rw [hblocks]
  have hE : dstu_cipher_init (dstu_cipher_init ctx rnd none (some iv)) rnd' (some key) none =
      { dstu_cipher_init ctx rnd' (some key) (some iv) with
        buf := (dstu_cipher_init ctx rnd none (some iv)).buf } := by
    simp only [dstu_cipher_init, gost_init, kboxinit, gost_key, gost_key_impl]
  rw [hE]
  simp only [Spec.feed]
  rw [key' _ _ rfl]

example := C11_iv_then_key_partial (blankCtx true) demoMask demoMask demoKey demoIv [1, 2, 3, 4, 5, 6, 7, 8, 9] [[1], []] (by decide)

example : (8 : Nat) ≤ [(1 : Byte), 2, 3, 4, 5, 6, 7, 8, 9].length := by decide

/-! ## C12 -/

/-- The context after the S-box control succeeded. -/
theorem setSbox_eq (ctx : CipherCtx) (p : Bytes 64) :
    dstu_cipher_ctrl ctx (.setSbox 64 (some p.toList)) =
      some (1, { ctx with
        g := gost_init ctx.g (some (unpack_sbox p)), iv := ctx.oiv,
        buf := gostcrypt (gost_init ctx.g (some (unpack_sbox p))) ctx.oiv }) := by
  have h : 0 + 64 ≤ p.toList.length := by simp
  have hp : sub p.toList 0 64 h = p := by
    apply Vector.ext
    intro i hi
    simp [sub]
  simp only [dstu_cipher_ctrl, ne_eq, not_true_eq_false, if_false, h, dite_true, hp]

/-- C12 as stated, first half: after any earlier use of the context, the S-box control makes it
encrypt from the original IV with the new S-box. -/
def C12_restart_full : Prop :=
  ∀ (ctx : CipherCtx) (rnd : Vector W32 8) (key : Bytes 32) (iv : Bytes 8) (p : Bytes 64)
    (before after : List (List Byte)), ctx.encrypting = true →
    (∀ c ∈ before, c ≠ []) → (∀ c ∈ after, c ≠ []) →
    ∃ o ctx1 ctx2 ctx3,
      Spec.feed (dstu_cipher_init ctx rnd (some key) (some iv)) before = some (o, ctx1) ∧
      dstu_cipher_ctrl ctx1 (.setSbox 64 (some p.toList)) = some (1, ctx2) ∧
      Spec.feed ctx2 after =
        some (Spec.cfbEncrypt (Spec.encrypt (Spec.tableOf p) key) iv after.flatten, ctx3)

/-- The code violates it: the position inside the key stream block is not reset. -/
theorem C12_restart_refuted : ¬ C12_restart_full := by
  intro h
  obtain ⟨o, c1, c2, c3, h1, h2, h3⟩ := h (blankCtx true) demoMask demoKey demoIv demoSbox [[1]] [[0]]
    rfl (by decide) (by decide)
  have hc : Spec.cfbEncrypt (Spec.encrypt (Spec.tableOf demoSbox) demoKey) demoIv [[0]].flatten =
      List.zipWith (· ^^^ ·) [0] (Spec.encrypt (Spec.tableOf demoSbox) demoKey demoIv).toList := by
    rw [Spec.cfbEncrypt]
    rfl
  rw [hc] at h3
  have hk : ((Spec.feed (dstu_cipher_init (blankCtx true) demoMask (some demoKey) (some demoIv)) [[1]]).bind
      fun r => (dstu_cipher_ctrl r.2 (.setSbox 64 (some demoSbox.toList))).bind
        fun q => (Spec.feed q.2 [[0]]).map (·.1)) ≠
      some (List.zipWith (· ^^^ ·) [0]
        (Spec.encrypt (Spec.tableOf demoSbox) demoKey demoIv).toList) := by
    decide +kernel
  rw [h1] at hk
  simp only [Option.bind_some] at hk
  rw [h2] at hk
  simp only [Option.bind_some] at hk
  rw [h3] at hk
  exact hk rfl

/-- C12, first half, what does hold: if the number of bytes processed before is a multiple of eight, in
particular if it is zero, the context encrypts from the original IV with the new S-box, for all
later updates.  Missing for the full property: the other byte counts. -/
theorem C12_restart_partial (ctx : CipherCtx) (he : ctx.encrypting = true) (rnd : Vector W32 8)
    (key : Bytes 32) (iv : Bytes 8) (p : Bytes 64) (before after : List (List Byte))
    (hb : ∀ c ∈ before, c ≠ []) (ha : ∀ c ∈ after, c ≠ []) (h8 : before.flatten.length % 8 = 0) :
    ∃ o ctx1 ctx2 ctx3,
      Spec.feed (dstu_cipher_init ctx rnd (some key) (some iv)) before = some (o, ctx1) ∧
      dstu_cipher_ctrl ctx1 (.setSbox 64 (some p.toList)) = some (1, ctx2) ∧
      Spec.feed ctx2 after =
        some (Spec.cfbEncrypt (Spec.encrypt (Spec.tableOf p) key) iv after.flatten, ctx3) := by
  have s := init_start ctx rnd (some key) iv
  obtain ⟨c1, f1, i1, m1, b1⟩ := feed_brun _ s.inv before hb
  have hnum : c1.num = 0 := by
    have := congrArg (fun t => t.pos.val) b1
    simp only [brun_pos, CipherCtx.bs] at this
    have h0 : (0 + before.flatten.length) % 8 = 0 := by omega
    have h1 : (8 - c1.num) % 8 = 0 := by
      rw [this, s.num]
      exact h0
    have := i1.num_lt
    omega
  have hoiv : c1.oiv = iv := by rw [m1.2.1]; rfl
  have hk : c1.g.keys = Spec.subkeys key := by rw [m1.1]; exact keys_gost_key _ _ _
  have henc : c1.encrypting = true := by rw [m1.2.2, init_encrypting, he]
  have ht : (gost_init c1.g (some (unpack_sbox p))).Tables (Spec.tableOf p) :=
    kboxinit_tables c1.g _ _ (unpack_holds p)
  obtain ⟨c3, f3, _⟩ := feed_start_enc
    { c1 with g := gost_init c1.g (some (unpack_sbox p)), iv := c1.oiv,
              buf := gostcrypt (gost_init c1.g (some (unpack_sbox p))) c1.oiv } iv
    ⟨hnum, by rw [hoiv], hoiv⟩ henc after ha
  refine ⟨_, c1, _, c3, f1, setSbox_eq c1 p, ?_⟩
  rw [f3]
  have : gostcrypt (gost_init c1.g (some (unpack_sbox p))) =
      Spec.encrypt (Spec.tableOf p) key := by
    funext blk
    rw [gostcrypt_spec _ _ ht]
    rw [keys_gost_init, hk]
    rfl
  rw [this]

example (p : Bytes 64) := C12_restart_partial (blankCtx true) rfl demoMask demoKey demoIv p [[1, 2, 3, 4, 5], [6, 7, 8]] [[1]] (by decide) (by decide) (by decide)

example : ([[1, 2, 3, 4, 5], [6, 7, 8]] : List (List Byte)).flatten.length % 8 = 0 := by decide

/-- C12: the control fails and changes nothing if the length is not 64 or the pointer is null. -/
theorem C12_reject (ctx : CipherCtx) (p1 : Int) (p2 : Option (List Byte)) (h : p1 ≠ 64 ∨ p2 = none) :
    dstu_cipher_ctrl ctx (.setSbox p1 p2) = some (0, ctx) := by
  cases p2 with
  | none => rfl
  | some l =>
    have : p1 ≠ 64 := by simpa using h
    simp only [dstu_cipher_ctrl, this, ne_eq, not_false_eq_true, if_true]

example := C12_reject (blankCtx true) 63 (some (List.replicate 63 0)) (Or.inl (by decide))

/-- C12 as stated, second half: initialising the context again with only an IV keeps the S-box. -/
def C12_persist_full : Prop :=
  ∀ (ctx : CipherCtx) (rnd rnd' : Vector W32 8) (key : Bytes 32) (iv iv' : Bytes 8) (p : Bytes 64),
    ∃ ctx1, dstu_cipher_ctrl (dstu_cipher_init ctx rnd (some key) (some iv))
        (.setSbox 64 (some p.toList)) = some (1, ctx1) ∧
      ∀ blk, gostcrypt (dstu_cipher_init ctx1 rnd' none (some iv')).g blk =
        Spec.encrypt (Spec.tableOf p) key blk

/-- The code violates it: every initialisation installs the default S-box. -/
theorem C12_persist_refuted : ¬ C12_persist_full := by
  intro h
  obtain ⟨c1, h1, h2⟩ := h (blankCtx true) demoMask demoMask demoKey demoIv demoIv demoSbox
  have h3 := h2 demoIv
  rw [setSbox_eq] at h1
  simp only [Option.some.injEq, Prod.mk.injEq, true_and] at h1
  subst h1
  revert h3
  decide +kernel

/-! ## C13 -/

theorem export_eq (ctx : CipherCtx) :
    dstu_cipher_set_asn1_parameters ctx =
      Spec.cipherParams ctx.oiv.toList (pack_sbox (dstu_get_sbox ctx.g)).toList := by
  simp only [dstu_cipher_set_asn1_parameters, Spec.cipherParams, Spec.der, Spec.derLength]
  simp

theorem import_eq (ctx : CipherCtx) (iv : Bytes 8) (p : Bytes 64) :
    dstu_cipher_get_asn1_parameters ctx ⟨16, Spec.cipherParams iv.toList p.toList⟩ =
      some (1, { ctx with
        g := gost_init ctx.g (some (unpack_sbox p)), oiv := iv, iv := iv,
        buf := gostcrypt (gost_init ctx.g (some (unpack_sbox p))) iv }) := by
  have hd : Spec.cipherParams iv.toList p.toList =
      [0x30, 76, 4, 8] ++ iv.toList ++ [4, 64] ++ p.toList := by
    simp [Spec.cipherParams, Spec.der, Spec.derLength]
  rw [hd]
  obtain ⟨l, hl⟩ : ∃ l, l = [0x30, 76, 4, 8] ++ iv.toList ++ [4, 64] ++ p.toList := ⟨_, rfl⟩
  have hlen : l.length = 78 := by rw [hl]; simp
  have e2 : l[2] = 4 := by simp [hl]
  have e3 : l[3] = 8 := by simp [hl]
  have e12 : l[12] = 4 := by simp [hl]
  have e13 : l[13] = 64 := by simp [hl]
  have hsub : sub l 4 8 (by omega) = iv := by
    apply Vector.ext
    intro i hi
    simp [sub, hl]
  have hdrop : l.drop 14 = p.toList := by
    rw [hl, List.drop_left' (by simp)]
  rw [← hl]
  simp only [dstu_cipher_get_asn1_parameters, ne_eq, hlen, not_true_eq_false, if_false, dite_false,
    e2, e3, e12, e13, hdrop, hsub, setSbox_eq]
  simp

/-- The user's optional step of installing an S-box. -/
def installSbox (ctx : CipherCtx) : Option (Bytes 64) → Option (Int × CipherCtx)
  | none => some (1, ctx)
  | some p => dstu_cipher_ctrl ctx (.setSbox 64 (some p.toList))

/-- C06 for every S-box: after the optional installation of an S-box `p` (`none`: the default one), for every way of cutting
the message the outputs together are the CFB encryption of the message with this S-box. -/
theorem C06_any_sbox (ctx : CipherCtx) (he : ctx.encrypting = true) (rnd : Vector W32 8) (key : Bytes 32) (iv : Bytes 8) (p : Option (Bytes 64))
    (m : List Byte) (chunks : List (List Byte)) (hc : Spec.Cuts chunks m) :
    ∃ ctx1 ctx2, installSbox (dstu_cipher_init ctx rnd (some key) (some iv)) p = some (1, ctx1) ∧
      Spec.feed ctx1 chunks = some (Spec.cfbEncrypt (Spec.encrypt (Spec.tableOf (p.getD default_sbox)) key) iv m, ctx2) := by
  cases p with
  | none =>
    obtain ⟨c, h⟩ := C06_cfb_encrypt ctx he rnd key iv m chunks hc
    exact ⟨_, c, rfl, h⟩
  | some p =>
    obtain ⟨o, c1, c2, c3, h1, h2, h3⟩ := C12_restart_partial ctx he rnd key iv p [] chunks (by simp) hc.1 rfl
    have : c1 = dstu_cipher_init ctx rnd (some key) (some iv) := by
      simp only [Spec.feed, Option.some.injEq, Prod.mk.injEq] at h1
      exact h1.2.symm
    subst this
    exact ⟨c2, c3, h2, by rw [h3, hc.2]; rfl⟩

example := C06_any_sbox (blankCtx true) rfl demoMask demoKey demoIv (some demoSbox) [0x31, 0x32, 0x33] [[0x31], [0x32, 0x33]] ⟨by decide, by decide⟩

/-- C07 for every S-box: if sender and receiver install the same S-box, or none, the receiver gets the message. -/
theorem C07_any_sbox (snd rcv : CipherCtx) (hs : snd.encrypting = true) (hr : rcv.encrypting = false) (rnd rnd' : Vector W32 8) (key : Bytes 32)
    (iv : Bytes 8) (p : Option (Bytes 64)) (m : List Byte) (chunks : List (List Byte)) (hc : Spec.Cuts chunks m) :
    ∃ snd1 rcv1 c snd2, installSbox (dstu_cipher_init snd rnd (some key) (some iv)) p = some (1, snd1) ∧
      installSbox (dstu_cipher_init rcv rnd' (some key) (some iv)) p = some (1, rcv1) ∧
      Spec.feed snd1 chunks = some (c, snd2) ∧ c.length = m.length ∧
      ∀ chunks', Spec.Cuts chunks' c → ∃ rcv2, Spec.feed rcv1 chunks' = some (m, rcv2) := by
  obtain ⟨s1, s2, e1, f1⟩ := C06_any_sbox snd hs rnd key iv p m chunks hc
  have hlen : (Spec.cfbEncrypt (Spec.encrypt (Spec.tableOf (p.getD default_sbox)) key) iv m).length = m.length := by
    rw [← brun_cfbEncrypt, brun_length]
  cases p with
  | none =>
    refine ⟨s1, _, _, s2, e1, rfl, f1, hlen, fun chunks' hc' => ?_⟩
    obtain ⟨c, h', _⟩ := feed_start_dec _ iv (init_start rcv rnd' (some key) iv) (by rw [init_encrypting, hr]) chunks' hc'.1
    exact ⟨c, by rw [h', init_encrypt, hc'.2]; simp only [Option.getD_none]; rw [cfb_dec_enc]⟩
  | some p =>
    refine ⟨s1, _, _, s2, e1, setSbox_eq _ p, f1, hlen, fun chunks' hc' => ?_⟩
    obtain ⟨c, h', _⟩ := feed_start_dec
      { dstu_cipher_init rcv rnd' (some key) (some iv) with
        g := gost_init (dstu_cipher_init rcv rnd' (some key) (some iv)).g (some (unpack_sbox p))
        iv := (dstu_cipher_init rcv rnd' (some key) (some iv)).oiv
        buf := gostcrypt (gost_init (dstu_cipher_init rcv rnd' (some key) (some iv)).g (some (unpack_sbox p)))
          (dstu_cipher_init rcv rnd' (some key) (some iv)).oiv } iv ⟨rfl, rfl, rfl⟩ (by rw [← hr]; rfl) chunks' hc'.1
    have hg : gostcrypt (gost_init (dstu_cipher_init rcv rnd' (some key) (some iv)).g (some (unpack_sbox p))) =
        Spec.encrypt (Spec.tableOf p) key := by
      funext blk
      have ht : (gost_init (dstu_cipher_init rcv rnd' (some key) (some iv)).g (some (unpack_sbox p))).Tables (Spec.tableOf p) :=
        kboxinit_tables _ _ _ (unpack_holds p)
      rw [gostcrypt_spec _ _ ht, keys_gost_init]
      have : (dstu_cipher_init rcv rnd' (some key) (some iv)).g.keys = Spec.subkeys key := keys_gost_key _ _ _
      rw [this]
      rfl
    refine ⟨c, ?_⟩
    rw [h', hc'.2]
    simp only [hg, Option.getD_some]
    rw [cfb_dec_enc]

example := C07_any_sbox (blankCtx true) (blankCtx false) rfl rfl demoMask demoMask demoKey demoIv (some demoSbox) [0x31, 0x32, 0x33] [[0x31], [0x32, 0x33]] ⟨by decide, by decide⟩

/-- With a custom S-box the repository's message is encrypted differently, in any chunking. -/
example : ((installSbox (dstu_cipher_init (blankCtx true) demoMask (some demoKey) (some demoIv)) (some demoSbox)).bind fun r =>
    (Spec.feed r.2 [[0x31], [0x32, 0x33, 0x34], [0x35, 0x36]]).map (·.1)) ≠ some [0x23, 0xa8, 0x38, 0x29, 0x32, 0xae] := by decide +kernel

/-- C13: a sender starts with a key and an IV, optionally installs an S-box `p` (`none`: the default
one), exports its parameters and encrypts a message.  A receiver context that was given the same
key, with or without an IV, imports the parameters and decrypts; the import succeeds and the
receiver gets the message, with any chunking on either side. -/
theorem C13_params_roundtrip (snd rcv : CipherCtx) (hs : snd.encrypting = true)
    (hr : rcv.encrypting = false) (hn : rcv.num = 0) (rnd rnd' : Vector W32 8) (key : Bytes 32)
    (iv : Bytes 8) (iv' : Option (Bytes 8)) (p : Option (Bytes 64)) (m : List Byte)
    (chunks : List (List Byte)) (hc : Spec.Cuts chunks m) :
    ∃ snd1 rcv1 c snd2,
      installSbox (dstu_cipher_init snd rnd (some key) (some iv)) p = some (1, snd1) ∧
      dstu_cipher_get_asn1_parameters (dstu_cipher_init rcv rnd' (some key) iv')
        ⟨16, dstu_cipher_set_asn1_parameters snd1⟩ = some (1, rcv1) ∧
      Spec.feed snd1 chunks = some (c, snd2) ∧
      ∀ chunks', Spec.Cuts chunks' c → ∃ rcv2, Spec.feed rcv1 chunks' = some (m, rcv2) := by
  -- the sender just before encrypting
  obtain ⟨snd1, q, e1, st, ho, ht, hsb, hk, he⟩ : ∃ snd1 q,
        installSbox (dstu_cipher_init snd rnd (some key) (some iv)) p = some (1, snd1) ∧ snd1.Start iv ∧ snd1.oiv = iv ∧
        snd1.g.Tables (Spec.tableOf q) ∧ dstu_get_sbox snd1.g = unpack_sbox q ∧
        snd1.g.keys = Spec.subkeys key ∧ snd1.encrypting = true := by
    cases p with
    | none =>
      refine ⟨_, default_sbox, rfl, init_start _ _ _ _, rfl, ?_, ?_, keys_gost_key _ _ _,
        by rw [init_encrypting, hs]⟩
      · exact tables_gost_key _ _ _ _ (kboxinit_tables _ _ _ (unpack_holds _))
      · have h := get_sbox_holds snd.g (unpack_sbox default_sbox) _ (unpack_holds _)
        exact holds_inj _ _ _ h (unpack_holds _)
    | some p =>
      refine ⟨_, p, setSbox_eq _ _, ⟨rfl, rfl, rfl⟩, rfl, kboxinit_tables _ _ _ (unpack_holds _), ?_, ?_,
        by rw [← hs]; rfl⟩
      · exact holds_inj _ _ _ (get_sbox_holds _ _ _ (unpack_holds p)) (unpack_holds p)
      · show (gost_init _ (some (unpack_sbox p))).keys = _
        rw [keys_gost_init]
        exact keys_gost_key _ _ _
  have hexp : dstu_cipher_set_asn1_parameters snd1 = Spec.cipherParams iv.toList q.toList := by
    rw [export_eq, ho, hsb, pack_unpack]
  obtain ⟨c2, f2, _⟩ := feed_start_enc snd1 iv st he chunks hc.1
  refine ⟨snd1, _, _, c2, e1, by rw [hexp]; exact import_eq _ iv q, f2, ?_⟩
  intro chunks' hc'
  have hrk : (dstu_cipher_init rcv rnd' (some key) iv').g.keys = Spec.subkeys key := by
    cases iv' <;> exact keys_gost_key _ _ _
  have hcrypt : gostcrypt (gost_init (dstu_cipher_init rcv rnd' (some key) iv').g
      (some (unpack_sbox q))) = gostcrypt snd1.g :=
    gostcrypt_congr _ _ _ (kboxinit_tables _ _ _ (unpack_holds q)) ht
      (by rw [keys_gost_init, hrk, hk])
  obtain ⟨c3, f3, _⟩ := feed_start_dec
    { dstu_cipher_init rcv rnd' (some key) iv' with
      g := gost_init (dstu_cipher_init rcv rnd' (some key) iv').g (some (unpack_sbox q)), oiv := iv,
      iv := iv,
      buf := gostcrypt (gost_init (dstu_cipher_init rcv rnd' (some key) iv').g
        (some (unpack_sbox q))) iv } iv
    ⟨by cases iv' <;> simp [dstu_cipher_init, hn], rfl, rfl⟩
    (by simp [init_encrypting, hr]) chunks' hc'.1
  refine ⟨c3, ?_⟩
  rw [f3]
  show some (Spec.cfbDecrypt (gostcrypt (gost_init _ _)) iv _, c3) = _
  rw [hcrypt, hc'.2, hc.2, cfb_dec_enc]

example := C13_params_roundtrip (blankCtx true) (blankCtx false) rfl rfl rfl demoMask demoMask demoKey demoIv none (some demoSbox) [0x31, 0x32, 0x33] [[0x31], [0x32, 0x33]] ⟨by decide, by decide⟩

example : (blankCtx false).num = 0 := rfl

/-! ## C14 -/

/-- C14: if the value is not a SEQUENCE, or its encoding (well-formed DER of a SEQUENCE, as every decoded
`ASN1_TYPE` of that type carries) is not that of an 8-byte and a 64-byte OCTET STRING, import
returns -1 and leaves the context unchanged. -/
theorem C14_malformed_rejected (ctx : CipherCtx) (t : Asn1Type)
    (hder : t.type = 16 → ∃ body, t.data = Spec.der 0x30 body)
    (hbad : t.type ≠ 16 ∨ ¬ ∃ (iv : Bytes 8) (p : Bytes 64),
      t.data = Spec.cipherParams iv.toList p.toList) :
    dstu_cipher_get_asn1_parameters ctx t = some (-1, ctx) := by
  unfold dstu_cipher_get_asn1_parameters
  by_cases h16 : t.type = 16
  swap
  · simp [h16]
  simp only [h16, ne_eq, not_true_eq_false, if_false]
  by_cases hlen : t.data.length = 78
  swap
  · simp [hlen]
  simp only [hlen, not_true_eq_false, dite_false]
  by_cases c1 : t.data[2] = 4 ∧ t.data[3] = 8
  swap
  · have : (decide (¬ t.data[2] = 4) || decide (¬ t.data[3] = 8)) = true := by
      simp only [Bool.or_eq_true, decide_eq_true_eq]
      by_cases h : t.data[2] = 4
      · exact Or.inr fun h' => c1 ⟨h, h'⟩
      · exact Or.inl h
    rw [if_pos this]
  by_cases c2 : t.data[12] = 4 ∧ t.data[13] = 64
  swap
  · have : (decide (¬ t.data[12] = 4) || decide (¬ t.data[13] = 64)) = true := by
      simp only [Bool.or_eq_true, decide_eq_true_eq]
      by_cases h : t.data[12] = 4
      · exact Or.inr fun h' => c2 ⟨h, h'⟩
      · exact Or.inl h
    simp only [c1, decide_not, decide_true, Bool.not_true, Bool.or_self, Bool.false_eq_true, if_false]
    rw [if_pos (by simpa using this)]
  -- all checked bytes are right: the encoding is the expected one
  exfalso
  rcases hbad with h | h
  · exact h h16
  apply h
  obtain ⟨body, hb⟩ := hder h16
  have hbl : body.length = 76 := by
    have hl := congrArg List.length hb
    rw [hlen] at hl
    simp only [Spec.der, Spec.derLength] at hl
    split at hl
    · simp at hl; omega
    · split at hl
      · simp at hl; omega
      · simp at hl; omega
  have hhead : t.data = [0x30, 76] ++ body := by
    rw [hb]; simp [Spec.der, Spec.derLength, hbl]
  refine ⟨Vector.ofFn fun i : Fin 8 => t.data[4 + i.val], Vector.ofFn fun i : Fin 64 => t.data[14 + i.val], ?_⟩
  apply List.ext_getElem
  · refine hlen.trans ?_
    simp [Spec.cipherParams, Spec.der, Spec.derLength]
  · intro i h1 h2
    rw [hlen] at h1
    have hp : Spec.cipherParams (Vector.ofFn fun i : Fin 8 => t.data[4 + i.val]).toList
        (Vector.ofFn fun i : Fin 64 => t.data[14 + i.val]).toList =
        [0x30, 76, 4, 8] ++ (Vector.ofFn fun i : Fin 8 => t.data[4 + i.val]).toList ++ [4, 64] ++
          (Vector.ofFn fun i : Fin 64 => t.data[14 + i.val]).toList := by
      simp [Spec.cipherParams, Spec.der, Spec.derLength]
    have g0 : t.data[0] = 0x30 := by simp [hhead]
    have g1 : t.data[1] = 76 := by simp [hhead]
    simp only [hp]
    by_cases k1 : i < 4
    · have : i = 0 ∨ i = 1 ∨ i = 2 ∨ i = 3 := by omega
      rcases this with rfl | rfl | rfl | rfl <;> simp [g0, g1, c1.1, c1.2]
    by_cases k2 : i < 12
    · obtain ⟨j, rfl⟩ : ∃ j, i = 4 + j := ⟨i - 4, by omega⟩
      rw [List.getElem_append_left (by simp; omega), List.getElem_append_left (by simp; omega),
        List.getElem_append_right (by simp)]
      simp
    by_cases k3 : i < 14
    · have : i = 12 ∨ i = 13 := by omega
      rcases this with rfl | rfl <;> simp [c2.1, c2.2]
    · obtain ⟨j, rfl⟩ : ∃ j, i = 14 + j := ⟨i - 14, by omega⟩
      rw [List.getElem_append_right (by simp)]
      simp

example (ctx : CipherCtx) : dstu_cipher_get_asn1_parameters ctx ⟨16, [0x30, 0]⟩ = some (-1, ctx) := by
  refine C14_malformed_rejected ctx _ (fun _ => ⟨[], rfl⟩) (Or.inr ?_)
  rintro ⟨iv, p, h⟩
  have := congrArg List.length h
  simp [Spec.cipherParams, Spec.der, Spec.derLength] at this

/-- The hypotheses are met, e.g., by an empty SEQUENCE. -/
example : (∃ body, ([0x30, 0] : List Byte) = Spec.der 0x30 body) ∧
    ¬ ∃ (iv : Bytes 8) (p : Bytes 64), ([0x30, 0] : List Byte) = Spec.cipherParams iv.toList p.toList := by
  refine ⟨⟨[], rfl⟩, ?_⟩
  rintro ⟨iv, p, h⟩
  have := congrArg List.length h
  simp [Spec.cipherParams, Spec.der, Spec.derLength] at this

/-- Without the hypothesis that the bytes are well-formed DER the statement fails: the first two bytes are
not looked at. -/
theorem C14_header_unchecked :
    ∃ (ctx : CipherCtx) (t : Asn1Type), t.type = 16 ∧ t.data.head? = some 0xff ∧
      (dstu_cipher_get_asn1_parameters ctx t).map (·.1) = some 1 := by
  refine ⟨blankCtx true, ⟨16, [0xff, 0xff, 4, 8] ++ List.replicate 8 0 ++ [4, 64] ++ List.replicate 64 0⟩,
    rfl, rfl, ?_⟩
  decide +kernel

end Dstu.Props
