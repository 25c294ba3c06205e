import Verif.Model.Envelope
import Verif.Props.Cipher

/-!
# Properties C83, C84: the cipher inside CMS, PKCS#7 and PBES2
-/

namespace Dstu.Props

open Dstu

/-- With no byte of a block used yet, the stored key stream block does not matter for a first update
of at least eight bytes. -/
theorem feed_stale (x : CipherCtx) (b : Bytes 8) (hx : x.num = 0) (c : List Byte)
    (cs : List (List Byte)) (hc : 8 ≤ c.length) :
    Spec.feed { x with buf := b } (c :: cs) = Spec.feed x (c :: cs) := by
  have key' : dstu_cipher_do_cipher { x with buf := b } (.buf c) =
      dstu_cipher_do_cipher x (.buf c) := by
    have hb : c.length >>> 3 ≠ 0 := by rw [Nat.shiftRight_eq_div_pow]; omega
    cases c with
    | nil => simp at hc
    | cons a c =>
      have hblocks : dcBlocks { x with buf := b } (a :: c) = dcBlocks x (a :: c) := by
        simp only [dcBlocks, hb, ne_eq, not_false_eq_true, if_true]
      simp only [dstu_cipher_do_cipher, dcHead, hx, ne_eq, not_true_eq_false, if_false,
        Option.bind_eq_bind, Option.bind_some]
      rw [hx] at hblocks
      rw [hblocks]
  simp only [Spec.feed, key']

/-- A first update shorter than a block is combined with the stored key stream block. -/
theorem feed_short (x : CipherCtx) (hx : x.num = 0) (c : List Byte) (hc : c ≠ [])
    (h8 : c.length < 8) :
    ∃ x', Spec.feed x [c] = some (List.zipWith (· ^^^ ·) c x.buf.toList, x') := by
  obtain ⟨a, c', rfl⟩ := List.exists_cons_of_ne_nil hc
  have hb : (a :: c').length >>> 3 = 0 := by
    rw [Nat.shiftRight_eq_div_pow]
    omega
  have h1 : dcHead x (a :: c') = some (x, [], a :: c') := by
    simp only [dcHead, hx, ne_eq, not_true_eq_false, if_false]
  have h2 : dcBlocks x (a :: c') = some (x, [], a :: c') := by
    simp only [dcBlocks, hb, ne_eq, not_true_eq_false, if_false]
  have h3 := xorLoop_eq x.encrypting x.buf x.iv 0 (a :: c') (by omega)
  simp only [Spec.feed, dstu_cipher_do_cipher, h1, h2, dcTail, Option.bind_eq_bind,
    Option.bind_some, ne_eq, reduceCtorEq, not_false_eq_true, if_true, h3, List.drop_zero,
    List.nil_append, Option.pure_def, List.append_nil]
  rw [if_pos]
  · exact ⟨_, rfl⟩
  · simp only [List.length_zipWith, Vector.length_toList]
    omega

theorem zip_xor_xor (m : List Byte) (b : List Byte) (h : m.length ≤ b.length) :
    List.zipWith (· ^^^ ·) (List.zipWith (· ^^^ ·) m b) b = m := by
  induction m generalizing b with
  | nil => rfl
  | cons a m ih =>
    cases b with
    | nil => simp at h
    | cons c b =>
      simp only [List.zipWith_cons_cons, List.cons.injEq]
      exact ⟨by rw [BitVec.xor_assoc, BitVec.xor_self, BitVec.xor_zero],
        ih b (by simpa using h)⟩

/-- The key stream block stored when the parameters come before the key: computed with the zero key
of the fresh context. -/
def staleBlock (iv : Bytes 8) (p : Bytes 64) : Bytes 8 :=
  gostcrypt (gost_init (gost_init (freshCipher true).g (some (unpack_sbox default_sbox)))
    (some (unpack_sbox p))) iv

/-- A context whose parameters came before the key is the one initialised with key and IV, except
for the stored key stream block. -/
theorem paramsThenKey_eq (enc : Bool) (r : Vector W32 8) (key : Bytes 32) (iv : Bytes 8)
    (p : Bytes 64) :
    paramsThenKey enc r ⟨16, Spec.cipherParams iv.toList p.toList⟩ key =
      some (some { dstu_cipher_init (freshCipher enc) r (some key) (some iv) with
        buf := staleBlock iv p }) := by
  unfold paramsThenKey staleBlock
  have hg : (freshCipher true).g = (freshCipher enc).g := rfl
  have hn : (freshCipher enc).num = 0 := rfl
  rw [hg]
  generalize freshCipher enc = x at hn ⊢
  simp only [import_eq]
  simp only [dstu_cipher_init, gost_init, kboxinit, gost_key, gost_key_impl, hn]
  rfl

theorem seal_params (r : Vector W32 8) (key : Option (Bytes 32)) (iv : Bytes 8) (x : CipherCtx) :
    dstu_cipher_set_asn1_parameters (dstu_cipher_init x r key (some iv)) =
      Spec.cipherParams iv.toList default_sbox.toList := by
  rw [export_eq]
  have h : dstu_get_sbox (dstu_cipher_init x r key (some iv)).g = unpack_sbox default_sbox := by
    have h := get_sbox_holds x.g (unpack_sbox default_sbox) _ (unpack_holds _)
    cases key <;> exact holds_inj _ _ _ h (unpack_holds _)
  rw [h, pack_unpack]
  rfl

/-! ## C83 -/

/-- C83, sending: through CMS and through PKCS#7 the parameters are the IV and the default S-box,
and the content is encrypted with GOST 28147-89 in CFB mode under exactly these. -/
theorem C83_seal (r : Vector W32 8) (key : Bytes 32) (iv : Bytes 8) (m : List Byte)
    (chunks : List (List Byte)) (hc : Spec.Cuts chunks m) :
    ∀ s ∈ [cmsSeal r key iv, pkcs7Seal r key iv],
      s.1 = Spec.cipherParams iv.toList default_sbox.toList ∧
      ∃ ctx', Spec.feed s.2 chunks =
        some (Spec.cfbEncrypt (Spec.encrypt (Spec.tableOf default_sbox) key) iv m, ctx') := by
  intro s hs
  simp only [List.mem_cons, List.not_mem_nil, or_false] at hs
  rcases hs with rfl | rfl
  · exact ⟨seal_params _ _ _ _, C06_cfb_encrypt _ rfl r key iv m chunks hc⟩
  · exact ⟨seal_params _ _ _ _, C06_cfb_encrypt _ rfl r key iv m chunks hc⟩

/-- C83, receiving, as stated: content encrypted with the S-box and IV of its parameters, cut in any
way, is decrypted to the message. -/
def C83_open_full : Prop :=
  ∀ (r : Vector W32 8) (key : Bytes 32) (iv : Bytes 8) (p : Bytes 64) (m : List Byte)
    (chunks : List (List Byte)),
    Spec.Cuts chunks (Spec.cfbEncrypt (Spec.encrypt (Spec.tableOf p) key) iv m) →
    ∃ ctx ctx', paramsThenKey false r ⟨16, Spec.cipherParams iv.toList p.toList⟩ key =
        some (some ctx) ∧ Spec.feed ctx chunks = some (m, ctx')

/-- C83, receiving, what does hold: well-formed parameters are accepted, and content encrypted with
the default S-box is decrypted when the first piece has at least eight bytes.  Missing for the full
property: other S-boxes and a short first piece. -/
theorem C83_open_partial (r : Vector W32 8) (key : Bytes 32) (iv : Bytes 8) (m : List Byte)
    (c : List Byte) (cs : List (List Byte)) (h8 : 8 ≤ c.length)
    (hc : Spec.Cuts (c :: cs)
      (Spec.cfbEncrypt (Spec.encrypt (Spec.tableOf default_sbox) key) iv m)) :
    ∃ ctx ctx', paramsThenKey false r ⟨16, Spec.cipherParams iv.toList default_sbox.toList⟩ key =
        some (some ctx) ∧ Spec.feed ctx (c :: cs) = some (m, ctx') := by
  rw [paramsThenKey_eq]
  obtain ⟨ctx', h, _⟩ := feed_start_dec _ iv (init_start (freshCipher false) r (some key) iv)
    (by rw [init_encrypting]; rfl) (c :: cs) hc.1
  refine ⟨_, ctx', rfl, ?_⟩
  rw [feed_stale _ _ rfl _ _ h8, h, init_encrypt, hc.2, cfb_dec_enc]

/-- C83, round trip of the engine with itself, under the condition of `C83_open_partial`: what a
sender seals through CMS or PKCS#7 the receiver opens. -/
theorem C83_roundtrip_partial (r r' : Vector W32 8) (key : Bytes 32) (iv : Bytes 8) (m : List Byte)
    (chunks : List (List Byte)) (hc : Spec.Cuts chunks m) :
    ∀ s ∈ [cmsSeal r key iv, pkcs7Seal r key iv], ∃ out s',
      Spec.feed s.2 chunks = some (out, s') ∧
      ∀ c cs, Spec.Cuts (c :: cs) out → 8 ≤ c.length →
        ∃ ctx ctx', paramsThenKey false r' ⟨16, s.1⟩ key = some (some ctx) ∧
          Spec.feed ctx (c :: cs) = some (m, ctx') := by
  intro s hs
  obtain ⟨h1, s', h2⟩ := C83_seal r key iv m chunks hc s hs
  refine ⟨_, s', h2, fun c cs hcs h8 => ?_⟩
  rw [h1]
  exact C83_open_partial r' key iv m c cs h8 hcs

example : ∃ c cs, Spec.Cuts (c :: cs) (Spec.cfbEncrypt
      (Spec.encrypt (Spec.tableOf default_sbox) demoKey) demoIv [1, 2, 3, 4, 5, 6, 7, 8, 9]) ∧
    8 ≤ c.length := by
  refine ⟨(Spec.cfbEncrypt (Spec.encrypt (Spec.tableOf default_sbox) demoKey) demoIv
    [1, 2, 3, 4, 5, 6, 7, 8, 9]).take 8, [(Spec.cfbEncrypt (Spec.encrypt
      (Spec.tableOf default_sbox) demoKey) demoIv [1, 2, 3, 4, 5, 6, 7, 8, 9]).drop 8], ⟨?_, ?_⟩, ?_⟩
  · decide +kernel
  · simp
  · decide +kernel

/-- C83: the S-box in the parameters is ignored for content whose first piece has at least eight
bytes: it is decrypted with the default S-box whatever the sender used. -/
theorem C83_sbox_ignored_refuted (r : Vector W32 8) (key : Bytes 32) (iv : Bytes 8) (p : Bytes 64)
    (c : List Byte) (cs : List (List Byte)) (h8 : 8 ≤ c.length) (hc : ∀ x ∈ c :: cs, x ≠ []) :
    ∃ ctx ctx', paramsThenKey false r ⟨16, Spec.cipherParams iv.toList p.toList⟩ key =
        some (some ctx) ∧
      Spec.feed ctx (c :: cs) = some (Spec.cfbDecrypt
        (Spec.encrypt (Spec.tableOf default_sbox) key) iv (c :: cs).flatten, ctx') := by
  rw [paramsThenKey_eq]
  obtain ⟨ctx', h, _⟩ := feed_start_dec _ iv (init_start (freshCipher false) r (some key) iv)
    (by rw [init_encrypting]; rfl) (c :: cs) hc
  refine ⟨_, ctx', rfl, ?_⟩
  rw [feed_stale _ _ rfl _ _ h8, h, init_encrypt]

/-- This makes a difference: a message encrypted with another S-box is not recovered. -/
example : Spec.cfbDecrypt (Spec.encrypt (Spec.tableOf default_sbox) demoKey) demoIv
    (Spec.cfbEncrypt (Spec.encrypt (Spec.tableOf demoSbox) demoKey) demoIv
      [1, 2, 3, 4, 5, 6, 7, 8, 9]) ≠ [1, 2, 3, 4, 5, 6, 7, 8, 9] := by decide +kernel

/-- C83: content that arrives in one piece of fewer than eight bytes is opened without using the key:
any two keys give the same plaintext. -/
theorem C83_short_refuted (r r' : Vector W32 8) (key key' : Bytes 32) (iv : Bytes 8) (p : Bytes 64)
    (c : List Byte) (hc : c ≠ []) (h8 : c.length < 8) :
    ∃ ctx1 ctx2 ctx1' ctx2' out,
      paramsThenKey false r ⟨16, Spec.cipherParams iv.toList p.toList⟩ key = some (some ctx1) ∧
      paramsThenKey false r' ⟨16, Spec.cipherParams iv.toList p.toList⟩ key' = some (some ctx2) ∧
      Spec.feed ctx1 [c] = some (out, ctx1') ∧ Spec.feed ctx2 [c] = some (out, ctx2') := by
  rw [paramsThenKey_eq, paramsThenKey_eq]
  obtain ⟨x1, h1⟩ := feed_short { dstu_cipher_init (freshCipher false) r (some key) (some iv) with
    buf := staleBlock iv p } rfl c hc h8
  obtain ⟨x2, h2⟩ := feed_short { dstu_cipher_init (freshCipher false) r' (some key') (some iv) with
    buf := staleBlock iv p } rfl c hc h8
  exact ⟨_, _, x1, x2, _, rfl, rfl, h1, h2⟩

example : ([1, 2, 3] : List Byte) ≠ [] ∧ ([1, 2, 3] : List Byte).length < 8 := by decide

theorem C83_open_refuted : ¬ C83_open_full := by
  intro h
  obtain ⟨ctx, ctx', h1, h2⟩ := h demoMask demoKey demoIv default_sbox [0x31] [[0x23]]
    ⟨by decide, by decide +kernel⟩
  rw [paramsThenKey_eq] at h1
  simp only [Option.some.injEq] at h1
  subst h1
  obtain ⟨x, h3⟩ := feed_short { dstu_cipher_init (freshCipher false) demoMask (some demoKey)
    (some demoIv) with buf := staleBlock demoIv default_sbox } rfl [0x23] (by decide) (by decide)
  rw [h3] at h2
  simp only [Option.some.injEq, Prod.mk.injEq] at h2
  revert h2
  have : List.zipWith (· ^^^ ·) [(0x23 : Byte)] (staleBlock demoIv default_sbox).toList ≠ [0x31] := by
    decide +kernel
  exact fun h => absurd h.1 this

/-! ## C84 -/

/-- C84: data encrypted with a key derived from a password is recovered with the same key. -/
theorem C84_roundtrip (r r' r'' : Vector W32 8) (key : Bytes 32) (iv : Bytes 8) (m : List Byte)
    (hm : m ≠ []) :
    ∃ snd rcv snd' rcv' c,
      paramsThenKey true r ⟨16, pbeParams r'' iv⟩ key = some (some snd) ∧
      Spec.feed snd [m] = some (c, snd') ∧
      paramsThenKey false r' ⟨16, pbeParams r'' iv⟩ key = some (some rcv) ∧
      Spec.feed rcv [c] = some (m, rcv') := by
  unfold pbeParams
  rw [seal_params, paramsThenKey_eq, paramsThenKey_eq]
  by_cases h8 : m.length < 8
  · obtain ⟨x1, h1⟩ := feed_short { dstu_cipher_init (freshCipher true) r (some key) (some iv) with
      buf := staleBlock iv default_sbox } rfl m hm h8
    have hl : (List.zipWith (· ^^^ ·) m (staleBlock iv default_sbox).toList).length = m.length := by
      simp only [List.length_zipWith, Vector.length_toList]
      omega
    obtain ⟨x2, h2⟩ := feed_short { dstu_cipher_init (freshCipher false) r' (some key) (some iv) with
      buf := staleBlock iv default_sbox } rfl
      (List.zipWith (· ^^^ ·) m (staleBlock iv default_sbox).toList)
      (by intro h; rw [h] at hl; exact hm (List.length_eq_zero_iff.mp hl.symm)) (by omega)
    refine ⟨_, _, x1, x2, _, rfl, h1, rfl, ?_⟩
    rw [h2]
    show some (List.zipWith (· ^^^ ·) (List.zipWith (· ^^^ ·) m (staleBlock iv default_sbox).toList)
      (staleBlock iv default_sbox).toList, x2) = _
    rw [zip_xor_xor _ _ (by simp only [Vector.length_toList]; omega)]
  · obtain ⟨x1, h1, _⟩ := feed_start_enc _ iv (init_start (freshCipher true) r (some key) iv)
      (by rw [init_encrypting]; rfl) [m] (by simpa using hm)
    have hl : (Spec.cfbEncrypt (Spec.encrypt (Spec.tableOf default_sbox) key) iv m).length =
        m.length := by rw [← brun_cfbEncrypt, brun_length]
    obtain ⟨x2, h2, _⟩ := feed_start_dec _ iv (init_start (freshCipher false) r' (some key) iv)
      (by rw [init_encrypting]; rfl) [Spec.cfbEncrypt (Spec.encrypt (Spec.tableOf default_sbox) key) iv m]
      (by
        simp only [List.mem_cons, List.not_mem_nil, or_false, forall_eq]
        intro h; rw [h] at hl; exact hm (List.length_eq_zero_iff.mp hl.symm))
    rw [init_encrypt] at h1 h2
    simp only [List.flatten_cons, List.flatten_nil, List.append_nil] at h1 h2
    refine ⟨_, _, x1, x2, Spec.cfbEncrypt (Spec.encrypt (Spec.tableOf default_sbox) key) iv m,
      rfl, ?_, rfl, ?_⟩
    · rw [feed_stale _ _ rfl _ _ (by omega), h1]
    · rw [feed_stale _ _ rfl _ _ (by omega), h2, cfb_dec_enc]

example : ([1, 2, 3] : List Byte) ≠ [] := by decide

/-- C84, what is encrypted, as stated: the parameters are the IV and the default S-box, and the
ciphertext is that of GOST 28147-89 in CFB mode under these and the derived key. -/
def C84_standard_full : Prop :=
  ∀ (r r' : Vector W32 8) (key : Bytes 32) (iv : Bytes 8) (m : List Byte), m ≠ [] →
    pbeParams r' iv = Spec.cipherParams iv.toList default_sbox.toList ∧
    ∃ snd snd', paramsThenKey true r ⟨16, pbeParams r' iv⟩ key = some (some snd) ∧
      Spec.feed snd [m] =
        some (Spec.cfbEncrypt (Spec.encrypt (Spec.tableOf default_sbox) key) iv m, snd')

/-- C84, what does hold: data of at least eight bytes.  Missing: shorter data. -/
theorem C84_standard_partial (r r' : Vector W32 8) (key : Bytes 32) (iv : Bytes 8) (m : List Byte)
    (h8 : 8 ≤ m.length) :
    pbeParams r' iv = Spec.cipherParams iv.toList default_sbox.toList ∧
    ∃ snd snd', paramsThenKey true r ⟨16, pbeParams r' iv⟩ key = some (some snd) ∧
      Spec.feed snd [m] =
        some (Spec.cfbEncrypt (Spec.encrypt (Spec.tableOf default_sbox) key) iv m, snd') := by
  unfold pbeParams
  rw [seal_params, paramsThenKey_eq]
  obtain ⟨x1, h1, _⟩ := feed_start_enc _ iv (init_start (freshCipher true) r (some key) iv)
    (by rw [init_encrypting]; rfl) [m] (by intro c hc h; rw [List.mem_singleton] at hc; rw [hc] at h; simp [h] at h8)
  rw [init_encrypt] at h1
  simp only [List.flatten_cons, List.flatten_nil, List.append_nil] at h1
  refine ⟨rfl, _, x1, rfl, ?_⟩
  rw [feed_stale _ _ rfl _ _ h8, h1]

example : (8 : Nat) ≤ [(1 : Byte), 2, 3, 4, 5, 6, 7, 8, 9].length := by decide

/-- C84: data shorter than eight bytes is encrypted without using the key: whoever sees the
ciphertext and the parameters can read it, whatever the password. -/
theorem C84_short_refuted (r r' : Vector W32 8) (key key' : Bytes 32) (iv : Bytes 8)
    (m : List Byte) (hm : m ≠ []) (h8 : m.length < 8) :
    ∃ snd rcv snd' rcv' c,
      paramsThenKey true r ⟨16, pbeParams r' iv⟩ key = some (some snd) ∧
      Spec.feed snd [m] = some (c, snd') ∧
      paramsThenKey false r ⟨16, pbeParams r' iv⟩ key' = some (some rcv) ∧
      Spec.feed rcv [c] = some (m, rcv') := by
  obtain ⟨snd, rcv, snd', rcv', c, h1, h2, h3, h4⟩ := C84_roundtrip r r r' key iv m hm
  have hpar : pbeParams r' iv = Spec.cipherParams iv.toList default_sbox.toList := by
    unfold pbeParams
    exact seal_params _ _ _ _
  have hl : c.length = m.length := by
    rw [hpar, paramsThenKey_eq] at h1
    simp only [Option.some.injEq] at h1
    subst h1
    obtain ⟨x, hx⟩ := feed_short { dstu_cipher_init (freshCipher true) r (some key) (some iv) with
      buf := staleBlock iv default_sbox } rfl m hm h8
    rw [hx] at h2
    simp only [Option.some.injEq, Prod.mk.injEq] at h2
    rw [← h2.1]
    simp only [List.length_zipWith, Vector.length_toList]
    omega
  have hc : c ≠ [] := by
    rintro rfl
    exact hm (List.length_eq_zero_iff.mp hl.symm)
  obtain ⟨c1, c2, c1', c2', out, g1, g2, g3, g4⟩ :=
    C83_short_refuted r r key key' iv default_sbox c hc (by omega)
  rw [hpar] at h1 h3 ⊢
  rw [h3] at g1
  simp only [Option.some.injEq] at g1
  subst g1
  rw [h4] at g3
  simp only [Option.some.injEq, Prod.mk.injEq] at g3
  refine ⟨snd, c2, snd', c2', c, h1, h2, g2, ?_⟩
  rw [g4, ← g3.1]

theorem C84_standard_refuted : ¬ C84_standard_full := by
  intro h
  obtain ⟨hp, snd, snd', h1, h2⟩ := h demoMask demoMask demoKey demoIv [0x31] (by decide)
  rw [hp, paramsThenKey_eq] at h1
  simp only [Option.some.injEq] at h1
  subst h1
  obtain ⟨x, h3⟩ := feed_short { dstu_cipher_init (freshCipher true) demoMask (some demoKey)
    (some demoIv) with buf := staleBlock demoIv default_sbox } rfl [0x31] (by decide) (by decide)
  rw [h3] at h2
  simp only [Option.some.injEq, Prod.mk.injEq] at h2
  have : List.zipWith (· ^^^ ·) [(0x31 : Byte)] (staleBlock demoIv default_sbox).toList ≠
      Spec.cfbEncrypt (Spec.encrypt (Spec.tableOf default_sbox) demoKey) demoIv [0x31] := by
    decide +kernel
  exact absurd h2.1 this

/-- A ciphertext cut after eight bytes, as the theorems on opening want it. -/
example := C83_open_partial demoMask demoKey demoIv [1, 2, 3, 4, 5, 6, 7, 8, 9]
  ((Spec.cfbEncrypt (Spec.encrypt (Spec.tableOf default_sbox) demoKey) demoIv [1, 2, 3, 4, 5, 6, 7, 8, 9]).take 8)
  [(Spec.cfbEncrypt (Spec.encrypt (Spec.tableOf default_sbox) demoKey) demoIv [1, 2, 3, 4, 5, 6, 7, 8, 9]).drop 8]
  (by decide +kernel) ⟨by decide +kernel, by simp⟩

example := C83_sbox_ignored_refuted demoMask demoKey demoIv demoSbox [1, 2, 3, 4, 5, 6, 7, 8] [[9]] (by decide) (by decide)
example := C83_short_refuted demoMask demoMask demoKey (zeros 32) demoIv demoSbox [1, 2, 3] (by decide) (by decide)
example := C84_roundtrip demoMask demoMask demoMask demoKey demoIv [1, 2, 3] (by decide)
example := C84_standard_partial demoMask demoMask demoKey demoIv [1, 2, 3, 4, 5, 6, 7, 8, 9] (by decide)
example := C84_short_refuted demoMask demoMask demoKey (zeros 32) demoIv [1, 2, 3] (by decide) (by decide)

end Dstu.Props
