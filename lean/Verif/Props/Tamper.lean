import Verif.Props.Cipher
import Verif.Props.CipherSessions

/-!
# Property C124: changes of encrypted data are noticed
-/

namespace Dstu.Props

open Spec

/-- Data whose bytes from position `n` on are changed by `d`. -/
def changeAt (x : List Byte) (n : Nat) (d : List Byte) : List Byte :=
  x.take n ++ List.zipWith (· ^^^ ·) ((x.drop n).take d.length) d ++ x.drop (n + d.length)

/-- Decryption with any S-box, or none, is CFB decryption. -/
theorem decrypt_any_sbox (rcv : CipherCtx) (hr : rcv.encrypting = false) (rnd : Vector W32 8) (key : Bytes 32) (iv : Bytes 8) (p : Option (Bytes 64)) :
    ∃ rcv1, installSbox (dstu_cipher_init rcv rnd (some key) (some iv)) p = some (1, rcv1) ∧
      ∀ c chunks, Cuts chunks c → ∃ rcv2, feed rcv1 chunks =
        some (cfbDecrypt (encrypt (tableOf (p.getD default_sbox)) key) iv c, rcv2) := by
  cases p with
  | none =>
    refine ⟨_, rfl, fun c chunks hc => ?_⟩
    obtain ⟨r, h', _⟩ := feed_start_dec _ iv (init_start rcv rnd (some key) iv) (by rw [init_encrypting, hr]) chunks hc.1
    exact ⟨r, by rw [h', init_encrypt, hc.2]; rfl⟩
  | some p =>
    refine ⟨_, setSbox_eq _ p, fun c chunks hc => ?_⟩
    obtain ⟨r, h', _⟩ := feed_start_dec
      { dstu_cipher_init rcv rnd (some key) (some iv) with
        g := gost_init (dstu_cipher_init rcv rnd (some key) (some iv)).g (some (unpack_sbox p))
        iv := (dstu_cipher_init rcv rnd (some key) (some iv)).oiv
        buf := gostcrypt (gost_init (dstu_cipher_init rcv rnd (some key) (some iv)).g (some (unpack_sbox p)))
          (dstu_cipher_init rcv rnd (some key) (some iv)).oiv } iv ⟨rfl, rfl, rfl⟩ (by rw [← hr]; rfl) chunks hc.1
    have hg : gostcrypt (gost_init (dstu_cipher_init rcv rnd (some key) (some iv)).g (some (unpack_sbox p))) =
        Spec.encrypt (Spec.tableOf p) key := by
      funext blk
      have ht : (gost_init (dstu_cipher_init rcv rnd (some key) (some iv)).g (some (unpack_sbox p))).Tables (Spec.tableOf p) :=
        kboxinit_tables _ _ _ (unpack_holds p)
      rw [gostcrypt_spec _ _ ht, keys_gost_init]
      have : (dstu_cipher_init rcv rnd (some key) (some iv)).g.keys = Spec.subkeys key := keys_gost_key _ _ _
      rw [this]
      rfl
    refine ⟨r, ?_⟩
    rw [h', hc.2]
    simp only [hg, Option.getD_some]

/-- Inside a block a change of the input of the decrypting machine is the same change of its output. -/
theorem brun_change (E) (s t : BState) (hb : s.buf = t.buf) (hp : s.pos = t.pos) (l d : List Byte) (hl : l.length = d.length)
    (h8 : s.pos.val + l.length ≤ 8) :
    (brun E false t (List.zipWith (· ^^^ ·) l d)).2 = List.zipWith (· ^^^ ·) (brun E false s l).2 d := by
  induction l generalizing s t d with
  | nil => simp [brun]
  | cons b l ih =>
    cases d with
    | nil => simp at hl
    | cons e d =>
      simp only [List.length_cons] at hl h8
      have ho : ∀ (u : BState) (v : Byte), (bstep E false u v).2 = v ^^^ u.buf[u.pos] := by
        intro u v
        unfold bstep
        by_cases h : u.pos = 7
        · simp only [h, if_true]
        · simp only [h, if_false]
      have hh : (bstep E false t (b ^^^ e)).2 = (bstep E false s b).2 ^^^ e := by
        obtain ⟨i1, b1, p1⟩ := s
        obtain ⟨i2, b2, p2⟩ := t
        simp only at hb hp
        subst hb hp
        rw [ho, ho, BitVec.xor_assoc, BitVec.xor_comm e, ← BitVec.xor_assoc]
      simp only [List.zipWith_cons_cons, brun, hh]
      congr 1
      by_cases h7 : s.pos = 7
      · have hl0 : l = [] := by
          cases l with
          | nil => rfl
          | cons _ _ =>
            rw [h7] at h8
            simp only [List.length_cons] at h8
            have : (7 : Fin 8).val = 7 := rfl
            omega
        subst hl0
        have hd0 : d = [] := by cases d with | nil => rfl | cons _ _ => simp at hl
        subst hd0
        rfl
      · have h7' : ¬ t.pos = 7 := by rw [← hp]; exact h7
        have hsv : s.pos.val ≠ 7 := fun e => h7 (Fin.ext e)
        have hlt := s.pos.isLt
        have hv : (s.pos + 1).val = s.pos.val + 1 := by
          rw [Fin.val_add]
          have : (1 : Fin 8).val = 1 := rfl
          omega
        apply ih
        · simp only [bstep, h7, h7', if_false]; exact hb
        · simp only [bstep, h7', if_false, hp]
        · omega
        · simp only [bstep, h7, if_false, hv]
          omega

/-- What a change of the ciphertext of one block does. -/
theorem cfb_change (E : Bytes 8 → Bytes 8) (iv : Bytes 8) (a b c d : List Byte) (ha : a.length % 8 = 0) (hd : d.length = b.length)
    (hb : b.length ≤ 8) (hc : b.length = 8 ∨ c = []) :
    ∃ c', cfbDecrypt E iv (changeAt (cfbEncrypt E iv (a ++ b ++ c)) a.length d) = a ++ List.zipWith (· ^^^ ·) b d ++ c' ∧
      c'.length = c.length ∧ c'.drop 8 = c.drop 8 := by
  rw [← brun_cfbEncrypt, ← brun_cfbDecrypt]
  generalize hS : (⟨iv, E iv, 0⟩ : BState) = S
  have pS : S.pos = 0 := by rw [← hS]
  rw [List.append_assoc, brun_append, brun_append]
  simp only
  generalize hA : brun E true S a = A
  generalize hB : brun E true A.1 b = B
  generalize hC : brun E true B.1 c = C
  have la : A.2.length = a.length := by rw [← hA, brun_length]
  have lb : B.2.length = b.length := by rw [← hB, brun_length]
  have lc : C.2.length = c.length := by rw [← hC, brun_length]
  have e : changeAt (A.2 ++ (B.2 ++ C.2)) a.length d = A.2 ++ (List.zipWith (· ^^^ ·) B.2 d ++ C.2) := by
    unfold changeAt
    rw [← la, List.take_left, List.drop_left, ← List.drop_drop, List.drop_left, hd, ← lb, List.take_left, List.drop_left, List.append_assoc]
  rw [e, brun_append, brun_append]
  simp only
  have dA : brun E false S A.2 = (A.1, a) := by
    have h1 := brun_dec_enc E S a
    rw [hA] at h1
    have h2 := brun_out_state E S a
    rw [hA] at h2
    exact Prod.ext h2.symm (by rw [h1])
  have dB : brun E false A.1 B.2 = (B.1, b) := by
    have h1 := brun_dec_enc E A.1 b
    rw [hB] at h1
    have h2 := brun_out_state E A.1 b
    rw [hB] at h2
    exact Prod.ext h2.symm (by rw [h1])
  have dC : brun E false B.1 C.2 = (C.1, c) := by
    have h1 := brun_dec_enc E B.1 c
    rw [hC] at h1
    have h2 := brun_out_state E B.1 c
    rw [hC] at h2
    exact Prod.ext h2.symm (by rw [h1])
  have pA : A.1.pos = 0 := by
    apply Fin.ext
    rw [← hA, brun_pos, pS]
    show (0 + a.length) % 8 = 0
    omega
  rw [dA]
  simp only
  have hx := brun_change E A.1 A.1 rfl rfl B.2 d (by omega) (by rw [pA]; show 0 + B.2.length ≤ 8; omega)
  rw [hx, dB]
  simp only
  refine ⟨_, by rw [List.append_assoc], by rw [brun_length, lc], ?_⟩
  rcases hc with h8 | h0
  · generalize hT : (brun E false A.1 (List.zipWith (· ^^^ ·) B.2 d)).1 = T
    have pT : T.pos = 0 := by
      apply Fin.ext
      rw [← hT, brun_pos, pA, List.length_zipWith]
      show (0 + min B.2.length d.length) % 8 = 0
      omega
    have pB : B.1.pos = 0 := by
      apply Fin.ext
      rw [← hB, brun_pos, pA]
      show (0 + b.length) % 8 = 0
      omega
    by_cases hlen : 8 ≤ C.2.length
    · have hr := brun_resync E T B.1 pT pB C.2 hlen
      have hcd : c = (brun E false B.1 C.2).2 := by rw [dC]
      rw [hcd]
      conv => lhs; rw [← List.take_append_drop 8 C.2, brun_append]
      conv => rhs; rw [← List.take_append_drop 8 C.2, brun_append]
      simp only
      rw [List.drop_left' (by rw [brun_length, List.length_take]; omega), List.drop_left' (by rw [brun_length, List.length_take]; omega), hr]
    · rw [List.drop_of_length_le (by rw [brun_length]; omega), List.drop_of_length_le (by omega)]
  · have : C.2 = [] := List.eq_nil_of_length_eq_zero (by rw [lc, h0]; rfl)
    rw [this, h0]
    rfl

/-- C124 is false: whoever changes the bytes of one block of the ciphertext, without knowing anything, changes the same bits of the received
data; every update and the whole operation succeed.  All data before it is unchanged, and so is all data from the block after the next on; in
particular a change of the last block changes nothing else. -/
theorem C124_change_refuted (snd rcv : CipherCtx) (hs : snd.encrypting = true) (hr : rcv.encrypting = false) (rnd rnd' : Vector W32 8) (key : Bytes 32)
    (iv : Bytes 8) (p : Option (Bytes 64)) (a b c d : List Byte) (ha : a.length % 8 = 0) (hd : d.length = b.length) (hb : b.length ≤ 8)
    (hc : b.length = 8 ∨ c = []) (chunks : List (List Byte)) (hm : Cuts chunks (a ++ b ++ c)) :
    ∃ snd1 rcv1 x snd2, installSbox (dstu_cipher_init snd rnd (some key) (some iv)) p = some (1, snd1) ∧
      installSbox (dstu_cipher_init rcv rnd' (some key) (some iv)) p = some (1, rcv1) ∧
      feed snd1 chunks = some (x, snd2) ∧
      ∃ c', c'.length = c.length ∧ c'.drop 8 = c.drop 8 ∧
        ∀ chunks', Cuts chunks' (changeAt x a.length d) → ∃ rcv2, feed rcv1 chunks' = some (a ++ List.zipWith (· ^^^ ·) b d ++ c', rcv2) := by
  obtain ⟨s1, s2, e1, e2⟩ := C06_any_sbox snd hs rnd key iv p _ chunks hm
  obtain ⟨r1, f1, f2⟩ := decrypt_any_sbox rcv hr rnd' key iv p
  obtain ⟨c', g1, g2, g3⟩ := cfb_change (encrypt (tableOf (p.getD default_sbox)) key) iv a b c d ha hd hb hc
  refine ⟨s1, r1, _, s2, e1, f1, e2, c', g2, g3, fun chunks' hc' => ?_⟩
  obtain ⟨r2, f3⟩ := f2 _ chunks' hc'
  exact ⟨r2, by rw [f3, g1]⟩

/-- C124 is false: whoever cuts the ciphertext anywhere, cuts the received data there. -/
theorem C124_cut_refuted (snd rcv : CipherCtx) (hs : snd.encrypting = true) (hr : rcv.encrypting = false) (rnd rnd' : Vector W32 8) (key : Bytes 32)
    (iv : Bytes 8) (p : Option (Bytes 64)) (m : List Byte) (n : Nat) (chunks : List (List Byte)) (hm : Cuts chunks m) :
    ∃ snd1 rcv1 x snd2, installSbox (dstu_cipher_init snd rnd (some key) (some iv)) p = some (1, snd1) ∧
      installSbox (dstu_cipher_init rcv rnd' (some key) (some iv)) p = some (1, rcv1) ∧
      feed snd1 chunks = some (x, snd2) ∧
      ∀ chunks', Cuts chunks' (x.take n) → ∃ rcv2, feed rcv1 chunks' = some (m.take n, rcv2) := by
  obtain ⟨s1, s2, e1, e2⟩ := C06_any_sbox snd hs rnd key iv p _ chunks hm
  obtain ⟨r1, f1, f2⟩ := decrypt_any_sbox rcv hr rnd' key iv p
  refine ⟨s1, r1, _, s2, e1, f1, e2, fun chunks' hc' => ?_⟩
  obtain ⟨r2, f3⟩ := f2 _ chunks' hc'
  refine ⟨r2, ?_⟩
  rw [f3]
  congr 2
  generalize encrypt (tableOf (p.getD default_sbox)) key = E
  have hcut : (cfbEncrypt E iv m).take n = cfbEncrypt E iv (m.take n) := by
    rw [← brun_cfbEncrypt, ← brun_cfbEncrypt]
    conv => lhs; rw [← List.take_append_drop n m, brun_append]
    simp only
    by_cases hn : n ≤ m.length
    · rw [List.take_left' (by rw [brun_length, List.length_take]; omega)]
    · rw [List.take_of_length_le (by rw [List.length_append, brun_length, brun_length, List.length_take, List.length_drop]; omega),
        List.drop_of_length_le (by omega)]
      simp [brun]
  rw [hcut, cfb_dec_enc]

/-- C124, the part that holds: changed ciphertexts give changed data (so whatever vouches for the data, notices the change).  What is missing is
that the engine notices it. -/
theorem C124_differs_partial (d1 d2 : CipherCtx) (h1 : d1.encrypting = false) (h2 : d2.encrypting = false) (rnd1 rnd2 : Vector W32 8) (key : Bytes 32)
    (iv : Bytes 8) (p : Option (Bytes 64)) (x1 x2 : List Byte) (hx : x1 ≠ x2) (ch1 ch2 : List (List Byte)) (hc1 : Cuts ch1 x1) (hc2 : Cuts ch2 x2) :
    ∃ r1 r2 m1 m2 t1 t2, installSbox (dstu_cipher_init d1 rnd1 (some key) (some iv)) p = some (1, r1) ∧
      installSbox (dstu_cipher_init d2 rnd2 (some key) (some iv)) p = some (1, r2) ∧
      feed r1 ch1 = some (m1, t1) ∧ feed r2 ch2 = some (m2, t2) ∧ m1.length = x1.length ∧ m2.length = x2.length ∧ m1 ≠ m2 := by
  obtain ⟨r1, e1, f1⟩ := decrypt_any_sbox d1 h1 rnd1 key iv p
  obtain ⟨r2, e2, f2⟩ := decrypt_any_sbox d2 h2 rnd2 key iv p
  obtain ⟨t1, f1⟩ := f1 x1 ch1 hc1
  obtain ⟨t2, f2⟩ := f2 x2 ch2 hc2
  refine ⟨r1, r2, _, _, t1, t2, e1, e2, f1, f2, ?_, ?_, ?_⟩
  · rw [← brun_cfbDecrypt, brun_length]
  · rw [← brun_cfbDecrypt, brun_length]
  · intro he
    apply hx
    rw [← brun_cfbDecrypt, ← brun_cfbDecrypt] at he
    have k1 := congrArg Prod.snd (brun_enc_dec (encrypt (tableOf (p.getD default_sbox)) key) ⟨iv, encrypt (tableOf (p.getD default_sbox)) key iv, 0⟩ x1)
    have k2 := congrArg Prod.snd (brun_enc_dec (encrypt (tableOf (p.getD default_sbox)) key) ⟨iv, encrypt (tableOf (p.getD default_sbox)) key iv, 0⟩ x2)
    simp only at k1 k2
    rw [← k1, ← k2, he]

/-- Ten hryvnias become ninety: the message `"sum 000010"` is encrypted, one bit of the ninth byte of the ciphertext is changed. -/
example := C124_change_refuted (blankCtx true) (blankCtx false) rfl rfl demoMask demoMask demoKey demoIv (some demoSbox)
  [0x73, 0x75, 0x6d, 0x20, 0x30, 0x30, 0x30, 0x30] [0x31, 0x30] [] [0x08, 0] (by decide) (by decide) (by decide) (Or.inr rfl)
  [[0x73, 0x75, 0x6d], [0x20, 0x30, 0x30, 0x30, 0x30, 0x31, 0x30]] ⟨by decide, by decide⟩

example : ((feed (dstu_cipher_init (blankCtx true) demoMask (some demoKey) (some demoIv)) [[0x73, 0x75, 0x6d, 0x20, 0x30, 0x30, 0x30, 0x30, 0x31, 0x30]]).bind
    fun r => (feed (dstu_cipher_init (blankCtx false) demoMask (some demoKey) (some demoIv)) [changeAt r.1 8 [0x08]]).map (·.1)) =
      some [0x73, 0x75, 0x6d, 0x20, 0x30, 0x30, 0x30, 0x30, 0x39, 0x30] := by decide +kernel

example := C124_cut_refuted (blankCtx true) (blankCtx false) rfl rfl demoMask demoMask demoKey demoIv none
  [0x73, 0x75, 0x6d, 0x20, 0x30, 0x30, 0x30, 0x30] 3 [[0x73, 0x75, 0x6d], [0x20, 0x30, 0x30, 0x30, 0x30]] ⟨by decide, by decide⟩

example := C124_differs_partial (blankCtx false) (blankCtx false) rfl rfl demoMask demoMask demoKey demoIv none [1, 2, 3] [1, 3, 3] (by decide)
  [[1], [2, 3]] [[1, 3, 3]] ⟨by decide, by decide⟩ ⟨by decide, by decide⟩

end Dstu.Props
