import Verif.Props.Reuse

/-! C114: what the memory of the generator tells about the random bytes it handed out before. -/

namespace Dstu.Props

open Spec WeierstrassCurve

/-- The bit handed out last, and the memory of the generator before it, computed from the memory after it: two decryptions with the key that lies there. -/
def earlierBit (m : Rbg) : Byte × Rbg :=
  let y := U4x2.ofBytes (gostdecrypt m.cryptor m.s.bytes)
  let x : U4x2 := (y.1 ^^^ m.I.1, y.2 ^^^ m.I.2)
  let z := U4x2.ofBytes (gostdecrypt m.cryptor x.bytes)
  ((x.1 &&& 1).setWidth 8, { m with s := (z.1 ^^^ m.I.1, z.2 ^^^ m.I.2) })

/-- The last `j` bits. -/
def earlierBits : Nat → Rbg → Byte × Rbg
  | 0, m => (0, m)
  | j + 1, m => ((earlierBits j (earlierBit m).2).1 ||| (earlierBit m).1 <<< j, (earlierBits j (earlierBit m).2).2)

/-- The last `k` bytes. -/
def earlierBytes : Nat → Rbg → List Byte
  | 0, _ => []
  | k + 1, m => earlierBytes k (earlierBits 8 m).2 ++ [(earlierBits 8 m).1]

theorem le32_byteOf (w : W32) : le32 (byteOf w 0) (byteOf w 1) (byteOf w 2) (byteOf w 3) = w := by
  have h := byteOf_le32 (byteOf w 0) (byteOf w 1) (byteOf w 2) (byteOf w 3)
  apply BitVec.eq_of_getLsbD_eq
  intro i hi
  have key : ∀ (v u : W32) (j : Nat), byteOf v j = byteOf u j → ∀ t < 8, v.getLsbD (8 * j + t) = u.getLsbD (8 * j + t) := by
    intro v u j hv t ht
    have := congrArg (fun b : Byte => b.getLsbD t) hv
    simpa [byteOf, ht] using this
  have hlt : i / 8 < 4 := by omega
  have hi8 : i = 8 * (i / 8) + i % 8 := by omega
  have hm : i % 8 < 8 := by omega
  rw [hi8]
  have : i / 8 = 0 ∨ i / 8 = 1 ∨ i / 8 = 2 ∨ i / 8 = 3 := by omega
  rcases this with h0 | h0 | h0 | h0 <;> rw [h0]
  · exact key _ _ 0 h.1 _ hm
  · exact key _ _ 1 h.2.1 _ hm
  · exact key _ _ 2 h.2.2.1 _ hm
  · exact key _ _ 3 h.2.2.2 _ hm

theorem ofBytes_bytes (x : U4x2) : U4x2.ofBytes x.bytes = x := by
  obtain ⟨a, b⟩ := x
  exact Prod.ext (le32_byteOf a) (le32_byteOf b)

theorem earlier_bit (m : Rbg) : earlierBit (dstu_rbg_get_bit m).2 = ((dstu_rbg_get_bit m).1, m) := by
  unfold earlierBit dstu_rbg_get_bit
  simp only [U4x2.bytes_ofBytes, (C01_block_inverse _ _).1, ofBytes_bytes, BitVec.xor_assoc, BitVec.xor_self, BitVec.xor_zero]
  rw [show ((U4x2.ofBytes (gostcrypt m.cryptor (U4x2.bytes (m.I.1 ^^^ m.s.1, m.I.2 ^^^ m.s.2)))).1,
    (U4x2.ofBytes (gostcrypt m.cryptor (U4x2.bytes (m.I.1 ^^^ m.s.1, m.I.2 ^^^ m.s.2)))).2) =
      U4x2.ofBytes (gostcrypt m.cryptor (U4x2.bytes (m.I.1 ^^^ m.s.1, m.I.2 ^^^ m.s.2))) from rfl]
  simp only [U4x2.bytes_ofBytes, (C01_block_inverse _ _).1, ofBytes_bytes]
  have e1 : m.I.1 ^^^ m.s.1 ^^^ m.I.1 = m.s.1 := by rw [BitVec.xor_comm, ← BitVec.xor_assoc, BitVec.xor_self, BitVec.zero_xor]
  have e2 : m.I.2 ^^^ m.s.2 ^^^ m.I.2 = m.s.2 := by rw [BitVec.xor_comm, ← BitVec.xor_assoc, BitVec.xor_self, BitVec.zero_xor]
  simp only [← BitVec.xor_assoc, e1, e2]

theorem bits_last : ∀ (k j : Nat) (b : Byte) (m : Rbg), rbgBits b j (k + 1) m =
    ((rbgBits b j k m).1 ||| (dstu_rbg_get_bit (rbgBits b j k m).2).1 <<< (j + k), (dstu_rbg_get_bit (rbgBits b j k m).2).2)
  | 0, j, b, m => by simp [rbgBits]
  | k + 1, j, b, m => by
    rw [rbgBits]
    simp only
    rw [bits_last k (j + 1)]
    rw [rbgBits, Nat.add_right_comm j 1 k]
    rfl

theorem earlier_bits : ∀ (k : Nat) (m : Rbg), earlierBits k (rbgBits 0 0 k m).2 = ((rbgBits 0 0 k m).1, m)
  | 0, m => rfl
  | k + 1, m => by
    rw [bits_last, earlierBits, earlier_bit, earlier_bits k m, Nat.zero_add]

theorem loop_last : ∀ (k : Nat) (m : Rbg), rbgLoop (k + 1) m =
    ((rbgLoop k m).1 ++ [(rbgBits 0 0 8 (rbgLoop k m).2).1], (rbgBits 0 0 8 (rbgLoop k m).2).2) := by
  intro k m
  rw [loop_append k 1]
  rfl

theorem earlier_bytes : ∀ (k : Nat) (m : Rbg), earlierBytes k (rbgLoop k m).2 = (rbgLoop k m).1
  | 0, m => rfl
  | k + 1, m => by
    rw [loop_last, earlierBytes, earlier_bits, earlier_bytes k m]

/-- C114 is false: whoever reads the memory of the generator after a request, of any size, can compute the bytes that were handed out, and so back to the first. -/
theorem C114_memory_refuted (lockNew : Bool) (e : RandEnv) (st st' : RbgState) (buf out : List Byte) (num : Int) (rv : Bool)
    (h : dstu_rbg_bytes lockNew e st buf num = some (rv, out, st')) : earlierBytes (asUnsigned num) st'.rbg = out.take (asUnsigned num) := by
  unfold dstu_rbg_bytes at h
  simp only [Option.bind_eq_bind] at h
  cases hl : dstu_lock lockNew st.lock with
  | none => rw [hl] at h; cases h
  | some l =>
    rw [hl, Option.bind_some] at h
    split at h
    · cases hu : dstu_unlock l with
      | none => rw [hu] at h; cases h
      | some l' =>
        rw [hu] at h
        cases h
        rw [earlier_bytes, List.take_left' (loop_length _ _)]
    · cases h

/-- The block of the number drawn last is what the memory shows. -/
theorem rangeLoop_earlier (lockNew : Bool) (e : RandEnv) (n : Nat) (hn : 1 < n) (hsz : numBits n < 2 ^ 29) : ∀ (count : Nat) (st : RbgState) (r : Nat) (st' : RbgState),
    rangeLoop lockNew e n count st = some (some r, st') → below n (beValue (earlierBytes (drawBytes n) st'.rbg)) = some r
  | 0, st, r, st', h => by cases h
  | count + 1, st, r, st', h => by
    have hb : rangeBits n < 2 ^ 30 := by unfold rangeBits; split <;> omega
    rw [rangeLoop] at h
    cases hr : bnRand lockNew e (rangeBits n) st with
    | none => rw [hr] at h; cases h
    | some p =>
      obtain ⟨x, st₁⟩ := p
      rw [hr] at h
      cases x with
      | none => cases h
      | some v =>
        simp only at h
        split at h
        · cases h
        · split at h
          · exact rangeLoop_earlier lockNew e n hn hsz count st₁ r st' h
          · rename_i hlt
            cases h
            unfold bnRand at hr
            split at hr
            · cases hr
            · cases hr
            · rename_i buf st₂ hbytes
              cases hr
              have hm := C114_memory_refuted _ _ _ _ _ _ _ _ hbytes
              have hlen : buf.length = (rangeBits n + 7) / 8 := by
                unfold dstu_rbg_bytes at hbytes
                simp only [Option.bind_eq_bind] at hbytes
                cases hl : dstu_lock lockNew st.lock with
                | none => rw [hl] at hbytes; cases hbytes
                | some l =>
                  rw [hl, Option.bind_some, unsigned_eq _ (by omega) (by omega), Int.toNat_natCast] at hbytes
                  split at hbytes
                  · cases hu : dstu_unlock l with
                    | none => rw [hu] at hbytes; cases hbytes
                    | some l' =>
                      rw [hu] at hbytes
                      have := (Prod.mk.inj (Prod.mk.inj (Option.some.inj hbytes)).2).1
                      rw [← this]
                      simp [loop_length]
                  · cases hbytes
              rw [unsigned_eq _ (by omega) (by omega), Int.toNat_natCast, List.take_of_length_le (by omega)] at hm
              rw [drawBytes, drawBits_eq n hn, hm, below_eq n _ hn, ← bin2bn_eq, if_neg hlt]

theorem range_earlier (lockNew : Bool) (e : RandEnv) (n : Nat) (hn : 1 < n) (hsz : numBits n < 2 ^ 29) (st : RbgState) (r : Nat) (st' : RbgState)
    (h : BN_rand_range lockNew e n st = some (some r, st')) : below n (beValue (earlierBytes (drawBytes n) st'.rbg)) = some r := by
  have hb : numBits n ≠ 1 := by
    unfold numBits
    rw [if_neg (by omega)]
    have : 1 ≤ n.log2 := by
      rw [Nat.le_log2 (by omega)]
      omega
    omega
  unfold BN_rand_range at h
  rw [if_neg (by omega), if_neg hb] at h
  exact rangeLoop_earlier lockNew e n hn hsz 100 st r st' h

section
variable {g : EcGroup} [hg : GoodGroup g]

theorem genLoop_last : ∀ (rs : List (Option Nat)) (x : Option Nat) (d : Nat), genLoop rs = .waiting → genLoop (rs ++ [x]) = .done d → x = some d
  | [], none, d, _, h => by cases h
  | [], some y, d, _, h => by
    simp only [List.nil_append, genLoop] at h
    split at h
    · cases h
    · cases h; rfl
  | none :: rs, x, d, hw, _ => by cases hw
  | some y :: rs, x, d, hw, h => by
    simp only [List.cons_append, genLoop] at hw h
    split at hw
    · rename_i h0
      rw [if_pos h0] at h
      exact genLoop_last rs x d hw h
    · cases hw

/-- C114 is false for private keys: right after a key pair was generated, its private key can be computed from the memory of the generator, wherever the key itself is kept. -/
theorem C114_private_key_refuted (hsz : numBits g.n < 2 ^ 29) (lockNew : Bool) (e : RandEnv) (key key' : EcKey g) (k : Nat) (st st' : RbgState) (rs : List (Option Nat))
    (hr : draws lockNew e g.n (k + 1) st = some (rs, st')) (hw : generateDrawing lockNew e g key k st = some .waiting)
    (h : generateDrawing lockNew e g key (k + 1) st = some (.done key')) :
    below g.n (beValue (earlierBytes (drawBytes g.n) st'.rbg)) = key'.priv := by
  obtain ⟨rs₀, x, st₀, b1, b2, b3⟩ := draws_last lockNew e g.n k st rs st' hr
  unfold generateDrawing at hw h
  simp only [hr, b1, Option.map_some, Option.some.injEq] at hw h
  have hloop : genLoop rs₀ = .waiting := by
    unfold dstu_generate_key at hw
    split at hw
    · assumption
    · cases hw
    · split at hw <;> cases hw
  unfold dstu_generate_key at h
  split at h
  · cases h
  · cases h
  · rename_i d hd
    rw [b3] at hd
    have hx := genLoop_last rs₀ x d hloop hd
    simp only [dstu_add_public_key, Option.bind_eq_bind, Option.bind_some, pure] at h
    cases h
    rw [hx] at b2
    exact range_earlier lockNew e g.n hg.valid.n_gt hsz st₀ d st' b2

/-- C114 is false for signatures: right after a signature was made, the private key can be computed from the signature and the memory of the generator. -/
theorem C114_signature_refuted (hn : g.n.Prime) (hsz : numBits g.n < 2 ^ 29) (lockNew : Bool) (e : RandEnv) (key : EcKey g) (d : Nat) (hd : key.priv = some d) (hdn : d < g.n)
    (tbs sig : List Byte) (k : Nat) (st st' : RbgState) (rs : List (Option Nat)) (hr : draws lockNew e g.n (k + 1) st = some (rs, st'))
    (hw : signDrawing lockNew e g key tbs k st = some .waiting) (h : signDrawing lockNew e g key tbs (k + 1) st = some (.done sig)) :
    ∃ nonce, below g.n (beValue (earlierBytes (drawBytes g.n) st'.rbg)) = some nonce ∧ keyFromNonce g.n nonce sig = d := by
  have hlt := (C110_in_range lockNew e g.n _ st _ st' hr).2
  obtain ⟨rs₀, x, st₀, b1, b2, rfl⟩ := draws_last lockNew e g.n k st rs st' hr
  unfold signDrawing at hw h
  simp only [hr, b1, Option.map_some, Option.some.injEq] at hw h
  obtain ⟨e₀, hv, rfl, hS⟩ := sign_with_last key tbs rs₀ x d hd (fun e he => hlt e (by rw [he]; simp)) (fun e he => hlt e (List.mem_append_left _ he)) sig hw h
  refine ⟨e₀, range_earlier lockNew e g.n hg.valid.n_gt hsz st₀ e₀ st' b2, ?_⟩
  have := Fact.mk hn
  obtain ⟨hr1, hr2, _⟩ := signs_accepts d hv e₀ _ _ hS
  have e1 : (sHalf sig : ZMod g.n) = e₀ + d * rHalf sig := by rw [hS.2.1, ZMod.natCast_mod]; push_cast; rfl
  have hne : (rHalf sig : ZMod g.n) ≠ 0 := by
    intro h0
    rw [ZMod.natCast_eq_zero_iff] at h0
    exact absurd (Nat.le_of_dvd hr1 h0) (by omega)
  unfold keyFromNonce
  rw [e1, add_sub_cancel_left, mul_assoc, mul_inv_cancel₀ hne, mul_one, ZMod.val_natCast, Nat.mod_eq_of_lt hdn]

end

/-- C114, what holds: after cleanup the memory of the generator is the same whatever happened before. -/
theorem C114_cleanup_partial (cs cs' : List RbgCall) (h : ∀ c ∈ cs, c.Allowed) (h' : ∀ c ∈ cs', c.Allowed) :
    ∃ as st as' st' c c', RbgState.boot.run true cs = some (as, st) ∧ RbgState.boot.run true cs' = some (as', st') ∧
      dstu_rbg_cleanup true st = some c ∧ dstu_rbg_cleanup true st' = some c' ∧ c.rbg = c'.rbg := by
  obtain ⟨as, st, c, a1, a2, _⟩ := C46_reuse_refuted cs h
  obtain ⟨as', st', c', b1, b2, _⟩ := C46_reuse_refuted cs' h'
  refine ⟨as, st, as', st', c, c', a1, b1, a2, b2, ?_⟩
  have key : ∀ st c, dstu_rbg_cleanup true st = some c → c.rbg = .boot := by
    intro st c hc
    unfold dstu_rbg_cleanup at hc
    simp only [Option.bind_eq_bind] at hc
    cases hl : dstu_lock true st.lock with
    | none => rw [hl] at hc; cases hc
    | some l =>
      rw [hl, Option.bind_some] at hc
      cases hu : dstu_unlock l with
      | none => rw [hu] at hc; cases hc
      | some l' => rw [hu] at hc; cases hc; rfl
  rw [key st c a2, key st' c' b2]

/-- On the small curve: the private key 1 just generated, and the private key 5 of a signature just made. -/
example : ∃ st', draws true envTiny gTiny.n 1 stTiny = some ([some 1], st') ∧ below gTiny.n (beValue (earlierBytes (drawBytes gTiny.n) st'.rbg)) = some 1 ∧
    keyFromNonce gTiny.n 1 [16, 3] = 5 := by
  obtain ⟨st', h⟩ := drawnTiny
  have hsz : numBits gTiny.n < 2 ^ 29 := by rw [gTiny_numbers.1]; decide
  have h1 := C114_private_key_refuted hsz true envTiny keyTiny _ 0 stTiny st' _ h (generatingTiny keyTiny).1 (generatingTiny keyTiny).2
  obtain ⟨nonce, h2, h3⟩ := C114_signature_refuted gTiny_prime hsz true envTiny keyTiny 5 rfl (by rw [gTiny_numbers.1]; decide) [1] [16, 3] 0 stTiny st' _ h drawingTiny.1
    drawingTiny.2.2.1
  rw [h1] at h2
  obtain rfl := Option.some.inj h2
  exact ⟨st', h, h1, h3⟩

example (e : RandEnv) : ∃ out st', dstu_rbg_bytes true e stTiny [0, 0, 0] 2 = some (true, out, st') ∧ earlierBytes 2 st'.rbg = out.take 2 := by
  have h : ∃ out st', dstu_rbg_bytes true e stTiny [0, 0, 0] 2 = some (true, out, st') := ⟨_, _, rfl⟩
  obtain ⟨out, st', h⟩ := h
  exact ⟨out, st', h, C114_memory_refuted _ _ _ _ _ _ _ _ h⟩

example := C114_cleanup_partial [.bytes envTiny [0, 0] 2] [.seed] (by simp [RbgCall.Allowed]) (by simp [RbgCall.Allowed])

end Dstu.Props
