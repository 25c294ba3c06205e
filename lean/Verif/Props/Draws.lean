import Verif.Lemmas.Draws
import Verif.Props.Binding
import Verif.Props.KeyPair
import Verif.Props.Tiny

/-! C110: the random numbers that become private keys and nonces, drawn from the generator of the engine. -/

namespace Dstu.Props

open Spec WeierstrassCurve

theorem mul_add_mod_lt {a b c : Nat} (h : c < b) : (a * b + c) % b = c := by
  rw [Nat.add_comm, Nat.add_mul_mod_self_right, Nat.mod_eq_of_lt h]

/-! ### C110 -/

theorem rangeLoop_lt (lockNew : Bool) (e : RandEnv) (n : Nat) : ∀ count st r st', rangeLoop lockNew e n count st = some (some r, st') → r < n
  | 0, st, r, st', h => by cases h
  | count + 1, st, r, st', h => by
    rw [rangeLoop] at h
    split at h
    · cases h
    · cases h
    · split at h
      · cases h
      · split at h
        · exact rangeLoop_lt lockNew e n count _ r st' h
        · rename_i hlt
          cases h
          omega

/-- C110: for every order, state of the generator and of the lock, and whatever the rest of the world answers, all numbers drawn are below the order. -/
theorem C110_in_range (lockNew : Bool) (e : RandEnv) (n : Nat) : ∀ (k : Nat) (st : RbgState) (rs : List (Option Nat)) (st' : RbgState),
    draws lockNew e n k st = some (rs, st') → rs.length = k ∧ ∀ d, some d ∈ rs → d < n
  | 0, st, rs, st', h => by
    cases h
    exact ⟨rfl, fun d hd => absurd hd (by simp)⟩
  | k + 1, st, rs, st', h => by
    rw [draws] at h
    split at h
    · cases h
    · rename_i r st₁ hr
      rw [Option.map_eq_some_iff] at h
      obtain ⟨⟨rs', st₂⟩, h1, h2⟩ := h
      cases h2
      obtain ⟨i1, i2⟩ := C110_in_range lockNew e n k st₁ rs' st' h1
      refine ⟨by rw [List.length_cons, i1], ?_⟩
      intro d hd
      rcases List.mem_cons.mp hd with rfl | hd
      · unfold BN_rand_range at hr
        split at hr
        · cases hr
        · split at hr
          · cases hr
            omega
          · exact rangeLoop_lt _ _ _ _ _ _ _ hr
      · exact i2 d hd

/-- C110: a key pair generated with the generator of the engine has a private key between 1 and the order, and the public key that belongs to it. -/
theorem C110_key_pair {g : EcGroup} [GoodGroup g] (lockNew : Bool) (e : RandEnv) (key key' : EcKey g) (k : Nat) (st : RbgState)
    (h : generateDrawing lockNew e g key k st = some (.done key')) :
    ∃ d, key'.priv = some d ∧ 1 ≤ d ∧ d < g.n ∧ key'.pub = some (-(d • g.gen)) := by
  unfold generateDrawing at h
  rw [Option.map_eq_some_iff] at h
  obtain ⟨⟨rs, st'⟩, h1, h2⟩ := h
  exact C42_generated key key' rs (C110_in_range lockNew e g.n k st rs st' h1).2 h2

/-- C110: a signature made with the generator of the engine is accepted under the public key that belongs to the private key. -/
theorem C110_signature {g : EcGroup} [GoodGroup g] (lockNew : Bool) (e : RandEnv) (key vkey : EcKey g) (d : Nat) (hpriv : key.priv = some d)
    (hpub : vkey.pub = some (-(d • g.gen))) (tbs : List Byte) (k : Nat) (st : RbgState) (sig : List Byte)
    (h : signDrawing lockNew e g key tbs k st = some (.done sig)) : dstu_do_verify g vkey tbs sig = true := by
  unfold signDrawing at h
  rw [Option.map_eq_some_iff] at h
  obtain ⟨⟨rs, st'⟩, h1, h2⟩ := h
  exact C23_raw_signature_verifies key vkey d hpriv hpub tbs rs (C110_in_range lockNew e g.n k st rs st' h1).2 sig h2

/-- A request to a generator that may have to be seeded. -/
theorem bytes_reseeded {st : RbgState} {v : RbgView} (e : RandEnv) (hs : Shows st.rbg v) (hl : st.lock = .unset ∨ st.lock = .live) :
    ∃ st₁, Shows st₁.rbg (v.reseed e) ∧ (st₁.lock = .unset ∨ st₁.lock = .live) ∧
      ((v.reseed e).isSome = true → ∀ buf num, dstu_rbg_bytes true e st buf num = dstu_rbg_bytes true e st₁ buf num) ∧
      (v.reseed e = none → ∀ buf (num : Nat), buf.length = num → num < 2 ^ 31 → ∃ out st', dstu_rbg_bytes true e st buf num = some (false, out, st') ∧
        Shows st'.rbg none ∧ st'.lock = .live) := by
  obtain ⟨h1, h2⟩ := bytes_shows e hs
  refine ⟨⟨(if st.rbg.initialized then (true, st.rbg) else dstu_rbg_status_nolock e st.rbg).2, st.lock⟩, h2, hl, ?_, ?_⟩
  · intro hsome buf num
    rw [hsome] at h1
    have hinit : (if st.rbg.initialized then (true, st.rbg) else dstu_rbg_status_nolock e st.rbg).2.initialized = true := by
      cases hv : v.reseed e with
      | none => rw [hv] at hsome; cases hsome
      | some p => rw [hv] at h2; exact h2.init
    unfold dstu_rbg_bytes
    simp only [lock_ok _ hl, Option.bind_eq_bind, Option.bind_some, hinit, if_true]
    rw [h1]
  · intro hnone buf num hb hsz
    rw [hnone] at h1 h2
    unfold dstu_rbg_bytes
    simp only [lock_ok _ hl, Option.bind_eq_bind, Option.bind_some, unsigned_eq num (by omega) (by omega), Int.toNat_natCast, hb, le_refl, if_true, dstu_unlock, pure, h1]
    refine ⟨_, _, rfl, ?_, rfl⟩
    change (rbgLoop _ _).2.initialized = false
    rw [loop_initialized]
    exact h2

/-- C110: one draw below an order of at least two.  A generator that is not seeded is seeded first, from what the rest of the world answers; if that fails the draw fails.
From a seeded generator the number is made of the first block of the stream that gives a number, of 99 that are tried, beginning with the first byte not yet used;
the bytes up to the end of that block are then used. -/
theorem C110_from_stream (e : RandEnv) (n : Nat) (hn : 1 < n) (hsz : numBits n < 2 ^ 29) (st : RbgState) (v : RbgView) (hs : Shows st.rbg v)
    (hl : st.lock = .unset ∨ st.lock = .live) :
    ∃ out st', BN_rand_range true e n st = some (out, st') ∧ st'.lock = .live ∧
      ((v.reseed e = none ∧ out = none ∧ Shows st'.rbg none) ∨
        ∃ g pos pos', v.reseed e = some (g, pos) ∧ Shows st'.rbg (some (g, pos')) ∧
          ((∃ r, out = some r ∧ g.Draws n pos r pos') ∨
            (out = none ∧ (∀ i < 99, g.candidate n pos i = none) ∧ pos' = pos + 100 * drawBytes n))) := by
  have hb : numBits n ≠ 1 := by
    unfold numBits
    rw [if_neg (by omega)]
    have : 1 ≤ n.log2 := by
      rw [Nat.le_log2 (by omega)]
      omega
    omega
  have hbits : rangeBits n < 2 ^ 30 := by unfold rangeBits; split <;> omega
  obtain ⟨st₁, g1, g2, g3, g4⟩ := bytes_reseeded e hs hl
  cases hv : v.reseed e with
  | none =>
    obtain ⟨out, st', e1, e2, e3⟩ := g4 hv (List.replicate ((rangeBits n + 7) / 8) 0) ((rangeBits n + 7) / 8) (by simp) (by omega)
    refine ⟨none, st', ?_, e3, Or.inl ⟨rfl, rfl, e2⟩⟩
    unfold BN_rand_range
    rw [if_neg (by omega), if_neg hb, show (100 : Nat) = 99 + 1 from rfl, rangeLoop, bnRand, e1]
  | some p =>
    obtain ⟨g, pos⟩ := p
    rw [hv] at g1
    obtain ⟨out, pos', st', e1, e2, e3, e4⟩ := range_holds n hn hsz g e pos st₁ g1 g2
    refine ⟨out, st', ?_, e2, Or.inr ⟨g, pos, pos', rfl, e3, e4⟩⟩
    rw [← e1]
    unfold BN_rand_range
    rw [if_neg (by omega), if_neg hb, if_neg (by omega), if_neg hb, show (100 : Nat) = 99 + 1 from rfl, rangeLoop, rangeLoop, bnRand, bnRand,
      g3 (by rw [hv]; rfl)]

/-- C110: if all blocks of bytes are equally likely, so are all numbers below the order: as many blocks give one as any other. -/
theorem C110_uniform (n : Nat) (hn : 1 < n) (r : Nat) (hr : r < n) :
    ((Finset.range (256 ^ drawBytes n)).filter fun v => below n v = some r).card = multiples n * 2 ^ (8 * drawBytes n - drawBits n) := by
  have hm : 0 < multiples n := by unfold multiples; split <;> omega
  have hlt : multiples n * n < 2 ^ drawBits n := Nat.lt_log2_self
  have hle : drawBits n ≤ 8 * drawBytes n := by unfold drawBytes; omega
  have hpow : 256 ^ drawBytes n = 2 ^ (8 * drawBytes n - drawBits n) * 2 ^ drawBits n := by
    rw [show (256 : Nat) = 2 ^ 8 from rfl, ← pow_mul, ← pow_add, Nat.sub_add_cancel hle]
  have hp : 0 < 2 ^ drawBits n := by positivity
  have himg : (Finset.range (256 ^ drawBytes n)).filter (fun v => below n v = some r) =
      (Finset.range (multiples n) ×ˢ Finset.range (2 ^ (8 * drawBytes n - drawBits n))).image fun p => p.2 * 2 ^ drawBits n + (p.1 * n + r) := by
    ext v
    simp only [Finset.mem_filter, Finset.mem_range, Finset.mem_image, Finset.mem_product, Prod.exists]
    constructor
    · rintro ⟨h1, h2⟩
      unfold below at h2
      split at h2
      · rename_i h3
        have h4 := Option.some.inj h2
        refine ⟨v % 2 ^ drawBits n / n, v / 2 ^ drawBits n, ⟨?_, ?_⟩, ?_⟩
        · exact Nat.div_lt_of_lt_mul (by rw [Nat.mul_comm]; exact h3)
        · exact Nat.div_lt_of_lt_mul (by rw [Nat.mul_comm, ← hpow]; exact h1)
        · rw [← h4, Nat.div_add_mod', Nat.div_add_mod']
      · cases h2
    · rintro ⟨j, q, ⟨hj, hq⟩, rfl⟩
      have hjn : j * n + r < multiples n * n := by
        have : (j + 1) * n ≤ multiples n * n := Nat.mul_le_mul_right n hj
        rw [Nat.add_mul, Nat.one_mul] at this
        omega
      have hmod : (q * 2 ^ drawBits n + (j * n + r)) % 2 ^ drawBits n = j * n + r := by
        rw [mul_add_mod_lt (by omega)]
      refine ⟨?_, ?_⟩
      · rw [hpow]
        have : (q + 1) * 2 ^ drawBits n ≤ 2 ^ (8 * drawBytes n - drawBits n) * 2 ^ drawBits n := Nat.mul_le_mul_right _ hq
        rw [Nat.add_mul, Nat.one_mul] at this
        omega
      · unfold below
        rw [hmod, if_pos hjn, mul_add_mod_lt hr]
  rw [himg, Finset.card_image_of_injOn, Finset.card_product, Finset.card_range, Finset.card_range]
  rintro ⟨j, q⟩ h ⟨j', q'⟩ h' heq
  simp only [Finset.coe_product, Finset.coe_range, Set.mem_prod, Set.mem_Iio] at h h'
  simp only at heq
  have bound : ∀ j, j < multiples n → j * n + r < 2 ^ drawBits n := by
    intro j hj
    have : (j + 1) * n ≤ multiples n * n := Nat.mul_le_mul_right n hj
    rw [Nat.add_mul, Nat.one_mul] at this
    omega
  have b1 := bound j h.1
  have b2 := bound j' h'.1
  have hm1 : (q * 2 ^ drawBits n + (j * n + r)) % 2 ^ drawBits n = j * n + r := mul_add_mod_lt b1
  have hm2 : (q' * 2 ^ drawBits n + (j' * n + r)) % 2 ^ drawBits n = j' * n + r := mul_add_mod_lt b2
  have hjj : j * n + r = j' * n + r := by rw [← hm1, heq, hm2]
  have hj : j = j' := Nat.eq_of_mul_eq_mul_right (by omega : 0 < n) (by omega)
  subst hj
  have hq : q = q' := Nat.eq_of_mul_eq_mul_right hp (by omega)
  rw [hq]

/-- On the small curve: the first number drawn is 1, the key pair and the signature made of it are as they must be. -/
example : ∃ st', draws true envTiny 17 1 stTiny = some ([some 1], st') ∧ (1 < 17) ∧
    (∃ d, (⟨some 1, some (-(1 • gTiny.gen))⟩ : EcKey gTiny).priv = some d ∧ 1 ≤ d ∧ d < gTiny.n ∧ some (-(1 • gTiny.gen)) = some (-(d • gTiny.gen))) ∧
    dstu_do_verify gTiny keyTiny [1] [16, 3] = true := by
  obtain ⟨st', h⟩ := drawnTiny
  rw [gTiny_numbers.1] at h
  exact ⟨st', h, (C110_in_range true envTiny 17 1 stTiny _ st' h).2 1 (by simp), C110_key_pair true envTiny keyTiny _ 1 stTiny (generatingTiny keyTiny).2,
    C110_signature true envTiny keyTiny keyTiny 5 rfl rfl [1] 1 stTiny _ drawingTiny.2.2.1⟩

/-- The same number is block 0 of the stream; the numbers drawn before seeding fails are none. -/
example : ∃ r st' pos', BN_rand_range true envTiny 17 stTiny = some (some r, st') ∧
    (RbgSeed.ofSeed (Vector.ofFn fun i => BitVec.ofNat 8 (7 + i.val)) (Vector.replicate 8 0)).Draws 17 0 r pos' := by
  obtain ⟨out, st', h1, _, h3⟩ := C110_from_stream envTiny 17 (by decide) (by decide) stTiny (some (_, 0)) stTiny_holds (Or.inr rfl)
  obtain ⟨st₁, h⟩ := drawnTiny
  rw [gTiny_numbers.1, draws, h1] at h
  simp only [draws, Option.map_some, Option.some.injEq, Prod.mk.injEq, List.cons.injEq, and_true] at h
  rcases h3 with ⟨h3, _⟩ | ⟨g, pos, pos', h3, _, ⟨r, h4, h5⟩ | ⟨h4, _⟩⟩
  · cases h3
  · cases h3
    exact ⟨r, st', pos', by rw [h1, h4], h5⟩
  · rw [h4] at h
    cases h.1

example (e : RandEnv) (h : e.status = false) : ∃ st', BN_rand_range true e 17 .boot = some (none, st') := by
  obtain ⟨out, st', h1, _, h3⟩ := C110_from_stream e 17 (by decide) (by decide) .boot none rfl (Or.inl rfl)
  rcases h3 with ⟨_, rfl, _⟩ | ⟨g, pos, pos', h3, _⟩
  · exact ⟨st', h1⟩
  · simp [RbgView.reseed, h] at h3

/-- Of the 256 bytes twelve give the number 16, and as many any other below 17; 52 give none. -/
example : ((Finset.range (256 ^ drawBytes 17)).filter fun v => below 17 v = some 16).card = 12 := by
  rw [C110_uniform 17 (by decide) 16 (by decide)]
  decide

end Dstu.Props
