import Verif.Props.Draws
import Verif.Props.Orders
import Mathlib.Data.ZMod.Basic
import Mathlib.Algebra.Field.ZMod

/-! C111, C112 and C114: added entropy, copies of a process, and the memory of the generator. -/

namespace Dstu.Props

open Spec WeierstrassCurve

/-! ### C111 -/

/-- The requests for bytes among the calls: buffer and number. -/
def requested : List RbgCall → List (List Byte × Int)
  | [] => []
  | .bytes _ buf num :: cs => (buf, num) :: requested cs
  | _ :: cs => requested cs

/-- What the requests for bytes were given. -/
def handedOut : List RbgAnswer → List (Bool × List Byte)
  | [] => []
  | .bytes rv b :: as => (rv, b) :: handedOut as
  | _ :: as => handedOut as

/-- What requests are given by a seeded generator that is left alone. -/
def outputs (m : Rbg) : List (List Byte × Int) → List (Bool × List Byte)
  | [] => []
  | (buf, num) :: rs => (true, (rbgLoop num.toNat m).1 ++ buf.drop num.toNat) :: outputs (rbgLoop num.toNat m).2 rs

theorem run_outputs : ∀ (cs : List RbgCall) (st : RbgState), st.rbg.initialized = true → (st.lock = .unset ∨ st.lock = .live) → (∀ c ∈ cs, c.Allowed) →
    ∃ as st', st.run true cs = some (as, st') ∧ handedOut as = outputs st.rbg (requested cs)
  | [], st, _, _, _ => ⟨[], st, rfl, rfl⟩
  | c :: cs, st, hi, hl, ha => by
    have ha' := fun c hc => ha c (List.mem_cons_of_mem _ hc)
    have hc := ha c List.mem_cons_self
    cases c with
    | seed =>
      obtain ⟨as, st', h1, h2⟩ := run_outputs cs st hi hl ha'
      exact ⟨.nothing :: as, st', by simp [RbgState.run, RbgState.call, h1], h2⟩
    | status e =>
      obtain ⟨as, st', h1, h2⟩ := run_outputs cs ⟨st.rbg, .live⟩ hi (Or.inr rfl) ha'
      refine ⟨.status e.status :: as, st', ?_, h2⟩
      simp only [RbgState.run, RbgState.call, dstu_rbg_status, lock_ok _ hl, dstu_unlock, dstu_rbg_status_nolock, hi, Bool.not_true, Bool.and_false, Bool.false_eq_true,
        if_false, Option.bind_eq_bind, Option.bind_some, pure, Option.map_some, h1]
    | cleanup => exact hc.elim
    | bytes e buf num =>
      obtain ⟨h0, h1, h2⟩ := hc
      obtain ⟨as, st', e1, e2⟩ := run_outputs cs ⟨(rbgLoop num.toNat st.rbg).2, .live⟩ (by
        change (rbgLoop _ _).2.initialized = true
        rw [loop_initialized, hi]) (Or.inr rfl) ha'
      have hle : num.toNat ≤ buf.length := by omega
      refine ⟨.bytes true ((rbgLoop num.toNat st.rbg).1 ++ buf.drop num.toNat) :: as, st', ?_, ?_⟩
      · simp only [RbgState.run, RbgState.call, dstu_rbg_bytes, lock_ok _ hl, dstu_unlock, hi, if_true, unsigned_eq num h0 h1, hle,
          Option.bind_eq_bind, Option.bind_some, pure, Option.map_some, e1]
      · simp only [handedOut, requested, outputs, e2]

/-- C111 is false: once the generator is seeded, what is handed out depends on the requests alone.  Take any two histories with the same requests for bytes: in one, entropy may be added
at any points, the status may be asked and the system may have more or other entropy; the bytes are the same. -/
theorem C111_added_entropy_refuted (st : RbgState) (hi : st.rbg.initialized = true) (hl : st.lock = .unset ∨ st.lock = .live) (cs cs' : List RbgCall)
    (ha : ∀ c ∈ cs, c.Allowed) (ha' : ∀ c ∈ cs', c.Allowed) (h : requested cs = requested cs') :
    ∃ as as' st₁ st₁', st.run true cs = some (as, st₁) ∧ st.run true cs' = some (as', st₁') ∧ handedOut as = handedOut as' := by
  obtain ⟨as, st₁, h1, h2⟩ := run_outputs cs st hi hl ha
  obtain ⟨as', st₁', h1', h2'⟩ := run_outputs cs' st hi hl ha'
  exact ⟨as, as', st₁, st₁', h1, h1', by rw [h2, h2', h]⟩

/-- C111, what holds: as long as the generator is not seeded, the entropy of the system reaches it.  However often entropy was added before, the first request is given the stream of
the seed that the generator of OpenSSL, which all the entropy goes to, provides then. -/
theorem C111_first_partial (e : RandEnv) (seed : Bytes 40) (hst : e.status = true) (hseed : e.seed = some seed) (cs : List RbgCall)
    (hc : ∀ c ∈ cs, c = .seed) (buf : List Byte) (num : Int) (ha : (RbgCall.bytes e buf num).Allowed) :
    ∃ as st, RbgState.boot.run true (cs ++ [.bytes e buf num]) = some (as, st) ∧
      handedOut as = [(true, (RbgSeed.ofSeed seed e.curr).segment 0 num.toNat ++ buf.drop num.toNat)] := by
  induction cs with
  | nil =>
    obtain ⟨as, st, h, hf⟩ := C44_one_stream [.bytes e buf num] (by simpa using ha)
    match as, hf with
    | .bytes rv b :: as, hf =>
      simp only [RbgView.Follows, RbgView.reseed, hst, hseed, if_true, Option.map_some] at hf
      obtain ⟨h1, h2, h3⟩ := hf
      cases as with
      | nil => exact ⟨_, st, h, by rw [h1, h2]; rfl⟩
      | cons a as => exact h3.elim
  | cons c cs ih =>
    obtain ⟨as, st, h1, h2⟩ := ih (fun c h => hc c (List.mem_cons_of_mem _ h))
    rw [hc c List.mem_cons_self]
    exact ⟨.nothing :: as, st, by simp [RbgState.run, RbgState.call, h1], h2⟩

/-- A seeded generator asked for 2 and 3 bytes, with and without entropy added in between. -/
example (e : RandEnv) : ∃ as as' st₁ st₁', stTiny.run true [.bytes envTiny [0, 0] 2, .bytes envTiny [0, 0, 0] 3] = some (as, st₁) ∧
    stTiny.run true [.seed, .bytes e [0, 0] 2, .status e, .seed, .bytes e [0, 0, 0] 3] = some (as', st₁') ∧ handedOut as = handedOut as' :=
  C111_added_entropy_refuted stTiny rfl (Or.inr rfl) _ _ (by simp [RbgCall.Allowed]) (by simp [RbgCall.Allowed]) rfl

example : ∃ as st, RbgState.boot.run true ([.seed, .seed] ++ [.bytes envTiny [0, 0] 2]) = some (as, st) ∧
    handedOut as = [(true, (RbgSeed.ofSeed (Vector.ofFn fun i => BitVec.ofNat 8 (7 + i.val)) (Vector.replicate 8 0)).segment 0 2 ++ [])] :=
  C111_first_partial envTiny _ rfl rfl [.seed, .seed] (by simp) [0, 0] 2 (by simp [RbgCall.Allowed])

/-! ### C112 -/

theorem bytes_env (lockNew : Bool) (e e' : RandEnv) (st : RbgState) (hi : st.rbg.initialized = true) (buf : List Byte) (num : Int) :
    dstu_rbg_bytes lockNew e st buf num = dstu_rbg_bytes lockNew e' st buf num := by
  unfold dstu_rbg_bytes
  simp only [hi, if_true]

theorem bytes_initialized {lockNew : Bool} {e : RandEnv} {st st' : RbgState} {buf out : List Byte} {num : Int} {rv : Bool} (hi : st.rbg.initialized = true)
    (h : dstu_rbg_bytes lockNew e st buf num = some (rv, out, st')) : st'.rbg.initialized = true := by
  unfold dstu_rbg_bytes at h
  simp only [hi, if_true, Option.bind_eq_bind] at h
  cases hl : dstu_lock lockNew st.lock with
  | none => rw [hl] at h; cases h
  | some l =>
    rw [hl, Option.bind_some] at h
    split at h
    · cases hu : dstu_unlock l with
      | none => rw [hu] at h; cases h
      | some l' =>
        rw [hu] at h
        cases h
        change (rbgLoop _ _).2.initialized = true
        rw [loop_initialized, hi]
    · cases h

theorem bnRand_env (lockNew : Bool) (e e' : RandEnv) (bits : Nat) (st : RbgState) (hi : st.rbg.initialized = true) :
    bnRand lockNew e bits st = bnRand lockNew e' bits st ∧ ∀ r st', bnRand lockNew e bits st = some (r, st') → st'.rbg.initialized = true := by
  unfold bnRand
  rw [bytes_env lockNew e e' st hi]
  refine ⟨rfl, ?_⟩
  intro r st' h
  split at h
  · cases h
  · rename_i hb
    cases h
    exact bytes_initialized hi hb
  · rename_i hb
    cases h
    exact bytes_initialized hi hb

theorem rangeLoop_env (lockNew : Bool) (e e' : RandEnv) (n : Nat) : ∀ (count : Nat) (st : RbgState), st.rbg.initialized = true →
    rangeLoop lockNew e n count st = rangeLoop lockNew e' n count st ∧ ∀ r st', rangeLoop lockNew e n count st = some (r, st') → st'.rbg.initialized = true
  | 0, st, hi => ⟨rfl, fun r st' h => by cases h; exact hi⟩
  | count + 1, st, hi => by
    obtain ⟨h1, h2⟩ := bnRand_env lockNew e e' (rangeBits n) st hi
    rw [rangeLoop, rangeLoop, ← h1]
    cases hb : bnRand lockNew e (rangeBits n) st with
    | none => exact ⟨rfl, fun r st' h => by cases h⟩
    | some p =>
      obtain ⟨r, st₁⟩ := p
      have hi₁ := h2 r st₁ hb
      cases r with
      | none => exact ⟨rfl, fun r st' h => by cases h; exact hi₁⟩
      | some r =>
        obtain ⟨i1, i2⟩ := rangeLoop_env lockNew e e' n count st₁ hi₁
        simp only
        split
        · exact ⟨rfl, fun r st' h => by cases h; exact hi₁⟩
        · split
          · exact ⟨i1, i2⟩
          · exact ⟨rfl, fun r st' h => by cases h; exact hi₁⟩

theorem range_env (lockNew : Bool) (e e' : RandEnv) (n : Nat) (st : RbgState) (hi : st.rbg.initialized = true) :
    BN_rand_range lockNew e n st = BN_rand_range lockNew e' n st ∧ ∀ r st', BN_rand_range lockNew e n st = some (r, st') → st'.rbg.initialized = true := by
  unfold BN_rand_range
  split
  · exact ⟨rfl, fun r st' h => by cases h; exact hi⟩
  · split
    · exact ⟨rfl, fun r st' h => by cases h; exact hi⟩
    · exact rangeLoop_env lockNew e e' n 100 st hi

/-- C112 is false: two processes that begin as copies of one whose generator is seeded, as parent and child after `fork`, draw the same numbers, whatever happens in the rest of the world:
for every order and any number of draws. -/
theorem C112_copies_refuted (lockNew : Bool) (e e' : RandEnv) (n : Nat) : ∀ (k : Nat) (st : RbgState), st.rbg.initialized = true →
    draws lockNew e n k st = draws lockNew e' n k st
  | 0, st, _ => rfl
  | k + 1, st, hi => by
    obtain ⟨h1, h2⟩ := range_env lockNew e e' n st hi
    rw [draws, draws, ← h1]
    cases hb : BN_rand_range lockNew e n st with
    | none => rfl
    | some p =>
      obtain ⟨r, st₁⟩ := p
      simp only
      rw [C112_copies_refuted lockNew e e' n k st₁ (h2 r st₁ hb)]

/-- The last draw. -/
theorem draws_last (lockNew : Bool) (e : RandEnv) (n : Nat) : ∀ (k : Nat) (st : RbgState) (rs : List (Option Nat)) (st' : RbgState),
    draws lockNew e n (k + 1) st = some (rs, st') → ∃ rs₁ r st₁, draws lockNew e n k st = some (rs₁, st₁) ∧ BN_rand_range lockNew e n st₁ = some (r, st') ∧ rs = rs₁ ++ [r]
  | 0, st, rs, st', h => by
    rw [draws] at h
    cases hb : BN_rand_range lockNew e n st with
    | none => rw [hb] at h; cases h
    | some p =>
      obtain ⟨r, st₁⟩ := p
      rw [hb] at h
      cases h
      exact ⟨[], r, st, rfl, hb, rfl⟩
  | k + 1, st, rs, st', h => by
    rw [draws] at h
    cases hb : BN_rand_range lockNew e n st with
    | none => rw [hb] at h; cases h
    | some p =>
      obtain ⟨r, st₁⟩ := p
      rw [hb] at h
      simp only [Option.map_eq_some_iff] at h
      obtain ⟨⟨rs', st₂⟩, h1, h2⟩ := h
      obtain ⟨h2a, h2b⟩ := Prod.mk.inj h2
      simp only at h2a h2b
      rw [h2b] at h1
      obtain ⟨rs₁, r', st₃, e1, e2, e3⟩ := draws_last lockNew e n k st₁ rs' st' h1
      exact ⟨r :: rs₁, r', st₃, by rw [draws, hb]; simp [e1], e2, by rw [← h2a, e3]; rfl⟩

section
variable {g : EcGroup} [hg : GoodGroup g]

theorem signLoop_append (d h : Nat) : ∀ (rs l : List (Option Nat)), signLoop g d h rs = .waiting → signLoop g d h (rs ++ l) = signLoop g d h l
  | [], l, _ => rfl
  | none :: rs, l, hw => by cases hw
  | some e :: rs, l, hw => by
    rw [List.cons_append, signLoop]
    rw [signLoop] at hw
    cases hst : signStep g d h e with
    | waiting =>
      rw [hst] at hw
      exact signLoop_append d h rs l hw
    | failed => rw [hst] at hw; cases hw
    | done a => rw [hst] at hw; cases hw

theorem do_sign_waiting (key : EcKey g) (tbs : List Byte) (d h : Nat) (hd : key.priv = some d) (hh : hash_to_field tbs g.degree = some h) (rs : List (Option Nat))
    (hw : dstu_do_sign g key tbs rs = .waiting) : signLoop g d h rs = .waiting := by
  unfold dstu_do_sign at hw
  simp only [hd, hh] at hw
  split at hw
  · assumption
  · cases hw
  · split at hw
    · cases hw
    · cases hw
    · split at hw <;> cases hw

/-- A signature that is finished with the last of some draws. -/
theorem sign_with_last (key : EcKey g) (tbs : List Byte) (rs : List (Option Nat)) (x : Option Nat) (d : Nat) (hd : key.priv = some d) (hx : ∀ e, x = some e → e < g.n)
    (hlt : ∀ e, some e ∈ rs → e < g.n) (sig : List Byte) (hw : dstu_do_sign g key tbs rs = .waiting) (h : dstu_do_sign g key tbs (rs ++ [x]) = .done sig) :
    ∃ e hv, x = some e ∧ Signs g.gen g.n d hv e (rHalf sig) (sHalf sig) := by
  have hn := order_lt g
  obtain ⟨d', hv, e, r, s, h1, h2, h3, h4, h5, h6⟩ := do_sign_done key tbs (rs ++ [x]) (by
    intro e he
    rcases List.mem_append.mp he with he | he
    · exact hlt e he
    · exact hx e (List.mem_singleton.mp he).symm) sig h
  rw [hd] at h1
  obtain rfl := Option.some.inj h1
  rw [signLoop_append d hv rs [x] (do_sign_waiting key tbs d hv hd h2 rs hw)] at h4
  cases x with
  | none => cases h4
  | some e' =>
    refine ⟨e', hv, rfl, ?_⟩
    have hst : signStep g d hv e' = .done (r, s) := by
      unfold signLoop at h4
      cases hst : signStep g d hv e' with
      | waiting => rw [hst] at h4; cases h4
      | failed => rw [hst] at h4; cases h4
      | done a => rw [hst] at h4; cases h4; rfl
    have hS := (signStep_done d hv e' r s (hx e' rfl)).mp hst
    obtain ⟨_, hr2, _, hs2, _⟩ := signs_accepts d hv e' r s hS
    obtain ⟨q1, q2⟩ := halves (numBytes g.n) s r (lt_trans hs2 hn) (lt_trans hr2 hn)
    rw [← h6] at q1 q2
    rw [drop_take_half _ (by rw [h6, List.length_append, bytesBE_length, bytesBE_length]; omega)] at q2
    rw [rHalf, sHalf, q1, q2]
    exact hS

/-- Two signatures with one nonce give away the private key. -/
theorem repeated_nonce (hn : g.n.Prime) (d hv hv' e r s r' s' : Nat) (hd : d < g.n) (h : Signs g.gen g.n d hv e r s) (h' : Signs g.gen g.n d hv' e r' s') (hr : r ≠ r') :
    (((s : ZMod g.n) - s') * ((r : ZMod g.n) - r')⁻¹).val = d := by
  have := Fact.mk hn
  obtain ⟨_, hr2, _⟩ := signs_accepts d hv e r s h
  obtain ⟨_, hr2', _⟩ := signs_accepts d hv' e r' s' h'
  have e1 : (s : ZMod g.n) = e + d * r := by rw [h.2.1, ZMod.natCast_mod]; push_cast; rfl
  have e2 : (s' : ZMod g.n) = e + d * r' := by rw [h'.2.1, ZMod.natCast_mod]; push_cast; rfl
  have hne : (r : ZMod g.n) - r' ≠ 0 := by
    intro h0
    have h1 := sub_eq_zero.mp h0
    rw [ZMod.natCast_eq_natCast_iff', Nat.mod_eq_of_lt hr2, Nat.mod_eq_of_lt hr2'] at h1
    exact hr h1
  have : ((s : ZMod g.n) - s') * ((r : ZMod g.n) - r')⁻¹ = (d : ZMod g.n) := by
    rw [e1, e2, show (e : ZMod g.n) + d * r - (e + d * r') = d * (r - r') by ring, mul_assoc, mul_inv_cancel₀ hne, mul_one]
  rw [this, ZMod.val_natCast, Nat.mod_eq_of_lt hd]

/-- C112 is false, and what that means: let two copies of a process, whose generator is seeded, each make a signature with the same private key, of whatever digests, and let both need the same number of draws (nearly
always one).  If the numbers `r` of the two signatures differ, as they do for digests that differ but for a few, then the private key is `(s - s') / (r - r')` modulo the order: anyone can compute it. -/
theorem C112_key_revealed_refuted (hn : g.n.Prime) (key : EcKey g) (d : Nat) (hd : key.priv = some d) (hdn : d < g.n) (lockNew : Bool) (e e' : RandEnv) (st : RbgState)
    (hi : st.rbg.initialized = true) (tbs tbs' sig sig' : List Byte) (k : Nat)
    (hw : signDrawing lockNew e g key tbs k st = some .waiting) (h : signDrawing lockNew e g key tbs (k + 1) st = some (.done sig))
    (hw' : signDrawing lockNew e' g key tbs' k st = some .waiting) (h' : signDrawing lockNew e' g key tbs' (k + 1) st = some (.done sig'))
    (hr : rHalf sig ≠ rHalf sig') : quotientOf g.n sig sig' = d := by
  unfold signDrawing at hw h hw' h'
  rw [← C112_copies_refuted lockNew e e' g.n _ st hi] at hw' h'
  simp only [Option.map_eq_some_iff] at hw h hw' h'
  obtain ⟨⟨rs, st₁⟩, a1, a2⟩ := h
  obtain ⟨⟨rs', st₁'⟩, a1', a2'⟩ := h'
  rw [a1] at a1'
  cases a1'
  obtain ⟨rs₀, x, st₀, b1, b2, rfl⟩ := draws_last lockNew e g.n k st rs st₁ a1
  obtain ⟨⟨rs₂, st₂⟩, c1, c2⟩ := hw
  obtain ⟨⟨rs₂', st₂'⟩, c1', c2'⟩ := hw'
  rw [b1, Option.some.injEq, Prod.mk.injEq] at c1 c1'
  simp only [← c1.1] at c2
  simp only [← c1'.1] at c2'
  have hlt := (C110_in_range lockNew e g.n _ st _ st₁ a1).2
  have hx : ∀ e, x = some e → e < g.n := fun e he => hlt e (by rw [he]; simp)
  have hlt₀ : ∀ e, some e ∈ rs₀ → e < g.n := fun e he => hlt e (List.mem_append_left _ he)
  obtain ⟨e₀, hv, hx₀, hS⟩ := sign_with_last key tbs rs₀ x d hd hx hlt₀ sig c2 a2
  obtain ⟨e₁, hv', hx₁, hS'⟩ := sign_with_last key tbs' rs₀ x d hd hx hlt₀ sig' c2' a2'
  rw [hx₀] at hx₁
  obtain rfl := Option.some.inj hx₁
  exact repeated_nonce hn d hv hv' e₀ _ _ _ _ hdn hS hS' hr

end

/-- On the small curve, parent and child sign the digests `01` and `02`: `(16 - 14) / (3 - 6)` is the private key 5. -/
example (e' : RandEnv) : quotientOf gTiny.n [16, 3] [14, 6] = 5 := by
  have hc : ∀ k, draws true envTiny gTiny.n k stTiny = draws true e' gTiny.n k stTiny := fun k => C112_copies_refuted true envTiny e' gTiny.n k stTiny rfl
  obtain ⟨h1, h2, h3, h4⟩ := drawingTiny
  unfold signDrawing at h2 h4
  rw [hc] at h2 h4
  exact C112_key_revealed_refuted gTiny_prime keyTiny 5 rfl (by rw [gTiny_numbers.1]; decide) true envTiny e' stTiny rfl [1] [2] _ _ 0 h1 h3 h2 h4 (by decide)

/-- C112, what holds: the numbers drawn by one process, one after the other, are made of parts of the stream that follow each other without overlap. -/
theorem C112_disjoint_partial (e : RandEnv) (n : Nat) (hn : 1 < n) (hsz : numBits n < 2 ^ 29) (g : RbgSeed) : ∀ (k pos : Nat) (st : RbgState), Shows st.rbg (some (g, pos)) →
    (st.lock = .unset ∨ st.lock = .live) → ∃ rs st' pos', draws true e n k st = some (rs, st') ∧ Shows st'.rbg (some (g, pos')) ∧
      ∃ p : Nat → Nat, p 0 = pos ∧ p k = pos' ∧ ∀ i < k, p i + drawBytes n ≤ p (i + 1) ∧ ∀ r, rs[i]? = some (some r) → g.Draws n (p i) r (p (i + 1))
  | 0, pos, st, hs, hl => ⟨[], st, pos, rfl, hs, fun _ => pos, rfl, rfl, fun i hi => absurd hi (by omega)⟩
  | k + 1, pos, st, hs, hl => by
    obtain ⟨out, st₁, h1, h2, h3⟩ := C110_from_stream e n hn hsz st _ hs hl
    rcases h3 with ⟨h3, _⟩ | ⟨g', pos₀, pos₁, h3, h4, h5⟩
    · cases h3
    · cases h3
      obtain ⟨rs, st', pos', i1, i2, p, i3, i4, i5⟩ := C112_disjoint_partial e n hn hsz g k pos₁ st₁ h4 (Or.inr h2)
      refine ⟨out :: rs, st', pos', by rw [draws, h1]; simp [i1], i2, fun i => if i = 0 then pos else p (i - 1), rfl, by simpa using i4, ?_⟩
      intro i hi
      cases i with
      | zero =>
        simp only [if_true, Nat.zero_add, Nat.one_ne_zero, if_false, Nat.sub_self, i3]
        rcases h5 with ⟨r, rfl, hr⟩ | ⟨rfl, _, hp⟩
        · obtain ⟨j, _, _, _, hp⟩ := id hr
          refine ⟨by rw [hp, Nat.add_mul]; omega, ?_⟩
          intro r' hr'
          simp only [List.getElem?_cons_zero, Option.some.injEq] at hr'
          rw [← hr']
          exact hr
        · exact ⟨by omega, fun r hr => by simp at hr⟩
      | succ i =>
        have := i5 i (by omega)
        simpa using this

example := C112_disjoint_partial envTiny 17 (by decide) (by decide) _ 5 0 stTiny stTiny_holds (Or.inr rfl)

end Dstu.Props
