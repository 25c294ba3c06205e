import Verif.Model.SignFaults
import Verif.Props.Sign

/-! Property C125: failures of library calls and the values of signatures and verdicts. -/

namespace Dstu.Props

open Spec

namespace Flt

variable {α β : Type}

theorem bind_done {m : Faulty α} {f : α → Faulty β} {w : Nat → Bool} {t t' : Ticks} {b : β} (h : (m >>= f) w t = (.done b, t')) :
    ∃ a t1, m w t = (.done a, t1) ∧ f a w t1 = (.done b, t') := by
  change Faulty.bind m f w t = _ at h
  unfold Faulty.bind at h
  cases e : m w t with
  | mk r t1 =>
    rw [e] at h
    cases r with
    | done a => exact ⟨a, t1, rfl, h⟩
    | failed => simp at h
    | waiting => simp at h

theorem pure_done {a b : α} {w : Nat → Bool} {t t' : Ticks} (h : (pure a : Faulty α) w t = (.done b, t')) : a = b ∧ t = t' := by
  change (Drawn.done a, t) = _ at h
  simpa using h

theorem err_done {b : α} {w : Nat → Bool} {t t' : Ticks} (h : (Faulty.err : Faulty α) w t = (.done b, t')) : False := by
  simp [Faulty.err] at h

theorem check_done {u : Unit} {w : Nat → Bool} {t t' : Ticks} (h : Faulty.check w t = (.done u, t')) : t'.faults = t.faults := by
  unfold Faulty.check at h
  by_cases hw : w t.tick = true
  · simp only [hw, if_true, Prod.mk.injEq] at h
    rw [← h.2]
  · simp [hw] at h

theorem checks_done {u : Unit} {w : Nat → Bool} : ∀ {k : Nat} {t t' : Ticks}, Faulty.checks k w t = (.done u, t') → t'.faults = t.faults
  | 0, t, t', h => by
    have := pure_done (α := Unit) h
    rw [this.2]
  | k + 1, t, t', h => by
    obtain ⟨_, t1, h1, h2⟩ := bind_done h
    rw [checks_done h2, check_done h1]

theorem value_done {o : Option α} {a : α} {w : Nat → Bool} {t t' : Ticks} (h : Faulty.value o w t = (.done a, t')) : o = some a ∧ t = t' := by
  cases o with
  | none => exact (err_done (w := w) h).elim
  | some b =>
    obtain ⟨h1, h2⟩ := pure_done (α := α) h
    exact ⟨by rw [h1], h2⟩

theorem hash_done {tbs : List Byte} {m h : Nat} {w : Nat → Bool} {t t' : Ticks} (e : Faulty.hash_to_field tbs m w t = (.done h, t')) :
    (hash_to_field tbs m = some h ∧ t'.faults = t.faults) ∨ h = 0 := by
  unfold Faulty.hash_to_field at e
  unfold hash_to_field
  by_cases h0 : tbs = []
  · rw [if_pos h0] at e
    exact (err_done e).elim
  · rw [if_neg h0] at e ⊢
    obtain ⟨_, t1, e1, e2⟩ := bind_done e
    have f1 := checks_done e1
    by_cases hz : bin2bn tbs.reverse = 0
    · simp only [hz, if_true] at e2 ⊢
      obtain ⟨one, t2, e3, e4⟩ := bind_done e2
      obtain ⟨v1, v2⟩ := value_done e4
      simp only [Faulty.ask, Prod.mk.injEq, Drawn.done.injEq] at e3
      obtain ⟨e3, e5⟩ := e3
      cases one with
      | true =>
        left
        rw [e3] at e5
        refine ⟨by simpa using v1, ?_⟩
        rw [← v2, ← e5, ← f1]
        rfl
      | false =>
        right
        rw [bn_truncate_bits_eq] at v1
        simp at v1
        exact v1.symm
    · simp only [hz, if_false] at e2 ⊢
      obtain ⟨v1, v2⟩ := value_done e2
      left
      exact ⟨v1, by rw [← v2, f1]⟩

end Flt

open Flt

variable {g : EcGroup} [hg : GoodGroup g]

theorem signLoop_faults (d h : Nat) : ∀ (draws : List (Option Nat)) {w : Nat → Bool} {t t' : Ticks} {p : Nat × Nat},
    Dstu.Faulty.signLoop g d h draws w t = (.done p, t') → signLoop g d h draws = .done p ∧ t'.faults = t.faults
  | [], w, t, t', p, e => by simp [Dstu.Faulty.signLoop] at e
  | none :: rest, w, t, t', p, e => (err_done e).elim
  | some k :: rest, w, t, t', p, e => by
    unfold Dstu.Faulty.signLoop at e
    unfold signLoop signStep
    obtain ⟨_, t1, e1, e2⟩ := bind_done e
    have f1 := checks_done e1
    cases ha : affine (ec_mul g k none) with
    | none =>
      rw [ha] at e2
      exact (err_done e2).elim
    | some q =>
      obtain ⟨Fe, y⟩ := q
      rw [ha] at e2
      simp only at e2 ⊢
      by_cases h0 : Fe = 0
      · simp only [h0, if_true] at e2 ⊢
        obtain ⟨a, b⟩ := signLoop_faults d h rest e2
        exact ⟨a, by rw [b, f1]⟩
      · simp only [h0, if_false] at e2 ⊢
        obtain ⟨_, t2, e3, e4⟩ := bind_done e2
        have f2 := check_done e3
        cases hr : field_to_bn (gf2m_mul g.p h Fe) g.n with
        | none =>
          rw [hr] at e4
          exact (err_done e4).elim
        | some r =>
          rw [hr] at e4
          simp only at e4 ⊢
          by_cases r0 : r = 0
          · simp only [r0, if_true] at e4 ⊢
            obtain ⟨a, b⟩ := signLoop_faults d h rest e4
            exact ⟨a, by rw [b, f2, f1]⟩
          · simp only [r0, if_false] at e4 ⊢
            obtain ⟨_, t3, e5, e6⟩ := bind_done e4
            have f3 := checks_done e5
            by_cases s0 : mod_add_quick (d * r % g.n) k g.n = 0
            · simp only [s0, if_true] at e6 ⊢
              obtain ⟨a, b⟩ := signLoop_faults d h rest e6
              exact ⟨a, by rw [b, f3, f2, f1]⟩
            · simp only [s0, if_false] at e6 ⊢
              obtain ⟨a, b⟩ := pure_done (α := Nat × Nat) e6
              exact ⟨by rw [a], by rw [← b, f3, f2, f1]⟩

/-- With the element zero there is no `r`. -/
theorem field_zero (Fe : Nat) {r : Nat} (h : field_to_bn (gf2m_mul g.p 0 Fe) g.n = some r) : r = 0 := by
  have hp := goodGroup_p g
  have h0 : gf2m_mul g.p 0 Fe = 0 := by
    rw [gf2m_mul, GF.ofNat_zero, zero_mul, GF.toNat_zero g.p (by omega)]
  rw [h0] at h
  unfold field_to_bn bn_truncate_bits at h
  have hb : numBits 0 = 0 := rfl
  rw [hb] at h
  unfold truncLoop at h
  split at h
  · cases h
  · simpa using h.symm

theorem signLoop_zero (d : Nat) (p : Nat × Nat) : ∀ draws, signLoop g d 0 draws ≠ .done p
  | [], e => by simp [signLoop] at e
  | none :: _, e => by simp [signLoop] at e
  | some k :: rest, e => by
    unfold signLoop signStep at e
    cases ha : affine (ec_mul g k none) with
    | none => simp [ha] at e
    | some q =>
      obtain ⟨Fe, y⟩ := q
      simp only [ha] at e
      by_cases h0 : Fe = 0
      · simp only [h0, if_true] at e
        exact signLoop_zero d p rest e
      · simp only [h0, if_false] at e
        cases hr : field_to_bn (gf2m_mul g.p 0 Fe) g.n with
        | none => simp [hr] at e
        | some r =>
          have r0 := field_zero Fe hr
          simp only [hr, r0, if_true] at e
          exact signLoop_zero d p rest e

/-- C125, signatures: whatever calls fail, if a signature is made then no call failed and it is the signature made when nothing fails. -/
theorem C125_sign (key : EcKey g) (tbs : List Byte) (draws : List (Option Nat)) (w : Nat → Bool) (t t' : Ticks) (sig : List Byte)
    (h : Dstu.Faulty.dstu_do_sign g key tbs draws w t = (.done sig, t')) :
    dstu_do_sign g key tbs draws = .done sig ∧ t'.faults = t.faults := by
  unfold Dstu.Faulty.dstu_do_sign at h
  unfold dstu_do_sign
  cases hk : key.priv with
  | none =>
    rw [hk] at h
    exact (err_done h).elim
  | some d =>
    rw [hk] at h
    simp only at h ⊢
    obtain ⟨_, t1, e1, e2⟩ := bind_done h
    obtain ⟨hv, t2, e3, e4⟩ := bind_done e2
    obtain ⟨⟨r, s⟩, t3, e5, e6⟩ := bind_done e4
    obtain ⟨l1, l2⟩ := signLoop_faults d hv draws e5
    rcases hash_done e3 with ⟨k1, k2⟩ | k
    · simp only at e6
      obtain ⟨v1, v2⟩ := value_done e6
      refine ⟨?_, by rw [← v2, l2, k2, checks_done e1]⟩
      rw [k1]
      simp only [l1]
      unfold Dstu.Faulty.encodeSig at v1
      split at v1
      · cases v1
      · cases v1
      · rename_i e7 e8
        split at v1
        · cases v1
        · cases v1
        · rename_i e9 e10
          simp only [Option.some.injEq] at v1
          simp only [e8, e10, v1]
    · rw [k] at l1
      exact (signLoop_zero d _ draws l1).elim

/-- C125, verdicts: whatever calls fail, if a signature is accepted then no call failed and it is accepted when nothing fails. -/
theorem C125_verify (key : EcKey g) (tbs sig : List Byte) (w : Nat → Bool) (t t' : Ticks)
    (h : Dstu.Faulty.dstu_do_verify g key tbs sig w t = (.done true, t')) :
    dstu_do_verify g key tbs sig = true ∧ t'.faults = t.faults := by
  unfold Dstu.Faulty.dstu_do_verify at h
  unfold dstu_do_verify
  cases hk : key.pub with
  | none =>
    rw [hk] at h
    exact (err_done h).elim
  | some Q =>
    rw [hk] at h
    simp only at h ⊢
    obtain ⟨_, t1, e1, e2⟩ := bind_done h
    obtain ⟨hv, t2, e3, e4⟩ := bind_done e2
    obtain ⟨_, t3, e5, e6⟩ := bind_done e4
    have f1 := checks_done e1
    have f3 := checks_done e5
    generalize bin2bn (sig.take (sig.length / 2)) = s at e6 ⊢
    generalize bin2bn ((sig.drop (sig.length / 2)).take (sig.length / 2)) = r at e6 ⊢
    by_cases c1 : s = 0 ∨ r = 0
    · rw [if_pos c1] at e6
      exact (err_done e6).elim
    rw [if_neg c1] at e6
    by_cases c2 : s ≥ g.n ∨ r ≥ g.n
    · rw [if_pos c2] at e6
      exact (err_done e6).elim
    rw [if_neg c2] at e6
    obtain ⟨_, t4, e7, e8⟩ := bind_done e6
    have f4 := checks_done e7
    cases ha : affine (ec_mul g s (some (Q, r))) with
    | none =>
      rw [ha] at e8
      exact (err_done e8).elim
    | some q =>
      obtain ⟨Rx, y⟩ := q
      rw [ha] at e8
      simp only at e8
      obtain ⟨_, t5, e9, e10⟩ := bind_done e8
      have f5 := checks_done e9
      cases hr : field_to_bn (gf2m_mul g.p hv Rx) g.n with
      | none =>
        rw [hr] at e10
        exact (err_done e10).elim
      | some r1 =>
        rw [hr] at e10
        simp only at e10
        obtain ⟨k1, k2⟩ := pure_done (α := Bool) e10
        have hr1 : r = r1 := of_decide_eq_true k1
        rcases hash_done e3 with ⟨m1, m2⟩ | m
        · refine ⟨?_, by rw [← k2, f5, f4, f3, m2, f1]⟩
          simp only [m1, if_neg c1, if_neg c2, ha, hr]
          exact decide_eq_true hr1
        · exfalso
          rw [m] at hr
          have := field_zero Rx hr
          exact c1 (Or.inr (by rw [hr1, this]))

/-- C125, through the EVP layer: whatever calls fail, if signing succeeds then it writes and reports what it does when nothing fails and there is room
enough. -/
theorem C125_evp_sign (type : KeyType) (key : EcKey g) (siglen : Nat) (tbs : List Byte) (draws : List (Option Nat)) (w : Nat → Bool) (t t' : Ticks)
    (out : SignOut) (h : Dstu.Faulty.dstu_pkey_sign type g key true siglen tbs draws w t = (.done out, t')) :
    dstu_pkey_sign type g key true (max siglen (pkey_size g)) tbs draws = .done out ∧ out.ret = true := by
  unfold Dstu.Faulty.dstu_pkey_sign at h
  obtain ⟨_, t1, e1, e2⟩ := bind_done h
  obtain ⟨size, t2, e3, e4⟩ := bind_done e2
  by_cases c : true = true ∧ size > siglen
  · rw [if_pos c] at e4
    exact (err_done e4).elim
  rw [if_neg c, if_pos rfl] at e4
  obtain ⟨_, t3, e5, e6⟩ := bind_done e4
  obtain ⟨sig, t4, e7, e8⟩ := bind_done e6
  obtain ⟨sig2, t5, e9, e10⟩ := bind_done e8
  obtain ⟨k1, _⟩ := C125_sign key tbs draws w _ _ sig e7
  obtain ⟨v1, _⟩ := value_done e9
  obtain ⟨p1, _⟩ := pure_done (α := SignOut) e10
  refine ⟨?_, by rw [← p1]⟩
  unfold dstu_pkey_sign
  simp only
  have hroom : ¬ (True ∧ pkey_size g > max siglen (pkey_size g)) := by
    have := le_max_right siglen (pkey_size g)
    omega
  rw [if_neg hroom, if_pos trivial]
  simp only [k1, v1, p1]

theorem size_done {size : Nat} {w : Nat → Bool} {t t' : Ticks} (h : Dstu.Faulty.pkey_size g w t = (.done size, t')) (hf : t'.faults ≤ t.faults) :
    size = pkey_size g ∧ t'.faults = t.faults := by
  unfold Dstu.Faulty.pkey_size at h
  obtain ⟨a, t1, e1, e2⟩ := bind_done h
  simp only [Dstu.Faulty.ask, Prod.mk.injEq, Drawn.done.injEq] at e1
  obtain ⟨e1, e1'⟩ := e1
  cases a with
  | false =>
    obtain ⟨_, p⟩ := pure_done (α := Nat) e2
    subst p
    subst e1'
    simp [e1] at hf
  | true =>
    simp only [if_true] at e2
    obtain ⟨b, t2, e3, e4⟩ := bind_done e2
    simp only [Dstu.Faulty.ask, Prod.mk.injEq, Drawn.done.injEq] at e3
    obtain ⟨e3, e3'⟩ := e3
    rw [if_pos e1] at e1'
    subst e1'
    cases b with
    | false =>
      obtain ⟨_, p⟩ := pure_done (α := Nat) e4
      subst p
      subst e3'
      simp only at e3
      simp [e3] at hf
    | true =>
      obtain ⟨q, p⟩ := pure_done (α := Nat) e4
      subst p
      subst e3'
      simp only at e3
      exact ⟨q.symm, by simp [e3]⟩

/-- C125, through the EVP layer: if signing succeeds, or the size is asked for, and no call failed, then the size reported is the right one and there was
room for the signature. -/
theorem C125_evp_room (type : KeyType) (key : EcKey g) (sig : Bool) (siglen : Nat) (tbs : List Byte) (draws : List (Option Nat)) (w : Nat → Bool)
    (t t' : Ticks) (out : SignOut) (h : Dstu.Faulty.dstu_pkey_sign type g key sig siglen tbs draws w t = (.done out, t')) (hf : t'.faults = t.faults) :
    dstu_pkey_sign type g key sig siglen tbs draws = .done out ∧ (sig = true → pkey_size g ≤ siglen) := by
  unfold Dstu.Faulty.dstu_pkey_sign at h
  obtain ⟨_, t1, e1, e2⟩ := bind_done h
  obtain ⟨size, t2, e3, e4⟩ := bind_done e2
  have f1 := checks_done e1
  by_cases c : sig = true ∧ size > siglen
  · rw [if_pos c] at e4
    exact (err_done e4).elim
  rw [if_neg c] at e4
  by_cases hs : sig = true
  · rw [if_pos hs] at e4
    obtain ⟨_, t3, e5, e6⟩ := bind_done e4
    obtain ⟨sd, t4, e7, e8⟩ := bind_done e6
    obtain ⟨sig2, t5, e9, e10⟩ := bind_done e8
    have f2 := checks_done e5
    obtain ⟨k1, f3⟩ := C125_sign key tbs draws w _ _ sd e7
    obtain ⟨v1, f4⟩ := value_done e9
    obtain ⟨p1, f5⟩ := pure_done (α := SignOut) e10
    obtain ⟨z, _⟩ := size_done e3 (by rw [← f2, ← f3, f4, f5, hf, f1])
    have hle : pkey_size g ≤ siglen := by
      rw [← z]
      by_contra k
      exact c ⟨hs, by omega⟩
    refine ⟨?_, fun _ => hle⟩
    unfold dstu_pkey_sign
    simp only
    rw [if_neg (fun k => by omega), if_pos hs]
    simp only [k1, v1, p1]
  · rw [if_neg hs] at e4
    obtain ⟨p1, p2⟩ := pure_done (α := SignOut) e4
    obtain ⟨z, _⟩ := size_done e3 (by rw [p2, hf, f1])
    refine ⟨?_, fun k => absurd k hs⟩
    unfold dstu_pkey_sign
    simp only
    rw [if_neg (fun k => hs k.1), if_neg hs, ← p1, z]

theorem verifyBytes_faults (type : KeyType) (key : EcKey g) (x tbs : List Byte) (w : Nat → Bool) (t3 t' : Ticks)
    (hx : (if x.length % 2 = 1 then Dstu.Faulty.err
      else if x.length < 2 * numBytes g.n then Dstu.Faulty.err
      else match type with
        | .le => do
          Dstu.Faulty.check
          let sig_be ← Dstu.Faulty.value (reverse_bytes_copy x x.length)
          Dstu.Faulty.dstu_do_verify g key tbs sig_be
        | .be => Dstu.Faulty.dstu_do_verify g key tbs x : Dstu.Faulty Bool) w t3 = (.done true, t')) :
    x.length % 2 = 0 ∧ 2 * numBytes g.n ≤ x.length ∧ dstu_do_verify g key tbs (if type = .le then x.reverse else x) = true := by
  by_cases c1 : x.length % 2 = 1
  · rw [if_pos c1] at hx
    exact (err_done hx).elim
  rw [if_neg c1] at hx
  by_cases c2 : x.length < 2 * numBytes g.n
  · rw [if_pos c2] at hx
    exact (err_done hx).elim
  rw [if_neg c2] at hx
  refine ⟨by omega, by omega, ?_⟩
  cases type with
  | le =>
    simp only at hx
    obtain ⟨_, t4, k1, k2⟩ := bind_done hx
    obtain ⟨be, t5, k3, k4⟩ := bind_done k2
    obtain ⟨v1, _⟩ := value_done k3
    rw [reverse_bytes_copy_eq, Option.some.injEq] at v1
    rw [if_pos rfl, v1]
    exact (C125_verify key tbs be w _ _ k4).1
  | be =>
    simp only at hx
    rw [if_neg (by decide)]
    exact (C125_verify key tbs x w _ _ hx).1

/-- C125, through the EVP layer: whatever calls fail, an accepted signature is accepted when nothing fails, or it is the encoding of an octet string and
accepted as a raw signature. -/
theorem C125_evp_verify (dec : OctetDecoder) (type : KeyType) (key : EcKey g) (sig tbs : List Byte) (w : Nat → Bool) (t t' : Ticks)
    (h : Dstu.Faulty.dstu_pkey_verify dec type g key sig tbs w t = (.done true, t')) :
    dstu_pkey_verify dec type g key sig tbs = true ∨
      ((dec.d2i sig).isSome ∧ sig.length % 2 = 0 ∧ 2 * numBytes g.n ≤ sig.length ∧
        dstu_do_verify g key tbs (if type = .le then sig.reverse else sig) = true) := by
  unfold Dstu.Faulty.dstu_pkey_verify at h
  obtain ⟨_, t1, e1, e2⟩ := bind_done h
  obtain ⟨decoded, t2, e3, e4⟩ := bind_done e2
  have hval : ∀ x : List Byte, x = (dec.d2i sig).getD sig → x.length % 2 = 0 → 2 * numBytes g.n ≤ x.length →
      dstu_do_verify g key tbs (if type = .le then x.reverse else x) = true → dstu_pkey_verify dec type g key sig tbs = true := by
    intro x hx h1 h2 h3
    unfold dstu_pkey_verify
    simp only [← hx]
    rw [if_neg (by omega), if_neg (by omega)]
    cases type with
    | le =>
      simp only [reverse_bytes_copy_eq]
      simpa using h3
    | be => simpa using h3
  obtain ⟨h1, h2, h3⟩ := verifyBytes_faults type key _ tbs w t2 t' e4
  cases decoded with
  | true => exact Or.inl (hval _ rfl h1 h2 h3)
  | false =>
    simp only [Bool.false_eq_true, if_false, Option.getD_none] at h1 h2 h3
    cases hd : dec.d2i sig with
    | none => exact Or.inl (hval sig (by rw [hd]; rfl) h1 h2 h3)
    | some c => exact Or.inr ⟨rfl, h1, h2, h3⟩

theorem verifyBytes_count (type : KeyType) (key : EcKey g) (tbs : List Byte) (w : Nat → Bool) : ∀ (x : List Byte) (u u' : Ticks), (if x.length % 2 = 1 then Dstu.Faulty.err
    else if x.length < 2 * numBytes g.n then Dstu.Faulty.err
    else match type with
      | .le => do
        Dstu.Faulty.check
        let sig_be ← Dstu.Faulty.value (reverse_bytes_copy x x.length)
        Dstu.Faulty.dstu_do_verify g key tbs sig_be
      | .be => Dstu.Faulty.dstu_do_verify g key tbs x : Dstu.Faulty Bool) w u = (.done true, u') → u'.faults = u.faults := by
  intro x u u' hx
  by_cases c1 : x.length % 2 = 1
  · rw [if_pos c1] at hx
    exact (err_done hx).elim
  rw [if_neg c1] at hx
  by_cases c2 : x.length < 2 * numBytes g.n
  · rw [if_pos c2] at hx
    exact (err_done hx).elim
  rw [if_neg c2] at hx
  cases type with
  | le =>
    simp only at hx
    obtain ⟨_, t4, k1, k2⟩ := bind_done hx
    obtain ⟨be, t5, k3, k4⟩ := bind_done k2
    obtain ⟨_, v2⟩ := value_done k3
    rw [(C125_verify key tbs be w _ _ k4).2, ← v2, check_done k1]
  | be => exact (C125_verify key tbs x w _ _ hx).2

/-- C125, through the EVP layer: when no call failed, an accepted signature is accepted by the model without failures. -/
theorem C125_evp_unfailed (dec : OctetDecoder) (type : KeyType) (key : EcKey g) (sig tbs : List Byte) (w : Nat → Bool) (t t' : Ticks)
    (h : Dstu.Faulty.dstu_pkey_verify dec type g key sig tbs w t = (.done true, t')) (hf : t'.faults = t.faults) :
    dstu_pkey_verify dec type g key sig tbs = true := by
  unfold Dstu.Faulty.dstu_pkey_verify at h
  obtain ⟨_, t1, e1, e2⟩ := bind_done h
  obtain ⟨d, t2, e3, e4⟩ := bind_done e2
  have f1 := checks_done e1
  have f2 := verifyBytes_count type key tbs w _ _ _ e4
  obtain ⟨k1, k2, k3⟩ := verifyBytes_faults type key _ tbs w t2 t' e4
  simp only [Dstu.Faulty.ask, Prod.mk.injEq, Drawn.done.injEq] at e3
  obtain ⟨e3, e3'⟩ := e3
  cases d with
  | false =>
    subst e3'
    simp only [e3] at f2
    rw [f2, ← f1] at hf
    simp at hf
  | true =>
    simp only [if_true] at k1 k2 k3
    unfold dstu_pkey_verify
    simp only
    rw [if_neg (by omega), if_neg (by omega)]
    cases type with
    | le =>
      simp only [reverse_bytes_copy_eq]
      simpa using k3
    | be => simpa using k3

/-- C125, verdicts on signatures that do not start as octet strings. -/
theorem C125_evp_raw (dec : OctetDecoder) (type : KeyType) (key : EcKey g) (b : Byte) (sig tbs : List Byte) (h1 : b ≠ 0x04) (h2 : b ≠ 0x24)
    (h3 : b ≠ 0x1f) (h4 : b ≠ 0x3f) (w : Nat → Bool) (t t' : Ticks)
    (h : Dstu.Faulty.dstu_pkey_verify dec type g key (b :: sig) tbs w t = (.done true, t')) :
    dstu_pkey_verify dec type g key (b :: sig) tbs = true := by
  rcases C125_evp_verify dec type key (b :: sig) tbs w t t' h with k | ⟨k, _⟩
  · exact k
  · rw [dec.tag b sig h1 h2 h3 h4] at k
    cases k

/-! ### The missing check of `BN_one` -/

theorem loop_forever (d : Nat) : ∀ (draws : List Nat), (∀ e ∈ draws, e < g.n ∧ e • g.gen ≠ 0) → ∀ (w : Nat → Bool) (t : Ticks),
    (∀ k, t.tick ≤ k → w k = true) → ∃ k, Dstu.Faulty.signLoop g d 0 (draws.map some) w t = (.waiting, ⟨k, t.faults⟩)
  | [], _, w, t, _ => ⟨t.tick, rfl⟩
  | e :: rest, hd, w, t, hw => by
    obtain ⟨h1, h2⟩ := hd e List.mem_cons_self
    have hd' := fun e he => hd e (List.mem_cons_of_mem _ he)
    have hwait : signStep g d 0 e = .waiting := by
      apply signStep_waiting d 0 e h1 h2
      rintro r s ⟨⟨x, y, hxy, _, _, hr⟩, _, hr0, _⟩
      have hp := goodGroup_p g
      rw [GF.ofNat_zero, zero_mul, elemToInt, GF.toNat_zero g.p (by omega), Nat.zero_mod] at hr
      exact hr0 hr
    have w0 := hw t.tick (le_refl _)
    have w1 := hw (t.tick + 1) (by omega)
    have w2 := hw (t.tick + 1 + 1) (by omega)
    have ch : ∀ (β : Type) (f : Unit → Dstu.Faulty β), (Dstu.Faulty.checks 2 >>= f) w t = f () w ⟨t.tick + 1 + 1, t.faults⟩ := by
      intro β f
      change Dstu.Faulty.bind (Dstu.Faulty.checks 2) f w t = _
      have : Dstu.Faulty.checks 2 w t = (.done (), ⟨t.tick + 1 + 1, t.faults⟩) := by
        change Dstu.Faulty.bind Dstu.Faulty.check (fun _ => Dstu.Faulty.bind Dstu.Faulty.check fun _ => Dstu.Faulty.pure ()) w t = _
        simp [Dstu.Faulty.bind, Dstu.Faulty.check, Dstu.Faulty.pure, w0, w1]
      simp only [Dstu.Faulty.bind, this]
    have c3 : ∀ (β : Type) (f : Unit → Dstu.Faulty β), (Dstu.Faulty.check >>= f) w ⟨t.tick + 1 + 1, t.faults⟩ = f () w ⟨t.tick + 1 + 1 + 1, t.faults⟩ := by
      intro β f
      change Dstu.Faulty.bind Dstu.Faulty.check f w _ = _
      simp [Dstu.Faulty.bind, Dstu.Faulty.check, w2]
    simp only [List.map_cons]
    unfold Dstu.Faulty.signLoop
    rw [ch]
    unfold signStep at hwait
    cases ha : affine (ec_mul g e none) with
    | none => simp [ha] at hwait
    | some q =>
      obtain ⟨Fe, y⟩ := q
      simp only [ha] at hwait ⊢
      by_cases h0 : Fe = 0
      · simp only [h0, if_true] at hwait ⊢
        obtain ⟨k, hk⟩ := loop_forever d rest hd' w ⟨t.tick + 1 + 1, t.faults⟩ (fun k hk => hw k (by simp only at hk; omega))
        exact ⟨k, hk⟩
      · simp only [h0, if_false] at hwait ⊢
        rw [c3]
        cases hr : field_to_bn (gf2m_mul g.p 0 Fe) g.n with
        | none => simp [hr] at hwait
        | some r =>
          have r0 := field_zero Fe hr
          simp only [r0, if_true]
          obtain ⟨k, hk⟩ := loop_forever d rest hd' w ⟨t.tick + 1 + 1 + 1, t.faults⟩ (fun k hk => hw k (by simp only at hk; omega))
          exact ⟨k, hk⟩

theorem checks_pass {β : Type} (f : Unit → Dstu.Faulty β) (w : Nat → Bool) : ∀ (n k c : Nat), (∀ j, k ≤ j → j < k + n → w j = true) →
    (Dstu.Faulty.checks n >>= f) w ⟨k, c⟩ = f () w ⟨k + n, c⟩
  | 0, k, c, _ => rfl
  | n + 1, k, c, h => by
    have h0 := h k (le_refl _) (by omega)
    have ih := checks_pass f w n (k + 1) c (fun j h1 h2 => h j (by omega) (by omega))
    change Dstu.Faulty.bind (Dstu.Faulty.bind Dstu.Faulty.check fun _ => Dstu.Faulty.checks n) f w ⟨k, c⟩ = _
    change Dstu.Faulty.bind (Dstu.Faulty.checks n) f w ⟨k + 1, c⟩ = _ at ih
    have e : Dstu.Faulty.bind (Dstu.Faulty.bind Dstu.Faulty.check fun _ => Dstu.Faulty.checks n) f w ⟨k, c⟩ =
        Dstu.Faulty.bind (Dstu.Faulty.checks n) f w ⟨k + 1, c⟩ := by
      simp [Dstu.Faulty.bind, Dstu.Faulty.check, h0]
    rw [e, ih]
    congr 2
    omega

/-- C125 does not say that the functions return: when the one call for a digest of zeros, `BN_one`, fails, and nothing else, signing never returns,
whatever numbers are drawn. -/
theorem C125_endless_refuted (key : EcKey g) (d : Nat) (hd : key.priv = some d) (n : Nat) (draws : List Nat)
    (hdraws : ∀ e ∈ draws, e < g.n ∧ e • g.gen ≠ 0) :
    ∃ k, Dstu.Faulty.dstu_do_sign g key (List.replicate (n + 1) 0) (draws.map some) (fun k => decide (k ≠ 13)) ⟨0, 0⟩ = (.waiting, ⟨k, 1⟩) := by
  obtain ⟨k, hk⟩ := loop_forever d draws hdraws (fun k => decide (k ≠ 13)) ⟨14, 1⟩ (fun k hk => by
    simp only at hk
    simp only [decide_eq_true_eq]
    omega)
  have hz : bin2bn (List.replicate (n + 1) (0 : Byte)).reverse = 0 := by
    have h1 : ∀ m, leValue (List.replicate m (0 : Byte)) = 0 := by
      intro m
      induction m with
      | zero => rfl
      | succ m ih => rw [List.replicate_succ, leValue, ih]; rfl
    rw [bin2bn_eq, beValue, List.reverse_reverse, h1]
  have hh : Dstu.Faulty.hash_to_field (List.replicate (n + 1) (0 : Byte)) g.degree (fun k => decide (k ≠ 13)) ⟨11, 0⟩ = (.done 0, ⟨14, 1⟩) := by
    unfold Dstu.Faulty.hash_to_field
    rw [if_neg (by simp), checks_pass _ _ 2 11 0 (fun j h1 h2 => by simp only [decide_eq_true_eq]; omega)]
    simp only [hz, if_true]
    change Dstu.Faulty.bind Dstu.Faulty.ask _ _ _ = _
    simp only [Dstu.Faulty.bind, Dstu.Faulty.ask]
    have : bn_truncate_bits 0 (g.degree : Int) = some 0 := by rw [bn_truncate_bits_eq, Nat.zero_mod]
    simp [this, Dstu.Faulty.value]
    rfl
  refine ⟨k, ?_⟩
  unfold Dstu.Faulty.dstu_do_sign
  simp only [hd]
  rw [checks_pass _ _ 11 0 0 (fun j h1 h2 => by simp only [decide_eq_true_eq]; omega)]
  change Dstu.Faulty.bind (Dstu.Faulty.hash_to_field _ _) _ _ ⟨11, 0⟩ = _
  unfold Dstu.Faulty.bind
  rw [hh]
  simp only
  change Dstu.Faulty.bind (Dstu.Faulty.signLoop g d 0 _) _ _ _ = _
  unfold Dstu.Faulty.bind
  rw [hk]

/-! ### When nothing fails -/

/-- No call fails. -/
def noFault : Nat → Bool := fun _ => true

theorem checks_none {β : Type} (f : Unit → Dstu.Faulty β) (n : Nat) (t : Ticks) :
    (Dstu.Faulty.checks n >>= f) noFault t = f () noFault ⟨t.tick + n, t.faults⟩ :=
  checks_pass f noFault n t.tick t.faults fun _ _ _ => rfl

theorem check_none {β : Type} (f : Unit → Dstu.Faulty β) (t : Ticks) :
    (Dstu.Faulty.check >>= f) noFault t = f () noFault ⟨t.tick + 1, t.faults⟩ := rfl

theorem hash_none (tbs : List Byte) (m : Nat) (t : Ticks) :
    ∃ t', Dstu.Faulty.hash_to_field tbs m noFault t = (match hash_to_field tbs m with | none => .failed | some h => .done h, t') := by
  unfold Dstu.Faulty.hash_to_field hash_to_field
  by_cases h0 : tbs = []
  · simp only [h0, if_true]
    exact ⟨t, rfl⟩
  · rw [if_neg h0, if_neg h0, checks_none]
    have hv : ∀ (o : Option Nat) (t : Ticks), Dstu.Faulty.value o noFault t = (match o with | none => .failed | some h => .done h, t) := by
      intro o t
      cases o <;> rfl
    by_cases hz : bin2bn tbs.reverse = 0
    · simp only [hz, if_true]
      change ∃ t', Dstu.Faulty.bind Dstu.Faulty.ask _ _ _ = _
      simp only [Dstu.Faulty.bind, Dstu.Faulty.ask, hv]
      exact ⟨_, rfl⟩
    · simp only [hz, if_false, hv]
      exact ⟨_, rfl⟩

theorem loop_none (d h : Nat) : ∀ (draws : List (Option Nat)) (t : Ticks), ∃ t', Dstu.Faulty.signLoop g d h draws noFault t = (signLoop g d h draws, t')
  | [], t => ⟨t, rfl⟩
  | none :: rest, t => ⟨t, rfl⟩
  | some e :: rest, t => by
    unfold Dstu.Faulty.signLoop signLoop signStep
    rw [checks_none]
    cases ha : affine (ec_mul g e none) with
    | none => exact ⟨_, rfl⟩
    | some q =>
      obtain ⟨Fe, y⟩ := q
      simp only
      by_cases h0 : Fe = 0
      · simp only [h0, if_true]
        exact loop_none d h rest _
      · simp only [h0, if_false]
        rw [check_none]
        cases hr : field_to_bn (gf2m_mul g.p h Fe) g.n with
        | none => exact ⟨_, rfl⟩
        | some r =>
          simp only
          by_cases r0 : r = 0
          · simp only [r0, if_true]
            exact loop_none d h rest _
          · simp only [r0, if_false]
            rw [checks_none]
            by_cases s0 : mod_add_quick (d * r % g.n) e g.n = 0
            · simp only [s0, if_true]
              exact loop_none d h rest _
            · simp only [s0, if_false]
              exact ⟨_, rfl⟩

/-- C125: when no call fails, signing does what the model without failures says. -/
theorem C125_nothing_fails (key : EcKey g) (tbs : List Byte) (draws : List (Option Nat)) (t : Ticks) :
    (Dstu.Faulty.dstu_do_sign g key tbs draws noFault t).1 = dstu_do_sign g key tbs draws := by
  unfold Dstu.Faulty.dstu_do_sign dstu_do_sign
  cases key.priv with
  | none => rfl
  | some d =>
    simp only
    rw [checks_none]
    obtain ⟨t1, e1⟩ := hash_none tbs g.degree ⟨t.tick + 11, t.faults⟩
    change (Dstu.Faulty.bind (Dstu.Faulty.hash_to_field tbs g.degree) _ noFault _).1 = _
    unfold Dstu.Faulty.bind
    rw [e1]
    cases hash_to_field tbs g.degree with
    | none => rfl
    | some h =>
      simp only
      obtain ⟨t2, e2⟩ := loop_none (g := g) d h draws t1
      change (Dstu.Faulty.bind (Dstu.Faulty.signLoop g d h draws) _ noFault _).1 = _
      unfold Dstu.Faulty.bind
      rw [e2]
      cases signLoop g d h draws with
      | waiting => rfl
      | failed => rfl
      | done p =>
        obtain ⟨r, s⟩ := p
        simp only
        unfold Dstu.Faulty.encodeSig
        split
        · rename_i e3
          simp only [e3]; rfl
        · rename_i e3
          simp only [e3]; rfl
        · rename_i e3
          simp only [e3]
          split
          · rename_i e4
            simp only [e4]; rfl
          · rename_i e4
            simp only [e4]; rfl
          · rename_i e4
            simp only [e4]; rfl

/-- C125: when no call fails, what the model without failures accepts is accepted. -/
theorem C125_verify_nothing_fails (key : EcKey g) (tbs sig : List Byte) (h : dstu_do_verify g key tbs sig = true) (t : Ticks) :
    ∃ t', Dstu.Faulty.dstu_do_verify g key tbs sig noFault t = (.done true, t') := by
  unfold Dstu.Faulty.dstu_do_verify
  unfold dstu_do_verify at h
  cases hk : key.pub with
  | none => simp [hk] at h
  | some Q =>
    simp only [hk] at h ⊢
    rw [checks_none]
    obtain ⟨t1, e1⟩ := hash_none tbs g.degree ⟨t.tick + 7, t.faults⟩
    change ∃ t', Dstu.Faulty.bind (Dstu.Faulty.hash_to_field tbs g.degree) _ noFault _ = _
    unfold Dstu.Faulty.bind
    rw [e1]
    cases hh : hash_to_field tbs g.degree with
    | none => simp [hh] at h
    | some hv =>
      simp only [hh] at h ⊢
      rw [checks_none]
      generalize bin2bn (sig.take (sig.length / 2)) = s at h ⊢
      generalize bin2bn ((sig.drop (sig.length / 2)).take (sig.length / 2)) = r at h ⊢
      by_cases c1 : s = 0 ∨ r = 0
      · simp [c1] at h
      rw [if_neg c1] at h ⊢
      by_cases c2 : s ≥ g.n ∨ r ≥ g.n
      · simp [c2] at h
      rw [if_neg c2] at h ⊢
      rw [checks_none]
      cases ha : affine (ec_mul g s (some (Q, r))) with
      | none => simp [ha] at h
      | some q =>
        obtain ⟨Rx, y⟩ := q
        simp only [ha] at h ⊢
        rw [checks_none]
        cases hr : field_to_bn (gf2m_mul g.p hv Rx) g.n with
        | none => simp [hr] at h
        | some r1 =>
          simp only [hr] at h ⊢
          rw [h]
          exact ⟨_, rfl⟩

/-- C125: the same through the EVP layer. -/
theorem C125_evp_nothing_fails (dec : OctetDecoder) (type : KeyType) (key : EcKey g) (sig tbs : List Byte)
    (h : dstu_pkey_verify dec type g key sig tbs = true) (t : Ticks) :
    ∃ t', Dstu.Faulty.dstu_pkey_verify dec type g key sig tbs noFault t = (.done true, t') := by
  unfold Dstu.Faulty.dstu_pkey_verify
  unfold dstu_pkey_verify at h
  simp only at h
  rw [checks_none]
  change ∃ t', Dstu.Faulty.bind Dstu.Faulty.ask _ noFault _ = _
  simp only [Dstu.Faulty.bind, Dstu.Faulty.ask, noFault, if_true]
  generalize (dec.d2i sig).getD sig = x at h ⊢
  by_cases c1 : x.length % 2 = 1
  · simp [c1] at h
  rw [if_neg c1] at h ⊢
  by_cases c2 : x.length < 2 * numBytes g.n
  · simp [c2] at h
  rw [if_neg c2] at h ⊢
  cases type with
  | le =>
    simp only [reverse_bytes_copy_eq] at h ⊢
    exact C125_verify_nothing_fails key tbs x.reverse h _
  | be =>
    simp only at h ⊢
    exact C125_verify_nothing_fails key tbs x h _

/-- C125: and signing through the EVP layer into a buffer with room. -/
theorem C125_evp_sign_nothing_fails (type : KeyType) (key : EcKey g) (siglen : Nat) (tbs : List Byte) (draws : List (Option Nat)) (out : SignOut)
    (h : dstu_pkey_sign type g key true siglen tbs draws = .done out) (hret : out.ret = true) (t : Ticks) :
    ∃ t', Dstu.Faulty.dstu_pkey_sign type g key true siglen tbs draws noFault t = (.done out, t') := by
  unfold Dstu.Faulty.dstu_pkey_sign
  unfold dstu_pkey_sign at h
  simp only at h
  rw [checks_none]
  have hp : ∀ t, Dstu.Faulty.pkey_size g noFault t = (.done (pkey_size g), ⟨t.tick + 1 + 1, t.faults⟩) := fun t => rfl
  change ∃ t', Dstu.Faulty.bind (Dstu.Faulty.pkey_size g) _ noFault _ = _
  unfold Dstu.Faulty.bind
  rw [hp]
  simp only
  by_cases c : pkey_size g > siglen
  · rw [if_pos ⟨trivial, c⟩] at h
    simp only [Drawn.done.injEq] at h
    rw [← h] at hret
    cases hret
  rw [if_neg (fun k => c k.2)] at h ⊢
  rw [if_pos trivial] at h
  rw [if_pos trivial, checks_none]
  have hs := fun t => C125_nothing_fails (g := g) key tbs draws t
  generalize ht : (⟨t.tick + 2 + 1 + 1 + 2, t.faults⟩ : Ticks) = u
  cases hd : dstu_do_sign g key tbs draws with
  | waiting => simp [hd] at h
  | failed =>
    simp only [hd, Drawn.done.injEq] at h
    rw [← h] at hret
    cases hret
  | done sd =>
    simp only [hd] at h
    have e := hs u
    rw [hd] at e
    change ∃ t', Dstu.Faulty.bind (Dstu.Faulty.dstu_do_sign g key tbs draws) _ noFault u = _
    unfold Dstu.Faulty.bind
    cases er : Dstu.Faulty.dstu_do_sign g key tbs draws noFault u with
    | mk r u' =>
      rw [er] at e
      simp only at e
      rw [e]
      simp only
      split at h
      · cases h
      · rename_i sd2 hv
        rw [hv]
        simp only [Drawn.done.injEq] at h
        rw [← h]
        exact ⟨_, rfl⟩

/-- C125 with C23: a signature that is made while calls may fail, verifies. -/
theorem C125_made_verifies (key vkey : EcKey g) (d : Nat) (hpriv : key.priv = some d) (hpub : vkey.pub = some (-(d • g.gen))) (tbs : List Byte)
    (draws : List (Option Nat)) (hdraws : ∀ e, some e ∈ draws → e < g.n) (w : Nat → Bool) (t t' : Ticks) (sig : List Byte)
    (h : Dstu.Faulty.dstu_do_sign g key tbs draws w t = (.done sig, t')) : dstu_do_verify g vkey tbs sig = true :=
  C23_raw_signature_verifies key vkey d hpriv hpub tbs draws hdraws sig (C125_sign key tbs draws w t t' sig h).1

/-- The hypotheses are met: the key 1 signs the digest `01` with the nonce 1, when nothing fails. -/
example : ∃ sig t', Dstu.Faulty.dstu_do_sign gEx keyEx [1] [some 1] noFault ⟨0, 0⟩ = (.done sig, t') ∧ t'.faults = 0 ∧
    dstu_do_verify gEx keyEx [1] sig = true := by
  obtain ⟨sig, hs⟩ := signEx
  have h := C125_nothing_fails keyEx [1] [some 1] ⟨0, 0⟩
  rw [hs] at h
  cases e : Dstu.Faulty.dstu_do_sign gEx keyEx [1] [some 1] noFault ⟨0, 0⟩ with
  | mk r t' =>
    rw [e] at h
    simp only at h
    rw [h] at e
    refine ⟨sig, t', by rw [h], (C125_sign _ _ _ _ _ _ _ e).2, C125_made_verifies keyEx keyEx 1 rfl rfl [1] [some 1] draws_ex _ _ _ sig e⟩

/-- Signing four zero bytes with any numbers of draws of the nonce 1, when `BN_one` fails. -/
example (m : Nat) : ∃ k, Dstu.Faulty.dstu_do_sign gEx keyEx (List.replicate 4 0) ((List.replicate m 1).map some) (fun k => decide (k ≠ 13)) ⟨0, 0⟩ =
    (.waiting, ⟨k, 1⟩) := by
  refine C125_endless_refuted keyEx 1 rfl 3 (List.replicate m 1) fun e he => ?_
  obtain ⟨_, rfl⟩ := List.mem_replicate.mp he
  exact ⟨gEx_numbers.2.2.1, genEx_ne⟩

/-- The hypotheses about the EVP layer are met as well. -/
example (type : KeyType) : ∃ out t', Dstu.Faulty.dstu_pkey_sign type gEx keyEx true 1000 [1] [some 1] noFault ⟨0, 0⟩ = (.done out, t') ∧
    ∃ t'', Dstu.Faulty.dstu_pkey_verify octetDecoder type gEx keyEx out.written [1] noFault ⟨0, 0⟩ = (.done true, t'') := by
  obtain ⟨out, h1, h2⟩ := runEx type
  obtain ⟨t', h3⟩ := C125_evp_sign_nothing_fails type keyEx 1000 [1] [some 1] out h1 h2 ⟨0, 0⟩
  refine ⟨out, t', h3, C125_evp_nothing_fails octetDecoder type keyEx out.written [1] ?_ ⟨0, 0⟩⟩
  exact C23_signature_verifies octetDecoder type keyEx keyEx 1 rfl rfl gEx_numbers.2.2.2.1 [1] 1000 [some 1] draws_ex out h1 h2

end Dstu.Props
