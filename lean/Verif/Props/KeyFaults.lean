import Verif.Model.KeyFaults
import Verif.Props.SignFaults
import Verif.Props.FailLib

/-! Property C126: failures of library calls and the values of keys and points. -/

namespace Dstu.Props

open Spec Flt

namespace Flt

theorem ask_cases {b : Bool} {w : Nat → Bool} {t t' : Ticks} (h : Faulty.ask w t = (.done b, t')) :
    (b = true ∧ t'.faults = t.faults) ∨ (b = false ∧ t'.faults = t.faults + 1) := by
  simp only [Faulty.ask, Prod.mk.injEq, Drawn.done.injEq] at h
  obtain ⟨h1, h2⟩ := h
  rw [← h2]
  cases b with
  | true => simp [h1]
  | false => simp [h1]

theorem asks_cases {w : Nat → Bool} : ∀ {k : Nat} {b : Bool} {t t' : Ticks}, Faulty.asks k w t = (.done b, t') →
    (b = true ∧ t'.faults = t.faults) ∨ (b = false ∧ t'.faults = t.faults + 1)
  | 0, b, t, t', h => by
    obtain ⟨h1, h2⟩ := pure_done (α := Bool) h
    exact Or.inl ⟨h1.symm, by rw [h2]⟩
  | k + 1, b, t, t', h => by
    obtain ⟨a, t1, e1, e2⟩ := bind_done h
    rcases ask_cases e1 with ⟨rfl, f1⟩ | ⟨rfl, f1⟩
    · rw [if_pos rfl] at e2
      rw [← f1]
      exact asks_cases e2
    · obtain ⟨h1, h2⟩ := pure_done (α := Bool) e2
      exact Or.inr ⟨h1.symm, by rw [← h2, f1]⟩

theorem traceLoop_cases (p bn : Nat) {w : Nat → Bool} : ∀ (n r : Nat) {o : Option Nat} {t t' : Ticks}, Faulty.traceLoop p bn n r w t = (.done o, t') →
    (o = some (traceLoop p bn n r) ∧ t'.faults = t.faults) ∨ (o = none ∧ t'.faults = t.faults + 1)
  | 0, r, o, t, t', h => by
    obtain ⟨h1, h2⟩ := pure_done (α := Option Nat) h
    exact Or.inl ⟨h1.symm, by rw [h2]⟩
  | n + 1, r, o, t, t', h => by
    obtain ⟨a, t1, e1, e2⟩ := bind_done h
    rcases asks_cases e1 with ⟨rfl, f1⟩ | ⟨rfl, f1⟩
    · rw [if_pos rfl] at e2
      rw [← f1]
      exact traceLoop_cases p bn n _ e2
    · obtain ⟨h1, h2⟩ := pure_done (α := Option Nat) e2
      exact Or.inr ⟨h1.symm, by rw [← h2, f1]⟩

theorem trace_cases {p bn : Nat} {w : Nat → Bool} {v : Int} {t t' : Ticks} (h : Faulty.bn_trace bn p w t = (.done v, t')) :
    (v = bn_trace bn p ∧ t'.faults = t.faults) ∨ (v = -1 ∧ t'.faults = t.faults + 1) := by
  unfold Faulty.bn_trace at h
  obtain ⟨a, t1, e1, e2⟩ := bind_done h
  rcases ask_cases e1 with ⟨rfl, f1⟩ | ⟨rfl, f1⟩
  · rw [if_pos rfl] at e2
    obtain ⟨o, t2, e3, e4⟩ := bind_done e2
    rcases traceLoop_cases p bn _ _ e3 with ⟨rfl, f2⟩ | ⟨rfl, f2⟩
    · obtain ⟨h1, h2⟩ := pure_done (α := Int) e4
      exact Or.inl ⟨h1.symm, by rw [← h2, f2, f1]⟩
    · obtain ⟨h1, h2⟩ := pure_done (α := Int) e4
      exact Or.inr ⟨h1.symm, by rw [← h2, f2, f1]⟩
  · obtain ⟨h1, h2⟩ := pure_done (α := Int) e2
    exact Or.inr ⟨h1.symm, by rw [← h2, f1]⟩

end Flt

/-! ### Compression -/

/-- C126, compression: whatever calls fail, if a point is compressed then no call failed and the bytes are those written when nothing fails. -/
theorem C126_compress (g : EcGroup) (point : Option (Nat × Nat)) (len : Nat) (w : Nat → Bool) (t t' : Ticks) (c : List Byte)
    (h : Faulty.dstu_point_compress g point len w t = (.done c, t')) :
    dstu_point_compress g point len = (true, some c) ∧ t'.faults = t.faults := by
  unfold Faulty.dstu_point_compress at h
  unfold dstu_point_compress
  by_cases hl : len < g.fieldSize
  · rw [if_pos hl] at h
    exact (err_done h).elim
  rw [if_neg hl] at h ⊢
  obtain ⟨_, t1, e1, e2⟩ := bind_done h
  have f1 := checks_done e1
  cases point with
  | none => exact (err_done e2).elim
  | some q =>
    obtain ⟨x, y⟩ := q
    simp only at e2 ⊢
    by_cases hx : x = 0
    · rw [if_pos hx] at e2 ⊢
      obtain ⟨p1, p2⟩ := pure_done (α := List Byte) e2
      exact ⟨by rw [p1], by rw [← p2, f1]⟩
    rw [if_neg hx] at e2 ⊢
    obtain ⟨_, t2, e3, e4⟩ := bind_done e2
    have f2 := check_done e3
    cases hi : gf2m_inv g.p x with
    | none =>
      rw [hi] at e4
      exact (err_done e4).elim
    | some xi =>
      rw [hi] at e4
      simp only at e4 ⊢
      obtain ⟨_, t3, e5, e6⟩ := bind_done e4
      have f3 := check_done e5
      obtain ⟨tr, t4, e7, e8⟩ := bind_done e6
      rcases trace_cases e7 with ⟨m1, f4⟩ | ⟨m1, f4⟩
      · rw [← m1]
        by_cases h1 : tr = -1
        · rw [if_pos h1] at e8
          exact (err_done e8).elim
        rw [if_neg h1] at e8 ⊢
        obtain ⟨_, t5, e9, e10⟩ := bind_done e8
        have f5 := check_done e9
        by_cases hr : (bn_encode (if tr ≠ 0 then setBit0 x else clearBit0 x) g.fieldSize).1 ≠ 0
        · rw [if_pos hr] at e10
          obtain ⟨v1, v2⟩ := value_done e10
          exact ⟨Prod.ext (decide_eq_true hr) v1, by rw [← v2, f5, f4, f3, f2, f1]⟩
        · rw [if_neg hr] at e10
          exact (err_done e10).elim
      · rw [if_pos m1] at e8
        exact (err_done e8).elim

/-! ### Expansion -/

/-- The end of the expansion without failures, given the second trace. -/
noncomputable def expandTail (sq : QuadSolver) (second : Nat → Nat → Int) (g : EcGroup) (k x x2 y : Nat) : Option (Nat × Nat) :=
  match gf2m_inv g.p x2 with
  | none => none
  | some x2 =>
    match sq.solve g.p (gf2m_mul g.p y x2) with
    | none => none
    | some y =>
      set_affine g.p g.a g.b x (gf2m_mul g.p (if (k ≠ 0 ∧ second y g.p = 0) ∨ (k = 0 ∧ second y g.p ≠ 0) then y ^^^ 1 else y) x)

theorem expandEnd_cases (sq : QuadSolver) (g : EcGroup) (k x x2 y : Nat) (w : Nat → Bool) (t t' : Ticks) (q : Nat × Nat)
    (h : Faulty.expandEnd sq g k x x2 y w t = (.done q, t')) :
    (expandTail sq bn_trace g k x x2 y = some q ∧ t'.faults = t.faults) ∨
      (expandTail sq (fun _ _ => -1) g k x x2 y = some q ∧ t'.faults = t.faults + 1) := by
  unfold Faulty.expandEnd at h
  unfold expandTail
  obtain ⟨_, t1, e1, e2⟩ := bind_done h
  have f1 := check_done e1
  cases hi : gf2m_inv g.p x2 with
  | none =>
    rw [hi] at e2
    exact (err_done e2).elim
  | some xi =>
    rw [hi] at e2
    simp only at e2 ⊢
    obtain ⟨_, t2, e3, e4⟩ := bind_done e2
    have f2 := check_done e3
    obtain ⟨_, t3, e5, e6⟩ := bind_done e4
    have f3 := check_done e5
    cases hs : sq.solve g.p (gf2m_mul g.p y xi) with
    | none =>
      rw [hs] at e6
      exact (err_done e6).elim
    | some z =>
      rw [hs] at e6
      simp only at e6 ⊢
      obtain ⟨tr, t4, e7, e8⟩ := bind_done e6
      obtain ⟨_, t5, e9, e10⟩ := bind_done e8
      have f5 := checks_done e9
      obtain ⟨_, t6, e11, e12⟩ := bind_done e10
      have f6 := check_done e11
      obtain ⟨_, t7, e13, e14⟩ := bind_done e12
      have f7 := check_done e13
      obtain ⟨v1, v2⟩ := value_done e14
      rcases trace_cases e7 with ⟨m1, f4⟩ | ⟨m1, f4⟩
      · left
        rw [← m1]
        exact ⟨v1, by rw [← v2, f7, f6, f5, f4, f3, f2, f1]⟩
      · right
        rw [m1] at v1
        exact ⟨v1, by rw [← v2, f7, f6, f5, f4, f3, f2, f1]⟩

theorem expand_cases (sq : QuadSolver) (c : List Byte) (g : EcGroup) (w : Nat → Bool) (t t' : Ticks) (q : Nat × Nat)
    (h : Faulty.dstu_point_expand sq c g w t = (.done q, t')) :
    (dstu_point_expand sq c g = some q ∧ t'.faults = t.faults) ∨
      (expandWith sq (fun _ _ => -1) c g = some q ∧ bin2bn c ≠ 0 ∧ t'.faults = t.faults + 1) := by
  unfold Faulty.dstu_point_expand at h
  unfold dstu_point_expand expandWith
  by_cases hl : c.length < g.fieldSize
  · rw [if_pos hl] at h
    exact (err_done h).elim
  rw [if_neg hl] at h
  rw [if_neg hl, if_neg hl]
  obtain ⟨_, t1, e1, e2⟩ := bind_done h
  have f1 := checks_done e1
  simp only at e2 ⊢
  by_cases hx : bin2bn c = 0
  · rw [if_pos hx] at e2
    rw [if_pos hx]
    obtain ⟨_, t2, e3, e4⟩ := bind_done e2
    have f2 := check_done e3
    obtain ⟨_, t3, e5, e6⟩ := bind_done e4
    have f3 := check_done e5
    obtain ⟨v1, v2⟩ := value_done e6
    exact Or.inl ⟨v1, by rw [← v2, f3, f2, f1]⟩
  rw [if_neg hx] at e2
  rw [if_neg hx, if_neg hx]
  obtain ⟨_, t2, e3, e4⟩ := bind_done e2
  have f2 := check_done e3
  obtain ⟨tr, t3, e5, e6⟩ := bind_done e4
  rcases trace_cases e5 with ⟨m1, f3⟩ | ⟨m1, f3⟩
  · rw [← m1]
    by_cases h1 : tr = -1
    · rw [if_pos h1] at e6
      exact (err_done e6).elim
    rw [if_neg h1] at e6
    rw [if_neg h1, if_neg h1]
    obtain ⟨_, t4, e7, e8⟩ := bind_done e6
    have f4 := checks_done e7
    obtain ⟨_, t5, e9, e10⟩ := bind_done e8
    have f5 := check_done e9
    obtain ⟨_, t6, e11, e12⟩ := bind_done e10
    have f6 := check_done e11
    obtain ⟨_, t7, e13, e14⟩ := bind_done e12
    have f7 := checks_done e13
    obtain ⟨_, t8, e15, e16⟩ := bind_done e14
    have f8 := check_done e15
    rcases expandEnd_cases sq g _ _ _ _ w t8 t' q e16 with ⟨k1, k2⟩ | ⟨k1, k2⟩
    · exact Or.inl ⟨k1, by rw [k2, f8, f7, f6, f5, f4, f3, f2, f1]⟩
    · exact Or.inr ⟨k1, hx, by rw [k2, f8, f7, f6, f5, f4, f3, f2, f1]⟩
  · rw [if_pos m1] at e6
    exact (err_done e6).elim

theorem tail_swap {g : EcGroup} [GoodGroup g] (sq : QuadSolver) (s s' : Nat → Nat → Int) (k x x2 y x1 y1 : Nat)
    (h : expandTail sq s g k x x2 y = some (x1, y1)) :
    ∃ y2, expandTail sq s' g k x x2 y = some (x1, y2) ∧ (y2 = y1 ∨ GF.ofNat g.p y2 = GF.ofNat g.p x1 + GF.ofNat g.p y1) := by
  unfold expandTail at h ⊢
  cases hi : gf2m_inv g.p x2 with
  | none => simp [hi] at h
  | some xi =>
    simp only [hi] at h ⊢
    cases hs : sq.solve g.p (gf2m_mul g.p y xi) with
    | none => simp [hs] at h
    | some z =>
      simp only [hs] at h ⊢
      have main : ∀ u v : Nat, (v = u ∨ GF.ofNat g.p v = GF.ofNat g.p u + 1) → set_affine g.p g.a g.b x (gf2m_mul g.p u x) = some (x1, y1) →
          ∃ y2, set_affine g.p g.a g.b x (gf2m_mul g.p v x) = some (x1, y2) ∧ (y2 = y1 ∨ GF.ofNat g.p y2 = GF.ofNat g.p x1 + GF.ofNat g.p y1) := by
        intro u v huv hu
        rcases huv with rfl | huv
        · exact ⟨y1, hu, Or.inl rfl⟩
        · unfold set_affine at hu ⊢
          by_cases hc : OnCurve (GF.ofNat g.p g.a) (GF.ofNat g.p g.b) (GF.ofNat g.p x) (GF.ofNat g.p (gf2m_mul g.p u x))
          · rw [if_pos hc, Option.some.injEq, Prod.mk.injEq] at hu
            obtain ⟨rfl, rfl⟩ := hu
            have e : GF.ofNat g.p (gf2m_mul g.p v x) = GF.ofNat g.p x + GF.ofNat g.p (gf2m_mul g.p u x) := by
              rw [ofNat_mul, ofNat_mul, huv]
              ring
            have hc' : OnCurve (GF.ofNat g.p g.a) (GF.ofNat g.p g.b) (GF.ofNat g.p x) (GF.ofNat g.p (gf2m_mul g.p v x)) := by
              rw [e]
              unfold OnCurve at hc ⊢
              have t : (2 : GF g.p) = 0 := CharTwo.two_eq_zero
              linear_combination hc + (GF.ofNat g.p x * GF.ofNat g.p (gf2m_mul g.p u x) + GF.ofNat g.p x ^ 2) * t
            rw [if_pos hc']
            exact ⟨_, rfl, Or.inr e⟩
          · rw [if_neg hc] at hu
            cases hu
      have hxor : GF.ofNat g.p (z ^^^ 1) = GF.ofNat g.p z + 1 := by rw [GF.ofNat_xor, GF.ofNat_one]
      refine main _ _ ?_ h
      split <;> split
      · exact Or.inl rfl
      · exact Or.inr hxor
      · right
        rw [hxor, add_assoc, CharTwo.add_self_eq_zero, add_zero]
      · exact Or.inl rfl

theorem expandWith_swap {g : EcGroup} [GoodGroup g] (sq : QuadSolver) (s s' : Nat → Nat → Int) (c : List Byte) (x1 y1 : Nat)
    (h : expandWith sq s c g = some (x1, y1)) :
    ∃ y2, expandWith sq s' c g = some (x1, y2) ∧ (y2 = y1 ∨ GF.ofNat g.p y2 = GF.ofNat g.p x1 + GF.ofNat g.p y1) := by
  unfold expandWith at h ⊢
  by_cases hl : c.length < g.fieldSize
  · rw [if_pos hl] at h
    cases h
  rw [if_neg hl] at h ⊢
  simp only at h ⊢
  by_cases hx : bin2bn c = 0
  · rw [if_pos hx] at h ⊢
    exact ⟨y1, h, Or.inl rfl⟩
  rw [if_neg hx] at h ⊢
  by_cases h1 : bn_trace (clearBit0 (bin2bn c)) g.p = -1
  · rw [if_pos h1] at h
    cases h
  rw [if_neg h1] at h ⊢
  exact tail_swap sq s s' _ _ _ _ x1 y1 h

/-- C126, expansion: whatever calls fail, if a point is given then it is the point given when nothing fails, or, after one failure, the opposite point
`(x, x + y)`.  That this happens is `C76_wrong_point_refuted`. -/
theorem C126_expand_partial {g : EcGroup} [GoodGroup g] (sq : QuadSolver) (c : List Byte) (w : Nat → Bool) (t t' : Ticks) (x y : Nat)
    (h : Faulty.dstu_point_expand sq c g w t = (.done (x, y), t')) :
    (dstu_point_expand sq c g = some (x, y) ∧ t'.faults = t.faults) ∨
      ∃ y0, dstu_point_expand sq c g = some (x, y0) ∧ t'.faults = t.faults + 1 ∧
        (y = y0 ∨ GF.ofNat g.p y = GF.ofNat g.p x + GF.ofNat g.p y0) := by
  rcases expand_cases sq c g w t t' (x, y) h with k | ⟨k1, _, k2⟩
  · exact Or.inl k
  · obtain ⟨y0, e1, e2⟩ := expandWith_swap sq (fun _ _ => -1) bn_trace c x y k1
    refine Or.inr ⟨y0, e1, k2, ?_⟩
    rcases e2 with e | e
    · exact Or.inl e.symm
    · right
      rw [e, ← add_assoc, CharTwo.add_self_eq_zero, zero_add]

/-! ### Generation -/

variable {g : EcGroup} [GoodGroup g]

theorem add_public_cases (key : EcKey g) (prk : Nat) (hp : key.priv = some prk) (w : Nat → Bool) (t t' : Ticks) (ret : Bool) (k : EcKey g)
    (h : Dstu.Faulty.dstu_add_public_key g key w t = (.done (ret, k), t')) :
    k.priv = some prk ∧ ((ret = true ∧ k.pub = some (-(prk • g.gen)) ∧ t'.faults = t.faults) ∨
      (ret = false ∧ (k.pub = key.pub ∨ k.pub = none) ∧ t'.faults = t.faults + 1)) := by
  unfold Dstu.Faulty.dstu_add_public_key at h
  simp only [hp] at h
  obtain ⟨a, t1, e1, e2⟩ := bind_done h
  rcases asks_cases e1 with ⟨rfl, f1⟩ | ⟨rfl, f1⟩
  · rw [if_pos rfl] at e2
    obtain ⟨b, t2, e3, e4⟩ := bind_done e2
    rcases ask_cases e3 with ⟨rfl, f2⟩ | ⟨rfl, f2⟩
    · rw [if_pos rfl] at e4
      obtain ⟨p1, p2⟩ := pure_done (α := Bool × EcKey g) e4
      rw [Prod.mk.injEq] at p1
      obtain ⟨rfl, rfl⟩ := p1
      exact ⟨rfl, Or.inl ⟨rfl, rfl, by rw [← p2, f2, f1]⟩⟩
    · obtain ⟨p1, p2⟩ := pure_done (α := Bool × EcKey g) e4
      rw [Prod.mk.injEq] at p1
      obtain ⟨rfl, rfl⟩ := p1
      exact ⟨rfl, Or.inr ⟨rfl, Or.inr rfl, by rw [← p2, f2, f1]⟩⟩
  · obtain ⟨p1, p2⟩ := pure_done (α := Bool × EcKey g) e2
    rw [Prod.mk.injEq] at p1
    obtain ⟨rfl, rfl⟩ := p1
    exact ⟨hp, Or.inr ⟨rfl, Or.inl rfl, by rw [← p2, f1]⟩⟩

theorem genLoop_ne_zero : ∀ (draws : List (Option Nat)) (d : Nat), genLoop draws = .done d → d ≠ 0 ∧ some d ∈ draws
  | [], d, h => by cases h
  | none :: _, d, h => by cases h
  | some e :: rest, d, h => by
    unfold genLoop at h
    by_cases h0 : e = 0
    · rw [if_pos h0] at h
      obtain ⟨h1, h2⟩ := genLoop_ne_zero rest d h
      exact ⟨h1, List.mem_cons_of_mem _ h2⟩
    · rw [if_neg h0, Drawn.done.injEq] at h
      rw [← h]
      exact ⟨h0, List.mem_cons_self⟩

/-- C126, key pairs: whatever calls fail, if generation succeeds then no call failed, and the key is the one made when nothing fails: a number drawn,
not zero, and the public key that belongs to it. -/
theorem C126_generate (key : EcKey g) (draws : List (Option Nat)) (w : Nat → Bool) (t t' : Ticks) (k : EcKey g)
    (h : Dstu.Faulty.dstu_generate_key g key draws w t = (.done (true, k), t')) :
    dstu_generate_key g key draws = .done k ∧ t'.faults = t.faults ∧
      ∃ d, d ≠ 0 ∧ some d ∈ draws ∧ k.priv = some d ∧ k.pub = some (-(d • g.gen)) := by
  unfold Dstu.Faulty.dstu_generate_key at h
  unfold dstu_generate_key
  obtain ⟨a, t1, e1, e2⟩ := bind_done h
  rcases asks_cases e1 with ⟨rfl, f1⟩ | ⟨rfl, f1⟩
  · rw [if_pos rfl] at e2
    cases hl : genLoop draws with
    | waiting =>
      rw [hl] at e2
      cases e2
    | failed =>
      rw [hl] at e2
      obtain ⟨p1, _⟩ := pure_done (α := Bool × EcKey g) e2
      cases p1
    | done prk =>
      rw [hl] at e2
      simp only at e2
      obtain ⟨b, t2, e3, e4⟩ := bind_done e2
      rcases ask_cases e3 with ⟨rfl, f2⟩ | ⟨rfl, f2⟩
      · rw [if_pos rfl] at e4
        obtain ⟨k1, k2⟩ := add_public_cases { key with priv := some prk } prk rfl w t2 t' true k e4
        rcases k2 with ⟨_, k2, f3⟩ | ⟨k2, _⟩
        · obtain ⟨d0, dm⟩ := genLoop_ne_zero draws prk hl
          refine ⟨?_, by rw [f3, f2, f1], prk, d0, dm, k1, k2⟩
          obtain ⟨kp, kq⟩ := k
          simp only at k1 k2
          rw [k1, k2]
          rfl
        · cases k2
      · obtain ⟨p1, _⟩ := pure_done (α := Bool × EcKey g) e4
        cases p1
  · obtain ⟨p1, _⟩ := pure_done (α := Bool × EcKey g) e2
    cases p1

/-- C126, through the EVP layer: whatever calls fail, a key pair that is handed out consists of a number drawn, not zero, and the public key that
belongs to it, and no call failed. -/
theorem C126_evp_generate (sbox : Bool) (draws : List (Option Nat)) (w : Nat → Bool) (t t' : Ticks) (k : EcKey g)
    (h : Dstu.Faulty.dstu_pkey_keygen g sbox draws w t = (.done k, t')) :
    t'.faults = t.faults ∧ ∃ d, d ≠ 0 ∧ some d ∈ draws ∧ k.priv = some d ∧ k.pub = some (-(d • g.gen)) := by
  unfold Dstu.Faulty.dstu_pkey_keygen at h
  obtain ⟨_, t1, e1, e2⟩ := bind_done h
  have f1 := checks_done e1
  obtain ⟨⟨ret, key⟩, t2, e3, e4⟩ := bind_done e2
  simp only at e4
  cases ret with
  | false => exact (err_done (w := w) e4).elim
  | true =>
    rw [if_pos rfl] at e4
    obtain ⟨_, t3, e5, e6⟩ := bind_done e4
    have f3 := checks_done e5
    obtain ⟨p1, p2⟩ := pure_done (α := EcKey g) e6
    obtain ⟨_, f2, r⟩ := C126_generate _ draws w t1 t2 key e3
    rw [← p1]
    exact ⟨by rw [← p2, f3, f2, f1], r⟩

/-- C126 with C125: a key that was generated while calls may fail, makes signatures while calls may fail, that verify with that key. -/
theorem C126_usable (sbox : Bool) (draws draws' : List (Option Nat)) (w w' : Nat → Bool) (t t' u u' : Ticks) (k : EcKey g) (tbs sig : List Byte)
    (hdraws : ∀ e, some e ∈ draws' → e < g.n) (h : Dstu.Faulty.dstu_pkey_keygen g sbox draws w t = (.done k, t'))
    (h' : Dstu.Faulty.dstu_do_sign g k tbs draws' w' u = (.done sig, u')) : dstu_do_verify g k tbs sig = true := by
  obtain ⟨_, d, _, _, h1, h2⟩ := C126_evp_generate sbox draws w t t' k h
  exact C125_made_verifies k k d h1 h2 tbs draws' hdraws w' u u' sig h'

/-- C126 says nothing about a key whose generation failed: one that had a pair may be left with the new private key and the old public key.  (The engine
generates only into new keys, and releases them then.) -/
theorem C126_half_refuted (d0 : Nat) (Q : g.Point) (d : Nat) (hd : d ≠ 0) :
    ∃ w t', Dstu.Faulty.dstu_generate_key g ⟨some d0, some Q⟩ [some d] w ⟨0, 0⟩ = (.done (false, ⟨some d, some Q⟩), t') := by
  refine ⟨fun k => decide (k < 5), ⟨6, 1⟩, ?_⟩
  have hl : genLoop [some d] = .done d := by
    unfold genLoop
    rw [if_neg hd]
  unfold Dstu.Faulty.dstu_generate_key
  rw [hl]
  rfl

/-! ### When nothing fails -/

theorem asks_none {β : Type} : ∀ (k : Nat) (f : Bool → Dstu.Faulty β) (t : Ticks),
    (Dstu.Faulty.asks k >>= f) noFault t = f true noFault ⟨t.tick + k, t.faults⟩
  | 0, f, t => rfl
  | k + 1, f, t => by
    have h := asks_none k f ⟨t.tick + 1, t.faults⟩
    simp only at h
    rw [show t.tick + (k + 1) = t.tick + 1 + k by omega, ← h]
    rfl

theorem ask_none {β : Type} (f : Bool → Dstu.Faulty β) (t : Ticks) : (Dstu.Faulty.ask >>= f) noFault t = f true noFault ⟨t.tick + 1, t.faults⟩ := rfl

/-- C126: when nothing fails, a key is generated. -/
theorem C126_nothing_fails (sbox : Bool) (draws : List (Option Nat)) (k : EcKey g) (h : dstu_generate_key g ⟨none, none⟩ draws = .done k) (t : Ticks) :
    ∃ t', Dstu.Faulty.dstu_pkey_keygen g sbox draws noFault t = (.done k, t') := by
  have hg : ∀ t, ∃ t', Dstu.Faulty.dstu_generate_key g ⟨none, none⟩ draws noFault t = (.done (true, k), t') := by
    intro t
    unfold Dstu.Faulty.dstu_generate_key
    unfold dstu_generate_key at h
    rw [asks_none]
    cases hl : genLoop draws with
    | waiting => simp [hl] at h
    | failed => simp [hl] at h
    | done prk =>
      simp only [hl] at h ⊢
      rw [if_pos trivial, ask_none, if_pos rfl]
      unfold Dstu.Faulty.dstu_add_public_key
      simp only
      rw [asks_none, if_pos rfl, ask_none, if_pos rfl]
      cases h
      exact ⟨_, rfl⟩
  unfold Dstu.Faulty.dstu_pkey_keygen
  rw [checks_none]
  obtain ⟨t1, e1⟩ := hg ⟨t.tick + 3, t.faults⟩
  change ∃ t', Dstu.Faulty.bind (Dstu.Faulty.dstu_generate_key g ⟨none, none⟩ draws) _ noFault _ = _
  unfold Dstu.Faulty.bind
  rw [e1]
  simp only [if_true]
  rw [checks_none]
  exact ⟨_, rfl⟩

theorem traceLoop_none (p bn : Nat) : ∀ (n r : Nat) (t : Ticks), ∃ t', Dstu.Faulty.traceLoop p bn n r noFault t = (.done (some (traceLoop p bn n r)), t')
  | 0, r, t => ⟨t, rfl⟩
  | n + 1, r, t => by
    unfold Dstu.Faulty.traceLoop
    rw [asks_none, if_pos rfl]
    exact traceLoop_none p bn n _ _

theorem trace_none {β : Type} (bn p : Nat) (f : Int → Dstu.Faulty β) (t : Ticks) :
    ∃ t', (Dstu.Faulty.bn_trace bn p >>= f) noFault t = f (bn_trace bn p) noFault t' := by
  have h : ∃ t', Dstu.Faulty.bn_trace bn p noFault t = (.done (bn_trace bn p), t') := by
    unfold Dstu.Faulty.bn_trace
    rw [ask_none, if_pos rfl]
    obtain ⟨t1, e1⟩ := traceLoop_none p bn (numBits p - 2) bn ⟨t.tick + 1, t.faults⟩
    change ∃ t', Dstu.Faulty.bind (Dstu.Faulty.traceLoop p bn (numBits p - 2) bn) _ noFault _ = _
    unfold Dstu.Faulty.bind
    rw [e1]
    exact ⟨t1, rfl⟩
  obtain ⟨t1, e1⟩ := h
  refine ⟨t1, ?_⟩
  change Dstu.Faulty.bind _ f noFault t = _
  unfold Dstu.Faulty.bind
  rw [e1]

/-- C126: when nothing fails, points are compressed as in the model without failures. -/
theorem C126_compress_nothing_fails (g : EcGroup) (point : Option (Nat × Nat)) (len : Nat) (c : List Byte)
    (h : dstu_point_compress g point len = (true, some c)) (t : Ticks) :
    ∃ t', Dstu.Faulty.dstu_point_compress g point len noFault t = (.done c, t') := by
  unfold Dstu.Faulty.dstu_point_compress
  unfold dstu_point_compress at h
  by_cases hl : len < g.fieldSize
  · simp [hl] at h
  rw [if_neg hl] at h ⊢
  rw [checks_none]
  cases point with
  | none => simp at h
  | some q =>
    obtain ⟨x, y⟩ := q
    simp only at h ⊢
    by_cases hx : x = 0
    · rw [if_pos hx, Prod.mk.injEq, Option.some.injEq] at h
      rw [if_pos hx, h.2]
      exact ⟨_, rfl⟩
    rw [if_neg hx] at h ⊢
    rw [check_none]
    cases hi : gf2m_inv g.p x with
    | none => simp [hi] at h
    | some xi =>
      simp only [hi] at h ⊢
      rw [check_none]
      obtain ⟨t1, e1⟩ := trace_none (gf2m_mul g.p y xi) g.p (fun trace => if trace = -1 then Dstu.Faulty.err
        else do
          Dstu.Faulty.check
          let x := if trace ≠ 0 then setBit0 x else clearBit0 x
          let (ret, written) := bn_encode x g.fieldSize
          if ret ≠ 0 then Dstu.Faulty.value written else Dstu.Faulty.err) ⟨t.tick + 7 + 1 + 1, t.faults⟩
      rw [e1]
      by_cases h1 : bn_trace (gf2m_mul g.p y xi) g.p = -1
      · simp [h1] at h
      rw [if_neg h1] at h ⊢
      rw [check_none]
      simp only [Prod.mk.injEq, decide_eq_true_eq] at h ⊢
      rw [if_pos h.1, h.2]
      exact ⟨_, rfl⟩

/-- C126: when nothing fails, points are expanded as in the model without failures. -/
theorem C126_expand_nothing_fails (sq : QuadSolver) (c : List Byte) (g : EcGroup) (q : Nat × Nat) (h : dstu_point_expand sq c g = some q) (t : Ticks) :
    ∃ t', Dstu.Faulty.dstu_point_expand sq c g noFault t = (.done q, t') := by
  unfold Dstu.Faulty.dstu_point_expand
  unfold dstu_point_expand expandWith at h
  by_cases hl : c.length < g.fieldSize
  · simp [hl] at h
  rw [if_neg hl] at h ⊢
  rw [checks_none]
  simp only at h ⊢
  by_cases hx : bin2bn c = 0
  · rw [if_pos hx] at h ⊢
    rw [check_none, check_none, h]
    exact ⟨_, rfl⟩
  rw [if_neg hx] at h ⊢
  rw [check_none]
  obtain ⟨t1, e1⟩ := trace_none (clearBit0 (bin2bn c)) g.p _ ⟨t.tick + 9 + 1, t.faults⟩
  rw [e1]
  by_cases h1 : bn_trace (clearBit0 (bin2bn c)) g.p = -1
  · simp [h1] at h
  rw [if_neg h1] at h ⊢
  rw [checks_none, check_none, check_none, checks_none, check_none]
  generalize (if bn_trace (clearBit0 (bin2bn c)) g.p ≠ 0 ∧ g.a = 0 ∨ bn_trace (clearBit0 (bin2bn c)) g.p = 0 ∧ g.a = 1 then setBit0 (clearBit0 (bin2bn c))
    else clearBit0 (bin2bn c)) = x at h ⊢
  unfold Dstu.Faulty.expandEnd
  rw [check_none]
  cases hi : gf2m_inv g.p (gf2m_sqr g.p x) with
  | none => simp [hi] at h
  | some xi =>
    simp only [hi] at h ⊢
    rw [check_none, check_none]
    cases hs : sq.solve g.p (gf2m_mul g.p ((if g.a = 1 then gf2m_mul g.p (gf2m_sqr g.p x) x ^^^ gf2m_sqr g.p x else gf2m_mul g.p (gf2m_sqr g.p x) x) ^^^ g.b) xi) with
    | none => simp [hs] at h
    | some z =>
      simp only [hs] at h ⊢
      obtain ⟨t2, e2⟩ := trace_none z g.p _ _
      rw [e2, checks_none, check_none, check_none, h]
      exact ⟨_, rfl⟩

/-! ### The missing check of the second trace -/

theorem check_pass {β : Type} (f : Unit → Dstu.Faulty β) (w : Nat → Bool) (t n : Nat) (h : w t = true) :
    (Dstu.Faulty.check >>= f) w ⟨t, n⟩ = f () w ⟨t + 1, n⟩ := by
  change Dstu.Faulty.bind Dstu.Faulty.check f w ⟨t, n⟩ = _
  simp [Dstu.Faulty.bind, Dstu.Faulty.check, h]

theorem ask_pass {β : Type} (f : Bool → Dstu.Faulty β) (w : Nat → Bool) (t n : Nat) (h : w t = true) :
    (Dstu.Faulty.ask >>= f) w ⟨t, n⟩ = f true w ⟨t + 1, n⟩ := by
  change Dstu.Faulty.bind Dstu.Faulty.ask f w ⟨t, n⟩ = _
  simp [Dstu.Faulty.bind, Dstu.Faulty.ask, h]

theorem asks_two_pass {β : Type} (f : Bool → Dstu.Faulty β) (w : Nat → Bool) (t n : Nat) (h : w t = true) (h' : w (t + 1) = true) :
    (Dstu.Faulty.asks 2 >>= f) w ⟨t, n⟩ = f true w ⟨t + 2, n⟩ := by
  have e : Dstu.Faulty.asks 2 w ⟨t, n⟩ = (.done true, ⟨t + 2, n⟩) := by
    unfold Dstu.Faulty.asks
    rw [ask_pass _ w t n h, if_pos rfl]
    unfold Dstu.Faulty.asks
    rw [ask_pass _ w (t + 1) n h', if_pos rfl]
    rfl
  change Dstu.Faulty.bind (Dstu.Faulty.asks 2) f w ⟨t, n⟩ = _
  unfold Dstu.Faulty.bind
  rw [e]

theorem traceLoop_pass (p bn : Nat) (w : Nat → Bool) : ∀ (m r t n : Nat), (∀ j, t ≤ j → j < t + 2 * m → w j = true) →
    Dstu.Faulty.traceLoop p bn m r w ⟨t, n⟩ = (.done (some (traceLoop p bn m r)), ⟨t + 2 * m, n⟩)
  | 0, r, t, n, h => rfl
  | m + 1, r, t, n, h => by
    unfold Dstu.Faulty.traceLoop
    rw [asks_two_pass _ w t n (h t le_rfl (by omega)) (h (t + 1) (by omega) (by omega)), if_pos rfl,
      traceLoop_pass p bn w m _ (t + 2) n (fun j h1 h2 => h j (by omega) (by omega)), show t + 2 + 2 * m = t + 2 * (m + 1) by omega]
    rfl

theorem trace_pass {β : Type} (bn p : Nat) (f : Int → Dstu.Faulty β) (w : Nat → Bool) (t n : Nat)
    (h : ∀ j, t ≤ j → j < t + 1 + 2 * (numBits p - 2) → w j = true) :
    (Dstu.Faulty.bn_trace bn p >>= f) w ⟨t, n⟩ = f (bn_trace bn p) w ⟨t + 1 + 2 * (numBits p - 2), n⟩ := by
  have e : Dstu.Faulty.bn_trace bn p w ⟨t, n⟩ = (.done (bn_trace bn p), ⟨t + 1 + 2 * (numBits p - 2), n⟩) := by
    unfold Dstu.Faulty.bn_trace
    rw [ask_pass _ w t n (h t le_rfl (by omega)), if_pos rfl]
    change Dstu.Faulty.bind (Dstu.Faulty.traceLoop p bn (numBits p - 2) bn) _ w _ = _
    unfold Dstu.Faulty.bind
    rw [traceLoop_pass p bn w _ bn (t + 1) n (fun j h1 h2 => h j (by omega) (by omega))]
    rfl
  change Dstu.Faulty.bind (Dstu.Faulty.bn_trace bn p) f w ⟨t, n⟩ = _
  unfold Dstu.Faulty.bind
  rw [e]

theorem trace_fails {β : Type} (bn p : Nat) (f : Int → Dstu.Faulty β) (w : Nat → Bool) (t n : Nat) (h : w t = false) :
    (Dstu.Faulty.bn_trace bn p >>= f) w ⟨t, n⟩ = f (-1) w ⟨t + 1, n + 1⟩ := by
  have e : Dstu.Faulty.bn_trace bn p w ⟨t, n⟩ = (.done (-1), ⟨t + 1, n + 1⟩) := by
    unfold Dstu.Faulty.bn_trace
    change Dstu.Faulty.bind Dstu.Faulty.ask _ w ⟨t, n⟩ = _
    simp only [Dstu.Faulty.bind, Dstu.Faulty.ask, h]
    rfl
  change Dstu.Faulty.bind (Dstu.Faulty.bn_trace bn p) f w ⟨t, n⟩ = _
  unfold Dstu.Faulty.bind
  rw [e]

/-- One failing call is enough for the expansion to go on with -1 for the second trace. -/
theorem expand_run (sq : QuadSolver) (c : List Byte) (g : EcGroup) (q : Nat × Nat) (s : Nat) (hx : bin2bn c ≠ 0)
    (h : expandWith sq (fun _ _ => -1) c g = some q) :
    ∃ T k, Dstu.Faulty.dstu_point_expand sq c g (fun j => decide (j ≠ T)) ⟨s, 0⟩ = (.done q, ⟨k, 1⟩) ∧ s ≤ T ∧ T < k := by
  unfold expandWith at h
  by_cases hl : c.length < g.fieldSize
  · simp [hl] at h
  rw [if_neg hl] at h
  simp only at h
  rw [if_neg hx] at h
  by_cases h1 : bn_trace (clearBit0 (bin2bn c)) g.p = -1
  · simp [h1] at h
  rw [if_neg h1] at h
  obtain ⟨m, hm⟩ : ∃ m, m = 2 * (numBits g.p - 2) := ⟨_, rfl⟩
  obtain ⟨c1, hc1⟩ : ∃ c1, c1 = if bn_trace (clearBit0 (bin2bn c)) g.p ≠ 0 ∧ g.a = 0 ∨ bn_trace (clearBit0 (bin2bn c)) g.p = 0 ∧ g.a = 1 then 1 else 0 :=
    ⟨_, rfl⟩
  obtain ⟨c2, hc2⟩ : ∃ c2, c2 = if g.a = 1 then 1 else 0 := ⟨_, rfl⟩
  obtain ⟨T, hT⟩ : ∃ T, T = s + 9 + 1 + 1 + m + c1 + 1 + 1 + c2 + 1 + 1 + 1 + 1 := ⟨_, rfl⟩
  obtain ⟨w, hw⟩ : ∃ w : Nat → Bool, w = fun j => decide (j ≠ T) := ⟨_, rfl⟩
  have ht : ∀ j, j ≠ T → w j = true := fun j hj => by rw [hw]; exact decide_eq_true hj
  have hf : w T = false := by rw [hw]; simp
  refine ⟨T, ?_⟩
  rw [← hw]
  unfold Dstu.Faulty.dstu_point_expand
  rw [if_neg hl, checks_pass _ w 9 s 0 (fun j _ _ => ht j (by omega))]
  simp only
  rw [if_neg hx, check_pass _ w (s + 9) 0 (ht _ (by omega)), trace_pass _ _ _ w _ 0 (fun j h1 h2 => ht j (by omega)), if_neg h1, ← hm, ← hc1,
    checks_pass _ w c1 _ 0 (fun j _ _ => ht j (by omega)), check_pass _ w _ 0 (ht _ (by omega)), check_pass _ w _ 0 (ht _ (by omega)), ← hc2,
    checks_pass _ w c2 _ 0 (fun j _ _ => ht j (by omega)), check_pass _ w _ 0 (ht _ (by omega))]
  generalize (if bn_trace (clearBit0 (bin2bn c)) g.p ≠ 0 ∧ g.a = 0 ∨ bn_trace (clearBit0 (bin2bn c)) g.p = 0 ∧ g.a = 1 then setBit0 (clearBit0 (bin2bn c))
    else clearBit0 (bin2bn c)) = x at h ⊢
  unfold Dstu.Faulty.expandEnd
  rw [check_pass _ w _ 0 (ht _ (by omega))]
  cases hi : gf2m_inv g.p (gf2m_sqr g.p x) with
  | none => simp [hi] at h
  | some xi =>
    simp only [hi] at h ⊢
    rw [check_pass _ w _ 0 (ht _ (by omega)), check_pass _ w _ 0 (ht _ (by omega))]
    cases hs : sq.solve g.p (gf2m_mul g.p ((if g.a = 1 then gf2m_mul g.p (gf2m_sqr g.p x) x ^^^ gf2m_sqr g.p x else gf2m_mul g.p (gf2m_sqr g.p x) x) ^^^ g.b) xi) with
    | none => simp [hs] at h
    | some z =>
      simp only [hs] at h ⊢
      rw [trace_fails _ _ _ w _ 0 (by rw [← hT]; exact hf), checks_pass _ w _ _ _ (fun j _ _ => ht j (by omega)), check_pass _ w _ _ (ht _ (by omega)),
        check_pass _ w _ _ (ht _ (by omega)), h]
      exact ⟨_, rfl, by omega, by omega⟩

/-- C126 fails for expansion: for every point of C31 there is a way to solve quadratic equations with which the compressed point, when one call fails,
expands to the opposite point, which is another one, and success is reported. -/
theorem C126_expand_refuted (hodd : fieldDegree g.p % 2 = 1) (ha : g.a = 0 ∨ g.a = 1) (hn : g.n % 2 = 1) (x y : GF g.p) (hxy : g.curve.Nonsingular x y)
    (hP : g.n • (WeierstrassCurve.Affine.Point.some x y hxy : g.Point) = 0) (hex : ¬ (x = 1 ∧ Spec.trace y = 0)) :
    ∃ sq c T k q, dstu_point_compress g (affine (WeierstrassCurve.Affine.Point.some x y hxy : g.Point)) g.fieldSize = (true, some c) ∧
      dstu_point_expand sq c g = affine (WeierstrassCurve.Affine.Point.some x y hxy : g.Point) ∧
      Dstu.Faulty.dstu_point_expand sq c g (fun j => decide (j ≠ T)) ⟨0, 0⟩ = (.done q, ⟨k, 1⟩) ∧
      affine (-(WeierstrassCurve.Affine.Point.some x y hxy : g.Point)) = some q ∧
      affine (WeierstrassCurve.Affine.Point.some x y hxy : g.Point) ≠ some q := by
  obtain ⟨sq, c, h1, h2, h3, h4⟩ := C76_wrong_point_refuted hodd ha hn x y hxy hP hex
  obtain ⟨q, hq⟩ : ∃ q, affine (-(WeierstrassCurve.Affine.Point.some x y hxy : g.Point)) = some q := by
    rw [WeierstrassCurve.Affine.Point.neg_some]
    exact ⟨_, rfl⟩
  rw [hq] at h3 h4
  have hc : bin2bn c ≠ 0 := by
    intro h0
    have e : expandWith sq (fun _ _ => -1) c g = dstu_point_expand sq c g := by
      unfold dstu_point_expand expandWith
      simp [h0]
    rw [h3, h2] at e
    exact h4 e
  obtain ⟨T, k, h5, _⟩ := expand_run sq c g q 0 hc h3
  exact ⟨sq, c, T, k, q, h1, h2, h5, hq, fun e => h4 e.symm⟩

/-- The hypotheses are met by the base point of the built-in curve of degree 163. -/
example : ∃ sq c T k q, dstu_point_compress g163 (affine g163.gen) g163.fieldSize = (true, some c) ∧ dstu_point_expand sq c g163 = affine g163.gen ∧
    Dstu.Faulty.dstu_point_expand sq c g163 (fun j => decide (j ≠ T)) ⟨0, 0⟩ = (.done q, ⟨k, 1⟩) ∧ affine (-g163.gen) = some q ∧ affine g163.gen ≠ some q := by
  obtain ⟨ha, hy, hw, h1, hd, hpoly, hn, haa, hfs, hgx⟩ := numbers163
  have hfd : fieldDegree g163.p = 163 := hd
  have hp := goodGroup_p g163
  exact C126_expand_refuted (g := g163) (by rw [hfd]) haa hn _ _
    (binCurve_nonsingular (goodGroup_b g163) instGoodGroup163.valid.onCurve) (instGoodGroup163.valid.order _)
    (by
      rintro ⟨h, _⟩
      have hx := GF.toNat_ofNat g163.p (by omega) g163.gx instGoodGroup163.valid.x_lt
      rw [h, GF.toNat_one g163.p hp] at hx
      exact hgx hx.symm)

/-- When nothing fails, the base point is compressed and expanded. -/
example (sq : QuadSolver) : ∃ c t t' q, Dstu.Faulty.dstu_point_compress g163 (affine g163.gen) 21 noFault ⟨0, 0⟩ = (.done c, t) ∧
    Dstu.Faulty.dstu_point_expand sq c g163 noFault ⟨0, 0⟩ = (.done q, t') ∧ affine g163.gen = some q := by
  obtain ⟨ha, hy, hw, h1, hd, hpoly, hn, haa, hfs, hgx⟩ := numbers163
  have hfd : fieldDegree g163.p = 163 := hd
  have hp := goodGroup_p g163
  obtain ⟨c, k1, k2, k3⟩ := C31_round_trip_partial (g := g163) sq (by rw [hfd]) haa hn _ _
    (binCurve_nonsingular (goodGroup_b g163) instGoodGroup163.valid.onCurve) (instGoodGroup163.valid.order _)
    (by
      rintro ⟨h, _⟩
      have hx := GF.toNat_ofNat g163.p (by omega) g163.gx instGoodGroup163.valid.x_lt
      rw [h, GF.toNat_one g163.p hp] at hx
      exact hgx hx.symm) 21 (by rw [hfs])
  obtain ⟨t, e1⟩ := C126_compress_nothing_fails _ _ _ c k1 ⟨0, 0⟩
  obtain ⟨t', e2⟩ := C126_expand_nothing_fails sq c g163 _ k3 ⟨0, 0⟩
  exact ⟨c, t, t', _, e1, e2, rfl⟩

/-- The hypotheses are met: the key 1 is generated, and signs. -/
example (sbox : Bool) : ∃ k t', Dstu.Faulty.dstu_pkey_keygen gEx sbox [some 0, some 1] noFault ⟨0, 0⟩ = (.done k, t') ∧ k.priv = some 1 := by
  obtain ⟨t', h⟩ := C126_nothing_fails (g := gEx) sbox [some 0, some 1] _ rfl ⟨0, 0⟩
  exact ⟨_, t', h, rfl⟩

end Dstu.Props
