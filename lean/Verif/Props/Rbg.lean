import Verif.Lemmas.Rbg

/-! The random generator, called by one thread: C44, C46. -/

namespace Dstu.Props

open Spec

/-- The variables of the generator show `v` to the user. -/
def Shows (m : Rbg) : RbgView → Prop
  | none => m.initialized = false
  | some (g, pos) => m.Holds g (8 * pos)

theorem ofSeed_eq (e : RandEnv) (seed : Bytes 40) : e.gen seed = RbgSeed.ofSeed seed e.curr := by
  unfold RandEnv.gen RbgSeed.ofSeed
  congr

theorem status_shows {m : Rbg} {v : RbgView} (e : RandEnv) (h : Shows m v) :
    (dstu_rbg_status_nolock e m).1 = (e.status && (v.reseed e).isSome) ∧ Shows (dstu_rbg_status_nolock e m).2 (v.reseed e) := by
  unfold dstu_rbg_status_nolock
  cases v with
  | some p =>
    have hi : m.initialized = true := h.init
    simp only [hi, Bool.not_true, Bool.and_false, Bool.false_eq_true, if_false, RbgView.reseed]
    exact ⟨by simp, h⟩
  | none =>
    have hi : m.initialized = false := h
    cases hs : e.status with
    | false =>
      simp only [Bool.false_and, Bool.false_eq_true, if_false, RbgView.reseed, hs]
      exact ⟨trivial, h⟩
    | true =>
      simp only [hi, Bool.not_false, Bool.and_self, if_true, RbgView.reseed, hs]
      cases hseed : e.seed with
      | none => exact ⟨by simp [dstu_rbg_init, hseed], by simpa [dstu_rbg_init, hseed] using h⟩
      | some seed =>
        obtain ⟨m', e', hm⟩ := init_holds e m seed hseed
        rw [e']
        rw [ofSeed_eq] at hm
        exact ⟨by simp, hm.I, hm.s, hm.cryptor, rfl⟩

theorem bytes_shows {m : Rbg} {v : RbgView} (e : RandEnv) (h : Shows m v) :
    (if m.initialized then (true, m) else dstu_rbg_status_nolock e m).1 = (v.reseed e).isSome ∧
      Shows (if m.initialized then (true, m) else dstu_rbg_status_nolock e m).2 (v.reseed e) := by
  cases v with
  | some p =>
    have hi : m.initialized = true := h.init
    rw [if_pos hi]
    exact ⟨rfl, h⟩
  | none =>
    have hi : m.initialized = false := h
    rw [if_neg (by simp [hi])]
    obtain ⟨h1, h2⟩ := status_shows e h
    refine ⟨?_, h2⟩
    rw [h1]
    cases hs : e.status <;> simp [RbgView.reseed, hs]

/-- A lock that was not freed and can be created. -/
theorem lock_ok (l : RandLock) (h : l = .unset ∨ l = .live) : dstu_lock true l = some .live := by
  rcases h with rfl | rfl <;> rfl

theorem unsigned_eq (num : Int) (h0 : 0 ≤ num) (h1 : num < 2 ^ 31) : asUnsigned num = num.toNat := by
  unfold asUnsigned
  rw [Int.emod_eq_of_lt h0 (by omega)]

/-- What the user sees after a call. -/
def viewStep (v : RbgView) : RbgCall → RbgView
  | .bytes e _ num => (v.reseed e).map fun p => (p.1, p.2 + num.toNat)
  | .status e => v.reseed e
  | _ => v

/-- The calls of any state that shows `v` give the answers the user of `v` may get. -/
theorem run_follows : ∀ (cs : List RbgCall) (st : RbgState) (v : RbgView), Shows st.rbg v → (st.lock = .unset ∨ st.lock = .live) →
    (∀ c ∈ cs, c.Allowed) → ∃ as st', st.run true cs = some (as, st') ∧ v.Follows cs as ∧
      (st'.lock = .unset ∨ st'.lock = .live) ∧ Shows st'.rbg (cs.foldl viewStep v)
  | [], st, v, h, hl, _ => ⟨[], st, rfl, trivial, hl, h⟩
  | c :: cs, st, v, h, hl, hc => by
    have hcs : ∀ c ∈ cs, c.Allowed := fun c h => hc c (List.mem_cons_of_mem _ h)
    have hc0 := hc c List.mem_cons_self
    cases c with
    | cleanup => exact hc0.elim
    | seed =>
      obtain ⟨as, st', e, hf, hl'⟩ := run_follows cs st v h hl hcs
      exact ⟨.nothing :: as, st', by simp [RbgState.run, RbgState.call, e], hf, hl'⟩
    | status e =>
      obtain ⟨h1, h2⟩ := status_shows e h
      obtain ⟨as, st', er, hf, hl'⟩ := run_follows cs ⟨(dstu_rbg_status_nolock e st.rbg).2, .live⟩ _ h2 (Or.inr rfl) hcs
      refine ⟨.status (dstu_rbg_status_nolock e st.rbg).1 :: as, st', ?_, ⟨h1, hf⟩, hl'⟩
      simp [RbgState.run, RbgState.call, dstu_rbg_status, lock_ok _ hl, dstu_unlock, er]
    | bytes e buf num =>
      obtain ⟨hn0, hn1, hn2⟩ := hc0
      obtain ⟨h1, h2⟩ := bytes_shows e h
      have hu := unsigned_eq num hn0 hn1
      have hle : num.toNat ≤ buf.length := by omega
      set p := (if st.rbg.initialized then (true, st.rbg) else dstu_rbg_status_nolock e st.rbg) with hp
      have hcall : st.call true (.bytes e buf num) =
          some (.bytes p.1 ((rbgLoop num.toNat p.2).1 ++ buf.drop num.toNat), ⟨(rbgLoop num.toNat p.2).2, .live⟩) := by
        simp [RbgState.call, dstu_rbg_bytes, lock_ok _ hl, dstu_unlock, hu, hle, ← hp]
      cases hv : v.reseed e with
      | none =>
        rw [hv] at h1 h2
        have h3 : Shows (rbgLoop num.toNat p.2).2 none := by
          show (rbgLoop num.toNat p.2).2.initialized = false
          rw [loop_initialized]
          exact h2
        obtain ⟨as, st', er, hf, hl'⟩ := run_follows cs ⟨(rbgLoop num.toNat p.2).2, .live⟩ none h3 (Or.inr rfl) hcs
        refine ⟨_ :: as, st', by simp only [RbgState.run, hcall, er]; rfl, ?_⟩
        simp only [RbgView.Follows, hv]
        refine ⟨⟨h1, ?_, hf⟩, hl'.1, ?_⟩
        · simp [loop_length]
          omega
        · simp only [List.foldl_cons, viewStep, hv]
          exact hl'.2
      | some q =>
        obtain ⟨g, pos⟩ := q
        rw [hv] at h1 h2
        obtain ⟨h3, h4⟩ := loop_holds g num.toNat pos p.2 h2
        obtain ⟨as, st', er, hf, hl'⟩ := run_follows cs ⟨(rbgLoop num.toNat p.2).2, .live⟩ (some (g, pos + num.toNat)) h4 (Or.inr rfl) hcs
        refine ⟨_ :: as, st', by simp only [RbgState.run, hcall, er]; rfl, ?_, hl'.1, ?_⟩
        · simp only [RbgView.Follows, hv]
          exact ⟨h1, by rw [h3], hf⟩
        · simp only [List.foldl_cons, viewStep, hv]
          exact hl'.2

/-! ### C44 -/

/-- C44: every sequence of calls the interface allows is answered as the stream machine `RbgView` does: each
successful request gets the next bytes of the one stream of the DSTU 4145 generator, whose secret is the
first seed obtained, and nothing else in the buffer changes. -/
theorem C44_one_stream (cs : List RbgCall) (h : ∀ c ∈ cs, c.Allowed) :
    ∃ as st, RbgState.boot.run true cs = some (as, st) ∧ RbgView.Follows none cs as := by
  obtain ⟨as, st, e, hf, _⟩ := run_follows cs .boot none rfl (Or.inl rfl) h
  exact ⟨as, st, e, hf⟩

/-- C44, splitting: in any state of a seeded generator, a request for `k` bytes and then one for `l` bytes
give together the bytes of one request for `k + l`, and leave the generator in the same state. -/
theorem C44_split (m : Rbg) (hm : m.initialized = true) (e1 e2 e : RandEnv) (k l : Nat) (hk : k + l < 2 ^ 31) :
    ∃ out1 out2 st1 st2, out1.length = k ∧ out2.length = l ∧
      dstu_rbg_bytes true e1 ⟨m, .live⟩ (List.replicate k 0) k = some (true, out1, st1) ∧
      dstu_rbg_bytes true e2 st1 (List.replicate l 0) l = some (true, out2, st2) ∧
      dstu_rbg_bytes true e ⟨m, .live⟩ (List.replicate (k + l) 0) (k + l : Nat) = some (true, out1 ++ out2, st2) := by
  have one : ∀ (e : RandEnv) (m : Rbg) (n : Nat), m.initialized = true → n < 2 ^ 31 →
      dstu_rbg_bytes true e ⟨m, .live⟩ (List.replicate n 0) n = some (true, (rbgLoop n m).1, ⟨(rbgLoop n m).2, .live⟩) := by
    intro e m n hm hn
    have hu := unsigned_eq (n : Int) (by omega) (by omega)
    rw [Int.toNat_natCast] at hu
    simp [dstu_rbg_bytes, dstu_lock, dstu_unlock, hm, hu]
  refine ⟨_, _, _, _, loop_length k m, ?_, one e1 m k hm (by omega), one e2 (rbgLoop k m).2 l ?_ (by omega), ?_⟩
  · exact loop_length l _
  · rw [loop_initialized, hm]
  · rw [one e m (k + l) hm hk, loop_append]

/-! ### C46 -/

/-- A seed was obtained during the calls. -/
def Seeded (cs : List RbgCall) : Prop :=
  ∃ e, e.status = true ∧ e.seed ≠ none ∧ (.status e ∈ cs ∨ ∃ buf num, .bytes e buf num ∈ cs)

theorem reseed_isSome (v : RbgView) (e : RandEnv) :
    (v.reseed e).isSome = true ↔ v.isSome = true ∨ (e.status = true ∧ e.seed ≠ none) := by
  cases v with
  | some p => simp [RbgView.reseed]
  | none =>
    cases hs : e.status <;> cases he : e.seed <;> simp [RbgView.reseed, hs, he]

theorem view_seeded : ∀ (cs : List RbgCall) (v : RbgView), (cs.foldl viewStep v).isSome = true ↔ v.isSome = true ∨ Seeded cs
  | [], v => by simp [Seeded]
  | c :: cs, v => by
    rw [List.foldl_cons, view_seeded cs]
    have hcons : Seeded (c :: cs) ↔ Seeded [c] ∨ Seeded cs := by
      simp only [Seeded, List.mem_cons, List.not_mem_nil, or_false]
      constructor
      · rintro ⟨e, h1, h2, (h | h) | ⟨b, n, h | h⟩⟩
        · exact Or.inl ⟨e, h1, h2, Or.inl h⟩
        · exact Or.inr ⟨e, h1, h2, Or.inl h⟩
        · exact Or.inl ⟨e, h1, h2, Or.inr ⟨b, n, h⟩⟩
        · exact Or.inr ⟨e, h1, h2, Or.inr ⟨b, n, h⟩⟩
      · rintro (⟨e, h1, h2, h | ⟨b, n, h⟩⟩ | ⟨e, h1, h2, h | ⟨b, n, h⟩⟩)
        · exact ⟨e, h1, h2, Or.inl (Or.inl h)⟩
        · exact ⟨e, h1, h2, Or.inr ⟨b, n, Or.inl h⟩⟩
        · exact ⟨e, h1, h2, Or.inl (Or.inr h)⟩
        · exact ⟨e, h1, h2, Or.inr ⟨b, n, Or.inr h⟩⟩
    rw [hcons, ← or_assoc]
    apply or_congr _ Iff.rfl
    have hone : ∀ e : RandEnv, (∃ e' : RandEnv, e'.status = true ∧ e'.seed ≠ none ∧ (e = e')) ↔ (e.status = true ∧ e.seed ≠ none) := by
      intro e
      constructor
      · rintro ⟨e', h1, h2, rfl⟩; exact ⟨h1, h2⟩
      · rintro ⟨h1, h2⟩; exact ⟨e, h1, h2, rfl⟩
    cases c with
    | seed => simp [viewStep, Seeded]
    | cleanup => simp [viewStep, Seeded]
    | status e =>
      simp only [viewStep, reseed_isSome, Seeded, List.mem_singleton, RbgCall.status.injEq, reduceCtorEq, exists_false, or_false]
      rw [← hone e]
      simp only [eq_comm]
    | bytes e b n =>
      simp only [viewStep, Option.isSome_map, reseed_isSome, Seeded, List.mem_singleton, RbgCall.bytes.injEq, reduceCtorEq, false_or]
      rw [← hone e]
      apply or_congr Iff.rfl
      constructor
      · rintro ⟨e', h1, h2, rfl⟩; exact ⟨e, h1, h2, b, n, rfl, rfl, rfl⟩
      · rintro ⟨e', h1, h2, b', n', rfl, _, _⟩; exact ⟨_, h1, h2, rfl⟩

/-- C46, first half: after any history, a request reports success if and only if a seed was obtained in it
or before.  Missing: use after cleanup, see `C46_reuse_refuted`. -/
theorem C46_fails_safely_partial (cs : List RbgCall) (h : ∀ c ∈ cs, c.Allowed) (e : RandEnv) (buf : List Byte) (num : Int)
    (hn : (RbgCall.bytes e buf num).Allowed) :
    ∃ as st rv b st', RbgState.boot.run true cs = some (as, st) ∧ dstu_rbg_bytes true e st buf num = some (rv, b, st') ∧
      (rv = true ↔ Seeded (cs ++ [.bytes e buf num])) := by
  obtain ⟨as, st, er, _, hl, hs⟩ := run_follows cs .boot none rfl (Or.inl rfl) h
  obtain ⟨hn0, hn1, hn2⟩ := hn
  obtain ⟨h1, _⟩ := bytes_shows e hs
  have hu := unsigned_eq num hn0 hn1
  have hle : num.toNat ≤ buf.length := by omega
  set p := (if st.rbg.initialized then (true, st.rbg) else dstu_rbg_status_nolock e st.rbg) with hp
  refine ⟨as, st, p.1, (rbgLoop num.toNat p.2).1 ++ buf.drop num.toNat, ⟨(rbgLoop num.toNat p.2).2, .live⟩, er, ?_, ?_⟩
  · simp [dstu_rbg_bytes, lock_ok _ hl, dstu_unlock, hu, hle, ← hp]
  · rw [h1]
    have key := view_seeded (cs ++ [.bytes e buf num]) none
    rw [List.foldl_append] at key
    simp only [List.foldl_cons, List.foldl_nil, viewStep, Option.isSome_map, Option.isSome_none, Bool.false_eq_true, false_or] at key
    exact key

/-- C46: the status call reports readiness if and only if OpenSSL's generator does and a seed was obtained in
it or before. -/
theorem C46_status (cs : List RbgCall) (h : ∀ c ∈ cs, c.Allowed) (e : RandEnv) :
    ∃ as st rv st', RbgState.boot.run true cs = some (as, st) ∧ dstu_rbg_status true e st = some (rv, st') ∧
      (rv = true ↔ e.status = true ∧ Seeded (cs ++ [.status e])) := by
  obtain ⟨as, st, er, _, hl, hs⟩ := run_follows cs .boot none rfl (Or.inl rfl) h
  obtain ⟨h1, _⟩ := status_shows e hs
  refine ⟨as, st, (dstu_rbg_status_nolock e st.rbg).1, ⟨(dstu_rbg_status_nolock e st.rbg).2, .live⟩, er, ?_, ?_⟩
  · simp [dstu_rbg_status, lock_ok _ hl, dstu_unlock]
  · rw [h1]
    have key := view_seeded (cs ++ [.status e]) none
    rw [List.foldl_append] at key
    simp only [List.foldl_cons, List.foldl_nil, viewStep, Option.isSome_none, Bool.false_eq_true, false_or] at key
    rw [Bool.and_eq_true, key]

/-- C46, second half, is false: after cleanup the next request uses the freed lock, in every history. -/
theorem C46_reuse_refuted (cs : List RbgCall) (h : ∀ c ∈ cs, c.Allowed) :
    ∃ as st st', RbgState.boot.run true cs = some (as, st) ∧ dstu_rbg_cleanup true st = some st' ∧
      (∀ e buf num, dstu_rbg_bytes true e st' buf num = none) ∧ ∀ e, dstu_rbg_status true e st' = none := by
  obtain ⟨as, st, e, _, hl, _⟩ := run_follows cs .boot none rfl (Or.inl rfl) h
  refine ⟨as, st, ⟨.boot, .freed⟩, e, ?_, fun _ _ _ => rfl, fun _ => rfl⟩
  simp [dstu_rbg_cleanup, lock_ok _ hl, dstu_unlock]

/-- A history with a request that fails for want of a seed, one that gets a seed, and one that continues:
the last two are given bytes 0-2 and 3-4 of the stream, and the rest of the last buffer is not touched. -/
example : ∃ b st, RbgState.boot.run true [.bytes ⟨true, none, zeros 8⟩ [1, 2] 2,
      .bytes ⟨true, some (Vector.replicate 40 7), zeros 8⟩ [1, 2, 3] 3, .seed, .bytes ⟨false, none, zeros 8⟩ [1, 2, 3] 2] =
    some ([.bytes false b, .bytes true ((RbgSeed.ofSeed (Vector.replicate 40 7) (zeros 8)).segment 0 3), .nothing,
      .bytes true ((RbgSeed.ofSeed (Vector.replicate 40 7) (zeros 8)).segment 3 2 ++ [3])], st) := by
  obtain ⟨as, st, e, hf⟩ := C44_one_stream [.bytes ⟨true, none, zeros 8⟩ [1, 2] 2,
      .bytes ⟨true, some (Vector.replicate 40 7), zeros 8⟩ [1, 2, 3] 3, .seed, .bytes ⟨false, none, zeros 8⟩ [1, 2, 3] 2]
    (by simp [RbgCall.Allowed])
  match as, e, hf with
  | [.bytes _ b, .bytes _ _, .nothing, .bytes _ _], e, ⟨h1, _, h2, h3, h4, h5, _⟩ =>
    subst h1 h2 h3 h4 h5
    exact ⟨b, st, e⟩

/-- The first byte of the generator with seed 0, 1, ..., 39 and date zero is not trivial. -/
example : (RbgSeed.ofSeed (Vector.ofFn fun i => BitVec.ofNat 8 i.val) (zeros 8)).segment 0 1 = [71] := by decide +kernel

/-- A negative count makes the generator write outside every buffer of less than 2 GiB: nothing is checked. -/
theorem negative_count_overflows (e : RandEnv) (st : RbgState) (buf : List Byte) (num : Int) (h : num < 0) (h' : -2 ^ 31 ≤ num)
    (hb : buf.length < 2 ^ 31) : dstu_rbg_bytes true e st buf num = none := by
  have hu : ¬ asUnsigned num ≤ buf.length := by
    unfold asUnsigned
    omega
  unfold dstu_rbg_bytes
  cases dstu_lock true st.lock with
  | none => rfl
  | some l => simp [hu]

/-- A generator that has been seeded, asked for 3 and 4 bytes, and one that has not. -/
example (e1 e2 e : RandEnv) : ∃ m : Rbg, m.initialized = true ∧ ∃ out1 out2 st1 st2, out1.length = 3 ∧ out2.length = 4 ∧
    dstu_rbg_bytes true e1 ⟨m, .live⟩ (List.replicate 3 0) 3 = some (true, out1, st1) ∧
    dstu_rbg_bytes true e2 st1 (List.replicate 4 0) 4 = some (true, out2, st2) ∧
    dstu_rbg_bytes true e ⟨m, .live⟩ (List.replicate 7 0) 7 = some (true, out1 ++ out2, st2) :=
  ⟨{ Rbg.boot with initialized := true }, rfl, C44_split _ rfl e1 e2 e 3 4 (by omega)⟩
example : ∃ as st rv b st', RbgState.boot.run true [.bytes ⟨true, none, zeros 8⟩ [1, 2] 2] = some (as, st) ∧
    dstu_rbg_bytes true ⟨true, some (Vector.replicate 40 7), zeros 8⟩ st [1, 2, 3] 3 = some (rv, b, st') ∧ rv = true := by
  obtain ⟨as, st, rv, b, st', h1, h2, h3⟩ := C46_fails_safely_partial [.bytes ⟨true, none, zeros 8⟩ [1, 2] 2] (by simp [RbgCall.Allowed])
    ⟨true, some (Vector.replicate 40 7), zeros 8⟩ [1, 2, 3] 3 (by simp [RbgCall.Allowed])
  exact ⟨as, st, rv, b, st', h1, h2, h3.mpr ⟨_, rfl, by simp, Or.inr ⟨_, _, List.mem_append_right _ (List.mem_singleton.mpr rfl)⟩⟩⟩
example : ∃ as st rv st', RbgState.boot.run true [.bytes ⟨true, none, zeros 8⟩ [1, 2] 2] = some (as, st) ∧
    dstu_rbg_status true ⟨true, some (Vector.replicate 40 7), zeros 8⟩ st = some (rv, st') ∧ rv = true := by
  obtain ⟨as, st, rv, st', h1, h2, h3⟩ := C46_status [.bytes ⟨true, none, zeros 8⟩ [1, 2] 2] (by simp [RbgCall.Allowed]) ⟨true, some (Vector.replicate 40 7), zeros 8⟩
  exact ⟨as, st, rv, st', h1, h2, h3.mpr ⟨rfl, _, rfl, by simp, Or.inl (List.mem_append_right _ (List.mem_singleton.mpr rfl))⟩⟩
example := C46_reuse_refuted [.bytes ⟨true, some (Vector.replicate 40 7), zeros 8⟩ [1, 2, 3] 3] (by simp [RbgCall.Allowed])

end Dstu.Props
