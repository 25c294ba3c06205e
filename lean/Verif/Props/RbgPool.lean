import Verif.Model.RbgPool
import Verif.Props.Reuse

/-! C111 with OpenSSL's own generator: entropy that the application adds, byte for byte. -/

namespace Dstu.Props

open Spec

/-- The requests for bytes among the calls: buffer and number. -/
def poolRequested : List PoolCall → List (List Byte × Int)
  | [] => []
  | .bytes _ buf num :: cs => (buf, num) :: poolRequested cs
  | _ :: cs => poolRequested cs

/-- What the requests for bytes were given. -/
def poolHandedOut : List PoolAnswer → List (Bool × List Byte)
  | [] => []
  | .rbg (.bytes rv b) :: as => (rv, b) :: poolHandedOut as
  | _ :: as => poolHandedOut as

/-- The calls the interface allows: no cleanup, requests that fit the buffer. -/
def PoolAllowed : PoolCall → Prop
  | .cleanup => False
  | .bytes _ buf num => 0 ≤ num ∧ num < 2 ^ 31 ∧ num ≤ buf.length
  | _ => True

/-- The call is one that adds entropy. -/
def Adds : PoolCall → Prop
  | .add _ _ => True
  | .seed _ => True
  | _ => False

/-- OpenSSL's generator after the entropy in the calls was given to it, each piece with its bytes and in order. -/
def entropyGiven {σ : Type} (rng : DefaultRng σ) (p : σ) : List PoolCall → σ
  | [] => p
  | .add buf n :: cs => entropyGiven rng (rng.add p buf n).2 cs
  | .seed buf :: cs => entropyGiven rng (rng.seed p buf).2 cs
  | _ :: cs => entropyGiven rng p cs

/-- What OpenSSL's generator says to each piece. -/
def entropyAnswers {σ : Type} (rng : DefaultRng σ) (p : σ) : List PoolCall → List PoolAnswer
  | [] => []
  | .add buf n :: cs => .added (rng.add p buf n).1 :: entropyAnswers rng (rng.add p buf n).2 cs
  | .seed buf :: cs => .added (rng.seed p buf).1 :: entropyAnswers rng (rng.seed p buf).2 cs
  | _ :: cs => entropyAnswers rng p cs

/-- The call as one of the generator alone, with the answers of OpenSSL's generator to it. -/
def plainCall {σ : Type} (rng : DefaultRng σ) (p : σ) : PoolCall → RbgCall
  | .add _ _ => .seed
  | .seed _ => .seed
  | .bytes curr buf num => .bytes (poolEnv rng p curr) buf num
  | .status curr => .status (poolEnv rng p curr)
  | .cleanup => .cleanup

/-- The calls as calls of the generator alone. -/
def plainCalls {σ : Type} (rng : DefaultRng σ) (lockNew : Bool) (s : PoolState σ) : List PoolCall → List RbgCall
  | [] => []
  | c :: cs => plainCall rng s.pool c ::
    plainCalls rng lockNew (match s.call rng lockNew c with | none => s | some (_, s') => s') cs

theorem requested_plain {σ : Type} (rng : DefaultRng σ) (lockNew : Bool) : ∀ (cs : List PoolCall) (s : PoolState σ),
    requested (plainCalls rng lockNew s cs) = poolRequested cs
  | [], _ => rfl
  | c :: cs, s => by
    simp only [plainCalls]
    cases c <;> simp only [plainCall, requested, poolRequested, requested_plain]

theorem allowed_plain {σ : Type} (rng : DefaultRng σ) (lockNew : Bool) : ∀ (cs : List PoolCall) (s : PoolState σ), (∀ c ∈ cs, PoolAllowed c) →
    ∀ c ∈ plainCalls rng lockNew s cs, c.Allowed
  | [], _, _, _, h => by cases h
  | c :: cs, s, ha, d, hd => by
    simp only [plainCalls, List.mem_cons] at hd
    rcases hd with rfl | hd
    · have := ha c List.mem_cons_self
      cases c <;> first | exact this | trivial
    · exact allowed_plain rng lockNew cs _ (fun c hc => ha c (List.mem_cons_of_mem _ hc)) d hd

/-- One call. -/
theorem plain_call {σ : Type} (rng : DefaultRng σ) (lockNew : Bool) (s : PoolState σ) (c : PoolCall) :
    (s.call rng lockNew c).map (fun r => (poolHandedOut [r.1], r.2.st)) = (s.st.call lockNew (plainCall rng s.pool c)).map fun r => (handedOut [r.1], r.2) := by
  cases c with
  | add buf n => rfl
  | seed buf => rfl
  | bytes curr buf num =>
    simp only [PoolState.call, plainCall, RbgState.call, Option.map_map]
    congr 1
  | status curr =>
    simp only [PoolState.call, plainCall, RbgState.call, Option.map_map]
    congr 1
  | cleanup =>
    simp only [PoolState.call, plainCall, RbgState.call, Option.map_map]
    congr 1

theorem poolHandedOut_cons (a : PoolAnswer) (as : List PoolAnswer) : poolHandedOut (a :: as) = poolHandedOut [a] ++ poolHandedOut as := by
  rcases a with rv | (_ | _ | _) <;> rfl

theorem handedOut_cons (a : RbgAnswer) (as : List RbgAnswer) : handedOut (a :: as) = handedOut [a] ++ handedOut as := by
  cases a <;> rfl

/-- Every history is one of the generator alone. -/
theorem plain_run {σ : Type} (rng : DefaultRng σ) (lockNew : Bool) : ∀ (cs : List PoolCall) (s : PoolState σ),
    (s.run rng lockNew cs).map (fun r => (poolHandedOut r.1, r.2.st)) = (s.st.run lockNew (plainCalls rng lockNew s cs)).map fun r => (handedOut r.1, r.2)
  | [], _ => rfl
  | c :: cs, s => by
    have h := plain_call rng lockNew s c
    simp only [PoolState.run, plainCalls, RbgState.run]
    cases e : s.call rng lockNew c with
    | none =>
      rw [e] at h
      cases e' : s.st.call lockNew (plainCall rng s.pool c) with
      | none => rfl
      | some r => rw [e'] at h; simp at h
    | some r =>
      rw [e] at h
      cases e' : s.st.call lockNew (plainCall rng s.pool c) with
      | none => rw [e'] at h; simp at h
      | some r' =>
        rw [e'] at h
        simp only [Option.map_some, Option.some.injEq, Prod.mk.injEq] at h
        have ih := plain_run rng lockNew cs r.2
        simp only [← h.2]
        simp only [Option.map_map]
        cases e1 : r.2.run rng lockNew cs with
        | none =>
          rw [e1] at ih
          cases e2 : r.2.st.run lockNew (plainCalls rng lockNew r.2 cs) with
          | none => rfl
          | some q => rw [e2] at ih; simp at ih
        | some q' =>
          rw [e1] at ih
          cases e2 : r.2.st.run lockNew (plainCalls rng lockNew r.2 cs) with
          | none => rw [e2] at ih; simp at ih
          | some q =>
            rw [e2] at ih
            simp only [Option.map_some, Option.some.injEq, Prod.mk.injEq] at ih
            simp only [Option.map_some, Option.some.injEq, Prod.mk.injEq, Function.comp]
            rw [poolHandedOut_cons, handedOut_cons, h.1, ih.1]
            exact ⟨rfl, ih.2⟩

/-- C111: entropy given to the generator is given to OpenSSL's, each piece with all its bytes and in order, and what that says is said to the
caller.  Nothing else changes. -/
theorem C111_handed_on {σ : Type} (rng : DefaultRng σ) (lockNew : Bool) : ∀ (cs : List PoolCall) (s : PoolState σ), (∀ c ∈ cs, Adds c) →
    s.run rng lockNew cs = some (entropyAnswers rng s.pool cs, ⟨entropyGiven rng s.pool cs, s.st⟩)
  | [], _, _ => rfl
  | c :: cs, s, ha => by
    have ih := fun s' => C111_handed_on rng lockNew cs s' fun c hc => ha c (List.mem_cons_of_mem _ hc)
    have hc := ha c List.mem_cons_self
    cases c with
    | add buf n => simp only [PoolState.run, PoolState.call, ih, Option.map_some, entropyAnswers, entropyGiven, dstu_rbg_add]
    | seed buf => simp only [PoolState.run, PoolState.call, ih, Option.map_some, entropyAnswers, entropyGiven, dstu_rbg_seed]
    | bytes _ _ _ => exact hc.elim
    | status _ => exact hc.elim
    | cleanup => exact hc.elim

/-- C111, what holds: whatever entropy was added before the first request, the bytes are the stream of the seed that OpenSSL's generator makes of it. -/
theorem C111_pool_partial {σ : Type} (rng : DefaultRng σ) (p : σ) (cs : List PoolCall) (hc : ∀ c ∈ cs, Adds c) (curr : Bytes 8) (seed : Bytes 40)
    (hst : (rng.status (entropyGiven rng p cs)).1 = true) (hseed : (rng.bytes40 (rng.status (entropyGiven rng p cs)).2).1 = some seed)
    (buf : List Byte) (num : Int) (ha : PoolAllowed (.bytes curr buf num)) :
    ∃ as s, (PoolState.mk p .boot).run rng true (cs ++ [.bytes curr buf num]) = some (as, s) ∧
      poolHandedOut as = [(true, (RbgSeed.ofSeed seed curr).segment 0 num.toNat ++ buf.drop num.toNat)] := by
  induction cs generalizing p with
  | nil =>
    obtain ⟨as, st, h1, h2⟩ := C111_first_partial (poolEnv rng p curr) seed hst hseed [] (by simp) buf num ha
    have h := plain_run rng true [.bytes curr buf num] ⟨p, .boot⟩
    have e : plainCalls rng true ⟨p, .boot⟩ [.bytes curr buf num] = [] ++ [.bytes (poolEnv rng p curr) buf num] := rfl
    rw [e] at h
    simp only [h1, Option.map_some, h2, Option.map_eq_some_iff, Prod.mk.injEq] at h
    obtain ⟨⟨as', s'⟩, h4, h5, _⟩ := h
    exact ⟨as', s', h4, h5⟩
  | cons c cs ih =>
    have hc' := fun c hm => hc c (List.mem_cons_of_mem _ hm)
    have h0 := hc c List.mem_cons_self
    cases c with
    | add b n =>
      obtain ⟨as, s, h1, h2⟩ := ih (rng.add p b n).2 hc' hst hseed
      exact ⟨.added (rng.add p b n).1 :: as, s, by simp only [List.cons_append, PoolState.run, PoolState.call, dstu_rbg_add, h1, Option.map_some], h2⟩
    | seed b =>
      obtain ⟨as, s, h1, h2⟩ := ih (rng.seed p b).2 hc' hst hseed
      exact ⟨.added (rng.seed p b).1 :: as, s, by simp only [List.cons_append, PoolState.run, PoolState.call, dstu_rbg_seed, h1, Option.map_some], h2⟩
    | bytes _ _ _ => exact h0.elim
    | status _ => exact h0.elim
    | cleanup => exact h0.elim

/-- C111 is false once the generator is seeded: for all generators of OpenSSL, in all their states, and whatever is added, two histories with the
same requests are given the same bytes. -/
theorem C111_pool_refuted {σ τ : Type} (rng : DefaultRng σ) (rng' : DefaultRng τ) (p : σ) (p' : τ) (st : RbgState) (hi : st.rbg.initialized = true)
    (hl : st.lock = .unset ∨ st.lock = .live) (cs cs' : List PoolCall) (ha : ∀ c ∈ cs, PoolAllowed c) (ha' : ∀ c ∈ cs', PoolAllowed c)
    (h : poolRequested cs = poolRequested cs') :
    ∃ as as' s s', (PoolState.mk p st).run rng true cs = some (as, s) ∧ (PoolState.mk p' st).run rng' true cs' = some (as', s') ∧
      poolHandedOut as = poolHandedOut as' := by
  obtain ⟨a, a', s1, s1', h1, h1', h2⟩ := C111_added_entropy_refuted st hi hl (plainCalls rng true ⟨p, st⟩ cs) (plainCalls rng' true ⟨p', st⟩ cs')
    (allowed_plain _ _ _ _ ha) (allowed_plain _ _ _ _ ha') (by rw [requested_plain, requested_plain, h])
  have k := plain_run rng true cs ⟨p, st⟩
  have k' := plain_run rng' true cs' ⟨p', st⟩
  simp only [h1, h1', Option.map_some, Option.map_eq_some_iff, Prod.mk.injEq] at k k'
  obtain ⟨⟨as, s⟩, e1, e2, _⟩ := k
  obtain ⟨⟨as', s'⟩, e1', e2', _⟩ := k'
  exact ⟨as, as', s, s', e1, e1', by rw [e2, e2', h2]⟩

/-- OpenSSL's generator, after calls of which only those that add entropy and those for the status reach it. -/
def poolReached {σ : Type} (rng : DefaultRng σ) (p : σ) : List PoolCall → σ
  | [] => p
  | .add buf n :: cs => poolReached rng (rng.add p buf n).2 cs
  | .seed buf :: cs => poolReached rng (rng.seed p buf).2 cs
  | .status _ :: cs => poolReached rng (rng.status p).2 cs
  | _ :: cs => poolReached rng p cs

/-- C111: a seeded generator takes nothing from OpenSSL's: that is left in the state which the entropy added and the questions for its status leave
it in, whatever bytes were requested. -/
theorem C111_pool_left_alone {σ : Type} (rng : DefaultRng σ) : ∀ (cs : List PoolCall) (s : PoolState σ), s.st.rbg.initialized = true →
    (s.st.lock = .unset ∨ s.st.lock = .live) → (∀ c ∈ cs, PoolAllowed c) →
    ∃ as st, s.run rng true cs = some (as, ⟨poolReached rng s.pool cs, st⟩)
  | [], s, _, _, _ => ⟨[], s.st, rfl⟩
  | c :: cs, s, hi, hl, ha => by
    have ih := fun s' h1 h2 => C111_pool_left_alone rng cs s' h1 h2 fun c hc => ha c (List.mem_cons_of_mem _ hc)
    have hc := ha c List.mem_cons_self
    cases c with
    | add buf n =>
      obtain ⟨as, st, h⟩ := ih (dstu_rbg_add rng s buf n).2 hi hl
      exact ⟨.added (rng.add s.pool buf n).1 :: as, st, by
        simp only [PoolState.run, PoolState.call, h, Option.map_some]; rfl⟩
    | seed buf =>
      obtain ⟨as, st, h⟩ := ih (dstu_rbg_seed rng s buf).2 hi hl
      exact ⟨.added (rng.seed s.pool buf).1 :: as, st, by
        simp only [PoolState.run, PoolState.call, h, Option.map_some]; rfl⟩
    | status curr =>
      obtain ⟨as, st, h⟩ := ih ⟨(rng.status s.pool).2, ⟨s.st.rbg, .live⟩⟩ hi (Or.inr rfl)
      refine ⟨.rbg (.status (rng.status s.pool).1) :: as, st, ?_⟩
      simp only [PoolState.run, PoolState.call, dstu_rbg_status, lock_ok _ hl, dstu_unlock, dstu_rbg_status_nolock, hi, Bool.not_true, Bool.and_false,
        Bool.false_eq_true, if_false, Option.bind_eq_bind, Option.bind_some, pure, Option.map_some, poolAfter, poolEnv, h]
      rfl
    | cleanup => exact hc.elim
    | bytes curr buf num =>
      obtain ⟨h0, h1, h2⟩ := hc
      obtain ⟨as, st, h⟩ := ih ⟨s.pool, ⟨(rbgLoop num.toNat s.st.rbg).2, .live⟩⟩ (by
        change (rbgLoop _ _).2.initialized = true
        rw [loop_initialized, hi]) (Or.inr rfl)
      have hle : num.toNat ≤ buf.length := by omega
      refine ⟨.rbg (.bytes true ((rbgLoop num.toNat s.st.rbg).1 ++ buf.drop num.toNat)) :: as, st, ?_⟩
      simp only [PoolState.run, PoolState.call, dstu_rbg_bytes, lock_ok _ hl, dstu_unlock, hi, if_true, unsigned_eq num h0 h1, hle,
          Option.bind_eq_bind, Option.bind_some, pure, Option.map_some, h]
      rfl

/-- C44 with OpenSSL's generator: the history is one stream, whatever entropy is added when. -/
theorem C44_pool {σ : Type} (rng : DefaultRng σ) (p : σ) (cs : List PoolCall) (h : ∀ c ∈ cs, PoolAllowed c) :
    ∃ as s as', (PoolState.mk p .boot).run rng true cs = some (as, s) ∧
      RbgView.Follows none (plainCalls rng true ⟨p, .boot⟩ cs) as' ∧ poolHandedOut as = handedOut as' := by
  obtain ⟨as', st, h1, h2⟩ := C44_one_stream (plainCalls rng true ⟨p, .boot⟩ cs) (allowed_plain _ _ _ _ h)
  have k := plain_run rng true cs ⟨p, .boot⟩
  simp only [h1, Option.map_some, Option.map_eq_some_iff, Prod.mk.injEq] at k
  obtain ⟨⟨as, s⟩, e1, e2, _⟩ := k
  exact ⟨as, s, as', e1, h2, e2⟩

/-- C46 with OpenSSL's generator: as long as that is not ready, or gives no seed, requests fail, whatever was added. -/
theorem C46_pool_not_ready {σ : Type} (rng : DefaultRng σ) (p : σ) (cs : List PoolCall) (hc : ∀ c ∈ cs, Adds c) (curr : Bytes 8)
    (h : (rng.status (entropyGiven rng p cs)).1 = false ∨ (rng.bytes40 (rng.status (entropyGiven rng p cs)).2).1 = none)
    (buf : List Byte) (num : Int) (ha : PoolAllowed (.bytes curr buf num)) :
    ∃ as s b, (PoolState.mk p .boot).run rng true (cs ++ [.bytes curr buf num]) = some (as, s) ∧ poolHandedOut as = [(false, b)] := by
  induction cs generalizing p with
  | nil =>
    have e : plainCalls rng true ⟨p, .boot⟩ [.bytes curr buf num] = [.bytes (poolEnv rng p curr) buf num] := rfl
    obtain ⟨as, st, h1, h2⟩ := C44_one_stream (plainCalls rng true ⟨p, .boot⟩ [.bytes curr buf num])
      (allowed_plain _ _ _ _ (by simpa using ha))
    have k := plain_run rng true [.bytes curr buf num] ⟨p, .boot⟩
    simp only [h1, Option.map_some, Option.map_eq_some_iff, Prod.mk.injEq] at k
    obtain ⟨⟨as', s'⟩, h4, h5, _⟩ := k
    have hn : RbgView.reseed none (poolEnv rng p curr) = none := by
      have h' : (poolEnv rng p curr).status = false ∨ (poolEnv rng p curr).seed = none := h
      simp only [RbgView.reseed]
      rcases h' with h | h
      · simp [h]
      · simp [h]
    rw [e] at h2
    match as, h2 with
    | .bytes rv b :: as, h2 =>
      simp only [RbgView.Follows, hn] at h2
      obtain ⟨h6, _, h7⟩ := h2
      cases as with
      | nil => exact ⟨as', s', b, h4, by rw [h5, h6]; rfl⟩
      | cons a as => exact h7.elim
  | cons c cs ih =>
    have hc' := fun c hm => hc c (List.mem_cons_of_mem _ hm)
    have h0 := hc c List.mem_cons_self
    cases c with
    | add b n =>
      obtain ⟨as, s, o, h1, h2⟩ := ih (rng.add p b n).2 hc' h
      exact ⟨.added (rng.add p b n).1 :: as, s, o, by simp only [List.cons_append, PoolState.run, PoolState.call, dstu_rbg_add, h1, Option.map_some], h2⟩
    | seed b =>
      obtain ⟨as, s, o, h1, h2⟩ := ih (rng.seed p b).2 hc' h
      exact ⟨.added (rng.seed p b).1 :: as, s, o, by simp only [List.cons_append, PoolState.run, PoolState.call, dstu_rbg_seed, h1, Option.map_some], h2⟩
    | bytes _ _ _ => exact h0.elim
    | status _ => exact h0.elim
    | cleanup => exact h0.elim

/-- A generator that collects the bytes added, is ready from 40 on, and gives out the first 40. -/
def collecting : DefaultRng (List Byte) where
  add p buf _ := (true, p ++ buf)
  seed p buf := (true, p ++ buf)
  status p := (decide (40 ≤ p.length), p)
  bytes40 p := (if h : 40 ≤ p.length then some (Vector.ofFn fun i => p[i.val]) else none, p.drop 40)

/-- The collecting generator is given 10 and 30 bytes; the first request is given the stream of these 40 bytes. -/
example : ∃ as s, (PoolState.mk [] .boot).run collecting true ([.add (List.replicate 10 3) 0, .seed (List.replicate 30 4)] ++ [.bytes (zeros 8) [0, 0] 2]) =
      some (as, s) ∧ poolHandedOut as = [(true, (RbgSeed.ofSeed (Vector.ofFn fun i => if i.val < 10 then 3 else 4) (zeros 8)).segment 0 2 ++ [])] :=
  C111_pool_partial collecting [] [.add (List.replicate 10 3) 0, .seed (List.replicate 30 4)] (by simp [Adds]) (zeros 8) _ (by decide) (by decide +kernel)
    [0, 0] 2 (by simp [PoolAllowed])

example := C111_handed_on collecting true [.add (List.replicate 10 3) 0, .seed (List.replicate 30 4)] ⟨[], .boot⟩ (by simp [Adds])

/-- A seeded generator, with and without entropy added in between. -/
example := C111_pool_refuted collecting collecting [] [] stTiny rfl (Or.inr rfl) [.bytes (zeros 8) [0, 0] 2]
  [.seed (List.replicate 40 4), .status (zeros 8), .bytes (zeros 8) [0, 0] 2, .add [1, 2, 3] 24] (by simp [PoolAllowed]) (by simp [PoolAllowed]) rfl

example := C111_pool_left_alone collecting [.seed (List.replicate 40 4), .status (zeros 8), .bytes (zeros 8) [0, 0] 2, .add [1, 2, 3] 24] ⟨[], stTiny⟩ rfl
  (Or.inr rfl) (by simp [PoolAllowed])

example := C44_pool collecting [] [.bytes (zeros 8) [0, 0] 2, .seed (List.replicate 40 4), .bytes (zeros 8) [0, 0] 2] (by simp [PoolAllowed])

/-- 39 bytes are not enough for the collecting generator. -/
example := C46_pool_not_ready collecting [] [.seed (List.replicate 39 4)] (by simp [Adds]) (zeros 8) (Or.inl (by decide)) [0, 0] 2 (by simp [PoolAllowed])

end Dstu.Props
