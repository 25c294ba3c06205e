import Verif.Lemmas.EngineThreads

/-! Lookups by many threads: C86. -/

namespace Dstu.Props

open Spec

/-- The lookup of an algorithm is prepared by a history: it was looked up before, or it is a digest or a cipher and the engine was bound. -/
def Prepared (before : List EngOp) (r : LookupReq) : Prop :=
  .get r.kind r.nid ∈ before ∨ ((r.kind = .digest ∨ r.kind = .cipher) ∧ ∃ ok, 17 ≤ ok ∧ .bind ok ∈ before)

/-- C86, part 1.  After any use of the engine by one thread, whatever lookups any number of threads then make and however their steps are interleaved: as long as every
creation of a method succeeds, every lookup of an algorithm of the engine that has returned has given a method of that kind and identifier, which is in memory.

Missing: creations that fail, and that the threads are given the same method; refuted below. -/
theorem C86_found_partial (g : ErrRegistry) (before : List EngOp) (hb : before.all inUse = true) (fs : List Found) (s : EngState)
    (hs : (EngState.boot g).run before = some (fs, s)) (script : Nat → List LookupReq) (schedule : List (Nat × Bool)) (hok : ∀ p ∈ schedule, p.2 = true)
    (t : Nat) (r : LookupReq) (f : Found) (hr : r.nid ∈ algorithms r.kind) (hd : (r, f) ∈ (((LookupSystem.start s script).run schedule).thread t).done) :
    ∃ a, f = .method a ∧ ((LookupSystem.start s script).run schedule).eng.heap a = some ⟨r.kind, r.nid⟩ := by
  obtain ⟨fs', s', e, _, hi, _, _⟩ := careful_run (boot_engine_inv g) before [] (careful_inUse (before ++ []) (by simpa using hb))
  rw [hs] at e
  cases e
  rw [(inUse_no _ hb).1, (inUse_no _ hb).2] at hi
  have hsound : Sound s := ⟨fun sl a ha => hi.live sl (by cases sl <;> rfl) a ha, hi.fresh⟩
  obtain ⟨_, hg⟩ := run_good schedule (.start s script) hok hsound
    (fun t => ⟨fun hp => absurd rfl hp, fun hp => (by cases hp), fun hp => (by cases hp), fun p hp => (by cases hp)⟩)
  have := (hg t).done _ hd
  unfold GoodOutcome at this
  obtain ⟨sl, hsl⟩ := Option.isSome_iff_exists.1 (slotOf_some.2 hr)
  rw [hsl] at this
  obtain ⟨a, h1, h2⟩ := this
  exact ⟨a, h1, by rw [h2, slotOf_meth hsl]⟩

/-- What was looked up in a history, or bound, stays in its variable. -/
theorem prepared_slot (g : ErrRegistry) (before : List EngOp) (hb : before.all inUse = true) (fs : List Found) (s : EngState)
    (hs : (EngState.boot g).run before = some (fs, s)) (r : LookupReq) (hp : Prepared before r) (sl : Slot) (hsl : slotOf r.kind r.nid = some sl) : s.slot sl ≠ none := by
  have key : ∀ op, op ∈ before → (∀ s1 r1 s2, EngState.step s1 op = some (r1, s2) → s2.slot sl ≠ none) → s.slot sl ≠ none := by
    intro op hop hfill
    obtain ⟨l1, l2, rfl⟩ := List.append_of_mem hop
    rw [List.all_append, List.all_cons, Bool.and_eq_true, Bool.and_eq_true] at hb
    obtain ⟨hb1, hb2, hb3⟩ := hb
    obtain ⟨fs1, s1, e1, _, h1, hc1, _⟩ := careful_run (boot_engine_inv g) l1 (op :: l2) (careful_inUse _ (by simp [hb1, hb2, hb3]))
    obtain ⟨r1, s2, e2, _, f', d', h2, hc2, _, _, _⟩ := careful_step h1 op l2 hc1
    obtain ⟨fs3, s3, e3, _, h3, _, k3⟩ := careful_run h2 l2 [] (by simpa using hc2)
    have e : (EngState.boot g).run (l1 ++ op :: l2) = some (fs1 ++ r1 :: fs3, s3) := by
      rw [EngState.run_append _ _ _ e1, EngState.run_cons _ _ _ e2, e3]
      rfl
    rw [hs] at e
    cases e
    cases h : s2.slot sl with
    | none => exact absurd h (hfill s1 r1 s2 e2)
    | some a => rw [k3 hb3 sl a h]; simp
  rcases hp with h | ⟨hk, ok, hok, h⟩
  · refine key _ h fun s1 r1 s2 e => ?_
    have : (s1.get r.kind r.nid).2 = s2 := congrArg Prod.snd (Option.some.inj e)
    rw [← this, get_state, hsl]
    obtain ⟨a, ha⟩ := ensure_slot s1 sl
    simp only [ha]
    simp
  · refine key _ h fun s1 r1 s2 e => ?_
    have : (dstu_bind ok s1).2 = s2 := congrArg Prod.snd (Option.some.inj e)
    rw [← this]
    have hm := slotOf_meth hsl
    obtain ⟨h1, h2⟩ := bind_filled ok hok s1
    cases sl with
    | md => exact h1
    | ci => exact h2
    | _ => rcases hk with hk | hk <;> rw [hk] at hm <;> cases hm

/-- C86, part 2.  If every algorithm of the engine that is looked up was looked up before the threads started, or is the digest or the cipher of an engine that was bound, then in every interleaving
all lookups give what a lookup by a single thread gives, and nothing is created or changed; even if a creation were to fail.

Missing: the first lookups of key methods, refuted below. -/
theorem C86_ready_partial (g : ErrRegistry) (before : List EngOp) (hb : before.all inUse = true) (fs : List Found) (s : EngState)
    (hs : (EngState.boot g).run before = some (fs, s)) (script : Nat → List LookupReq)
    (hp : ∀ t, ∀ r ∈ script t, r.nid ∈ algorithms r.kind → Prepared before r) (schedule : List (Nat × Bool)) :
    ((LookupSystem.start s script).run schedule).eng = s ∧
      ∀ t r f, (r, f) ∈ (((LookupSystem.start s script).run schedule).thread t).done → f = (s.get r.kind r.nid).1 := by
  have hf : ∀ t, ∀ r ∈ script t, ∀ sl, slotOf r.kind r.nid = some sl → s.slot sl ≠ none := by
    intro t r hr sl hsl
    exact prepared_slot g before hb fs s hs r (hp t r hr (slotOf_some.1 (by rw [hsl]; rfl))) sl hsl
  obtain ⟨h1, h2⟩ := run_ready schedule (.start s script) (fun t => ⟨hf t, fun hp => absurd rfl hp, ⟨by simp [LookupSystem.start, LookupThread.start], by simp [LookupSystem.start, LookupThread.start]⟩, fun p hp => by cases hp⟩)
  refine ⟨h1, fun t r f hd => ?_⟩
  have hd' := (h2 t).done _ hd
  rw [get_found]
  cases hsl : slotOf r.kind r.nid with
  | none => simpa only [hsl] using hd'
  | some sl =>
    have hall : r ∈ script t := run_asked schedule (.start s script) t (· ∈ script t) (fun _ h => h) (fun h => absurd rfl h) (fun _ h => by cases h) _ hd
    have hne : s.slot sl ≠ none := hf t r hall sl hsl
    have he : s.ensure sl = s := by unfold EngState.ensure; rw [if_neg hne]
    simp only [hsl] at hd'
    simp only [he]
    exact hd'

/-- C86, part 3.  Every lookup returns after at most five steps of its own thread, whatever the others do: a thread that is picked five times for each of its lookups has made them all, in their order. -/
theorem C86_returns (s : EngState) (script : Nat → List LookupReq) (schedule : List (Nat × Bool)) (t : Nat)
    (hn : 5 * (script t).length ≤ (schedule.map Prod.fst).count t) :
    (((LookupSystem.start s script).run schedule).thread t).done.map Prod.fst = script t := by
  obtain ⟨h1, h2⟩ := run_left schedule (.start s script) t hn
  obtain ⟨h3, h4⟩ := left_zero h1
  generalize ((LookupSystem.start s script).run schedule).thread t = u at *
  unfold LookupThread.all at h2
  rw [h3, h4] at h2
  simpa [LookupSystem.start, LookupThread.start] using h2

/-- C86, part 4.  A thread that is alone sees what one lookup after the other gives, and leaves the engine as they do. -/
theorem C86_alone (s : EngState) (reqs : List LookupReq) (n : Nat) (hn : 5 * reqs.length ≤ n) :
    ∃ fs, s.run (reqs.map fun r => .get r.kind r.nid) =
        some (fs, ((LookupSystem.start s fun t => if t = 0 then reqs else []).run (List.replicate n (0, true))).eng) ∧
      (((LookupSystem.start s fun t => if t = 0 then reqs else []).run (List.replicate n (0, true))).thread 0).done = reqs.zip fs := by
  obtain ⟨m, hm, fs, s', t', e1, e2, p, q, d⟩ := solo_all reqs s (.start reqs) rfl rfl
  have h := run_solo n (LookupSystem.start s fun t => if t = 0 then reqs else [])
  have h0 : (LookupSystem.start s fun t => if t = 0 then reqs else []).thread 0 = .start reqs := rfl
  rw [h0, show n = (n - m) + m by omega, Function.iterate_add_apply] at h
  have h' : (soloStep^[m] ((LookupSystem.start s fun t => if t = 0 then reqs else []).eng, LookupThread.start reqs)) = (s', t') := e2
  rw [h', solo_idle _ p q, show (n - m) + m = n by omega] at h
  refine ⟨fs, ?_, ?_⟩
  · rw [e1, show ((LookupSystem.start s fun t => if t = 0 then reqs else []).run (List.replicate n (0, true))).eng = s' from congrArg Prod.fst h]
  · rw [show ((LookupSystem.start s fun t => if t = 0 then reqs else []).run (List.replicate n (0, true))).thread 0 = t' from congrArg Prod.snd h, d]
    rfl

/-- The engine after a successful bind, in a fresh program. -/
def boundEngine : EngState := (dstu_bind 17 (.boot ⟨fun _ => none, 128, [], []⟩)).2

/-- Two threads that look up the key method of little-endian keys. -/
def twoLookups : Nat → List LookupReq := fun t => if t < 2 then [⟨.pkey, 1158⟩] else []

/-- A schedule in which both find the variable empty before either fills it, and each fills it and reads it at once. -/
def raceSchedule : List (Nat × Bool) := [(0, true), (1, true), (0, true), (1, true), (0, true), (0, true), (0, true), (1, true), (1, true), (1, true)]

/-- C86 fails: two threads are given different methods for one algorithm, and when the engine is finished and destroyed one of them stays allocated. -/
theorem C86_same_refuted : ∃ a b s, ((LookupSystem.start boundEngine twoLookups).run raceSchedule).eng = s ∧
    (((LookupSystem.start boundEngine twoLookups).run raceSchedule).thread 0).done.map Prod.snd = [.method a] ∧
    (((LookupSystem.start boundEngine twoLookups).run raceSchedule).thread 1).done.map Prod.snd = [.method b] ∧ a ≠ b ∧
    ∃ fs s', s.run [.finish, .destroy] = some (fs, s') ∧ s'.heap a = some ⟨.pkey, 1158⟩ :=
  ⟨2, 3, _, rfl, rfl, rfl, by decide, _, _, rfl, rfl⟩

/-- C86 fails: a thread all of whose own creations succeed is given nothing, because another thread, whose creation failed, overwrote the variable. -/
theorem C86_failure_refuted : ∃ schedule : List (Nat × Bool), (∀ p ∈ schedule, p.1 = 0 → p.2 = true) ∧
    (((LookupSystem.start boundEngine twoLookups).run schedule).thread 0).done.map Prod.snd = [.null] :=
  ⟨[(0, true), (1, true), (0, true), (1, true), (0, true), (0, true), (1, false), (1, true), (0, true)], by decide, rfl⟩

example : (EngState.boot ⟨fun _ => none, 128, [], []⟩).run [.bind 17] = some ([.null], boundEngine) := rfl

/-- In the race both threads are given a method that is in memory. -/
example : (((LookupSystem.start boundEngine twoLookups).run raceSchedule).thread 1).done.map Prod.snd = [.method 3] ∧
    ((LookupSystem.start boundEngine twoLookups).run raceSchedule).eng.heap 3 = some ⟨.pkey, 1158⟩ := ⟨rfl, rfl⟩

/-- Digests and ciphers are prepared by the bind. -/
example : ∀ t, ∀ r ∈ (fun t => if t < 7 then [⟨.digest, 1157⟩, ⟨.cipher, 1154⟩, ⟨.cipher, 5⟩] else [] : Nat → List LookupReq) t, r.nid ∈ algorithms r.kind → Prepared [.bind 17] r := by
  intro t r hr hn
  simp only at hr
  split at hr
  · simp only [List.mem_cons, List.not_mem_nil, or_false] at hr
    rcases hr with rfl | rfl | rfl
    · exact Or.inr ⟨Or.inl rfl, 17, by decide, by simp⟩
    · exact Or.inr ⟨Or.inr rfl, 17, by decide, by simp⟩
    · exact absurd hn (by decide)
  · cases hr

example : 5 * (twoLookups 0).length ≤ (raceSchedule.map Prod.fst).count 0 := by decide

/-- The race above meets the hypotheses of `C86_found_partial`; the seven threads those of `C86_ready_partial`. -/
example : ∃ a, Found.method 3 = .method a ∧ ((LookupSystem.start boundEngine twoLookups).run raceSchedule).eng.heap a = some ⟨.pkey, 1158⟩ :=
  C86_found_partial ⟨fun _ => none, 128, [], []⟩ [.bind 17] rfl [.null] boundEngine rfl twoLookups raceSchedule (by decide) 1 ⟨.pkey, 1158⟩ (.method 3) (by decide) (by
    have h : (((LookupSystem.start boundEngine twoLookups).run raceSchedule).thread 1).done = [(⟨.pkey, 1158⟩, .method 3)] := rfl
    rw [h]; simp)

example (schedule : List (Nat × Bool)) :=
  C86_ready_partial ⟨fun _ => none, 128, [], []⟩ [.bind 17] rfl [.null] boundEngine rfl (fun t => if t < 7 then [⟨.digest, 1157⟩] else []) (by
    intro t r hr _
    split at hr
    · simp only [List.mem_cons, List.not_mem_nil, or_false] at hr
      subst hr
      exact Or.inr ⟨Or.inl rfl, 17, by decide, by simp⟩
    · cases hr) schedule

example := C86_returns boundEngine twoLookups raceSchedule 1 (by decide)
example := C86_alone boundEngine [⟨.pkey, 1158⟩, ⟨.digest, 3⟩] 10 (by decide)

end Dstu.Props
