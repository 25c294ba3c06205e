import Verif.Lemmas.RbgThreads

/-! The random generator called by many threads: C45. -/

namespace Dstu.Props

open Spec

/-- The state after a schedule, from the loading of the library. -/
def after (script : Nat → List RandReq) (schedule : List (Nat × RandEnv)) : RandSystem := (RandSystem.boot script).run schedule

/-- The request number `k` of thread `t` has returned, with success, and left `out` in the buffer. -/
def Received (σ : RandSystem) (t k : Nat) (out : List Byte) : Prop :=
  ∃ buf, (σ.thread t).done[k]? = some ⟨.bytes buf, true, out⟩

/-- C45: whatever the requests of the threads, the interleaving of their steps and the answers of the world,
there is one stream, of a seed the world gave, such that every request that has returned with success holds
a contiguous segment of it, and no byte of the stream was given to two requests. -/
theorem C45_private_segments (script : Nat → List RandReq) (schedule : List (Nat × RandEnv)) :
    ∃ (g : RbgSeed) (off : Nat → Nat → Nat),
      (∀ t k out, Received (after script schedule) t k out →
        (∃ p ∈ schedule, ∃ seed, p.2.seed = some seed ∧ g = RbgSeed.ofSeed seed p.2.curr) ∧ out = g.segment (off t k) out.length) ∧
      ∀ t k out t' k' out' b, Received (after script schedule) t k out → Received (after script schedule) t' k' out' →
        off t k ≤ b → b < off t k + out.length → off t' k' ≤ b → b < off t' k' + out'.length → t = t' ∧ k = k' := by
  obtain ⟨hl, hf, hd⟩ := run_inv (fun g => ∃ p ∈ schedule, ∃ seed, p.2.seed = some seed ∧ g = RbgSeed.ofSeed seed p.2.curr)
    schedule (.boot script) (fun p hp seed hs => ⟨p, hp, seed, hs, by unfold RandEnv.gen RbgSeed.ofSeed; congr⟩) (boot_inv _ script)
  rcases hd with ⟨_, hp⟩ | ⟨g, n, owner, hg, hdone, _⟩
  · have none : ∀ t k out, ¬ Received (after script schedule) t k out := by
      rintro t k out ⟨buf, h⟩
      have := (hp t).1 _ (List.mem_of_getElem? h) trivial
      cases this
    exact ⟨⟨zeros 32, zeros 8, zeros 8⟩, fun _ _ => 0, fun t k out h => absurd h (none t k out),
      fun t k out t' k' out' b h => absurd h (none t k out)⟩
  · have hseg : ∀ t k out, Received (after script schedule) t k out → Seg g n owner t k out := by
      rintro t k out ⟨buf, h⟩
      exact (hdone t).1 k _ h trivial rfl
    classical
    have hex : ∀ t k, ∃ o, ∀ out, Received (after script schedule) t k out →
        out = g.segment o out.length ∧ ∀ b, o ≤ b → b < o + out.length → owner b = (t, k) := by
      intro t k
      by_cases h : ∃ out, Received (after script schedule) t k out
      · obtain ⟨out, h⟩ := h
        obtain ⟨o, _, h2, h3⟩ := hseg t k out h
        refine ⟨o, fun out' h' => ?_⟩
        have : out' = out := by
          obtain ⟨b, hb⟩ := h
          obtain ⟨b', hb'⟩ := h'
          rw [hb] at hb'
          cases hb'
          rfl
        rw [this]
        exact ⟨h2, h3⟩
      · exact ⟨0, fun out h' => absurd ⟨out, h'⟩ h⟩
    choose off hoff using hex
    refine ⟨g, off, fun t k out h => ⟨hg, (hoff t k out h).1⟩, ?_⟩
    intro t k out t' k' out' b h h' h1 h2 h3 h4
    have e1 := (hoff t k out h).2 b h1 h2
    have e2 := (hoff t' k' out' h').2 b h3 h4
    rw [e1] at e2
    exact ⟨congrArg Prod.fst e2, congrArg Prod.snd e2⟩

/-- C45: the requests of a thread return in order, each with a buffer of the length asked for. -/
theorem C45_requests (script : Nat → List RandReq) (schedule : List (Nat × RandEnv)) (t : Nat) :
    ((after script schedule).thread t).done.map RandDone.req <+: script t ∧
    ∀ d ∈ ((after script schedule).thread t).done, ∀ b, d.req = .bytes b → d.buf.length = b.length := by
  have h := run_script script schedule (.boot script) (fun t => ⟨(by intro d hd; cases hd), by
    simp [RandSystem.boot, RandThread.start]⟩) t
  obtain ⟨h1, h2⟩ := h
  refine ⟨?_, h1⟩
  split at h2
  · exact ⟨_, h2⟩
  · exact ⟨_, h2.1⟩

/-- The next step of the thread reads or writes the state of the generator. -/
def TouchesGenerator (t : RandThread) : Prop :=
  t.pc ∈ [.test, .testStatus, .setTables, .setKey, .setS, .setI, .setFlag, .setFlag2, .x0, .x1, .encX, .s0, .s1, .encS]

/-- C45, no data race: there never are two threads about to access the state of the generator. -/
theorem C45_no_race (script : Nat → List RandReq) (schedule : List (Nat × RandEnv)) (t u : Nat)
    (ht : TouchesGenerator ((after script schedule).thread t)) (hu : TouchesGenerator ((after script schedule).thread u)) : t = u := by
  have hl := (run_inv (fun _ => True) schedule (.boot script) (fun _ _ _ _ => trivial) (boot_inv _ script)).1
  have crit : ∀ v, TouchesGenerator ((after script schedule).thread v) → ((RandSystem.boot script).run schedule).shared.holder = some v := by
    intro v hv
    refine (hl v).mp ?_
    unfold TouchesGenerator after at hv
    cases hp : (((RandSystem.boot script).run schedule).thread v).pc <;> rw [hp] at hv <;> simp at hv <;> trivial
  have h1 := crit t ht
  rw [crit u hu] at h1
  exact (Option.some.inj h1).symm

/-- C45, no deadlock: as long as some thread has a request to make or is in one, some thread can go on. -/
theorem C45_no_deadlock (script : Nat → List RandReq) (schedule : List (Nat × RandEnv)) (t : Nat)
    (h : ((after script schedule).thread t).pc ≠ .out ∨ ((after script schedule).thread t).todo ≠ []) (e : RandEnv) :
    ∃ u, (((after script schedule).thread u).step u e (after script schedule).shared).isSome := by
  have hl := (run_inv (fun _ => True) schedule (.boot script) (fun _ _ _ _ => trivial) (boot_inv _ script)).1
  have go : ∀ u, ((after script schedule).thread u).pc ≠ .out ∨ ((after script schedule).thread u).todo ≠ [] →
      ((after script schedule).thread u).pc ≠ .acquire ∨ (after script schedule).shared.holder = none →
      (((after script schedule).thread u).step u e (after script schedule).shared).isSome := by
    intro u h1 h2
    unfold RandThread.step
    cases hp : ((after script schedule).thread u).pc <;> rw [hp] at h1 h2 <;>
      simp only [ne_eq, reduceCtorEq, not_true, not_false_iff, false_or, true_or] at h1 h2 ⊢
    all_goals (try split)
    all_goals (try rfl)
    · rename_i h3; exact absurd h3 h1
    · rename_i h3; rw [h2] at h3; cases h3
  cases hh : (after script schedule).shared.holder with
  | none => exact ⟨t, go t h (Or.inr hh)⟩
  | some u =>
    have hc : ((after script schedule).thread u).pc.Crit := (hl u).mpr hh
    refine ⟨u, go u (Or.inl ?_) (Or.inl ?_)⟩ <;>
    · intro hp
      rw [hp] at hc
      exact hc

/-- A schedule in which two threads have each got a byte, with the steps of the two mixed. -/
def exSchedule : List (Nat × RandEnv) :=
  (List.range 400).map fun i => (i % 2, ⟨true, some (Vector.replicate 40 7), zeros 8⟩)

example : ((after (fun _ => [.bytes [0]]) exSchedule).thread 0).done.map RandDone.rv = [true] ∧
    ((after (fun _ => [.bytes [0]]) exSchedule).thread 1).done.map RandDone.rv = [true] := by
  decide +kernel

/-- At the start, with one request to make. -/
example (e : RandEnv) := C45_no_deadlock (fun _ => [.bytes [0]]) [] 0 (Or.inr (by simp [after, RandSystem.run, RandSystem.boot, RandThread.start])) e

end Dstu.Props
