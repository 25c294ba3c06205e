import Verif.Props.RbgThreads
import Verif.Props.Reuse

/-! C112 for threads: numbers drawn at the same time by many threads. -/

namespace Dstu.Props

open Spec

/-- A thread that draws a number below `n` asks for a block of `drawBytes n` bytes, and again if no number is made of it.  The block that request number `k` of thread `t` returned, with success,
makes the number `r`. -/
def DrewNumber (script : Nat → List RandReq) (schedule : List (Nat × RandEnv)) (n t k r : Nat) : Prop :=
  ∃ out, Received (after script schedule) t k out ∧ out.length = drawBytes n ∧ below n (beValue out) = some r

theorem drawBytes_pos (n : Nat) : 0 < drawBytes n := by
  unfold drawBytes drawBits
  omega

/-- C112, what holds for threads: whatever the requests of the threads and the interleaving of their steps, there is one stream, of a seed the world gave, such that every number drawn by any
thread is made of a block of it, and the blocks of two numbers do not overlap, be they drawn by two threads or by one. -/
theorem C112_threads_partial (script : Nat → List RandReq) (schedule : List (Nat × RandEnv)) (n : Nat) :
    ∃ (g : RbgSeed) (pos : Nat → Nat → Nat),
      (∀ t k r, DrewNumber script schedule n t k r →
        (∃ p ∈ schedule, ∃ seed, p.2.seed = some seed ∧ g = RbgSeed.ofSeed seed p.2.curr) ∧ g.Draws n (pos t k) r (pos t k + drawBytes n)) ∧
      ∀ t k r t' k' r', DrewNumber script schedule n t k r → DrewNumber script schedule n t' k' r' → (t, k) ≠ (t', k') →
        pos t k + drawBytes n ≤ pos t' k' ∨ pos t' k' + drawBytes n ≤ pos t k := by
  obtain ⟨g, off, h1, h2⟩ := C45_private_segments script schedule
  refine ⟨g, off, ?_, ?_⟩
  · rintro t k r ⟨out, hr, hl, hb⟩
    obtain ⟨a1, a2⟩ := h1 t k out hr
    refine ⟨a1, 0, by decide, ?_, fun i hi => absurd hi (by omega), by ring⟩
    rw [RbgSeed.candidate, Nat.zero_mul, Nat.add_zero, ← hl, ← a2]
    exact hb
  · rintro t k r t' k' r' ⟨out, hr, hl, _⟩ ⟨out', hr', hl', _⟩ hne
    by_contra hc
    rw [not_or, Nat.not_le, Nat.not_le] at hc
    have hp := drawBytes_pos n
    obtain ⟨e1, e2⟩ := h2 t k out t' k' out' (max (off t k) (off t' k')) hr hr' (le_max_left _ _) (by rw [hl]; omega) (le_max_right _ _) (by rw [hl']; omega)
    exact hne (by rw [e1, e2])

theorem blocks : 1 = drawBytes 29 ∧ below 29 (beValue [41]) = some 9 ∧ below 29 (beValue [184]) = some 24 := by decide +kernel

theorem exFirst : (((after (fun _ => [.bytes [0]]) exSchedule).thread 0).done.map fun d => (d.rv, d.buf)) = [(true, [41])] := by decide +kernel

theorem exSecond : (((after (fun _ => [.bytes [0]]) exSchedule).thread 1).done.map fun d => (d.rv, d.buf)) = [(true, [184])] := by decide +kernel

/-- Two threads whose steps are mixed draw a number below 29 each: 9 and 24. -/
theorem exDrawn : DrewNumber (fun _ => [.bytes [0]]) exSchedule 29 0 0 9 ∧ DrewNumber (fun _ => [.bytes [0]]) exSchedule 29 1 0 24 := by
  have key : ∀ t b, (((after (fun _ => [.bytes [0]]) exSchedule).thread t).done.map fun d => (d.rv, d.buf)) = [(true, [b])] →
      Received (after (fun _ => [.bytes [0]]) exSchedule) t 0 [b] := by
    intro t b h
    obtain ⟨hq, _⟩ := C45_requests (fun _ => [.bytes [0]]) exSchedule t
    cases hd : ((after (fun _ => [.bytes [0]]) exSchedule).thread t).done with
    | nil => rw [hd] at h; cases h
    | cons d ds =>
      rw [hd, List.map_cons, List.cons.injEq] at h
      rw [hd, List.map_cons, List.cons_prefix_cons] at hq
      obtain ⟨req, rv, buf⟩ := d
      obtain ⟨h3, _⟩ := h
      have h4 := hq.1
      simp only [Prod.mk.injEq] at h3 h4
      obtain ⟨rfl, rfl⟩ := h3
      subst h4
      exact ⟨[0], by rw [hd]; rfl⟩
  have r0 := key 0 41 exFirst
  have r1 := key 1 184 exSecond
  exact ⟨⟨[41], r0, blocks.1, blocks.2.1⟩, ⟨[184], r1, blocks.1, blocks.2.2⟩⟩

example : ∃ (g : RbgSeed) (pos pos' : Nat), g.Draws 29 pos 9 (pos + 1) ∧ g.Draws 29 pos' 24 (pos' + 1) ∧ (pos + 1 ≤ pos' ∨ pos' + 1 ≤ pos) := by
  obtain ⟨g, pos, h1, h2⟩ := C112_threads_partial (fun _ => [.bytes [0]]) exSchedule 29
  exact ⟨g, pos 0 0, pos 1 0, (h1 _ _ _ exDrawn.1).2, (h1 _ _ _ exDrawn.2).2, h2 _ _ _ _ _ _ exDrawn.1 exDrawn.2 (by decide)⟩

end Dstu.Props
