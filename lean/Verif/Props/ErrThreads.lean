import Verif.Lemmas.ErrThreads
import Verif.Props.Err

/-! Errors raised by many threads: C87. -/

namespace Dstu.Props

open Spec

attribute [local irreducible] ERR_PACK ERR_GET_LIB

/-- C87, part 1.  When the strings are registered before the threads start: whatever errors any number of threads raise, however they are interleaved with each other and with
other libraries, all of them carry one number, each thread's errors are its own and in its order, and the engine's strings stay registered under that number.

Missing: errors raised before the strings are registered, refuted below. -/
theorem C87_registered_partial (g : ErrRegistry) (hg : Sound g) (ops : List ErrOp) (hroom : g.nextLib + othersAsked ops < 256) (hreg : registered ops = true)
    (script : Nat → List (Nat × Nat)) (schedule : List RaiseEvent) :
    ∃ l, g.nextLib ≤ l ∧ l < 256 ∧
      (∀ t, ∃ n, (((RaiseSystem.start ((ErrState.boot g).run ops) script).run schedule).thread t).queue = ((script t).take n).map fun e => ERR_PACK l e.1 e.2) ∧
      (∀ f r, f < 4096 → r < 4096 → ((RaiseSystem.start ((ErrState.boot g).run ops) script).run schedule).err.reg.strings (ERR_PACK l f r) = ownString f r) ∧
      l ∉ ((RaiseSystem.start ((ErrState.boot g).run ops) script).run schedule).err.reg.others := by
  have h0 := boot_inv hg (ops := ops ++ []) (by simpa using hroom)
  obtain ⟨hi, _⟩ := errInv_run (s := ErrState.boot g) ops [] [] h0
  rw [List.nil_append] at hi
  rcases hi.phase with ⟨_, _, h, _⟩ | ⟨hk, ha⟩
  · rw [hreg] at h
    cases h
  · rw [hreg] at hk
    have hl : ((ErrState.boot g).run ops).libCode < 256 := by
      have := hk.hi
      have := hi.common.hi
      omega
    have hlow : g.nextLib ≤ ((ErrState.boot g).run ops).libCode := by
      have hown : (ErrState.boot g).own ops = g.nextLib + othersAsked (ops.takeWhile fun op => !op.asks) := if_pos rfl
      obtain ⟨_, ho⟩ := errInv_run (s := ErrState.boot g) ops [] [] h0
      rw [own_numbered rfl hk.lo, List.append_nil, hown] at ho
      omega
    obtain ⟨h1, h2⟩ := known_run hl script schedule (.start ((ErrState.boot g).run ops) script) ⟨rfl, hk.lo, hk.hi, hk.private_, fun f r hf hr => by rw [show (RaiseSystem.start ((ErrState.boot g).run ops) script).err = (ErrState.boot g).run ops from rfl, hk.strings f r hf hr]; rfl⟩
      (fun t => ⟨by simp [RaiseSystem.start, RaiseThread.start], by simp [RaiseSystem.start, RaiseThread.start], 0, by simp [RaiseSystem.start, RaiseThread.start], by simp [RaiseSystem.start, RaiseThread.start, RaiseThread.pending]⟩)
    exact ⟨_, hlow, hl, fun t => let ⟨n, hq, _⟩ := (h2 t).queue; ⟨n, hq⟩, h1.strings, h1.own⟩

/-- C87, part 2.  In every case, also when the threads raise the engine's first errors: each thread's errors are its own and in its order, and every one carries a number that
OpenSSL gave to the engine, and to no other library. -/
theorem C87_number_partial (g : ErrRegistry) (hg : Sound g) (ops : List ErrOp) (hroom : g.nextLib + othersAsked ops < 256)
    (script : Nat → List (Nat × Nat)) (schedule : List RaiseEvent) (t : Nat) :
    ∃ ls : List Nat, (((RaiseSystem.start ((ErrState.boot g).run ops) script).run schedule).thread t).queue = (ls.zip (script t)).map (fun e => ERR_PACK e.1 e.2.1 e.2.2) ∧
      ∀ l ∈ ls, g.nextLib ≤ l ∧ l < ((RaiseSystem.start ((ErrState.boot g).run ops) script).run schedule).err.reg.nextLib ∧
        l ∉ ((RaiseSystem.start ((ErrState.boot g).run ops) script).run schedule).err.reg.others := by
  have h0 := boot_inv hg (ops := ops ++ []) (by simpa using hroom)
  obtain ⟨hi, ho⟩ := errInv_run (s := ErrState.boot g) ops [] [] h0
  rw [List.nil_append] at hi
  have hst : OursState g.nextLib ((ErrState.boot g).run ops) := by
    refine ⟨by have := hi.count; omega, ?_, hi.common.others⟩
    rcases hi.phase with ⟨hv, _⟩ | ⟨hk, _⟩
    · exact Or.inl hv.code
    · refine Or.inr ⟨?_, hk.hi, hk.private_⟩
      have hown : (ErrState.boot g).own ops = g.nextLib + othersAsked (ops.takeWhile fun op => !op.asks) := if_pos rfl
      rw [own_numbered rfl hk.lo, List.append_nil, hown] at ho
      omega
  obtain ⟨_, h2⟩ := ours_run (by have := hg.lo; omega) script schedule (.start ((ErrState.boot g).run ops) script) hst
    (fun t => ⟨by simp [RaiseSystem.start, RaiseThread.start], by simp [RaiseSystem.start, RaiseThread.start], [], by simp [RaiseSystem.start, RaiseThread.start], by simp [RaiseSystem.start, RaiseThread.start], by simp, by simp [RaiseSystem.start, RaiseThread.start, RaiseThread.pending]⟩)
  obtain ⟨ls, _, hq, ho, _⟩ := (h2 t).queue
  exact ⟨ls, hq, ho⟩

/-- C87, part 3.  Raising an error never waits: a thread that is picked five times for each of its errors has raised them all. -/
theorem C87_returns (s : ErrState) (script : Nat → List (Nat × Nat)) (schedule : List RaiseEvent) (t : Nat) (hn : 5 * (script t).length ≤ picks t schedule) :
    (((RaiseSystem.start s script).run schedule).thread t).queue.length = (script t).length := by
  obtain ⟨h1, h2⟩ := raise_run schedule (.start s script) t hn
  rw [raise_zero h1] at h2
  simpa [RaiseSystem.start, RaiseThread.start, RaiseThread.pending] using h2

/-- Two threads that report a key of another kind, one while signing and one while verifying. -/
def twoErrors : Nat → List (Nat × Nat) := fun t => if t = 0 then [(114, 104)] else if t = 1 then [(115, 104)] else []

/-- Both find that there is no number yet, before either has one. -/
def errorRace : List RaiseEvent := [0, 1, 0, 1, 0, 0, 0, 1, 1, 1].map .thread

/-- C87 fails: the first errors of two threads carry different numbers, and when the strings are then loaded only one of them is displayed as an error of the engine. -/
theorem C87_first_refuted : ∃ σ : RaiseSystem, (RaiseSystem.start (.boot exampleRegistry) twoErrors).run errorRace = σ ∧
    (σ.thread 0).queue = [ERR_PACK 129 114 104] ∧ (σ.thread 1).queue = [ERR_PACK 130 115 104] ∧
    ERR_lib_error_string (σ.err.run [.load]).reg (ERR_PACK 130 115 104) = some "dstu" ∧
    ERR_lib_error_string (σ.err.run [.load]).reg (ERR_PACK 129 114 104) = none :=
  ⟨_, rfl, by decide +kernel, by decide +kernel, by decide +kernel, by decide +kernel⟩

example : Sound exampleRegistry ∧ exampleRegistry.nextLib + othersAsked [.load, .otherNumber] < 256 ∧ registered [.load, .otherNumber] = true ∧
    (((RaiseSystem.start ((ErrState.boot exampleRegistry).run [.load, .otherNumber]) twoErrors).run (errorRace ++ [.otherNumber])).thread 0).queue = [ERR_PACK 129 114 104] ∧
    (((RaiseSystem.start ((ErrState.boot exampleRegistry).run [.load, .otherNumber]) twoErrors).run (errorRace ++ [.otherNumber])).thread 1).queue = [ERR_PACK 129 115 104] :=
  ⟨exampleRegistry_sound, by decide, by decide, by decide +kernel, by decide +kernel⟩

example : 5 * (twoErrors 1).length ≤ picks 1 errorRace := by decide

example (schedule : List RaiseEvent) := C87_registered_partial exampleRegistry exampleRegistry_sound [.load, .otherNumber] (by decide) (by decide) twoErrors schedule
example (schedule : List RaiseEvent) := C87_number_partial exampleRegistry exampleRegistry_sound [.otherNumber] (by decide) twoErrors schedule 1
example := C87_returns (.boot exampleRegistry) twoErrors errorRace 1 (by decide)

end Dstu.Props
