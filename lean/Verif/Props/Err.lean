import Verif.Lemmas.Err

/-! The error strings: C50, C70. -/

namespace Dstu.Props

open Spec

/-- The registry before the engine is first used: the numbers given out are below the counter, and
nothing is registered under a number not given out. -/
structure Sound (g : ErrRegistry) : Prop where
  lo : 128 ≤ g.nextLib
  others : ∀ l ∈ g.others, l < g.nextLib
  unused : ∀ c, g.nextLib ≤ ERR_GET_LIB c → g.strings c = none

theorem libName_mk : DSTU_lib_name = mkTable 0 [(0, 0, "dstu")] := by decide +kernel

theorem boot_inv {g : ErrRegistry} (hg : Sound g) {ops : List ErrOp} (hroom : g.nextLib + othersAsked ops < 256) :
    (ErrState.boot g).Inv g [] ops :=
  ⟨⟨hg.lo, by show g.nextLib ≤ 256; omega, hg.others, hg.unused⟩, by simpa [othersAsked] using hroom, rfl, by simp [raised, ErrState.boot],
    .inl ⟨⟨rfl, functs_mk, reasons_mk, libName_mk, rfl⟩, rfl, rfl, rfl⟩⟩

attribute [local irreducible] ERR_PACK ERR_GET_LIB in
theorem err_run_append (s : ErrState) (a b : List ErrOp) : s.run (a ++ b) = (s.run a).run b := by
  simp [ErrState.run]

attribute [local irreducible] ERR_PACK ERR_GET_LIB in
/-- C50.  For every history of loads, unloads and raised errors, mixed with the operations of other
libraries, there is one library number `l` such that at every moment: the strings registered under
`l` are exactly the engine's if the last load or unload was a load, and none otherwise; every error
raised carries the number `l`; the engine has taken one number from OpenSSL if it has loaded or
raised anything, and none before; and no operation of the engine changes a string of another library. -/
theorem C50_registered_once (g : ErrRegistry) (hg : Sound g) (ops : List ErrOp) (hroom : g.nextLib + othersAsked ops < 256) :
    ∃ l, g.nextLib ≤ l ∧ l < 256 ∧
      (∀ done, done <+: ops → let s := (ErrState.boot g).run done
        (∀ f r, f < 4096 → r < 4096 → s.reg.strings (ERR_PACK l f r) = if registered done then ownString f r else none) ∧
        s.reg.queue = g.queue ++ (raised done).map (fun e => ERR_PACK l e.1 e.2) ∧
        s.reg.nextLib = g.nextLib + othersAsked done + if done.any ErrOp.asks then 1 else 0) ∧
      (∀ done op, done ++ [op] <+: ops → op.engine = true → ∀ c, ERR_GET_LIB c ≠ l →
        ((ErrState.boot g).run (done ++ [op])).reg.strings c = ((ErrState.boot g).run done).reg.strings c) := by
  have h0 := boot_inv hg hroom
  have hle : ∀ a b : List ErrOp, othersAsked (a ++ b) = othersAsked a + othersAsked b := othersAsked_append
  have hown : (ErrState.boot g).own ops = g.nextLib + othersAsked (ops.takeWhile fun op => !op.asks) := if_pos rfl
  have hb : othersAsked (ops.takeWhile fun op => !op.asks) ≤ othersAsked ops := by
    have := hle (ops.takeWhile fun op => !op.asks) (ops.dropWhile fun op => !op.asks)
    rw [List.takeWhile_append_dropWhile] at this
    omega
  refine ⟨(ErrState.boot g).own ops, by omega, by omega, ?_, ?_⟩
  · rintro done ⟨rest, rfl⟩
    obtain ⟨hi, ho⟩ := errInv_run (s := ErrState.boot g) done [] rest h0
    rw [List.nil_append] at hi
    refine ⟨?_, ?_, hi.count⟩
    · rcases hi.phase with ⟨hv, h1, h2, h3⟩ | ⟨hk, h1⟩
      · intro f r _ _
        rw [h2]
        refine hi.common.unused _ ?_
        have e1 := hi.count
        rw [h1] at e1
        have e2 : (ErrState.boot g).own (done ++ rest) = ((ErrState.boot g).run done).reg.nextLib + othersAsked (rest.takeWhile fun op => !op.asks) := by
          rw [← ho]; exact if_pos hv.code
        rw [GET_LIB_PACK, Nat.mod_eq_of_lt (by omega)]
        omega
      · have e : (ErrState.boot g).own (done ++ rest) = ((ErrState.boot g).run done).libCode := by
          rw [← ho]; exact own_numbered rfl hk.lo _
        rw [e]
        exact hk.strings
    · rcases hi.phase with ⟨hv, h1, h2, h3⟩ | ⟨hk, h1⟩
      · have := hi.queue
        rw [h3, List.map_nil] at this
        rw [h3, List.map_nil]; exact this
      · have e : (ErrState.boot g).own (done ++ rest) = ((ErrState.boot g).run done).libCode := by
          rw [← ho]; exact own_numbered rfl hk.lo _
        rw [e]; exact hi.queue
  · rintro done op ⟨rest, rfl⟩ he c hc
    rw [List.append_assoc] at h0 hc
    obtain ⟨hi, ho⟩ := errInv_run (s := ErrState.boot g) done [] ([op] ++ rest) h0
    rw [← ho] at hc
    have := (errInv_step hi).2.2 he c hc
    rw [err_run_append]
    exact this

/-- The registry of a program that has just started, with one other library that has 3 strings, meets
the hypotheses; ours are then registered under 129 and removed again. -/
def exampleRegistry : ErrRegistry := ⟨fun c => if c = ERR_PACK 128 1 0 then some "x" else none, 129, [128], []⟩

theorem exampleRegistry_sound : Sound exampleRegistry := by
  refine ⟨by decide, by decide, fun c hc => ?_⟩
  show (if c = ERR_PACK 128 1 0 then some "x" else none) = none
  rw [if_neg]
  rintro rfl
  rw [GET_LIB_PACK] at hc
  exact absurd hc (by decide)

example : Sound exampleRegistry ∧ exampleRegistry.nextLib + othersAsked [.load, .otherNumber, .load, .raise 109 107, .unload, .load] < 256 ∧
    ERR_func_error_string ((ErrState.boot exampleRegistry).run [.load, .otherNumber, .load, .raise 109 107, .unload, .load]).reg (ERR_PACK 129 109 107) = some "DSTU_DO_SIGN" ∧
    ERR_func_error_string ((ErrState.boot exampleRegistry).run [.load, .otherNumber, .load, .raise 109 107, .unload]).reg (ERR_PACK 129 109 107) = none ∧
    ((ErrState.boot exampleRegistry).run [.otherNumber, .raise 109 107, .load]).reg.queue = [ERR_PACK 130 109 107] :=
  ⟨exampleRegistry_sound, by decide, by decide +kernel, by decide +kernel, by decide +kernel⟩

/-- C70.  Whenever the strings are registered, an error raised by any of the error reports in the engine's
sources is displayed with the library name `dstu`, the name of a function of the engine, and a reason,
which is the engine's own, or that of OpenSSL if OpenSSL has one of that code common to all libraries. -/
theorem C70_errors_described (g : ErrRegistry) (hg : Sound g) (ops : List ErrOp) (hroom : g.nextLib + othersAsked ops < 256)
    (hreg : registered ops = true) (fr : Nat × Nat) (hfr : fr ∈ raisedSites) :
    ∃ l, g.nextLib ≤ l ∧ l < 256 ∧
      ((ErrState.boot g).run (ops ++ [.raise fr.1 fr.2])).reg.queue.getLast? = some (ERR_PACK l fr.1 fr.2) ∧
      let reg := ((ErrState.boot g).run (ops ++ [.raise fr.1 fr.2])).reg
      let c := ERR_PACK l fr.1 fr.2
      ERR_lib_error_string reg c = some "dstu" ∧
      ERR_func_error_string reg c = functionName fr.1 ∧ (functionName fr.1).isSome ∧
      ERR_reason_error_string reg c = (reasonText fr.2).or (reg.strings (ERR_PACK 0 0 fr.2)) ∧
      ((reasonText fr.2).isSome ∨ fr.2 < 100) := by
  have hroom' : g.nextLib + othersAsked (ops ++ [.raise fr.1 fr.2]) < 256 := by
    rw [othersAsked_append, othersAsked_single]; simpa using hroom
  obtain ⟨l, h1, h2, h3, _⟩ := C50_registered_once g hg _ hroom'
  obtain ⟨h4, h5, _⟩ := h3 _ (List.prefix_refl _)
  have hr : registered (ops ++ [.raise fr.1 fr.2]) = true := by rw [registered_snoc]; exact hreg
  have hf : fr.1 < 4096 ∧ fr.2 < 4096 ∧ 0 < fr.1 ∧ 0 < fr.2 ∧ (functionName fr.1).isSome = true ∧ ((reasonText fr.2).isSome = true ∨ fr.2 < 100) := by
    have : ∀ fr ∈ raisedSites, fr.1 < 4096 ∧ fr.2 < 4096 ∧ 0 < fr.1 ∧ 0 < fr.2 ∧ (functionName fr.1).isSome = true ∧
        ((reasonText fr.2).isSome = true ∨ fr.2 < 100) := by decide +kernel
    exact this fr hfr
  rw [hr] at h4
  simp only [if_true] at h4
  have hlo := hg.lo
  have hsplit : ERR_GET_LIB (ERR_PACK l fr.1 fr.2) = l ∧ (ERR_PACK l fr.1 fr.2 >>> 12) % 4096 = fr.1 ∧ ERR_PACK l fr.1 fr.2 % 4096 = fr.2 := by
    refine ⟨by rw [GET_LIB_PACK]; omega, ?_, ?_⟩
    · rw [ERR_PACK_eq, Nat.shiftRight_eq_div_pow]; omega
    · rw [ERR_PACK_eq]; omega
  refine ⟨l, h1, h2, ?_, ?_, ?_, hf.2.2.2.2.1, ?_, hf.2.2.2.2.2⟩
  · rw [h5, raised_append, raised_single]
    simp only [List.map_append, List.map_cons, List.map_nil]
    rw [← List.append_assoc, List.getLast?_concat]
  · unfold ERR_lib_error_string
    rw [hsplit.1, h4 0 0 (by decide) (by decide)]
    rfl
  · unfold ERR_func_error_string
    rw [hsplit.1, hsplit.2.1, h4 _ 0 hf.1 (by decide), ownString, if_pos rfl, if_neg (by omega)]
  · unfold ERR_reason_error_string
    rw [hsplit.1, hsplit.2.2, h4 0 _ (by decide) hf.2.1, ownString, if_neg (by omega), if_pos rfl]

example : Sound exampleRegistry ∧ registered [.load, .unload, .load] = true ∧ (105, 104) ∈ raisedSites := ⟨exampleRegistry_sound, rfl, by decide⟩

example := C50_registered_once exampleRegistry exampleRegistry_sound [.load, .otherNumber, .load, .raise 109 107, .unload, .load] (by decide)
example := C70_errors_described exampleRegistry exampleRegistry_sound [.load, .unload, .load] (by decide) rfl (105, 104) (by decide)

end Dstu.Props
