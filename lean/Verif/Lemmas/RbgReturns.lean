import Verif.Lemmas.RbgThreads
import Mathlib.Algebra.BigOperators.Fin
import Mathlib.Algebra.Order.BigOperators.Group.Finset

/-! How many steps the requests of the threads take. -/

namespace Dstu

/-- Steps that a request takes at most. -/
def RandReq.work : RandReq → Nat
  | .bytes buf => 66 * buf.length + 17
  | .status => 17

/-- Steps left in the current request, at most. -/
def RandThread.rest (t : RandThread) : Nat :=
  match t.pc with
  | .out => 0
  | .once => 66 * t.buf.length + 16
  | .acquire => 66 * t.buf.length + 15
  | .test => 66 * t.buf.length + 14
  | .askStatus => 66 * t.buf.length + 13
  | .testStatus => 66 * t.buf.length + 12
  | .askSeed => 66 * t.buf.length + 11
  | .setTables => 66 * t.buf.length + 10
  | .setKey => 66 * t.buf.length + 9
  | .setS => 66 * t.buf.length + 8
  | .setI => 66 * t.buf.length + 7
  | .setFlag => 66 * t.buf.length + 6
  | .setFlag2 => 66 * t.buf.length + 5
  | .gotStatus => 66 * t.buf.length + 4
  | .loop => 66 * (t.buf.length - t.i) + 3
  | .bitLoop => 66 * (t.buf.length - (t.i + 1)) + 3 + 8 * (8 - t.j) + 1
  | .x0 => 66 * (t.buf.length - (t.i + 1)) + 3 + 8 * (7 - t.j) + 8
  | .x1 => 66 * (t.buf.length - (t.i + 1)) + 3 + 8 * (7 - t.j) + 7
  | .encX => 66 * (t.buf.length - (t.i + 1)) + 3 + 8 * (7 - t.j) + 6
  | .s0 => 66 * (t.buf.length - (t.i + 1)) + 3 + 8 * (7 - t.j) + 5
  | .s1 => 66 * (t.buf.length - (t.i + 1)) + 3 + 8 * (7 - t.j) + 4
  | .encS => 66 * (t.buf.length - (t.i + 1)) + 3 + 8 * (7 - t.j) + 3
  | .putBit => 66 * (t.buf.length - (t.i + 1)) + 3 + 8 * (7 - t.j) + 2
  | .unlock => 2
  | .ret => 1

/-- Steps left, at most. -/
def RandThread.work (t : RandThread) : Nat := t.rest + (t.todo.map RandReq.work).sum

/-- Every step is one less. -/
theorem step_work {me : Nat} {e : RandEnv} {sh sh' : RandShared} {t t' : RandThread} (h : t.step me e sh = some (sh', t')) : t'.work < t.work := by
  unfold RandThread.step at h
  unfold RandThread.work RandThread.rest
  cases hp : t.pc <;> rw [hp] at h <;> simp only at h ⊢
  case out =>
    split at h
    · cases h
    · rename_i ht
      cases h
      simp only [ht, List.map_cons, List.sum_cons, RandReq.work]
      omega
    · rename_i ht
      cases h
      simp only [ht, List.map_cons, List.sum_cons, RandReq.work, List.length_nil]
      omega
  case acquire =>
    split at h
    · cases h
    · cases h
      cases t.req <;> simp only <;> omega
  case test =>
    cases h
    cases sh.rbg.initialized <;> simp only [Bool.false_eq_true, if_true, if_false, Nat.sub_zero] <;> omega
  case testStatus =>
    cases h
    cases (t.status && !sh.rbg.initialized) <;> simp only [Bool.false_eq_true, if_true, if_false] <;> omega
  all_goals (try split at h)
  all_goals (cases h)
  all_goals (try simp only [List.length_set, Nat.sub_zero])
  all_goals omega

theorem work_zero {t : RandThread} (h : t.work = 0) : t.pc = .out ∧ t.todo = [] := by
  unfold RandThread.work RandThread.rest at h
  cases hp : t.pc <;> rw [hp] at h <;> simp only at h <;> try omega
  refine ⟨rfl, ?_⟩
  cases ht : t.todo with
  | nil => rfl
  | cons r rs =>
    rw [ht] at h
    cases r <;> simp [RandReq.work] at h

end Dstu
