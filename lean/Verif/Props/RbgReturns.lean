import Verif.Lemmas.RbgReturns
import Verif.Props.RbgThreads

/-!
# Property C118: every request for random bytes returns
-/

namespace Dstu.Props

/-- The steps up to number `n` of a schedule that goes on for ever. -/
def upTo (sched : Nat → Nat × RandEnv) (n : Nat) : List (Nat × RandEnv) := (List.range n).map sched

/-- Every one of the `N` threads is picked again and again. -/
def Fair (N : Nat) (sched : Nat → Nat × RandEnv) : Prop := ∀ t < N, ∀ n, ∃ m, n ≤ m ∧ (sched m).1 = t

/-- All steps left. -/
def allWork (N : Nat) (σ : RandSystem) : Nat := ∑ t ∈ Finset.range N, (σ.thread t).work

theorem step_ready {t : RandThread} {me : Nat} {e e' : RandEnv} {sh : RandShared} (h : (t.step me e sh).isSome) : (t.step me e' sh).isSome := by
  unfold RandThread.step at h ⊢
  cases hp : t.pc <;> rw [hp] at h <;> simp only at h ⊢ <;> (try exact h)
  split <;> rfl

theorem idle_step {t : RandThread} {me : Nat} {e : RandEnv} {sh : RandShared} (h : t.work = 0) : t.step me e sh = none := by
  cases hs : t.step me e sh with
  | none => rfl
  | some p =>
    obtain ⟨sh', t'⟩ := p
    have := step_work hs
    omega

theorem allWork_step (N : Nat) (σ : RandSystem) (hi : ∀ t, N ≤ t → (σ.thread t).work = 0) (t : Nat) (e : RandEnv) :
    (∀ t', N ≤ t' → ((σ.step t e).thread t').work = 0) ∧ (σ.step t e = σ ∨ allWork N (σ.step t e) < allWork N σ) ∧
      (((σ.thread t).step t e σ.shared).isSome → allWork N (σ.step t e) < allWork N σ) := by
  cases hs : (σ.thread t).step t e σ.shared with
  | none =>
    have : σ.step t e = σ := by unfold RandSystem.step; rw [hs]
    rw [this]
    exact ⟨hi, Or.inl rfl, fun h => by simp at h⟩
  | some p =>
    obtain ⟨sh, th⟩ := p
    have htN : t < N := by
      by_contra hn
      rw [idle_step (hi t (by omega))] at hs
      cases hs
    have e1 : σ.step t e = ⟨sh, fun u => if u = t then th else σ.thread u⟩ := by unfold RandSystem.step; rw [hs]
    have hlt : allWork N (σ.step t e) < allWork N σ := by
      rw [e1]
      refine Finset.sum_lt_sum (fun u _ => ?_) ⟨t, Finset.mem_range.2 htN, ?_⟩
      · by_cases hu : u = t
        · subst hu; simpa using (step_work hs).le
        · simp [hu]
      · simpa using step_work hs
    refine ⟨fun u hu => ?_, Or.inr hlt, fun _ => hlt⟩
    rw [thread_step_other _ _ _ _ (by omega)]
    exact hi u hu

theorem upTo_succ (script : Nat → List RandReq) (sched : Nat → Nat × RandEnv) (n : Nat) :
    after script (upTo sched (n + 1)) = (after script (upTo sched n)).step (sched n).1 (sched n).2 := by
  simp [after, upTo, List.range_succ, RandSystem.run, List.foldl_append]

theorem upTo_idle (N : Nat) (script : Nat → List RandReq) (hs : ∀ t, N ≤ t → script t = []) (sched : Nat → Nat × RandEnv) (n : Nat) :
    ∀ t, N ≤ t → ((after script (upTo sched n)).thread t).work = 0 := by
  induction n with
  | zero =>
    intro t ht
    simp [after, upTo, RandSystem.run, RandSystem.boot, RandThread.start, hs t ht, RandThread.work, RandThread.rest]
  | succ n ih =>
    rw [upTo_succ]
    exact (allWork_step N _ ih _ _).1

theorem upTo_same (N : Nat) (script : Nat → List RandReq) (hs : ∀ t, N ≤ t → script t = []) (sched : Nat → Nat × RandEnv) (n k : Nat) :
    after script (upTo sched (n + k)) = after script (upTo sched n) ∨ allWork N (after script (upTo sched (n + k))) < allWork N (after script (upTo sched n)) := by
  induction k with
  | zero => exact Or.inl rfl
  | succ k ih =>
    rw [← Nat.add_assoc, upTo_succ]
    rcases (allWork_step N _ (upTo_idle N script hs sched (n + k)) (sched (n + k)).1 (sched (n + k)).2).2.1 with h | h
    · rw [h]; exact ih
    · right
      rcases ih with h' | h'
      · rw [h'] at h ⊢; exact h
      · omega

theorem returns_aux (N : Nat) (script : Nat → List RandReq) (hs : ∀ t, N ≤ t → script t = []) (sched : Nat → Nat × RandEnv) (hf : Fair N sched) (w : Nat) :
    ∀ n, allWork N (after script (upTo sched n)) ≤ w → ∃ m, allWork N (after script (upTo sched m)) = 0 := by
  induction w with
  | zero => intro n h; exact ⟨n, by omega⟩
  | succ w ih =>
    intro n h
    by_cases h0 : allWork N (after script (upTo sched n)) = 0
    · exact ⟨n, h0⟩
    obtain ⟨t, _, ht⟩ : ∃ t ∈ Finset.range N, ((after script (upTo sched n)).thread t).work ≠ 0 := by
      by_contra hn
      push Not at hn
      exact h0 (Finset.sum_eq_zero hn)
    have hb : ((after script (upTo sched n)).thread t).pc ≠ .out ∨ ((after script (upTo sched n)).thread t).todo ≠ [] := by
      by_contra hn
      push Not at hn
      apply ht
      simp [RandThread.work, RandThread.rest, hn.1, hn.2]
    obtain ⟨u, hu⟩ := C45_no_deadlock script (upTo sched n) t hb ⟨true, none, zeros 8⟩
    have huN : u < N := by
      by_contra hn
      rw [idle_step (upTo_idle N script hs sched n u (by omega))] at hu
      cases hu
    obtain ⟨m, hm, hmu⟩ := hf u huN n
    obtain ⟨k, rfl⟩ := Nat.exists_eq_add_of_le hm
    rcases upTo_same N script hs sched n k with hk | hk
    · refine ih (n + k + 1) ?_
      have := (allWork_step N _ (upTo_idle N script hs sched (n + k)) (sched (n + k)).1 (sched (n + k)).2).2.2 (by
        rw [hk, hmu]
        exact step_ready hu)
      rw [upTo_succ]
      rw [hk] at this ⊢
      omega
    · exact ih (n + k) (by omega)

/-- C118: any number of threads, each with any requests; the scheduler picks every thread again and again and otherwise does what it likes, and the rest of the world answers what it
likes: then there is a moment from which on every request of every thread has returned. -/
theorem C118_returns (N : Nat) (script : Nat → List RandReq) (hs : ∀ t, N ≤ t → script t = []) (sched : Nat → Nat × RandEnv) (hf : Fair N sched) :
    ∃ n, ∀ m, n ≤ m → ∀ t, ((after script (upTo sched m)).thread t).done.map RandDone.req = script t := by
  obtain ⟨n, hn⟩ := returns_aux N script hs sched hf _ 0 le_rfl
  refine ⟨n, fun m hm t => ?_⟩
  have h0 : allWork N (after script (upTo sched m)) = 0 := by
    obtain ⟨k, rfl⟩ := Nat.exists_eq_add_of_le hm
    rcases upTo_same N script hs sched n k with h | h
    · rw [h]; exact hn
    · omega
  have hw : ((after script (upTo sched m)).thread t).work = 0 := by
    by_cases ht : t < N
    · exact (Finset.sum_eq_zero_iff.1 h0) t (Finset.mem_range.2 ht)
    · exact upTo_idle N script hs sched m t (by omega)
  obtain ⟨h1, h2⟩ := work_zero hw
  have h := run_script script (upTo sched m) (.boot script) (fun t => ⟨(by intro d hd; cases hd), by simp [RandSystem.boot, RandThread.start]⟩) t
  have h := h.2
  change ite (((after script (upTo sched m)).thread t).pc = .out) (_ ++ ((after script (upTo sched m)).thread t).todo = _) _ at h
  rw [if_pos h1, h2, List.append_nil] at h
  exact h

/-- Three threads in turn, one of which asks for the status in between. -/
example := C118_returns 3 (fun t => if t = 0 then [.bytes [0, 0], .status] else if t < 3 then [.bytes [1, 2, 3]] else [])
  (by intro t ht; rw [if_neg (by omega), if_neg (by omega)]) (fun n => (n % 3, ⟨true, some (Vector.replicate 40 7), zeros 8⟩))
  (fun t ht n => ⟨3 * n + t, by omega, by change (3 * n + t) % 3 = t; omega⟩)

/-! ## A copy of the process

After `fork` the child has the memory of the parent and only the thread that called it: its schedules pick no other thread. -/

/-- C118 is false in a copy of the process: if another thread was in a request when the process was copied, no request of the child ever returns. -/
theorem C118_child_refuted (script : Nat → List RandReq) (schedule : List (Nat × RandEnv)) (t u : Nat) (hu : u ≠ t) (ht : ((after script schedule).thread t).pc = .out)
    (hl : (after script schedule).shared.holder = some u) (child : List (Nat × RandEnv)) (hc : ∀ p ∈ child, p.1 = t) :
    (((after script schedule).run child).thread t).done = ((after script schedule).thread t).done := by
  have key : ∀ (child : List (Nat × RandEnv)) (σ : RandSystem), (∀ p ∈ child, p.1 = t) → σ.shared.holder = some u → (σ.thread t).pc ∈ [RandPc.out, .once, .acquire] →
      ((σ.run child).thread t).done = (σ.thread t).done := by
    intro child
    induction child with
    | nil => intro σ _ _ _; rfl
    | cons p child ih =>
      intro σ hc hh hp
      obtain ⟨v, e⟩ := p
      obtain rfl : v = t := hc (v, e) (by simp)
      change (((σ.step v e).run child).thread v).done = _
      have hstep : (σ.step v e).shared.holder = some u ∧ ((σ.step v e).thread v).pc ∈ [RandPc.out, .once, .acquire] ∧ ((σ.step v e).thread v).done = (σ.thread v).done := by
        unfold RandSystem.step
        cases hs : (σ.thread v).step v e σ.shared with
        | none => exact ⟨hh, hp, rfl⟩
        | some q =>
          obtain ⟨sh, th⟩ := q
          simp only [if_true]
          unfold RandThread.step at hs
          simp only [List.mem_cons, List.not_mem_nil, or_false] at hp
          rcases hp with hp | hp | hp <;> rw [hp] at hs <;> simp only at hs
          · split at hs
            · cases hs
            · cases hs; exact ⟨hh, by simp, rfl⟩
            · cases hs; exact ⟨hh, by simp, rfl⟩
          · cases hs; exact ⟨hh, by simp, rfl⟩
          · rw [hh] at hs; cases hs
      rw [ih _ (fun p hp => hc p (by simp [hp])) hstep.1 hstep.2.1, hstep.2.2]
  exact key child _ hc hl (by rw [ht]; simp)

/-- Such a moment is soon reached: thread 0 has taken the lock for its first request, and thread 1 copies the process. -/
example (child : List (Nat × RandEnv)) (hc : ∀ p ∈ child, p.1 = 1) :
    (((after (fun _ => [.bytes [0]]) (List.replicate 3 (0, ⟨true, none, zeros 8⟩))).run child).thread 1).done = [] :=
  C118_child_refuted (fun _ => [.bytes [0]]) (List.replicate 3 (0, ⟨true, none, zeros 8⟩)) 1 0 (by decide) rfl rfl child hc

/-- C118 in a copy of the process, what holds: if no thread was in a request with the lock, the child is given everything it asks for, in at most 66 steps for each byte and 17 for each
request.  Missing: the moments when another thread has the lock. -/
theorem C118_child_partial (script : Nat → List RandReq) (schedule : List (Nat × RandEnv)) (t : Nat) (ht : ((after script schedule).thread t).pc = .out)
    (hl : (after script schedule).shared.holder = none) (child : List (Nat × RandEnv)) (hc : ∀ p ∈ child, p.1 = t)
    (hn : (((after script schedule).thread t).todo.map RandReq.work).sum ≤ child.length) :
    (((after script schedule).run child).thread t).done.map RandDone.req = script t := by
  have key : ∀ (child : List (Nat × RandEnv)) (σ : RandSystem), (∀ p ∈ child, p.1 = t) → LockInv σ → (∀ u, u ≠ t → ¬ (σ.thread u).pc.Crit) →
      (σ.thread t).work ≤ child.length → ((σ.run child).thread t).work = 0 := by
    intro child
    induction child with
    | nil => intro σ _ _ _ hw; exact Nat.le_zero.1 hw
    | cons p child ih =>
      intro σ hc hi ho hw
      obtain ⟨v, e⟩ := p
      obtain rfl : v = t := hc (v, e) (by simp)
      refine ih (σ.step v e) (fun p hp => hc p (by simp [hp])) (lock_step hi v e) (fun u hu => by rw [thread_step_other _ _ _ _ hu]; exact ho u hu) ?_
      cases hs : (σ.thread v).step v e σ.shared with
      | some q =>
        obtain ⟨sh, th⟩ := q
        have : ((σ.step v e).thread v) = th := by unfold RandSystem.step; rw [hs]; simp
        rw [this]
        have := step_work hs
        simp only [List.length_cons] at hw
        omega
      | none =>
        have : σ.step v e = σ := by unfold RandSystem.step; rw [hs]
        rw [this]
        have h0 : (σ.thread v).work = 0 := by
          unfold RandThread.step at hs
          cases hp : (σ.thread v).pc <;> rw [hp] at hs <;> simp only at hs
          case out =>
            split at hs
            · rename_i h; simp [RandThread.work, RandThread.rest, hp, h]
            · cases hs
            · cases hs
          case acquire =>
            split at hs
            · rename_i w hh
              exfalso
              have hcr := (hi w).2 hh
              by_cases hwv : w = v
              · subst hwv; rw [hp] at hcr; exact hcr
              · exact ho w hwv hcr
            · cases hs
          all_goals (try split at hs)
          all_goals (cases hs)
        omega
  have hi : LockInv (after script schedule) := (run_inv (fun _ => True) schedule (.boot script) (fun _ _ _ _ => trivial) (boot_inv _ script)).1
  have hw := key child _ hc hi (fun u _ h => by rw [(hi u).1 h] at hl; cases hl) (by simpa [RandThread.work, RandThread.rest, ht] using hn)
  obtain ⟨h1, h2⟩ := work_zero hw
  have h := run_script script (schedule ++ child) (.boot script) (fun t => ⟨(by intro d hd; cases hd), by simp [RandSystem.boot, RandThread.start]⟩) t
  have h := h.2
  have e : (RandSystem.boot script).run (schedule ++ child) = (after script schedule).run child := by simp [RandSystem.run, after, List.foldl_append]
  rw [e, if_pos h1, h2, List.append_nil] at h
  exact h

/-- Copied before the first request: the child has its byte after 83 steps. -/
example : (((after (fun _ => [.bytes [0]]) []).run (List.replicate 83 (1, ⟨true, none, zeros 8⟩))).thread 1).done.map RandDone.req = [.bytes [0]] :=
  C118_child_partial (fun _ => [.bytes [0]]) [] 1 rfl rfl _ (fun p hp => by rw [List.eq_of_mem_replicate hp]) (by decide)

end Dstu.Props
