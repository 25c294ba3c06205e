import Verif.Model.ErrThreads
import Verif.Lemmas.Err

/-! Invariants of threads that raise errors. -/

namespace Dstu

open Spec

attribute [local irreducible] ERR_PACK ERR_GET_LIB

/-- What a thread has to do, has done and is doing, as errors. -/
def RaiseThread.pending (t : RaiseThread) : List (Nat × Nat) := (match t.pc with | .out => [] | _ => [t.req]) ++ t.todo

/-- Steps a thread still has to make at most. -/
def RaiseThread.left (t : RaiseThread) : Nat :=
  5 * t.todo.length + match t.pc with | .out => 0 | .test => 4 | .ask => 3 | .store => 2 | .put => 1

/-- The engine has number `l` and its strings are registered. -/
structure Known (l : Nat) (s : ErrState) : Prop where
  code : s.libCode = l
  lo : 128 ≤ l
  hi : l < s.reg.nextLib
  own : l ∉ s.reg.others
  strings : ∀ f r, f < 4096 → r < 4096 → s.reg.strings (ERR_PACK l f r) = ownString f r

structure KnownThread (l : Nat) (script : List (Nat × Nat)) (t : RaiseThread) : Prop where
  ask : t.pc ≠ .ask
  store : t.pc ≠ .store
  queue : ∃ n, t.queue = (script.take n).map (fun e => ERR_PACK l e.1 e.2) ∧ t.pending = script.drop n

theorem known_thread {l : Nat} {s s' : ErrState} {t t' : RaiseThread} {script} (h : Known l s) (ht : KnownThread l script t) (hn : t.step s = some (s', t')) :
    s' = s ∧ KnownThread l script t' := by
  obtain ⟨n, hq, hp⟩ := ht.queue
  have h0 : s.libCode ≠ 0 := by rw [h.code]; have := h.lo; omega
  unfold RaiseThread.step at hn
  split at hn
  · rename_i hpc
    split at hn
    · cases hn
    · rename_i r todo htodo
      cases hn
      refine ⟨rfl, by simp, by simp, n, hq, ?_⟩
      rw [← hp]
      simp [RaiseThread.pending, hpc, htodo]
  · rename_i hpc
    cases hn
    simp only [if_neg h0]
    refine ⟨trivial, by simp, by simp, n, hq, ?_⟩
    rw [← hp]
    simp [RaiseThread.pending, hpc]
  · rename_i hpc
    exact absurd hpc ht.ask
  · rename_i hpc
    exact absurd hpc ht.store
  · rename_i hpc
    cases hn
    have hd : script.drop n = t.req :: t.todo := by
      rw [← hp]
      simp [RaiseThread.pending, hpc]
    have hlt : n < script.length := by
      have := congrArg List.length hd
      simp at this
      omega
    refine ⟨rfl, by simp, by simp, n + 1, ?_, ?_⟩
    · have e : script[n] = t.req := by
        have := List.drop_eq_getElem_cons hlt
        rw [hd] at this
        exact (List.cons.inj this).1.symm
      rw [List.take_succ_eq_append_getElem hlt, List.map_append, ← hq, e, h.code]
      rfl
    · have := List.drop_eq_getElem_cons hlt
      rw [hd] at this
      rw [← (List.cons.inj this).2]
      rfl

theorem known_other {l : Nat} {s : ErrState} (h : Known l s) (hl : l < 256) : Known l (s.step .otherNumber) ∧ ∀ c x, Known l (s.step (.otherPut c x)) := by
  refine ⟨⟨h.code, h.lo, Nat.lt_succ_of_lt h.hi, ?_, h.strings⟩, fun c x => ?_⟩
  · show l ∉ s.reg.nextLib :: s.reg.others
    rw [List.mem_cons, not_or]
    exact ⟨Nat.ne_of_lt h.hi, h.own⟩
  · show Known l (if ERR_GET_LIB c < 128 ∨ ERR_GET_LIB c ∈ s.reg.others then { s with reg := s.reg.put c x } else s)
    split
    · rename_i hc
      refine ⟨h.code, h.lo, h.hi, h.own, fun f r hf hr => ?_⟩
      show (if ERR_PACK l f r = c then x else s.reg.strings (ERR_PACK l f r)) = _
      rw [if_neg, h.strings f r hf hr]
      rintro rfl
      rw [GET_LIB_PACK, Nat.mod_eq_of_lt hl] at hc
      rcases hc with hc | hc
      · have := h.lo
        omega
      · exact h.own hc
    · exact h

theorem known_run {l : Nat} (hl : l < 256) (script : Nat → List (Nat × Nat)) (schedule : List RaiseEvent) (σ : RaiseSystem) (h : Known l σ.err) (ht : ∀ t, KnownThread l (script t) (σ.thread t)) :
    Known l (σ.run schedule).err ∧ ∀ t, KnownThread l (script t) ((σ.run schedule).thread t) := by
  induction schedule generalizing σ with
  | nil => exact ⟨h, ht⟩
  | cons e rest ih =>
    refine ih (σ.step e) ?_ ?_
    · cases e with
      | thread t =>
        unfold RaiseSystem.step
        simp only
        split
        · exact h
        · rename_i s th hn
          rw [(known_thread h (ht t) hn).1]
          exact h
      | otherNumber => exact (known_other h hl).1
      | otherPut c x => exact (known_other h hl).2 c x
    · cases e with
      | thread t =>
        unfold RaiseSystem.step
        simp only
        split
        · exact ht
        · rename_i s th hn
          intro u
          simp only
          split
          · rename_i hu
            subst hu
            exact (known_thread h (ht u) hn).2
          · exact ht u
      | otherNumber => exact ht
      | otherPut c x => exact ht

theorem zip_snoc {α β : Type} (ls : List α) (m : List β) (a : α) (h : ls.length < m.length) : (ls ++ [a]).zip m = ls.zip m ++ [(a, m[ls.length])] := by
  induction ls generalizing m with
  | nil =>
    cases m with
    | nil => simp at h
    | cons b m => simp
  | cons c ls ih =>
    cases m with
    | nil => simp at h
    | cons b m => simpa using ih m (by simpa using h)

/-- A number that OpenSSL gave to the engine, and to no other library, from `lo` on. -/
def Ours (lo l : Nat) (s : ErrState) : Prop := lo ≤ l ∧ l < s.reg.nextLib ∧ l ∉ s.reg.others

structure OursState (lo : Nat) (s : ErrState) : Prop where
  low : lo ≤ s.reg.nextLib
  code : s.libCode = 0 ∨ Ours lo s.libCode s
  others : ∀ l ∈ s.reg.others, l < s.reg.nextLib

structure OursThread (lo : Nat) (script : List (Nat × Nat)) (s : ErrState) (t : RaiseThread) : Prop where
  store : t.pc = .store → Ours lo t.new s
  put : t.pc = .put → s.libCode ≠ 0
  queue : ∃ ls : List Nat, ls.length = t.queue.length ∧ t.queue = (ls.zip script).map (fun e => ERR_PACK e.1 e.2.1 e.2.2) ∧ (∀ l ∈ ls, Ours lo l s) ∧ t.pending = script.drop ls.length

/-- Numbers stay the engine's. -/
structure Later (lo : Nat) (s s' : ErrState) : Prop where
  ours : ∀ l, Ours lo l s → Ours lo l s'
  code : s.libCode ≠ 0 → s'.libCode ≠ 0

theorem OursThread.later {lo : Nat} {script} {s s' : ErrState} {t : RaiseThread} (g : Later lo s s') (h : OursThread lo script s t) : OursThread lo script s' t :=
  ⟨fun hp => g.ours _ (h.store hp), fun hp => g.code (h.put hp), let ⟨ls, h1, h2, h3, h4⟩ := h.queue; ⟨ls, h1, h2, fun l hl => g.ours _ (h3 l hl), h4⟩⟩

theorem ours_thread {lo : Nat} (hlo : 0 < lo) {s s' : ErrState} {t t' : RaiseThread} {script} (h : OursState lo s) (ht : OursThread lo script s t) (hn : t.step s = some (s', t')) :
    OursState lo s' ∧ Later lo s s' ∧ OursThread lo script s' t' := by
  obtain ⟨ls, hl, hq, ho, hp⟩ := ht.queue
  unfold RaiseThread.step at hn
  split at hn
  · rename_i hpc
    split at hn
    · cases hn
    · rename_i r todo htodo
      cases hn
      refine ⟨h, ⟨fun _ h => h, fun h => h⟩, by simp, by simp, ls, hl, hq, ho, ?_⟩
      rw [← hp]
      simp [RaiseThread.pending, hpc, htodo]
  · rename_i hpc
    cases hn
    refine ⟨h, ⟨fun _ h => h, fun h => h⟩, ?_, ?_, ls, hl, hq, ho, ?_⟩
    · simp only
      intro h
      split at h <;> cases h
    · simp only
      intro h
      split at h
      · cases h
      · assumption
    · rw [← hp]
      by_cases h0 : s.libCode = 0 <;> simp [RaiseThread.pending, hpc, h0]
  · rename_i hpc
    cases hn
    have g : Later lo s { s with reg := (ERR_get_next_error_library s.reg).2 } := ⟨fun l h => ⟨h.1, Nat.lt_succ_of_lt h.2.1, h.2.2⟩, fun h => h⟩
    refine ⟨⟨Nat.le_succ_of_le h.low, h.code.imp id (g.ours _), fun l hl => Nat.lt_succ_of_lt (h.others l hl)⟩, g, ?_, by simp, ls, hl, hq, fun l hl => g.ours _ (ho l hl), ?_⟩
    · intro _
      exact ⟨h.low, Nat.lt_succ_self _, fun hm => Nat.lt_irrefl _ (h.others _ hm)⟩
    · rw [← hp]
      simp [RaiseThread.pending, hpc]
  · rename_i hpc
    cases hn
    have hs := ht.store hpc
    refine ⟨⟨h.low, Or.inr hs, h.others⟩, ⟨fun _ h => h, fun _ => ?_⟩, by simp, fun _ => ?_, ls, hl, hq, ho, ?_⟩
    · have := hs.1
      show t.new ≠ 0
      omega
    · have := hs.1
      show t.new ≠ 0
      omega
    · rw [← hp]
      simp [RaiseThread.pending, hpc]
  · rename_i hpc
    cases hn
    have hd : script.drop ls.length = t.req :: t.todo := by
      rw [← hp]
      simp [RaiseThread.pending, hpc]
    have hlt : ls.length < script.length := by
      have := congrArg List.length hd
      simp at this
      omega
    have hc := List.drop_eq_getElem_cons hlt
    rw [hd] at hc
    obtain ⟨e1, e2⟩ := List.cons.inj hc
    refine ⟨h, ⟨fun _ h => h, fun h => h⟩, by simp, by simp, ls ++ [s.libCode], by simp [hl], ?_, ?_, ?_⟩
    · rw [zip_snoc ls script _ hlt, List.map_append, ← hq, ← e1]
      rfl
    · intro l hl
      rcases List.mem_append.1 hl with hl | hl
      · exact ho l hl
      · rw [List.mem_singleton] at hl
        subst hl
        exact h.code.resolve_left (ht.put hpc)
    · rw [List.length_append, List.length_singleton, ← e2]
      rfl

theorem ours_other {lo : Nat} {s : ErrState} (h : OursState lo s) :
    (OursState lo (s.step .otherNumber) ∧ Later lo s (s.step .otherNumber)) ∧ ∀ c x, OursState lo (s.step (.otherPut c x)) ∧ Later lo s (s.step (.otherPut c x)) := by
  have g : ∀ l, Ours lo l s → Ours lo l (s.step .otherNumber) := by
    intro l h
    refine ⟨h.1, Nat.lt_succ_of_lt h.2.1, ?_⟩
    show l ∉ s.reg.nextLib :: s.reg.others
    rw [List.mem_cons, not_or]
    exact ⟨Nat.ne_of_lt h.2.1, h.2.2⟩
  refine ⟨⟨⟨Nat.le_succ_of_le h.low, h.code.imp id (g _), ?_⟩, g, fun h => h⟩, fun c x => ?_⟩
  · intro l hl
    rcases List.mem_cons.1 (show l ∈ s.reg.nextLib :: s.reg.others from hl) with rfl | hl
    · exact Nat.lt_succ_self _
    · exact Nat.lt_succ_of_lt (h.others l hl)
  · show OursState lo (if ERR_GET_LIB c < 128 ∨ ERR_GET_LIB c ∈ s.reg.others then { s with reg := s.reg.put c x } else s) ∧
      Later lo s (if ERR_GET_LIB c < 128 ∨ ERR_GET_LIB c ∈ s.reg.others then { s with reg := s.reg.put c x } else s)
    split
    · exact ⟨⟨h.low, h.code, h.others⟩, fun _ h => h, fun h => h⟩
    · exact ⟨h, fun _ h => h, fun h => h⟩

theorem ours_run {lo : Nat} (hlo : 0 < lo) (script : Nat → List (Nat × Nat)) (schedule : List RaiseEvent) (σ : RaiseSystem) (h : OursState lo σ.err)
    (ht : ∀ t, OursThread lo (script t) σ.err (σ.thread t)) :
    OursState lo (σ.run schedule).err ∧ ∀ t, OursThread lo (script t) (σ.run schedule).err ((σ.run schedule).thread t) := by
  induction schedule generalizing σ with
  | nil => exact ⟨h, ht⟩
  | cons e rest ih =>
    have key : OursState lo (σ.step e).err ∧ ∀ t, OursThread lo (script t) (σ.step e).err ((σ.step e).thread t) := by
      cases e with
      | thread t =>
        unfold RaiseSystem.step
        simp only
        split
        · exact ⟨h, ht⟩
        · rename_i s th hn
          obtain ⟨h1, h2, h3⟩ := ours_thread hlo h (ht t) hn
          refine ⟨h1, fun u => ?_⟩
          simp only
          split
          · rename_i hu
            subst hu
            exact h3
          · exact (ht u).later h2
      | otherNumber => exact ⟨(ours_other h).1.1, fun t => (ht t).later (ours_other h).1.2⟩
      | otherPut c x => exact ⟨((ours_other h).2 c x).1, fun t => (ht t).later ((ours_other h).2 c x).2⟩
    exact ih _ key.1 key.2

theorem raise_left {s s' : ErrState} {t t' : RaiseThread} (h : t.step s = some (s', t')) : t'.left < t.left ∧ t'.queue.length + t'.pending.length = t.queue.length + t.pending.length := by
  unfold RaiseThread.step at h
  split at h
  · rename_i hpc
    split at h
    · cases h
    · rename_i r todo htodo
      cases h
      constructor
      · simp [RaiseThread.left, hpc, htodo]
        omega
      · simp [RaiseThread.pending, hpc, htodo]
  · rename_i hpc
    cases h
    by_cases h0 : s.libCode = 0 <;> simp [RaiseThread.left, RaiseThread.pending, hpc, h0]
  · rename_i hpc
    cases h
    simp [RaiseThread.left, RaiseThread.pending, hpc]
  · rename_i hpc
    cases h
    simp [RaiseThread.left, RaiseThread.pending, hpc]
  · rename_i hpc
    cases h
    simp [RaiseThread.left, RaiseThread.pending, hpc]
    omega

theorem raise_idle {s : ErrState} {t : RaiseThread} (h : t.step s = none) : t.left = 0 := by
  unfold RaiseThread.step at h
  split at h
  · rename_i hpc
    split at h
    · rename_i htodo
      simp [RaiseThread.left, hpc, htodo]
    · cases h
  all_goals cases h

theorem raise_zero {t : RaiseThread} (h : t.left = 0) : t.pending = [] := by
  unfold RaiseThread.left at h
  unfold RaiseThread.pending
  cases hpc : t.pc <;> rw [hpc] at h <;> simp only at h <;> first | omega | skip
  have : t.todo = [] := List.length_eq_zero_iff.1 (by omega)
  simp [this]

/-- How often a thread is picked. -/
def picks (t : Nat) (schedule : List RaiseEvent) : Nat := schedule.countP fun e => match e with | .thread u => u == t | _ => false

theorem raise_run (schedule : List RaiseEvent) (σ : RaiseSystem) (t : Nat) (h : (σ.thread t).left ≤ picks t schedule) :
    ((σ.run schedule).thread t).left = 0 ∧
      ((σ.run schedule).thread t).queue.length + ((σ.run schedule).thread t).pending.length = (σ.thread t).queue.length + (σ.thread t).pending.length := by
  induction schedule generalizing σ with
  | nil => exact ⟨Nat.le_zero.1 h, rfl⟩
  | cons e rest ih =>
    have key : ((σ.step e).thread t).left ≤ picks t rest ∧
        ((σ.step e).thread t).queue.length + ((σ.step e).thread t).pending.length = (σ.thread t).queue.length + (σ.thread t).pending.length := by
      unfold picks at h ⊢
      rw [List.countP_cons] at h
      cases e with
      | thread u =>
        simp only [beq_iff_eq] at h
        unfold RaiseSystem.step
        simp only
        split
        · rename_i hn
          refine ⟨?_, rfl⟩
          by_cases hu : u = t
          · subst hu
            rw [raise_idle hn]
            exact Nat.zero_le _
          · simpa [hu] using h
        · rename_i s th hn
          by_cases hu : u = t
          · subst hu
            simp only [if_true] at h ⊢
            have := raise_left hn
            exact ⟨by omega, this.2⟩
          · simp only [if_neg hu, if_neg (Ne.symm hu)] at h ⊢
            exact ⟨h, trivial⟩
      | otherNumber => exact ⟨by simpa [RaiseSystem.step] using h, rfl⟩
      | otherPut c x => exact ⟨by simpa [RaiseSystem.step] using h, rfl⟩
    obtain ⟨h1, h2⟩ := ih _ key.1
    exact ⟨h1, h2.trans key.2⟩

end Dstu
