import Verif.Model.EngineThreads
import Mathlib.Logic.Function.Iterate

/-! Lemmas about concurrent lookups. -/

namespace Dstu

open Spec

/-- Methods stay, and variables stay filled. -/
structure Grows (s s' : EngState) : Prop where
  heap : ∀ a m, s.heap a = some m → s'.heap a = some m
  slot : ∀ sl, s.slot sl ≠ none → s'.slot sl ≠ none

/-- Variables refer to their methods, and addresses to come are free. -/
structure Sound (s : EngState) : Prop where
  live : ∀ sl a, s.slot sl = some a → s.heap a = some sl.meth
  fresh : ∀ a, s.next ≤ a → s.heap a = none

/-- An outcome is right. -/
def GoodOutcome (s : EngState) (r : LookupReq) (f : Found) : Prop :=
  match slotOf r.kind r.nid with
  | none => f = foundUnknown r
  | some sl => ∃ a, f = .method a ∧ s.heap a = some sl.meth

/-- A thread is right, when no creation fails. -/
structure GoodThread (s : EngState) (t : LookupThread) : Prop where
  req : t.pc ≠ .out → slotOf t.req.kind t.req.nid = some t.slot
  store : t.pc = .store → ∃ a, t.new = some a ∧ s.heap a = some t.slot.meth
  load : t.pc = .load → s.slot t.slot ≠ none
  done : ∀ p ∈ t.done, GoodOutcome s p.1 p.2

theorem GoodOutcome.grow {s s' : EngState} (g : Grows s s') {r : LookupReq} {f : Found} (h : GoodOutcome s r f) : GoodOutcome s' r f := by
  unfold GoodOutcome at h ⊢
  split at h
  · exact h
  · obtain ⟨a, h1, h2⟩ := h
    exact ⟨a, h1, g.heap _ _ h2⟩

theorem GoodThread.grow {s s' : EngState} (g : Grows s s') {t : LookupThread} (h : GoodThread s t) : GoodThread s' t :=
  ⟨h.req, fun hp => let ⟨a, h1, h2⟩ := h.store hp; ⟨a, h1, g.heap _ _ h2⟩, fun hp => g.slot _ (h.load hp), fun p hp => (h.done p hp).grow g⟩

theorem Grows.refl (s : EngState) : Grows s s := ⟨fun _ _ h => h, fun _ h => h⟩

theorem alloc_slot (s : EngState) (m : Meth) (sl : Slot) : (s.alloc m).2.slot sl = s.slot sl := by cases sl <;> rfl

/-- One step of a good thread. -/
theorem step_good {s s' : EngState} {t t' : LookupThread} (hs : Sound s) (ht : GoodThread s t) (h : t.step true s = some (s', t')) :
    Sound s' ∧ Grows s s' ∧ GoodThread s' t' := by
  unfold LookupThread.step at h
  split at h
  · rename_i hpc
    split at h
    · cases h
    · rename_i r todo htodo
      split at h
      · rename_i hsl
        cases h
        refine ⟨hs, .refl _, ⟨fun hp => absurd hpc hp, fun hp => by simp [hpc] at hp, fun hp => by simp [hpc] at hp, ?_⟩⟩
        intro p hp
        rcases List.mem_append.1 hp with hp | hp
        · exact ht.done p hp
        · rw [List.mem_singleton] at hp
          subst hp
          unfold GoodOutcome
          rw [hsl]
      · rename_i sl hsl
        cases h
        exact ⟨hs, .refl _, ⟨fun _ => hsl, fun hp => by simp at hp, fun hp => by simp at hp, ht.done⟩⟩
  · rename_i hpc
    cases h
    have hreq := ht.req (by rw [hpc]; decide)
    refine ⟨hs, .refl _, ⟨fun _ => hreq, fun hp => ?_, fun hp => ?_, ht.done⟩⟩
    · simp only at hp
      split at hp <;> cases hp
    · simp only at hp
      split at hp
      · cases hp
      · assumption
  · rename_i hpc
    have hreq := ht.req (by rw [hpc]; decide)
    simp only [if_true, Option.some.injEq, Prod.mk.injEq] at h
    obtain ⟨rfl, rfl⟩ := h
    have g : Grows s (s.alloc t.slot.meth).2 := by
      refine ⟨fun a m ha => ?_, fun sl h => by rw [alloc_slot]; exact h⟩
      show (if a = s.next then _ else s.heap a) = _
      rw [if_neg, ha]
      rintro rfl
      rw [hs.fresh _ (Nat.le_refl _)] at ha
      cases ha
    have hnew : (s.alloc t.slot.meth).2.heap s.next = some t.slot.meth := if_pos rfl
    refine ⟨⟨fun sl a ha => ?_, fun a ha => ?_⟩, g, ⟨fun _ => hreq, fun _ => ⟨s.next, rfl, hnew⟩, fun hp => by simp at hp, fun p hp => (ht.done p hp).grow g⟩⟩
    · rw [alloc_slot] at ha
      exact g.heap _ _ (hs.live sl a ha)
    · have ha : s.next + 1 ≤ a := ha
      show (if a = s.next then _ else s.heap a) = _
      rw [if_neg (by omega)]
      exact hs.fresh a (by omega)
  · rename_i hpc
    cases h
    have hreq := ht.req (by rw [hpc]; decide)
    obtain ⟨b, hb, hbh⟩ := ht.store hpc
    obtain ⟨r1, r2, _, _⟩ := setSlot_rest s t.slot t.new
    have g : Grows s (s.setSlot t.slot t.new) := by
      refine ⟨fun a m ha => by rw [r1]; exact ha, fun sl h => ?_⟩
      rw [slot_setSlot]
      split
      · rw [hb]; simp
      · exact h
    refine ⟨⟨fun sl a ha => ?_, fun a ha => ?_⟩, g, ⟨fun _ => hreq, fun hp => by simp at hp, fun _ => ?_, fun p hp => (ht.done p hp).grow g⟩⟩
    · rw [slot_setSlot] at ha
      rw [r1]
      split at ha
      · subst_vars
        rw [hb] at ha
        cases ha
        exact hbh
      · exact hs.live sl a ha
    · rw [r1]
      rw [r2] at ha
      exact hs.fresh a ha
    · rw [slot_setSlot, if_pos rfl, hb]
      simp
  · rename_i hpc
    cases h
    have hreq := ht.req (by rw [hpc]; decide)
    refine ⟨hs, .refl _, ⟨fun hp => absurd rfl hp, fun hp => by simp at hp, fun hp => by simp at hp, ?_⟩⟩
    intro p hp
    rcases List.mem_append.1 hp with hp | hp
    · exact ht.done p hp
    · rw [List.mem_singleton] at hp
      subst hp
      unfold GoodOutcome
      rw [hreq]
      cases hl : s.slot t.slot with
      | none => exact absurd hl (ht.load hpc)
      | some a => exact ⟨a, rfl, hs.live _ a hl⟩

/-- All schedules in which no creation fails. -/
theorem run_good (schedule : List (Nat × Bool)) (σ : LookupSystem) (hok : ∀ p ∈ schedule, p.2 = true) (hs : Sound σ.eng) (ht : ∀ t, GoodThread σ.eng (σ.thread t)) :
    Sound (σ.run schedule).eng ∧ ∀ t, GoodThread (σ.run schedule).eng ((σ.run schedule).thread t) := by
  induction schedule generalizing σ with
  | nil => exact ⟨hs, ht⟩
  | cons p l ih =>
    have hp : p.2 = true := hok p (by simp)
    refine ih (σ.step p.1 p.2) (fun q hq => hok q (by simp [hq])) ?_ ?_ <;> unfold LookupSystem.step <;> rw [hp]
    · split
      · exact hs
      · rename_i s th h
        exact (step_good hs (ht p.1) h).1
    · intro t
      split
      · exact ht t
      · rename_i s th h
        obtain ⟨_, g, h'⟩ := step_good hs (ht p.1) h
        show GoodThread s (if t = p.1 then th else σ.thread t)
        split
        · exact h'
        · exact (ht t).grow g

/-- Every variable asked for is filled: a thread only reads. -/
structure ReadyThread (s : EngState) (t : LookupThread) : Prop where
  todo : ∀ r ∈ t.todo, ∀ sl, slotOf r.kind r.nid = some sl → s.slot sl ≠ none
  slot : t.pc ≠ .out → slotOf t.req.kind t.req.nid = some t.slot ∧ s.slot t.slot ≠ none
  pc : t.pc ≠ .create ∧ t.pc ≠ .store
  done : ∀ p ∈ t.done, p.2 = match slotOf p.1.kind p.1.nid with | none => foundUnknown p.1 | some sl => (s.slot sl).elim .null .method

theorem step_ready {ok : Bool} {s s' : EngState} {t t' : LookupThread} (ht : ReadyThread s t) (h : t.step ok s = some (s', t')) : s' = s ∧ ReadyThread s t' := by
  unfold LookupThread.step at h
  split at h
  · rename_i hpc
    split at h
    · cases h
    · rename_i r todo htodo
      have htd : ∀ r' ∈ todo, ∀ sl, slotOf r'.kind r'.nid = some sl → s.slot sl ≠ none := fun r' hr => ht.todo r' (by rw [htodo]; simp [hr])
      split at h
      · rename_i hsl
        cases h
        refine ⟨rfl, ⟨htd, fun hp => absurd hpc hp, ht.pc, ?_⟩⟩
        intro p hp
        rcases List.mem_append.1 hp with hp | hp
        · exact ht.done p hp
        · rw [List.mem_singleton] at hp
          subst hp
          rw [hsl]
      · rename_i sl hsl
        cases h
        exact ⟨rfl, ⟨htd, fun _ => ⟨hsl, ht.todo r (by rw [htodo]; simp) sl hsl⟩, ⟨by simp, by simp⟩, ht.done⟩⟩
  · rename_i hpc
    obtain ⟨h1, h2⟩ := ht.slot (by rw [hpc]; decide)
    rw [if_neg h2] at h
    cases h
    exact ⟨rfl, ⟨ht.todo, fun _ => ⟨h1, h2⟩, ⟨by simp, by simp⟩, ht.done⟩⟩
  · rename_i hpc
    exact absurd hpc ht.pc.1
  · rename_i hpc
    exact absurd hpc ht.pc.2
  · rename_i hpc
    obtain ⟨h1, h2⟩ := ht.slot (by rw [hpc]; decide)
    cases h
    refine ⟨rfl, ⟨ht.todo, fun hp => absurd rfl hp, ⟨by simp, by simp⟩, ?_⟩⟩
    intro p hp
    rcases List.mem_append.1 hp with hp | hp
    · exact ht.done p hp
    · rw [List.mem_singleton] at hp
      subst hp
      rw [h1]

theorem run_ready (schedule : List (Nat × Bool)) (σ : LookupSystem) (ht : ∀ t, ReadyThread σ.eng (σ.thread t)) :
    (σ.run schedule).eng = σ.eng ∧ ∀ t, ReadyThread σ.eng ((σ.run schedule).thread t) := by
  induction schedule generalizing σ with
  | nil => exact ⟨rfl, ht⟩
  | cons p l ih =>
    have h1 : (σ.step p.1 p.2).eng = σ.eng ∧ ∀ t, ReadyThread σ.eng ((σ.step p.1 p.2).thread t) := by
      unfold LookupSystem.step
      split
      · exact ⟨rfl, ht⟩
      · rename_i s th h
        obtain ⟨e, h'⟩ := step_ready (ht p.1) h
        refine ⟨e, fun t => ?_⟩
        show ReadyThread _ (if t = p.1 then th else σ.thread t)
        split
        · exact h'
        · exact ht t
    have := ih (σ.step p.1 p.2) (fun t => by rw [h1.1]; exact h1.2 t)
    rw [h1.1] at this
    exact this

/-- What `EngState.get` hands out. -/
theorem get_found (s : EngState) (k : MethKind) (nid : Int) :
    (s.get k nid).1 = match slotOf k nid with | none => foundUnknown ⟨k, nid⟩ | some sl => ((s.ensure sl).slot sl).elim .null .method := by
  cases h : slotOf k nid with
  | some sl =>
    obtain ⟨a, ha, e, _⟩ := get_known h s
    rw [e]
    simp [ha]
  | none =>
    by_cases h0 : nid ≠ 0 ∨ k = .pkey ∨ k = .asn1
    · rw [get_unknown h s h0]
      have : ¬ ((k = .digest ∨ k = .cipher) ∧ nid = 0) := by
        rintro ⟨h1, h2⟩
        rcases h0 with h0 | h0 | h0
        · exact h0 h2
        · rcases h1 with h1 | h1 <;> rw [h1] at h0 <;> cases h0
        · rcases h1 with h1 | h1 <;> rw [h1] at h0 <;> cases h0
      exact (if_neg this).symm
    · cases k with
      | digest =>
        have : nid = 0 := by simpa using h0
        subst this; rfl
      | cipher =>
        have : nid = 0 := by simpa using h0
        subst this; rfl
      | pkey => exact absurd (Or.inr (Or.inl rfl)) h0
      | asn1 => exact absurd (Or.inr (Or.inr rfl)) h0

/-- How many steps a thread has to go, at most. -/
def LookupThread.left (t : LookupThread) : Nat :=
  5 * t.todo.length + match t.pc with | .out => 0 | .test => 4 | .create => 3 | .store => 2 | .load => 1

/-- The lookups it has made, is making and is going to make. -/
def LookupThread.all (t : LookupThread) : List LookupReq :=
  t.done.map Prod.fst ++ (match t.pc with | .out => [] | _ => [t.req]) ++ t.todo

theorem step_left {ok : Bool} {s s' : EngState} {t t' : LookupThread} (h : t.step ok s = some (s', t')) : t'.left < t.left ∧ t'.all = t.all := by
  unfold LookupThread.step at h
  split at h
  · rename_i hpc
    split at h
    · cases h
    · rename_i r todo htodo
      split at h <;> cases h <;> simp [LookupThread.left, LookupThread.all, hpc, htodo]
      omega
  · rename_i hpc
    cases h
    by_cases hs : s.slot t.slot = none <;> simp [LookupThread.left, LookupThread.all, hpc, hs]
  · rename_i hpc
    split at h <;> cases h <;> simp [LookupThread.left, LookupThread.all, hpc]
  · rename_i hpc
    cases h
    simp [LookupThread.left, LookupThread.all, hpc]
  · rename_i hpc
    cases h
    simp [LookupThread.left, LookupThread.all, hpc]

theorem step_idle {ok : Bool} {s : EngState} {t : LookupThread} (h : t.step ok s = none) : t.left = 0 := by
  unfold LookupThread.step at h
  split at h
  · rename_i hpc
    split at h
    · rename_i htodo
      simp [LookupThread.left, hpc, htodo]
    · split at h <;> cases h
  · cases h
  · split at h <;> cases h
  · cases h
  · cases h

theorem left_zero {t : LookupThread} (h : t.left = 0) : t.pc = .out ∧ t.todo = [] := by
  unfold LookupThread.left at h
  cases hpc : t.pc <;> rw [hpc] at h <;> simp only at h <;> first | omega | (refine ⟨rfl, List.length_eq_zero_iff.1 ?_⟩; omega)

theorem run_left (schedule : List (Nat × Bool)) (σ : LookupSystem) (t : Nat) (h : (σ.thread t).left ≤ (schedule.map Prod.fst).count t) :
    ((σ.run schedule).thread t).left = 0 ∧ ((σ.run schedule).thread t).all = (σ.thread t).all := by
  induction schedule generalizing σ with
  | nil => exact ⟨Nat.le_zero.1 h, rfl⟩
  | cons p l ih =>
    have key : ((σ.step p.1 p.2).thread t).left ≤ (l.map Prod.fst).count t ∧ ((σ.step p.1 p.2).thread t).all = (σ.thread t).all := by
      unfold LookupSystem.step
      rw [List.map_cons, List.count_cons] at h
      split
      · rename_i hn
        refine ⟨?_, rfl⟩
        by_cases e : p.1 = t
        · rw [← e, step_idle hn]
          exact Nat.zero_le _
        · rw [if_neg (by simpa using e)] at h
          exact h
      · rename_i s th hn
        show (if t = p.1 then th else σ.thread t).left ≤ _ ∧ (if t = p.1 then th else σ.thread t).all = _
        by_cases e : t = p.1
        · subst e
          obtain ⟨h1, h2⟩ := step_left hn
          rw [if_pos rfl]
          rw [if_pos (by simp)] at h
          exact ⟨by omega, h2⟩
        · rw [if_neg e]
          rw [if_neg (by simpa using fun h => e h.symm)] at h
          exact ⟨h, rfl⟩
    obtain ⟨h1, h2⟩ := ih _ key.1
    exact ⟨h1, h2.trans key.2⟩

theorem step_done {ok : Bool} {s s' : EngState} {t t' : LookupThread} (h : t.step ok s = some (s', t')) :
    (∀ r ∈ t'.todo, r ∈ t.todo) ∧ (t'.pc ≠ .out → (t.pc ≠ .out ∧ t'.req = t.req) ∨ t'.req ∈ t.todo) ∧
      ∀ p ∈ t'.done, p ∈ t.done ∨ (t.pc ≠ .out ∧ p.1 = t.req) ∨ p.1 ∈ t.todo := by
  unfold LookupThread.step at h
  split at h
  · rename_i hpc
    split at h
    · cases h
    · rename_i r todo htodo
      split at h <;> cases h
      · refine ⟨fun r hr => by simp [htodo, hr], fun hp => absurd hpc hp, fun p hp => ?_⟩
        rcases List.mem_append.1 hp with hp | hp
        · exact Or.inl hp
        · rw [List.mem_singleton] at hp
          subst hp
          exact Or.inr (Or.inr (by simp [htodo]))
      · exact ⟨fun r hr => by simp [htodo, hr], fun _ => Or.inr (by simp [htodo]), fun p hp => Or.inl hp⟩
  · rename_i hpc
    cases h
    exact ⟨fun r hr => hr, fun _ => Or.inl ⟨by rw [hpc]; decide, rfl⟩, fun p hp => Or.inl hp⟩
  · rename_i hpc
    split at h <;> cases h <;> exact ⟨fun r hr => hr, fun _ => Or.inl ⟨by rw [hpc]; decide, rfl⟩, fun p hp => Or.inl hp⟩
  · rename_i hpc
    cases h
    exact ⟨fun r hr => hr, fun _ => Or.inl ⟨by rw [hpc]; decide, rfl⟩, fun p hp => Or.inl hp⟩
  · rename_i hpc
    cases h
    refine ⟨fun r hr => hr, fun hp => absurd rfl hp, fun p hp => ?_⟩
    rcases List.mem_append.1 hp with hp | hp
    · exact Or.inl hp
    · rw [List.mem_singleton] at hp
      subst hp
      exact Or.inr (Or.inl ⟨by rw [hpc]; decide, rfl⟩)

/-- Outcomes belong to lookups that were asked for. -/
theorem run_asked (schedule : List (Nat × Bool)) (σ : LookupSystem) (t : Nat) (P : LookupReq → Prop)
    (h1 : ∀ r ∈ (σ.thread t).todo, P r) (h2 : (σ.thread t).pc ≠ .out → P (σ.thread t).req) (h3 : ∀ p ∈ (σ.thread t).done, P p.1) :
    ∀ p ∈ ((σ.run schedule).thread t).done, P p.1 := by
  induction schedule generalizing σ with
  | nil => exact h3
  | cons q l ih =>
    have key : (∀ r ∈ ((σ.step q.1 q.2).thread t).todo, P r) ∧ (((σ.step q.1 q.2).thread t).pc ≠ .out → P ((σ.step q.1 q.2).thread t).req) ∧
        ∀ p ∈ ((σ.step q.1 q.2).thread t).done, P p.1 := by
      unfold LookupSystem.step
      split
      · exact ⟨h1, h2, h3⟩
      · rename_i s th hn
        by_cases e : t = q.1
        · subst e
          obtain ⟨a1, a2, a3⟩ := step_done hn
          simp only [if_true]
          refine ⟨fun r hr => h1 r (a1 r hr), fun hp => ?_, fun p hp => ?_⟩
          · rcases a2 hp with ⟨b, c⟩ | b
            · rw [c]; exact h2 b
            · exact h1 _ b
          · rcases a3 p hp with b | ⟨b, c⟩ | b
            · exact h3 p b
            · rw [c]; exact h2 b
            · exact h1 _ b
        · simp only [if_neg e]
          exact ⟨h1, h2, h3⟩
    exact ih _ key.1 key.2.1 key.2.2

/-- A step of a thread that is alone. -/
def soloStep (p : EngState × LookupThread) : EngState × LookupThread := (p.2.step true p.1).getD p

theorem run_solo (n : Nat) (σ : LookupSystem) :
    ((σ.run (List.replicate n (0, true))).eng, (σ.run (List.replicate n (0, true))).thread 0) = soloStep^[n] (σ.eng, σ.thread 0) := by
  induction n generalizing σ with
  | zero => rfl
  | succ n ih =>
    rw [Function.iterate_succ_apply]
    have : soloStep (σ.eng, σ.thread 0) = ((σ.step 0 true).eng, (σ.step 0 true).thread 0) := by
      unfold soloStep LookupSystem.step
      simp only
      cases h : (σ.thread 0).step true σ.eng with
      | none => rfl
      | some q => simp
    rw [this]
    exact ih _

theorem solo_idle (n : Nat) {s : EngState} {t : LookupThread} (h1 : t.pc = .out) (h2 : t.todo = []) : soloStep^[n] (s, t) = (s, t) := by
  induction n with
  | zero => rfl
  | succ n ih =>
    rw [Function.iterate_succ_apply]
    have : soloStep (s, t) = (s, t) := by
      unfold soloStep LookupThread.step
      simp only [h1, h2]
      rfl
    rw [this, ih]

/-- One lookup of a thread that is alone. -/
theorem solo_one (s : EngState) (t : LookupThread) (hpc : t.pc = .out) (r : LookupReq) (todo : List LookupReq) (htodo : t.todo = r :: todo) :
    ∃ n, n ≤ 5 ∧ ∃ t', soloStep^[n] (s, t) = ((s.get r.kind r.nid).2, t') ∧ t'.pc = .out ∧ t'.todo = todo ∧ t'.done = t.done ++ [(r, (s.get r.kind r.nid).1)] := by
  rw [get_state, get_found]
  cases hsl : slotOf r.kind r.nid with
  | none =>
    refine ⟨1, by omega, { t with todo := todo, done := t.done ++ [(r, foundUnknown r)] }, ?_, hpc, rfl, rfl⟩
    simp only [Function.iterate_one, soloStep, LookupThread.step, hpc, htodo, hsl]
    rfl
  | some sl =>
    simp only
    have e1 : soloStep (s, t) = (s, { t with todo := todo, pc := .test, req := r, slot := sl }) := by
      simp only [soloStep, LookupThread.step, hpc, htodo, hsl]
      rfl
    cases hs : s.slot sl with
    | some a =>
      have he : s.ensure sl = s := by unfold EngState.ensure; rw [if_neg (by rw [hs]; simp)]
      refine ⟨3, by omega, ?_⟩
      rw [Function.iterate_succ_apply, e1, Function.iterate_succ_apply, Function.iterate_one]
      simp only [soloStep, LookupThread.step, hs, reduceCtorEq, if_false, Option.getD_some, he]
      exact ⟨_, rfl, rfl, rfl, rfl⟩
    | none =>
      have he : s.ensure sl = (s.alloc sl.meth).2.setSlot sl (some s.next) := by unfold EngState.ensure; rw [if_pos hs]
      refine ⟨5, by omega, ?_⟩
      rw [Function.iterate_succ_apply, e1, Function.iterate_succ_apply, Function.iterate_succ_apply, Function.iterate_succ_apply, Function.iterate_one, he]
      simp only [soloStep, LookupThread.step, hs, if_true, Option.getD_some]
      exact ⟨_, rfl, rfl, rfl, rfl⟩

/-- All lookups of a thread that is alone. -/
theorem solo_all (reqs : List LookupReq) (s : EngState) (t : LookupThread) (hpc : t.pc = .out) (htodo : t.todo = reqs) :
    ∃ n, n ≤ 5 * reqs.length ∧ ∃ fs s' t', s.run (reqs.map fun r => .get r.kind r.nid) = some (fs, s') ∧ soloStep^[n] (s, t) = (s', t') ∧ t'.pc = .out ∧ t'.todo = [] ∧
      t'.done = t.done ++ reqs.zip fs := by
  induction reqs generalizing s t with
  | nil => exact ⟨0, by simp, [], s, t, rfl, rfl, hpc, htodo, by simp⟩
  | cons r todo ih =>
    obtain ⟨n, hn, t1, e1, p1, q1, d1⟩ := solo_one s t hpc r todo htodo
    obtain ⟨m, hm, fs, s', t', e2, e3, p2, q2, d2⟩ := ih (s.get r.kind r.nid).2 t1 p1 q1
    refine ⟨m + n, by simp only [List.length_cons]; omega, (s.get r.kind r.nid).1 :: fs, s', t', ?_, ?_, p2, q2, ?_⟩
    · rw [List.map_cons, EngState.run_cons s _ _ (r := (s.get r.kind r.nid).1) (s1 := (s.get r.kind r.nid).2) rfl, e2]
      rfl
    · rw [Function.iterate_add_apply, e1, e3]
    · rw [d2, d1]
      simp

/-- A successful bind fills the variables of the digest and of the cipher. -/
theorem bind_filled (ok : Nat) (h : 17 ≤ ok) (s : EngState) : (dstu_bind ok s).2.slot .md ≠ none ∧ (dstu_bind ok s).2.slot .ci ≠ none := by
  have h1 : 14 ≤ ok := by omega
  have h2 : 15 ≤ ok := by omega
  have h3 : 16 ≤ ok := by omega
  have h4 : ¬ ok < 17 := by omega
  unfold dstu_bind
  simp only [md_get_eq, cipher_get_eq, h1, h2, h3, h4, if_true, if_false]
  obtain ⟨a, ha⟩ := ensure_slot s .md
  constructor
  · have : ∀ s' : EngState, s'.slot .md = some a → (s'.ensure .ci).slot .md = some a := by
      intro s' hs
      unfold EngState.ensure
      split
      · rw [slot_setSlot, if_neg (by decide), alloc_slot, hs]
      · exact hs
    have h5 := this { s.ensure .md with namedDigest := (s.ensure .md).slot .md } ha
    show EngState.slot _ .md ≠ none
    intro hn
    have hn' : (EngState.ensure { s.ensure .md with namedDigest := (s.ensure .md).slot .md } .ci).slot .md = none := hn
    rw [h5] at hn'
    cases hn'
  · obtain ⟨b, hb⟩ := ensure_slot { s.ensure .md with namedDigest := (s.ensure .md).slot .md } .ci
    intro hn
    have hn' : (EngState.ensure { s.ensure .md with namedDigest := (s.ensure .md).slot .md } .ci).slot .ci = none := hn
    rw [hb] at hn'
    cases hn'

end Dstu
