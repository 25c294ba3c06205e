import Verif.Spec.Res
import Mathlib.Algebra.Order.Group.Multiset
import Mathlib.Tactic.Abel

/-! Rules for `Res.Safe`. -/

namespace Dstu

namespace Res

variable {α β : Type}

variable {H : Fate → Prop} {pre : Multiset Nat} {post : β → Multiset Nat}

theorem Safe.pure {a : β} (h : pre = post a) : Safe H (Pure.pure a) pre post := by
  intro w c F _ hc
  exact ⟨a, c, rfl, by rw [hc, h]⟩

/-- A call of a function. -/
theorem Safe.bind {f : Res α} {g : α → Res β} {a : Multiset Nat} {b : α → Multiset Nat} (hf : Safe H f a b) (R : Multiset Nat) (e : pre = a + R)
    (hg : ∀ r, Safe H (g r) (b r + R) post) : Safe H (f >>= g) pre post := by
  intro w c F hw hc
  obtain ⟨r, c1, e1, l1⟩ := hf w c (R + F) hw (by rw [hc, e, add_assoc])
  obtain ⟨s, c2, e2, l2⟩ := hg r w c1 F hw (by rw [l1, add_assoc])
  refine ⟨s, c2, ?_, l2⟩
  show Res.bind f g w c = _
  unfold Res.bind
  rw [e1]
  exact e2

theorem safe_ask (k : Kind) : Safe H (ask k) 0 fun _ => 0 := by
  intro w c F _ hc
  exact ⟨_, _, rfl, hc⟩

theorem safe_alloc (k : Kind) : Safe H (alloc k) 0 own := by
  intro w c F _ hc
  unfold alloc
  split
  · exact ⟨_, _, rfl, by simp only [hc, own, zero_add]⟩
  · exact ⟨_, _, rfl, by simpa only [own, zero_add] using hc⟩

theorem safe_free (p : Option Nat) : Safe H (free p) (own p) fun _ => 0 := by
  intro w c F _ hc
  cases p with
  | none => exact ⟨_, _, rfl, hc⟩
  | some p =>
    unfold free
    simp only
    rw [if_pos (by rw [hc]; simp [own])]
    refine ⟨_, _, rfl, ?_⟩
    simp only [hc, own, zero_add]
    exact Multiset.erase_cons_head p F

theorem safe_use (p : Nat) : Safe H (use (some p)) {p} fun _ => {p} := by
  intro w c F _ hc
  unfold use
  simp only
  rw [if_pos (by rw [hc]; simp)]
  exact ⟨_, _, rfl, hc⟩

theorem safe_get (b : Bool) : Safe H (get b) 0 fun _ => 0 := by
  unfold get
  split
  · exact safe_ask _
  · exact Safe.pure rfl

theorem Safe.weaken {H' : Fate → Prop} {f : Res β} (h : Safe H f pre post) (i : ∀ w, H' w → H w) : Safe H' f pre post :=
  fun w c F hw => h w c F (i w hw)

/-! Steps, for use from left to right. -/

theorem step_ask {k : Kind} {g : Bool → Res β} (h : ∀ b, Safe H (g b) pre post) : Safe H (ask k >>= g) pre post :=
  Safe.bind (safe_ask k) pre (zero_add _).symm fun b => (zero_add pre).symm ▸ h b

/-- `BN_CTX_get`: success means that those before succeeded. -/
theorem step_get {b : Bool} {g : Bool → Res β} (h : ∀ r, (r = true → b = true) → Safe H (g r) pre post) : Safe H (get b >>= g) pre post := by
  cases b with
  | true =>
    refine Safe.bind (safe_get true) pre (zero_add _).symm fun r => ?_
    rw [zero_add]
    exact h r fun _ => rfl
  | false =>
    show Safe H (g false) pre post
    exact h false id

theorem step_num {b : Bool} {g : Unit → Res β} (hb : b = true) (h : Safe H (g ()) pre post) : Safe H (num b >>= g) pre post := by
  subst hb
  exact h

theorem step_pure {a : α} {g : α → Res β} (h : Safe H (g a) pre post) : Safe H ((Pure.pure a : Res α) >>= g) pre post := h

theorem bind_assoc' {γ : Type} (f : Res γ) (g : γ → Res α) (h : α → Res β) : (f >>= g) >>= h = f >>= fun x => g x >>= h := by
  funext w c
  show Res.bind (Res.bind f g) h w c = Res.bind f (fun x => Res.bind (g x) h) w c
  unfold Res.bind
  cases f w c with
  | none => rfl
  | some r => rfl

theorem step_assoc {γ : Type} {f : Res γ} {g : γ → Res α} {h : α → Res β} (hs : Safe H (f >>= fun x => g x >>= h) pre post) : Safe H ((f >>= g) >>= h) pre post := by
  rw [bind_assoc']
  exact hs

theorem step_ite {c : Prop} [Decidable c] {f f' : Res α} {g : α → Res β} (h1 : c → Safe H (f >>= g) pre post) (h2 : ¬c → Safe H (f' >>= g) pre post) :
    Safe H ((if c then f else f') >>= g) pre post := by
  split
  · exact h1 ‹_›
  · exact h2 ‹_›

theorem step_alloc {k : Kind} {g : Option Nat → Res β} (h0 : Safe H (g none) pre post) (h1 : ∀ p, Safe H (g (some p)) ({p} + pre) post) : Safe H (alloc k >>= g) pre post :=
  Safe.bind (safe_alloc k) pre (zero_add _).symm fun r => by
    cases r with
    | none => exact (zero_add pre).symm ▸ h0
    | some p => exact h1 p

theorem step_free {p : Option Nat} {g : Unit → Res β} (R : Multiset Nat) (e : pre = own p + R) (h : Safe H (g ()) R post) : Safe H (free p >>= g) pre post :=
  Safe.bind (safe_free p) R e fun _ => (zero_add R).symm ▸ h

theorem step_use {p : Nat} {g : Unit → Res β} (R : Multiset Nat) (e : pre = {p} + R) (h : Safe H (g ()) pre post) : Safe H (use (some p) >>= g) pre post :=
  Safe.bind (safe_use p) R e fun _ => e ▸ h

/-- Calls of functions that keep nothing, or return an object or NULL. -/
theorem step_zero {f : Res α} {g : α → Res β} (hf : Safe H f 0 fun _ => 0) (h : ∀ a, Safe H (g a) pre post) : Safe H (f >>= g) pre post :=
  Safe.bind hf pre (zero_add _).symm fun a => (zero_add pre).symm ▸ h a

theorem step_own {f : Res (Option Nat)} {g : Option Nat → Res β} (hf : Safe H f 0 own) (h0 : Safe H (g none) pre post) (h1 : ∀ p, Safe H (g (some p)) ({p} + pre) post) : Safe H (f >>= g) pre post :=
  Safe.bind hf pre (zero_add _).symm fun r => by
    cases r with
    | none => exact (zero_add pre).symm ▸ h0
    | some p => exact h1 p

theorem step_any {f : Res α} {g : α → Res β} {b : α → Multiset Nat} (hf : Safe H f 0 b) (h : ∀ a, Safe H (g a) (b a + pre) post) : Safe H (f >>= g) pre post :=
  Safe.bind hf pre (zero_add _).symm h

/-- The last call. -/
theorem Safe.last {f : Res β} (hf : Safe H f 0 fun _ => 0) (e : ∀ b, pre = post b) : Safe H f pre post := by
  intro w c F hw hc
  obtain ⟨r, c', h1, h2⟩ := hf w c (pre + F) hw (by rw [hc, zero_add])
  exact ⟨r, c', h1, by rw [h2, zero_add, ← e r]⟩

theorem Safe.framed {f : Res β} {a : Multiset Nat} {b : β → Multiset Nat} (hf : Safe H f a b) (R : Multiset Nat) (e : pre = a + R) (e' : ∀ r, b r + R = post r) : Safe H f pre post := by
  intro w c F hw hc
  obtain ⟨r, c', h1, h2⟩ := hf w c (R + F) hw (by rw [hc, e, add_assoc])
  exact ⟨r, c', h1, by rw [h2, ← e' r, add_assoc]⟩

theorem safe_calls (n : Nat) : Safe H (calls n) 0 fun _ => 0 := by
  induction n with
  | zero => exact Safe.pure rfl
  | succ n ih =>
    refine step_ask fun b => ?_
    cases b
    · exact Safe.pure rfl
    · exact ih

theorem safe_ite {c : Prop} [Decidable c] {f f' : Res β} (h1 : c → Safe H f pre post) (h2 : ¬c → Safe H f' pre post) : Safe H (if c then f else f') pre post := by
  split
  · exact h1 ‹_›
  · exact h2 ‹_›

theorem ite_some {p : Nat} {f f' : Res β} (h : Safe H f' pre post) : Safe H (if some p = none then f else f') pre post := by
  rw [if_neg (by simp)]
  exact h

theorem ite_none {f f' : Res β} (h : Safe H f pre post) : Safe H (if (none : Option Nat) = none then f else f') pre post := by
  rw [if_pos rfl]
  exact h

theorem if_tt {f f' : Res β} (h : Safe H f pre post) : Safe H (if true = true then f else f') pre post := h
theorem if_ff {f f' : Res β} (h : Safe H f' pre post) : Safe H (if false = true then f else f') pre post := h
theorem if_nt {f f' : Res β} (h : Safe H f' pre post) : Safe H (if (!true) = true then f else f') pre post := h
theorem if_nf {f f' : Res β} (h : Safe H f pre post) : Safe H (if (!false) = true then f else f') pre post := h

theorem step_ite_some {p : Nat} {f f' : Res α} {g : α → Res β} (h : Safe H (f' >>= g) pre post) : Safe H ((if some p = none then f else f') >>= g) pre post := by
  rw [if_neg (by simp)]
  exact h

theorem step_ite_none {f f' : Res α} {g : α → Res β} (h : Safe H (f >>= g) pre post) : Safe H ((if (none : Option Nat) = none then f else f') >>= g) pre post := by
  rw [if_pos rfl]
  exact h

theorem step_free_none {g : Unit → Res β} (h : Safe H (g ()) pre post) : Safe H (free none >>= g) pre post := h

theorem step_free_some {p : Nat} {g : Unit → Res β} (R : Multiset Nat) (e : pre = {p} + R) (h : Safe H (g ()) R post) : Safe H (free (some p) >>= g) pre post :=
  step_free R e h

theorem step_get_ok {H : Fate → Prop} {pre : Multiset Nat} {post : β → Multiset Nat} {g : Bool → Res β} (hn : ∀ w, H w → Never .get w) (h : Safe H (g true) pre post) :
    Safe H (get true >>= g) pre post := by
  intro w c F hw hc
  have hr := hn w hw c.tick
  obtain ⟨r, c', e, l⟩ := h w { c with tick := c.tick + 1, faults := c.faults + if (Kind.get) ≠ .data ∧ w .get c.tick = false then 1 else 0 } F hw hc
  refine ⟨r, c', ?_, l⟩
  show g (w .get c.tick) w _ = _
  rw [hr] at e ⊢
  exact e

theorem step_ask_ok {H : Fate → Prop} {pre : Multiset Nat} {post : β → Multiset Nat} {k : Kind} {g : Bool → Res β} (hn : ∀ w, H w → Never k w) (h : Safe H (g true) pre post) :
    Safe H (ask k >>= g) pre post := by
  intro w c F hw hc
  have hr := hn w hw c.tick
  obtain ⟨r, c', e, l⟩ := h w { c with tick := c.tick + 1, faults := c.faults + if k ≠ .data ∧ w k c.tick = false then 1 else 0 } F hw hc
  refine ⟨r, c', ?_, l⟩
  show g (w k c.tick) w _ = _
  rw [hr] at e ⊢
  exact e

theorem step_alloc_ok {H : Fate → Prop} {pre : Multiset Nat} {post : β → Multiset Nat} {k : Kind} {g : Option Nat → Res β} (hn : ∀ w, H w → Never k w)
    (h : ∀ p, Safe H (g (some p)) ({p} + pre) post) : Safe H (alloc k >>= g) pre post := by
  intro w c F hw hc
  have hr := hn w hw c.tick
  obtain ⟨r, c', e, l⟩ := h c.next w { c with live := {c.next} + c.live, next := c.next + 1, tick := c.tick + 1 } F hw (by simp only [hc, add_assoc])
  refine ⟨r, c', ?_, l⟩
  show (alloc k >>= g) w c = _
  show Res.bind (alloc k) g w c = _
  unfold Res.bind alloc
  rw [if_pos hr]
  exact e

/-- All calls succeed. -/
def Smooth (w : Fate) : Prop := ∀ k, k ≠ .data → Never k w

theorem Smooth.never {k : Kind} (hk : k ≠ .data) : ∀ w, Smooth w → Never k w := fun _ h => h k hk

theorem smooth_weakly {w : Fate} (h : Never .weak w) : Smooth fun k n => if k = .data then w .data n else w .weak n := by
  intro k hk n
  show (if k = .data then w .data n else w .weak n) = true
  rw [if_neg hk]
  exact h n

theorem Safe.weakly {H : Fate → Prop} {pre : Multiset Nat} {post : β → Multiset Nat} {f : Res β} (hk : ∀ w, H w → Never .weak w) (h : Safe Smooth f pre post) : Safe H (weakly f) pre post :=
  fun w c F hw hc => h _ c F (smooth_weakly (hk w hw)) hc

/-- Where nothing is lost anyway. -/
theorem Safe.weakly_any {H : Fate → Prop} {pre : Multiset Nat} {post : β → Multiset Nat} {f : Res β} (h : Safe Any f pre post) : Safe H (Res.weakly f) pre post :=
  fun _ c F _ hc => h _ c F trivial hc

theorem calls_smooth {w : Fate} (h : Smooth w) (n : Nat) (c : Cells) : ∃ c', calls n w c = some (true, c') ∧ c'.live = c.live := by
  induction n generalizing c with
  | zero => exact ⟨c, rfl, rfl⟩
  | succ n ih =>
    obtain ⟨c', e, l⟩ := ih { c with tick := c.tick + 1, faults := c.faults + if (Kind.call) ≠ .data ∧ w .call c.tick = false then 1 else 0 }
    refine ⟨c', ?_, l⟩
    show (if w .call c.tick = true then calls n else Pure.pure false) w _ = _
    rw [if_pos (h .call (by decide) c.tick)]
    exact e

theorem step_weak_calls {H : Fate → Prop} {pre : Multiset Nat} {post : β → Multiset Nat} {n : Nat} {g : Bool → Res β} (hk : ∀ w, H w → Never .weak w) (h : Safe H (g true) pre post) :
    Safe H (weakly (calls n) >>= g) pre post := by
  intro w c F hw hc
  obtain ⟨c1, e1, l1⟩ := calls_smooth (smooth_weakly (hk w hw)) n c
  obtain ⟨r, c', e, l⟩ := h w c1 F hw (by rw [l1, hc])
  refine ⟨r, c', ?_, l⟩
  show Res.bind (weakly (calls n)) g w c = _
  unfold Res.bind weakly
  rw [e1]
  exact e

/-! Rules for `Reports`. -/

/-- `Reports` after a failure, or not. -/
def Rep (bad : Bool) (f : Res β) (success : β → Prop) : Prop := ∀ w c r c', f w c = some (r, c') → success r → bad = false ∧ c'.faults = c.faults

section
variable {success : β → Prop} {bad : Bool}

theorem Rep.reports {f : Res β} (h : Rep false f success) : Reports f success := fun w c r c' e s => (h w c r c' e s).2

theorem Rep.pure {a : β} (h : success a → bad = false) : Rep bad (Pure.pure a) success := by
  intro w c r c' e s
  obtain ⟨rfl, rfl⟩ : a = r ∧ c = c' := by
    have : some (a, c) = some (r, c') := e
    simpa using this
  exact ⟨h s, rfl⟩

theorem Rep.fail {a : β} (h : ¬success a) : Rep bad (Pure.pure a) success := Rep.pure fun s => absurd s h

theorem bind_some {f : Res α} {g : α → Res β} {w : Fate} {c : Cells} {x : β × Cells} (e : (f >>= g) w c = some x) : ∃ a c1, f w c = some (a, c1) ∧ g a w c1 = some x := by
  have e : Res.bind f g w c = some x := e
  unfold Res.bind at e
  split at e
  · exact absurd e (by simp)
  · exact ⟨_, _, ‹_›, e⟩

/-- A call of a function. -/
theorem Rep.bind {f : Res α} {g : α → Res β} {ok : α → Prop} (hf : Reports f ok) (h1 : ∀ a, ok a → Rep bad (g a) success) (h2 : ∀ a, ¬ok a → Rep true (g a) success) :
    Rep bad (f >>= g) success := by
  intro w c r c' e s
  obtain ⟨a, c1, e1, e2⟩ := bind_some e
  by_cases o : ok a
  · have := h1 a o w c1 r c' e2 s
    exact ⟨this.1, this.2.trans (hf w c a c1 e1 o)⟩
  · exact absurd (h2 a o w c1 r c' e2 s).1 (by simp)

theorem rep_call {g : Bool → Res β} (h1 : Rep bad (g true) success) (h0 : Rep true (g false) success) : Rep bad (ask .call >>= g) success := by
  refine Rep.bind (ok := fun a => a = true) ?_ ?_ ?_
  · intro w c r c' e s
    unfold ask at e
    simp only [Option.some.injEq, Prod.mk.injEq] at e
    obtain ⟨rfl, rfl⟩ := e
    simp [s]
  · rintro a rfl
    exact h1
  · intro a ha
    cases a with
    | true => exact absurd rfl ha
    | false => exact h0

theorem rep_data {g : Bool → Res β} (h : ∀ b, Rep bad (g b) success) : Rep bad (ask .data >>= g) success := by
  refine Rep.bind (ok := fun _ => True) ?_ (fun a _ => h a) (fun _ ha => absurd trivial ha)
  intro w c r c' e _
  unfold ask at e
  simp only [Option.some.injEq, Prod.mk.injEq] at e
  obtain ⟨rfl, rfl⟩ := e
  simp

theorem rep_get {b : Bool} {g : Bool → Res β} (h1 : b = true → Rep bad (g true) success) (h0 : Rep true (g false) success) (hb : b = false → bad = true) : Rep bad (get b >>= g) success := by
  cases b with
  | false =>
    rw [hb rfl]
    exact h0
  | true =>
    refine Rep.bind (ok := fun a => a = true) ?_ ?_ ?_
    · intro w c r c' e s
      have e : ask .get w c = some (r, c') := e
      unfold ask at e
      simp only [Option.some.injEq, Prod.mk.injEq] at e
      obtain ⟨rfl, rfl⟩ := e
      simp [s]
    · rintro a rfl
      exact h1 rfl
    · intro a ha
      cases a with
      | true => exact absurd rfl ha
      | false => exact h0

theorem rep_alloc {k : Kind} {g : Option Nat → Res β} (h0 : Rep true (g none) success) (h1 : ∀ p, Rep bad (g (some p)) success) : Rep bad (alloc k >>= g) success := by
  refine Rep.bind (ok := fun a => a ≠ none) ?_ ?_ ?_
  · intro w c r c' e s
    unfold alloc at e
    split at e
    · simp only [Option.some.injEq, Prod.mk.injEq] at e
      obtain ⟨rfl, rfl⟩ := e
      rfl
    · simp only [Option.some.injEq, Prod.mk.injEq] at e
      exact absurd e.1.symm s
  · intro a ha
    cases a with
    | none => exact absurd rfl ha
    | some p => exact h1 p
  · intro a ha
    cases a with
    | none => exact h0
    | some p => exact absurd (by simp) ha

/-- Steps that cannot fail. -/
theorem rep_unit {f : Res α} {g : α → Res β} (hf : Reports f fun _ => True) (h : ∀ a, Rep bad (g a) success) : Rep bad (f >>= g) success :=
  Rep.bind hf (fun a _ => h a) (fun _ ha => absurd trivial ha)

theorem reports_free (p : Option Nat) : Reports (free p) fun _ => True := by
  intro w c r c' e _
  cases p with
  | none =>
    have : some ((), c) = some (r, c') := e
    simp only [Option.some.injEq, Prod.mk.injEq] at this
    rw [this.2]
  | some p =>
    unfold free at e
    simp only at e
    split at e
    · simp only [Option.some.injEq, Prod.mk.injEq] at e
      rw [← e.2]
    · exact absurd e (by simp)

theorem reports_use (p : Option Nat) : Reports (use p) fun _ => True := by
  intro w c r c' e _
  cases p with
  | none => exact absurd e (by simp [use])
  | some p =>
    unfold use at e
    simp only at e
    split at e
    · simp only [Option.some.injEq, Prod.mk.injEq] at e
      rw [e.2]
    · exact absurd e (by simp)

theorem reports_num (b : Bool) : Reports (num b) fun _ => True := by
  intro w c r c' e _
  cases b with
  | false => exact absurd e (by simp [num, ub])
  | true =>
    have : some ((), c) = some (r, c') := e
    simp only [Option.some.injEq, Prod.mk.injEq] at this
    rw [this.2]

theorem rep_pure {a : α} {g : α → Res β} (h : Rep bad (g a) success) : Rep bad ((Pure.pure a : Res α) >>= g) success := h

theorem rep_assoc {γ : Type} {f : Res γ} {g : γ → Res α} {h : α → Res β} (hs : Rep bad (f >>= fun x => g x >>= h) success) : Rep bad ((f >>= g) >>= h) success := by
  rw [bind_assoc']
  exact hs

theorem rep_ite {c : Prop} [Decidable c] {f f' : Res β} (h1 : c → Rep bad f success) (h2 : ¬c → Rep bad f' success) : Rep bad (if c then f else f') success := by
  split
  · exact h1 ‹_›
  · exact h2 ‹_›

theorem rep_ite_bind {c : Prop} [Decidable c] {f f' : Res α} {g : α → Res β} (h1 : c → Rep bad (f >>= g) success) (h2 : ¬c → Rep bad (f' >>= g) success) :
    Rep bad ((if c then f else f') >>= g) success := by
  split
  · exact h1 ‹_›
  · exact h2 ‹_›

theorem rep_ite_bind_some {p : Nat} {f f' : Res α} {g : α → Res β} (h : Rep bad (f' >>= g) success) : Rep bad ((if some p = none then f else f') >>= g) success := by
  rw [if_neg (by simp)]
  exact h

theorem rep_ite_bind_none {f f' : Res α} {g : α → Res β} (h : Rep bad (f >>= g) success) : Rep bad ((if (none : Option Nat) = none then f else f') >>= g) success := by
  rw [if_pos rfl]
  exact h

theorem rep_ite_some {p : Nat} {f f' : Res β} (h : Rep bad f' success) : Rep bad (if some p = none then f else f') success := by
  rw [if_neg (by simp)]
  exact h

theorem rep_ite_none {f f' : Res β} (h : Rep bad f success) : Rep bad (if (none : Option Nat) = none then f else f') success := by
  rw [if_pos rfl]
  exact h

theorem reports_weakly {f : Res β} {ok : β → Prop} (h : Reports f ok) : Reports (weakly f) ok := fun _ c r c' e s => h _ c r c' e s

theorem Rep.of {f : Res β} {ok : β → Prop} (h : Reports f ok) (i : ∀ a, success a → ok a) : Rep false f success :=
  fun w c r c' e s => ⟨rfl, h w c r c' e (i r s)⟩

end

theorem bind_pure' (f : Res α) : f >>= Pure.pure = f := by
  funext w c
  show Res.bind f Res.pure w c = _
  unfold Res.bind Res.pure
  cases h : f w c <;> rfl

theorem reports_calls (n : Nat) : Reports (calls n) fun b => b = true := by
  apply Rep.reports
  induction n with
  | zero => exact Rep.pure fun _ => rfl
  | succ n ih =>
    unfold calls
    refine rep_call ?_ ?_
    · exact rep_ite (fun _ => ih) (fun h => absurd rfl h)
    · exact rep_ite (fun h => absurd h (by simp)) (fun _ => Rep.fail (by simp))

theorem rep_bool {success : β → Prop} {bad : Bool} {f : Res Bool} {g : Bool → Res β} (hf : Reports f fun b => b = true) (h1 : Rep bad (g true) success) (h0 : Rep true (g false) success) :
    Rep bad (f >>= g) success := by
  refine Rep.bind hf ?_ ?_
  · rintro a rfl
    exact h1
  · intro a ha
    cases a with
    | true => exact absurd rfl ha
    | false => exact h0

theorem rep_get_false {success : β → Prop} {bad : Bool} {g : Bool → Res β} (h0 : Rep bad (g false) success) : Rep bad (get false >>= g) success := h0

theorem rep_get_true {success : β → Prop} {bad : Bool} {g : Bool → Res β} (h1 : Rep bad (g true) success) (h0 : Rep true (g false) success) : Rep bad (get true >>= g) success :=
  rep_get (fun _ => h1) h0 (fun h => absurd h (by simp))

theorem rep_num_false {success : β → Prop} {bad : Bool} {g : Unit → Res β} : Rep bad (num false >>= g) success := by
  intro w c r c' e
  exact absurd e (by simp [num, ub, bind, Res.bind])

section
variable {success : β → Prop} {bad : Bool} {f f' : Res β}
theorem rep_if_tt (h : Rep bad f success) : Rep bad (if true = true then f else f') success := h
theorem rep_if_ff (h : Rep bad f' success) : Rep bad (if false = true then f else f') success := h
theorem rep_if_nt (h : Rep bad f' success) : Rep bad (if (!true) = true then f else f') success := h
theorem rep_if_nf (h : Rep bad f success) : Rep bad (if (!false) = true then f else f') success := h
end

theorem own_some (p : Nat) : own (some p) = {p} := rfl
theorem own_none : own none = 0 := rfl

theorem last_free {p : Option Nat} {pre : Multiset Nat} {post : Unit → Multiset Nat} {H : Fate → Prop} (e : pre = own p + post ()) : Safe H (free p) pre post :=
  Safe.framed (safe_free p) (post ()) e fun _ => zero_add _

theorem in0 {x R : Multiset Nat} : x + R = x + R := rfl
theorem in1 {x a R : Multiset Nat} : a + (x + R) = x + (a + R) := by abel
theorem in2 {x a b R : Multiset Nat} : a + (b + (x + R)) = x + (a + (b + R)) := by abel
theorem in3 {x a b c R : Multiset Nat} : a + (b + (c + (x + R))) = x + (a + (b + (c + R))) := by abel
theorem in4 {x a b c d R : Multiset Nat} : a + (b + (c + (d + (x + R)))) = x + (a + (b + (c + (d + R)))) := by abel
theorem in5 {x a b c d e R : Multiset Nat} : a + (b + (c + (d + (e + (x + R))))) = x + (a + (b + (c + (d + (e + R))))) := by abel
theorem inX {x : Multiset Nat} : x = x + 0 := (add_zero x).symm
theorem inX1 {x a : Multiset Nat} : a + x = x + a := by abel
theorem inX2 {x a b : Multiset Nat} : a + (b + x) = x + (a + b) := by abel
theorem inX3 {x a b c : Multiset Nat} : a + (b + (c + x)) = x + (a + (b + c)) := by abel
theorem inX4 {x a b c d : Multiset Nat} : a + (b + (c + (d + x))) = x + (a + (b + (c + d))) := by abel

end Res

/-- The place of an object among those that are held. -/
macro "place" : tactic => `(tactic| first
  | with_reducible exact Res.in0 | with_reducible exact Res.in1 | with_reducible exact Res.in2 | with_reducible exact Res.in3
  | with_reducible exact Res.in4 | with_reducible exact Res.in5
  | with_reducible exact Res.inX | with_reducible exact Res.inX1 | with_reducible exact Res.inX2 | with_reducible exact Res.inX3 | with_reducible exact Res.inX4)

/-- Equal collections of objects. -/
macro "balance" : tactic => `(tactic| first | with_reducible rfl | (simp only [Res.own_some, Res.own_none, add_zero, zero_add]; done) | (simp only [Res.own_some, Res.own_none, add_zero, zero_add]; abel1) | abel1)

/-- One step of symbolic execution. -/
macro "res1" : tactic => `(tactic| with_reducible first
  | (refine Res.ite_some ?_)
  | (refine Res.ite_none ?_)
  | (refine Res.if_tt ?_)
  | (refine Res.if_ff ?_)
  | (refine Res.if_nt ?_)
  | (refine Res.if_nf ?_)
  | (refine Res.safe_ite (fun h => ?_) (fun h => ?_))
  | (refine Res.step_get fun r hr => ?_)
  | (refine Res.step_num (by first | rfl | assumption | simp_all) ?_)
  | (refine Res.step_ask fun b => ?_)
  | (refine Res.step_pure ?_)
  | (refine Res.step_alloc ?_ fun p => ?_)
  | (refine Res.step_assoc ?_)
  | (refine Res.step_zero (Res.safe_calls _) fun b => ?_)
  | (refine Res.step_ite_some ?_)
  | (refine Res.step_ite_none ?_)
  | (refine Res.step_ite (fun h => ?_) (fun h => ?_))
  | (refine Res.step_free_none ?_)
  | (refine Res.step_free_some _ (by place) ?_)
  | (refine Res.step_free _ (by place) ?_)
  | (refine Res.step_use _ (by place) ?_)
  | (refine Res.last_free ?_; with_unfolding_all (try balance))
  | (refine Res.Safe.pure ?_; with_unfolding_all (try balance))
  | (refine Res.Safe.last (Res.safe_calls _) fun b => ?_; with_unfolding_all (try balance)))

/-- One step for `Rep`. -/
macro "rep1" : tactic => `(tactic| with_reducible first
  | (refine Res.rep_ite_some ?_)
  | (refine Res.rep_ite_none ?_)
  | (refine Res.rep_if_tt ?_)
  | (refine Res.rep_if_ff ?_)
  | (refine Res.rep_if_nt ?_)
  | (refine Res.rep_if_nf ?_)
  | (refine Res.rep_ite (fun h => ?_) (fun h => ?_))
  | (refine Res.rep_get_false ?_)
  | (refine Res.rep_get_true ?_ ?_)
  | exact Res.rep_num_false
  | (refine Res.rep_unit (Res.reports_num _) fun _ => ?_)
  | (refine Res.rep_call ?_ ?_)
  | (refine Res.rep_data fun b => ?_)
  | (refine Res.rep_pure ?_)
  | (refine Res.rep_alloc ?_ fun p => ?_)
  | (refine Res.rep_assoc ?_)
  | (refine Res.rep_unit (Res.reports_free _) fun _ => ?_)
  | (refine Res.rep_unit (Res.reports_use _) fun _ => ?_)
  | (refine Res.rep_bool (Res.reports_calls _) ?_ ?_)
  | (refine Res.rep_ite_bind_some ?_)
  | (refine Res.rep_ite_bind_none ?_)
  | (refine Res.rep_ite_bind (fun h => ?_) (fun h => ?_))
  | (refine Res.Rep.fail ?_; (first | simp_all; done))
  | (refine Res.Rep.pure ?_; (first | (intro _; rfl) | simp_all; done))
  | (refine Res.Rep.of (Res.reports_calls _) ?_; (first | (intro _ h; exact h) | simp_all; done)))

end Dstu
