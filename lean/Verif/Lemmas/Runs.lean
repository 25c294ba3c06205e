import Verif.Lemmas.Res

/-! A more general form of `Res.Safe`, in which the conclusion is about the result and the objects left. -/

namespace Dstu

namespace Res

variable {α β : Type}

/-- Started with the objects `pre` and any others, the program is free of undefined behaviour, and leaves the others and objects that satisfy `post`. -/
def Runs (H : Fate → Prop) (f : Res α) (pre : Multiset Nat) (post : α → Multiset Nat → Prop) : Prop :=
  ∀ w c F, H w → c.live = pre + F → ∃ r c' M, f w c = some (r, c') ∧ c'.live = M + F ∧ post r M

variable {H : Fate → Prop} {pre : Multiset Nat} {post : β → Multiset Nat → Prop}

theorem Runs.safe {f : Res β} {p : β → Multiset Nat} (h : Runs H f pre fun r M => M = p r) : Safe H f pre p := by
  intro w c F hw hc
  obtain ⟨r, c', M, e, l, rfl⟩ := h w c F hw hc
  exact ⟨r, c', e, l⟩

theorem Safe.runs {f : Res β} {p : β → Multiset Nat} (h : Safe H f pre p) : Runs H f pre fun r M => M = p r := by
  intro w c F hw hc
  obtain ⟨r, c', e, l⟩ := h w c F hw hc
  exact ⟨r, c', _, e, l, rfl⟩

theorem Runs.safeIf {f : Res β} {p : β → Multiset Nat} {ok : β → Prop} (h : Runs H f pre fun r M => ∃ L, M = p r + L ∧ (ok r → L = 0)) : SafeIf H f pre p ok := by
  intro w c F hw hc
  obtain ⟨r, c', M, e, l, L, rfl, h⟩ := h w c F hw hc
  exact ⟨r, c', L, e, l, h⟩

theorem Runs.weaken {H' : Fate → Prop} {f : Res β} (h : Runs H f pre post) (i : ∀ w, H' w → H w) : Runs H' f pre post :=
  fun w c F hw => h w c F (i w hw)

theorem Runs.mono {f : Res β} {p : β → Multiset Nat → Prop} (h : Runs H f pre p) (i : ∀ r M, p r M → post r M) : Runs H f pre post := by
  intro w c F hw hc
  obtain ⟨r, c', M, e, l, hp⟩ := h w c F hw hc
  exact ⟨r, c', M, e, l, i r M hp⟩

theorem Runs.weakly {f : Res β} (hk : ∀ w, H w → Never .weak w) (h : Runs Smooth f pre post) : Runs H (weakly f) pre post :=
  fun w c F hw hc => h _ c F (smooth_weakly (hk w hw)) hc

theorem Runs.pure {a : β} (h : post a pre) : Runs H (Pure.pure a) pre post := by
  intro w c F _ hc
  exact ⟨a, c, pre, rfl, hc, h⟩

theorem Runs.bind {f : Res α} {g : α → Res β} {a : Multiset Nat} {p : α → Multiset Nat → Prop} (hf : Runs H f a p) (R : Multiset Nat) (e : pre = a + R)
    (hg : ∀ r M, p r M → Runs H (g r) (M + R) post) : Runs H (f >>= g) pre post := by
  intro w c F hw hc
  obtain ⟨r, c1, M, e1, l1, hp⟩ := hf w c (R + F) hw (by rw [hc, e, add_assoc])
  obtain ⟨s, c2, M2, e2, l2, hq⟩ := hg r M hp w c1 F hw (by rw [l1, add_assoc])
  refine ⟨s, c2, M2, ?_, l2, hq⟩
  show Res.bind f g w c = _
  unfold Res.bind
  rw [e1]
  exact e2

/-- The last call. -/
theorem Runs.last {f : Res β} {a : Multiset Nat} {p : β → Multiset Nat → Prop} (hf : Runs H f a p) (R : Multiset Nat) (e : pre = a + R)
    (hg : ∀ r M, p r M → post r (M + R)) : Runs H f pre post := by
  intro w c F hw hc
  obtain ⟨r, c1, M, e1, l1, hp⟩ := hf w c (R + F) hw (by rw [hc, e, add_assoc])
  exact ⟨r, c1, M + R, e1, by rw [l1, add_assoc], hg r M hp⟩

theorem Runs.bindSafe {f : Res α} {g : α → Res β} {a : Multiset Nat} {b : α → Multiset Nat} (hf : Safe H f a b) (R : Multiset Nat) (e : pre = a + R)
    (hg : ∀ r, Runs H (g r) (b r + R) post) : Runs H (f >>= g) pre post :=
  Runs.bind hf.runs R e fun r M h => by rw [h]; exact hg r

theorem runs_ask {k : Kind} {g : Bool → Res β} (h : ∀ b, Runs H (g b) pre post) : Runs H (ask k >>= g) pre post :=
  Runs.bindSafe (safe_ask k) pre (zero_add _).symm fun b => (zero_add pre).symm ▸ h b

theorem runs_ask_ok {k : Kind} {g : Bool → Res β} (hn : ∀ w, H w → Never k w) (h : Runs H (g true) pre post) : Runs H (ask k >>= g) pre post := by
  intro w c F hw hc
  have hr := hn w hw c.tick
  obtain ⟨r, c', M, e, l⟩ := h w { c with tick := c.tick + 1, faults := c.faults + if k ≠ .data ∧ w k c.tick = false then 1 else 0 } F hw hc
  refine ⟨r, c', M, ?_, l⟩
  show g (w k c.tick) w _ = _
  rw [hr] at e ⊢
  exact e

theorem runs_num {b : Bool} {g : Unit → Res β} (hb : b = true) (h : Runs H (g ()) pre post) : Runs H (num b >>= g) pre post := by
  subst hb
  exact h

theorem runs_pure {a : α} {g : α → Res β} (h : Runs H (g a) pre post) : Runs H ((Pure.pure a : Res α) >>= g) pre post := h

theorem runs_assoc {γ : Type} {f : Res γ} {g : γ → Res α} {h : α → Res β} (hs : Runs H (f >>= fun x => g x >>= h) pre post) : Runs H ((f >>= g) >>= h) pre post := by
  rw [bind_assoc']
  exact hs

theorem runs_ite {c : Prop} [Decidable c] {f f' : Res β} (h1 : c → Runs H f pre post) (h2 : ¬c → Runs H f' pre post) : Runs H (if c then f else f') pre post := by
  split
  · exact h1 ‹_›
  · exact h2 ‹_›

theorem runs_ite_bind {c : Prop} [Decidable c] {f f' : Res α} {g : α → Res β} (h1 : c → Runs H (f >>= g) pre post) (h2 : ¬c → Runs H (f' >>= g) pre post) :
    Runs H ((if c then f else f') >>= g) pre post := by
  split
  · exact h1 ‹_›
  · exact h2 ‹_›

theorem runs_alloc {k : Kind} {g : Option Nat → Res β} (h0 : Runs H (g none) pre post) (h1 : ∀ p, Runs H (g (some p)) ({p} + pre) post) : Runs H (alloc k >>= g) pre post :=
  Runs.bindSafe (safe_alloc k) pre (zero_add _).symm fun r => by
    cases r with
    | none => exact (zero_add pre).symm ▸ h0
    | some p => exact h1 p

theorem runs_alloc_ok {k : Kind} {g : Option Nat → Res β} (hn : ∀ w, H w → Never k w) (h : ∀ p, Runs H (g (some p)) ({p} + pre) post) : Runs H (alloc k >>= g) pre post := by
  intro w c F hw hc
  have hr := hn w hw c.tick
  obtain ⟨r, c', M, e, l⟩ := h c.next w { c with live := {c.next} + c.live, next := c.next + 1, tick := c.tick + 1 } F hw (by simp only [hc, add_assoc])
  refine ⟨r, c', M, ?_, l⟩
  show Res.bind (alloc k) g w c = _
  unfold Res.bind alloc
  rw [if_pos hr]
  exact e

theorem runs_free {p : Option Nat} {g : Unit → Res β} (R : Multiset Nat) (e : pre = own p + R) (h : Runs H (g ()) R post) : Runs H (free p >>= g) pre post :=
  Runs.bindSafe (safe_free p) R e fun _ => (zero_add R).symm ▸ h

theorem runs_free_some {p : Nat} {g : Unit → Res β} (R : Multiset Nat) (e : pre = {p} + R) (h : Runs H (g ()) R post) : Runs H (free (some p) >>= g) pre post :=
  runs_free R e h

theorem runs_free_none {g : Unit → Res β} (h : Runs H (g ()) pre post) : Runs H (free none >>= g) pre post := h

theorem runs_use {p : Nat} {g : Unit → Res β} (R : Multiset Nat) (e : pre = {p} + R) (h : Runs H (g ()) pre post) : Runs H (use (some p) >>= g) pre post :=
  Runs.bindSafe (safe_use p) R e fun _ => e ▸ h

theorem runs_zero {f : Res α} {g : α → Res β} (hf : Safe H f 0 fun _ => 0) (h : ∀ a, Runs H (g a) pre post) : Runs H (f >>= g) pre post :=
  Runs.bindSafe hf pre (zero_add _).symm fun a => (zero_add pre).symm ▸ h a

theorem runs_own {f : Res (Option Nat)} {g : Option Nat → Res β} (hf : Safe H f 0 own) (h0 : Runs H (g none) pre post) (h1 : ∀ p, Runs H (g (some p)) ({p} + pre) post) :
    Runs H (f >>= g) pre post :=
  Runs.bindSafe hf pre (zero_add _).symm fun r => by
    cases r with
    | none => exact (zero_add pre).symm ▸ h0
    | some p => exact h1 p

theorem runs_if_tt {f f' : Res β} (h : Runs H f pre post) : Runs H (if true = true then f else f') pre post := h
theorem runs_if_ff {f f' : Res β} (h : Runs H f' pre post) : Runs H (if false = true then f else f') pre post := h
theorem runs_if_nt {f f' : Res β} (h : Runs H f' pre post) : Runs H (if (!true) = true then f else f') pre post := h
theorem runs_if_nf {f f' : Res β} (h : Runs H f pre post) : Runs H (if (!false) = true then f else f') pre post := h
theorem runs_ite_some {p : Nat} {f f' : Res β} (h : Runs H f' pre post) : Runs H (if some p = none then f else f') pre post := by
  rw [if_neg (by simp)]
  exact h
theorem runs_ite_none {f f' : Res β} (h : Runs H f pre post) : Runs H (if (none : Option Nat) = none then f else f') pre post := by
  rw [if_pos rfl]
  exact h
theorem runs_bind_some {p : Nat} {f f' : Res α} {g : α → Res β} (h : Runs H (f' >>= g) pre post) : Runs H ((if some p = none then f else f') >>= g) pre post := by
  rw [if_neg (by simp)]
  exact h
theorem runs_bind_none {f f' : Res α} {g : α → Res β} (h : Runs H (f >>= g) pre post) : Runs H ((if (none : Option Nat) = none then f else f') >>= g) pre post := by
  rw [if_pos rfl]
  exact h
theorem runs_bind_tt {f f' : Res α} {g : α → Res β} (h : Runs H (f >>= g) pre post) : Runs H ((if true = true then f else f') >>= g) pre post := h
theorem runs_bind_ff {f f' : Res α} {g : α → Res β} (h : Runs H (f' >>= g) pre post) : Runs H ((if false = true then f else f') >>= g) pre post := h
theorem runs_bind_nt {f f' : Res α} {g : α → Res β} (h : Runs H (f' >>= g) pre post) : Runs H ((if (!true) = true then f else f') >>= g) pre post := h
theorem runs_bind_nf {f f' : Res α} {g : α → Res β} (h : Runs H (f >>= g) pre post) : Runs H ((if (!false) = true then f else f') >>= g) pre post := h

/-- An equation between collections, to take what is left as the result. -/
theorem runs_conv {f : Res β} {pre' : Multiset Nat} (e : pre = pre') (h : Runs H f pre' post) : Runs H f pre post := e ▸ h

end Res

/-- One step of symbolic execution. -/
macro "runs1" : tactic => `(tactic| with_reducible first
  | (refine Res.runs_ite_some ?_)
  | (refine Res.runs_ite_none ?_)
  | (refine Res.runs_if_tt ?_)
  | (refine Res.runs_if_ff ?_)
  | (refine Res.runs_if_nt ?_)
  | (refine Res.runs_if_nf ?_)
  | (refine Res.runs_num (by first | rfl | assumption | simp_all) ?_)
  | (refine Res.runs_ask_ok (by assumption) ?_)
  | (refine Res.runs_alloc_ok (by assumption) fun p => ?_)
  | (refine Res.runs_ask fun b => ?_)
  | (refine Res.runs_pure ?_)
  | (refine Res.runs_alloc ?_ fun p => ?_)
  | (refine Res.runs_assoc ?_)
  | (refine Res.runs_zero (Res.safe_calls _) fun b => ?_)
  | (refine Res.runs_bind_some ?_)
  | (refine Res.runs_bind_none ?_)
  | (refine Res.runs_bind_tt ?_)
  | (refine Res.runs_bind_ff ?_)
  | (refine Res.runs_bind_nt ?_)
  | (refine Res.runs_bind_nf ?_)
  | (refine Res.runs_ite_bind (fun h => ?_) (fun h => ?_))
  | (refine Res.runs_ite (fun h => ?_) (fun h => ?_))
  | (refine Res.runs_free_none ?_)
  | (refine Res.runs_free_some _ (by place) ?_)
  | (refine Res.runs_free _ (by place) ?_)
  | (refine Res.runs_use _ (by place) ?_)
  | (refine Res.Runs.pure ?_))

end Dstu
