import Verif.Model.KeyRun
import Verif.Lemmas.HexSbox
import Mathlib.Tactic.Tauto

/-! Every live object belongs to one context or one key. -/

namespace Dstu

open Spec

/-- To whom an object belongs. -/
inductive Owner where
  | ctx (c : Nat)
  | key (p : Nat)
  | leaked
deriving DecidableEq

/-- The value a context pointer stands for, and the addresses it uses. -/
def CtxAt (dflt : EcGroup) (cell : Nat → Option KObj) (foot : Nat → Prop) : Option Nat → Option CtxVal → Prop
  | none, none => ∀ x, ¬ foot x
  | some a, some v => ∃ o, cell a = some (.ctx o) ∧ o.type = v.type ∧
      (match o.group with
        | none => v.curve = dflt
        | some b => cell b = some (.group v.curve)) ∧
      (match o.sbox with
        | none => v.sbox = none
        | some b => ∃ sb, cell b = some (.sbox sb) ∧ v.sbox = some sb) ∧
      ∀ x, foot x ↔ x = a ∨ o.group = some x ∨ o.sbox = some x
  | _, _ => False

/-- The value a key pointer stands for, and the addresses it uses. -/
def KeyAt (cell : Nat → Option KObj) (foot : Nat → Prop) : KeyType × Option Nat → EvpPkey → Prop
  | (t, none), v => v = ⟨t, none⟩ ∧ ∀ x, ¬ foot x
  | (t, some a), v => ∃ o sb, cell a = some (.key o) ∧ v = ⟨t, some ⟨o.group, sb, o.priv, o.pub⟩⟩ ∧
      (match o.sbox with
        | none => sb = none
        | some b => ∃ s, cell b = some (.sbox s) ∧ sb = some s) ∧
      ∀ x, foot x ↔ x = a ∨ o.sbox = some x

/-- The state of memory corresponds to the values. -/
structure Rep (dflt : EcGroup) (s : KState) (w : KeyWorld) (own : Nat → Option Owner) : Prop where
  live : ∀ x, (s.mem.cell x).isSome ↔ (own x).isSome
  bound : ∀ x, s.mem.next ≤ x → own x = none
  ctx : ∀ c, CtxAt dflt s.mem.cell (fun x => own x = some (.ctx c)) (s.data c) (w.ctx c)
  key : ∀ p, KeyAt s.mem.cell (fun x => own x = some (.key p)) (s.pkey p) (w.key p)

theorem CtxAt.congr {dflt cell cell' foot foot' p v} (h : CtxAt dflt cell foot p v)
    (hf : ∀ x, foot x ↔ foot' x) (hc : ∀ x, foot x → cell' x = cell x) : CtxAt dflt cell' foot' p v := by
  match p, v, h with
  | none, none, h => exact fun x hx => h x ((hf x).mpr hx)
  | some a, some v, h =>
    obtain ⟨o, h1, h2, h3, h4, h5⟩ := h
    refine ⟨o, by rw [hc a ((h5 a).mpr (Or.inl rfl)), h1], h2, ?_, ?_, fun x => by rw [← hf, h5]⟩
    · cases hg : o.group with
      | none => rw [hg] at h3; exact h3
      | some b =>
        rw [hg] at h3
        simp only at h3 ⊢
        rw [hc b ((h5 b).mpr (Or.inr (Or.inl hg))), h3]
    · cases hg : o.sbox with
      | none => rw [hg] at h4; exact h4
      | some b =>
        rw [hg] at h4
        simp only at h4 ⊢
        rw [hc b ((h5 b).mpr (Or.inr (Or.inr hg)))]
        exact h4

theorem KeyAt.congr {cell cell' foot foot' p v} (h : KeyAt cell foot p v)
    (hf : ∀ x, foot x ↔ foot' x) (hc : ∀ x, foot x → cell' x = cell x) : KeyAt cell' foot' p v := by
  match p, v, h with
  | (t, none), v, h => exact ⟨h.1, fun x hx => h.2 x ((hf x).mpr hx)⟩
  | (t, some a), v, h =>
    obtain ⟨o, sb, h1, h2, h3, h5⟩ := h
    refine ⟨o, sb, by rw [hc a ((h5 a).mpr (Or.inl rfl)), h1], h2, ?_, fun x => by rw [← hf, h5]⟩
    cases hg : o.sbox with
    | none => rw [hg] at h3; exact h3
    | some b =>
      rw [hg] at h3
      simp only at h3 ⊢
      rw [hc b ((h5 b).mpr (Or.inr hg))]
      exact h3

open Classical in
/-- Ownership after `o` has given up what it had and taken `foot`. -/
noncomputable def reown (own : Nat → Option Owner) (o : Owner) (foot : Nat → Prop) : Nat → Option Owner := fun x =>
  if foot x then some o else if own x = some o then none else own x

theorem reown_self (own : Nat → Option Owner) (o : Owner) (foot : Nat → Prop) (x : Nat) :
    reown own o foot x = some o ↔ foot x := by
  unfold reown
  by_cases h : foot x
  · simp [h]
  · by_cases h' : own x = some o
    · simp [h, h']
    · simp [h, h']

theorem reown_other (own : Nat → Option Owner) (o u : Owner) (foot : Nat → Prop) (hu : u ≠ o)
    (hf : ∀ x, foot x → own x = some o ∨ own x = none) (x : Nat) : reown own o foot x = some u ↔ own x = some u := by
  unfold reown
  by_cases h : foot x
  · rcases hf x h with h' | h' <;> simp [h, h', Ne.symm hu]
  · by_cases h' : own x = some o
    · simp [h, h', Ne.symm hu]
    · simp [h, h']

/-- What has to be known of a new memory in which only objects of `o` and new objects differ. -/
structure Step (s : KState) (own : Nat → Option Owner) (o : Owner) (m : KMem) (foot : Nat → Prop) : Prop where
  mine : ∀ x, foot x → own x = some o ∨ s.mem.next ≤ x
  frame : ∀ x, ¬ foot x → own x ≠ some o → m.cell x = s.mem.cell x
  freed : ∀ x, ¬ foot x → own x = some o → m.cell x = none
  live : ∀ x, foot x → (m.cell x).isSome
  next : s.mem.next ≤ m.next
  bound : ∀ x, foot x → x < m.next

section

variable {dflt : EcGroup} {s : KState} {w : KeyWorld} {own : Nat → Option Owner} {m : KMem} {foot : Nat → Prop}

theorem Step.live' {o} (h : Rep dflt s w own) (hs : Step s own o m foot) :
    ∀ x, (m.cell x).isSome ↔ (reown own o foot x).isSome := by
  intro x
  unfold reown
  by_cases hf : foot x
  · simp [hf, hs.live x hf]
  · by_cases ho : own x = some o
    · simp [hf, ho, hs.freed x hf ho]
    · simp only [hf, ho, if_false]
      rw [hs.frame x hf ho, h.live]

theorem Step.bound' {o} (h : Rep dflt s w own) (hs : Step s own o m foot) :
    ∀ x, m.next ≤ x → reown own o foot x = none := by
  intro x hx
  have h1 := h.bound x (le_trans hs.next hx)
  have h2 : ¬ foot x := fun hf => absurd (hs.bound x hf) (by omega)
  simp [reown, h1, h2]

theorem Step.other {o} (h : Rep dflt s w own) (hs : Step s own o m foot) (u : Owner) (hu : u ≠ o) :
    (∀ x, own x = some u ↔ reown own o foot x = some u) ∧ (∀ x, own x = some u → m.cell x = s.mem.cell x) := by
  have hm : ∀ x, foot x → own x = some o ∨ own x = none := fun x hx => (hs.mine x hx).imp id (h.bound x)
  refine ⟨fun x => (reown_other own o u foot hu hm x).symm, fun x hx => hs.frame x ?_ ?_⟩
  · intro hf
    rcases hm x hf with h' | h' <;> rw [h'] at hx
    · exact hu (Option.some.inj hx).symm
    · cases hx
  · rw [hx]
    exact fun h => hu (Option.some.inj h)

/-- The lost objects are the same. -/
def Keeps (own own' : Nat → Option Owner) : Prop := ∀ x, own' x = some .leaked ↔ own x = some .leaked

theorem Keeps.refl (own : Nat → Option Owner) : Keeps own own := fun _ => Iff.rfl

theorem Keeps.trans {a b c : Nat → Option Owner} (h : Keeps a b) (k : Keeps b c) : Keeps a c := fun x => (k x).trans (h x)

theorem Step.keeps {o} (h : Rep dflt s w own) (hs : Step s own o m foot) (ho : o ≠ .leaked) : Keeps own (reown own o foot) :=
  fun x => ((hs.other h .leaked (Ne.symm ho)).1 x).symm

/-- A context changes. -/
theorem Rep.setCtx (h : Rep dflt s w own) (c : Nat) (hs : Step s own (.ctx c) m foot) (p : Option Nat) (v : Option CtxVal)
    (hv : CtxAt dflt m.cell foot p v) :
    Rep dflt ({ s with mem := m }.setData c p) (w.setCtx c v) (reown own (.ctx c) foot) ∧
      Keeps own (reown own (.ctx c) foot) := by
  refine ⟨?_, hs.keeps h (by simp)⟩
  refine ⟨hs.live' h, hs.bound' h, fun d => ?_, fun q => ?_⟩
  · by_cases hd : d = c
    · subst hd
      simp only [KState.setData, KeyWorld.setCtx, if_true]
      exact hv.congr (fun x => (reown_self own _ foot x).symm) (fun x _ => rfl)
    · simp only [KState.setData, KeyWorld.setCtx, if_neg hd]
      obtain ⟨h1, h2⟩ := hs.other h (.ctx d) (by simpa using hd)
      exact (h.ctx d).congr h1 h2
  · simp only [KState.setData, KeyWorld.setCtx]
    obtain ⟨h1, h2⟩ := hs.other h (.key q) (by simp)
    exact (h.key q).congr h1 h2

/-- A key changes. -/
theorem Rep.setKey (h : Rep dflt s w own) (p : Nat) (hs : Step s own (.key p) m foot) (q : KeyType × Option Nat) (v : EvpPkey)
    (hv : KeyAt m.cell foot q v) :
    Rep dflt ({ s with mem := m }.setPkey p q) (w.setKey p v) (reown own (.key p) foot) ∧
      Keeps own (reown own (.key p) foot) := by
  refine ⟨?_, hs.keeps h (by simp)⟩
  refine ⟨hs.live' h, hs.bound' h, fun d => ?_, fun d => ?_⟩
  · simp only [KState.setPkey, KeyWorld.setKey]
    obtain ⟨h1, h2⟩ := hs.other h (.ctx d) (by simp)
    exact (h.ctx d).congr h1 h2
  · by_cases hd : d = p
    · subst hd
      simp only [KState.setPkey, KeyWorld.setKey, if_true]
      exact hv.congr (fun x => (reown_self own _ foot x).symm) (fun x _ => rfl)
    · simp only [KState.setPkey, KeyWorld.setKey, if_neg hd]
      obtain ⟨h1, h2⟩ := hs.other h (.key d) (by simpa using hd)
      exact (h.key d).congr h1 h2

theorem setCtx_self (w : KeyWorld) (c : Nat) (v) (h : w.ctx c = v) : w.setCtx c v = w := by
  unfold KeyWorld.setCtx
  congr
  funext i
  split
  · subst_vars; rfl
  · rfl

theorem setKey_self (w : KeyWorld) (p : Nat) : w.setKey p (w.key p) = w := by
  unfold KeyWorld.setKey
  congr
  funext i
  split
  · subst_vars; rfl
  · rfl

theorem setData_self (s : KState) (c : Nat) (v) (h : s.data c = v) : s.setData c v = s := by
  unfold KState.setData
  congr
  funext i
  split
  · subst_vars; rfl
  · rfl

theorem setPkey_self (s : KState) (p : Nat) : s.setPkey p (s.pkey p) = s := by
  unfold KState.setPkey
  congr
  funext i
  split
  · subst_vars; rfl
  · rfl

/-- Addresses not yet used are not live. -/
theorem Rep.fresh (h : Rep dflt s w own) (x : Nat) (hx : s.mem.next ≤ x) : s.mem.cell x = none := by
  have := h.live x
  rw [h.bound x hx] at this
  simpa using this

@[simp] theorem put_cell (m : KMem) (a : Nat) (o) (x : Nat) : (m.put a o).cell x = if x = a then o else m.cell x := rfl
@[simp] theorem put_next (m : KMem) (a : Nat) (o) : (m.put a o).next = m.next := rfl
@[simp] theorem alloc_cell (m : KMem) (o) (x : Nat) : (m.alloc o).2.cell x = if x = m.next then some o else m.cell x := rfl
@[simp] theorem alloc_next (m : KMem) (o) : (m.alloc o).2.next = m.next + 1 := rfl
@[simp] theorem alloc_addr (m : KMem) (o) : (m.alloc o).1 = m.next := rfl

theorem free_live (m : KMem) (a : Nat) (o) (h : m.cell a = some o) : m.free a = some (m.put a none) := by
  simp [KMem.free, h]

/-- Releasing an optional pointer that is live if present. -/
theorem freeOpt_live (m : KMem) (p : Option Nat) (h : ∀ a, p = some a → (m.cell a).isSome) :
    ∃ m', m.freeOpt p = some m' ∧ m'.next = m.next ∧ ∀ x, m'.cell x = if p = some x then none else m.cell x := by
  cases p with
  | none => exact ⟨m, rfl, rfl, by simp⟩
  | some a =>
    refine ⟨m.put a none, by simp [KMem.freeOpt, KMem.free, h a rfl], rfl, fun x => ?_⟩
    simp only [put_cell, Option.some.injEq, eq_comm]

theorem Rep.data_none (h : Rep dflt s w own) {c : Nat} (hc : w.ctx c = none) :
    s.data c = none ∧ ∀ x, own x ≠ some (.ctx c) := by
  have := h.ctx c
  rw [hc] at this
  cases hd : s.data c with
  | none => rw [hd] at this; exact ⟨rfl, this⟩
  | some a => rw [hd] at this; exact this.elim

theorem Rep.data_some (h : Rep dflt s w own) {c : Nat} {v : CtxVal} (hc : w.ctx c = some v) :
    ∃ a, s.data c = some a ∧ CtxAt dflt s.mem.cell (fun x => own x = some (.ctx c)) (some a) (some v) := by
  have := h.ctx c
  rw [hc] at this
  cases hd : s.data c with
  | none => rw [hd] at this; exact this.elim
  | some a => rw [hd] at this; exact ⟨a, rfl, this⟩

theorem init_rep (h : Rep dflt s w own) (c : Nat) (t : KeyType) (hc : w.ctx c = none) :
    ∃ s' own', dstu_pkey_init s c t = (1, s') ∧ Rep dflt s' (w.setCtx c (some ⟨t, dflt, none⟩)) own' ∧ Keeps own own' := by
  obtain ⟨hd, hn⟩ := h.data_none hc
  refine ⟨_, _, rfl, h.setCtx (foot := fun x => x = s.mem.next) c ?_ _ _ ?_⟩
  · refine ⟨fun x hx => Or.inr (by omega), fun x hx _ => ?_, fun x _ hx => absurd hx (hn x), fun x hx => ?_, ?_, fun x hx => ?_⟩
    · simp [hx]
    · simp [hx]
    · simp
    · simp [hx]
  · exact ⟨⟨t, none, none⟩, by simp, rfl, rfl, rfl, by simp⟩

/-- The objects of a context. -/
theorem ctx_parts {cell : Nat → Option KObj} {foot : Nat → Prop} {a : Nat} {v : CtxVal}
    (h : CtxAt dflt cell foot (some a) (some v)) : ∃ o : CtxObj, cell a = some (.ctx o) ∧ o.type = v.type ∧
      (∀ b, o.group = some b → cell b = some (.group v.curve)) ∧ (o.group = none → v.curve = dflt) ∧
      (∀ b, o.sbox = some b → ∃ sb, cell b = some (.sbox sb) ∧ v.sbox = some sb) ∧ (o.sbox = none → v.sbox = none) ∧
      ∀ x, foot x ↔ x = a ∨ o.group = some x ∨ o.sbox = some x := by
  obtain ⟨o, h1, h2, h3, h4, h5⟩ := h
  refine ⟨o, h1, h2, ?_, ?_, ?_, ?_, h5⟩
  · intro b hb; rw [hb] at h3; exact h3
  · intro hb; rw [hb] at h3; exact h3
  · intro b hb; rw [hb] at h4; exact h4
  · intro hb; rw [hb] at h4; exact h4

theorem ctx_of_parts {cell : Nat → Option KObj} {foot : Nat → Prop} {a : Nat} {v : CtxVal} (o : CtxObj)
    (h1 : cell a = some (.ctx o)) (h2 : o.type = v.type) (h3 : ∀ b, o.group = some b → cell b = some (.group v.curve))
    (h3' : o.group = none → v.curve = dflt) (h4 : ∀ b, o.sbox = some b → ∃ sb, cell b = some (.sbox sb) ∧ v.sbox = some sb)
    (h4' : o.sbox = none → v.sbox = none) (h5 : ∀ x, foot x ↔ x = a ∨ o.group = some x ∨ o.sbox = some x) :
    CtxAt dflt cell foot (some a) (some v) := by
  refine ⟨o, h1, h2, ?_, ?_, h5⟩
  · cases hg : o.group with
    | none => exact h3' hg
    | some b => exact h3 b hg
  · cases hg : o.sbox with
    | none => exact h4' hg
    | some b => exact h4 b hg

theorem cleanup_rep (h : Rep dflt s w own) (c : Nat) :
    ∃ s' own', dstu_pkey_cleanup s c = some s' ∧ Rep dflt s' (w.setCtx c none) own' ∧ Keeps own own' := by
  cases hc : w.ctx c with
  | none =>
    obtain ⟨hd, _⟩ := h.data_none hc
    exact ⟨s, own, by simp [dstu_pkey_cleanup, hd], by rw [setCtx_self w c none hc]; exact ⟨h, Keeps.refl own⟩⟩
  | some v =>
    obtain ⟨a, hd, hv⟩ := h.data_some hc
    obtain ⟨o, h1, h2, h3, h3', h4, h4', h5⟩ := ctx_parts hv
    obtain ⟨m1, e1, n1, c1⟩ := freeOpt_live s.mem o.group (fun b hb => by simp [h3 b hb])
    obtain ⟨m2, e2, n2, c2⟩ := freeOpt_live m1 o.sbox (fun b hb => by
      obtain ⟨sb, hb', _⟩ := h4 b hb
      rw [c1]
      split
      · rename_i hg; rw [h3 b hg] at hb'; cases hb'
      · simp [hb'])
    have ha : m2.cell a = some (.ctx o) := by
      rw [c2, c1]
      split
      · rename_i hg; obtain ⟨sb, hb', _⟩ := h4 a hg; rw [h1] at hb'; cases hb'
      · split
        · rename_i hg; have := h3 a hg; rw [h1] at this; cases this
        · exact h1
    have e3 := free_live m2 a _ ha
    have hctx : s.mem.ctx a = some o := by simp [KMem.ctx, h1]
    refine ⟨_, _, by simp [dstu_pkey_cleanup, hd, DSTU_KEY_CTX_free, hctx, e1, e2, e3]; rfl,
      h.setCtx (foot := fun _ => False) c ⟨by simp, fun x _ hx => ?_, fun x _ hx => ?_, by simp, ?_, by simp⟩ none none ?_⟩
    · have hx' := mt (h5 x).mpr hx
      simp only [not_or] at hx'
      simp [c2, c1, hx'.1, hx'.2.1, hx'.2.2]
    · have hx' := (h5 x).mp hx
      simp only [put_cell, c2, c1]
      rcases hx' with hx' | hx' | hx' <;> simp [hx']
    · simp [n1, n2]
    · exact fun _ => id

theorem copy_rep (h : Rep dflt s w own) (dst src : Nat) (hc : w.ctx dst = none) :
    ∃ s' own', dstu_pkey_copy s dst src = some (1, s') ∧ Rep dflt s' (w.setCtx dst (w.ctx src)) own' ∧ Keeps own own' := by
  obtain ⟨_, hn⟩ := h.data_none hc
  cases hv : w.ctx src with
  | none =>
    obtain ⟨hd, _⟩ := h.data_none hv
    exact ⟨s, own, by simp [dstu_pkey_copy, hd], by rw [setCtx_self w dst none hc]; exact ⟨h, Keeps.refl own⟩⟩
  | some v =>
    obtain ⟨a, hd, hv⟩ := h.data_some hv
    obtain ⟨o, h1, h2, h3, h3', h4, h4', h5⟩ := ctx_parts hv
    have hctx : s.mem.ctx a = some o := by simp [KMem.ctx, h1]
    have lt : ∀ x ob, s.mem.cell x = some ob → x < s.mem.next := by
      intro x ob hx
      by_contra hcon
      rw [h.fresh x (by omega)] at hx
      cases hx
    cases hg : o.group with
    | none =>
      cases hs : o.sbox with
      | none =>
        refine ⟨_, _, by simp [dstu_pkey_copy, hd, DSTU_KEY_CTX_copy, hctx, hg, hs, copyGroup, copySbox]; rfl,
          h.setCtx (foot := fun x => x = s.mem.next) dst ⟨fun x hx => Or.inr (by omega), fun x hx _ => ?_,
            fun x _ hx => absurd hx (hn x), fun x hx => ?_, ?_, fun x hx => ?_⟩ _ _ ?_⟩
        · simp [hx, DSTU_KEY_CTX_new]
        · simp [hx, DSTU_KEY_CTX_new]
        · simp [DSTU_KEY_CTX_new]
        · simp [hx, DSTU_KEY_CTX_new]
        · refine ctx_of_parts ⟨o.type, none, none⟩ (by simp [DSTU_KEY_CTX_new]) h2 (by simp) (fun _ => h3' hg) (by simp)
            (fun _ => h4' hs) (by simp [DSTU_KEY_CTX_new])
      | some b =>
        obtain ⟨sb, hb, hb'⟩ := h4 b hs
        have := lt b _ hb
        have hsb : ((s.mem.alloc (.ctx ⟨o.type, none, none⟩)).2).sbox b = some sb := by
          have : b ≠ s.mem.next := by omega
          simp [KMem.sbox, hb, this]
        refine ⟨_, _, by simp [dstu_pkey_copy, hd, DSTU_KEY_CTX_copy, hctx, hg, hs, copyGroup, copySbox, copy_sbox, DSTU_KEY_CTX_new, hsb]; rfl,
          h.setCtx (foot := fun x => x = s.mem.next ∨ x = s.mem.next + 1) dst ⟨fun x hx => Or.inr (by omega), fun x hx _ => ?_,
            fun x _ hx => absurd hx (hn x), fun x hx => ?_, ?_, fun x hx => ?_⟩ _ _ ?_⟩
        · simp only [not_or] at hx; simp [hx]
        · rcases hx with rfl | rfl <;> simp
        · simp; omega
        · rcases hx with rfl | rfl <;> simp
        · refine ctx_of_parts ⟨o.type, none, some (s.mem.next + 1)⟩ (by simp) h2 (by simp) (fun _ => h3' hg) ?_
            (by simp) (by intro x; simp; tauto)
          intro b hb
          cases hb
          exact ⟨sb, by simp, hb'⟩
    | some d =>
      have hgd := h3 d hg
      have := lt d _ hgd
      have hgr : ((s.mem.alloc (.ctx ⟨o.type, none, none⟩)).2).group d = some v.curve := by
        have : d ≠ s.mem.next := by omega
        simp [KMem.group, hgd, this]
      cases hs : o.sbox with
      | none =>
        refine ⟨_, _, by simp [dstu_pkey_copy, hd, DSTU_KEY_CTX_copy, hctx, hg, hs, copyGroup, copySbox, EC_GROUP_dup, DSTU_KEY_CTX_new, hgr]; rfl,
          h.setCtx (foot := fun x => x = s.mem.next ∨ x = s.mem.next + 1) dst ⟨fun x hx => Or.inr (by omega), fun x hx _ => ?_,
            fun x _ hx => absurd hx (hn x), fun x hx => ?_, ?_, fun x hx => ?_⟩ _ _ ?_⟩
        · simp only [not_or] at hx; simp [hx]
        · rcases hx with rfl | rfl <;> simp
        · simp; omega
        · rcases hx with rfl | rfl <;> simp
        · refine ctx_of_parts ⟨o.type, some (s.mem.next + 1), none⟩ (by simp) h2 ?_ (by simp) (by simp)
            (fun _ => h4' hs) (by intro x; simp; tauto)
          intro b hb
          cases hb
          simp
      | some b =>
        obtain ⟨sb, hb, hb'⟩ := h4 b hs
        have := lt b _ hb
        have hsb : (((s.mem.alloc (.ctx ⟨o.type, none, none⟩)).2.alloc (.group v.curve)).2).sbox b = some sb := by
          have h1 : b ≠ s.mem.next := by omega
          have h2 : b ≠ s.mem.next + 1 := by omega
          simp [KMem.sbox, hb, h1, h2]
        refine ⟨_, _, by simp [dstu_pkey_copy, hd, DSTU_KEY_CTX_copy, hctx, hg, hs, copyGroup, copySbox, EC_GROUP_dup, copy_sbox, DSTU_KEY_CTX_new, hgr, hsb]; rfl,
          h.setCtx (foot := fun x => x = s.mem.next ∨ x = s.mem.next + 1 ∨ x = s.mem.next + 2) dst ⟨fun x hx => Or.inr (by omega), fun x hx _ => ?_,
            fun x _ hx => absurd hx (hn x), fun x hx => ?_, ?_, fun x hx => ?_⟩ _ _ ?_⟩
        · simp only [not_or] at hx; simp [hx]
        · rcases hx with rfl | rfl | rfl <;> simp
        · simp; omega
        · rcases hx with rfl | rfl | rfl <;> simp only [put_next, alloc_next] <;> omega
        · refine ctx_of_parts ⟨o.type, some (s.mem.next + 1), some (s.mem.next + 2)⟩ (by simp) h2 ?_ (by simp) ?_
            (by simp) (by intro x; simp; tauto)
          · intro b hb
            cases hb
            simp
          · intro b hb
            cases hb
            exact ⟨sb, by simp, hb'⟩

theorem Rep.lt (h : Rep dflt s w own) {x : Nat} {ob} (hx : s.mem.cell x = some ob) : x < s.mem.next := by
  by_contra hcon
  rw [h.fresh x (by omega)] at hx
  cases hx

/-- The S-box of a context is replaced by a new one. -/
theorem set_sbox_rep (h : Rep dflt s w own) (c a : Nat) (v : CtxVal) (hd : s.data c = some a)
    (hv : CtxAt dflt s.mem.cell (fun x => own x = some (.ctx c)) (some a) (some v)) (sb : Bytes 64) :
    ∃ m' own', DSTU_KEY_CTX_set (s.mem.alloc (.sbox sb)).2 a none (some s.mem.next) = some m' ∧
      Rep dflt { s with mem := m' } (w.setCtx c (some { v with sbox := some sb })) own' ∧ Keeps own own' := by
  obtain ⟨o, h1, h2, h3, h3', h4, h4', h5⟩ := ctx_parts hv
  have la := h.lt h1
  have hctx : (s.mem.alloc (.sbox sb)).2.ctx a = some o := by
    have : a ≠ s.mem.next := by omega
    simp [KMem.ctx, h1, this]
  obtain ⟨m1, e1, n1, c1⟩ := freeOpt_live (s.mem.alloc (.sbox sb)).2 o.sbox (fun b hb => by
    obtain ⟨sb, hb', _⟩ := h4 b hb
    simp only [alloc_cell]
    split <;> simp [hb'])
  have key := h.setCtx (m := m1.put a (some (.ctx { o with sbox := some s.mem.next })))
    (foot := fun x => x = a ∨ o.group = some x ∨ x = s.mem.next) c ⟨?_, ?_, ?_, ?_, ?_, ?_⟩ (some a) (some { v with sbox := some sb }) ?_
  · rw [setData_self { s with mem := m1.put a (some (.ctx { o with sbox := some s.mem.next })) } c (some a) hd] at key
    exact ⟨_, _, by simp [DSTU_KEY_CTX_set, CTX_set_group, CTX_set_sbox, hctx, e1], key⟩
  · rintro x (hx | hx | hx)
    · exact Or.inl ((h5 x).mpr (Or.inl hx))
    · exact Or.inl ((h5 x).mpr (Or.inr (Or.inl hx)))
    · exact Or.inr (by omega)
  · intro x hx hx'
    simp only [not_or] at hx
    have hx'' := mt (h5 x).mpr hx'
    simp only [not_or] at hx''
    simp [c1, hx.1, hx.2.2, hx''.2.2]
  · intro x hx hx'
    simp only [not_or] at hx
    have hx'' := (h5 x).mp hx'
    simp only [hx.1, hx.2.1, false_or] at hx''
    simp [c1, hx.1, hx'']
  · rintro x (hx | hx | hx)
    · simp [hx]
    · simp only [put_cell, c1, alloc_cell]
      by_cases hxa : x = a
      · simp [hxa]
      · have hns : o.sbox ≠ some x := by
          intro hs
          obtain ⟨sb', hb', _⟩ := h4 x hs
          rw [h3 x hx] at hb'
          cases hb'
        simp only [hxa, hns, if_false]
        split
        · rfl
        · simp [h3 x hx]
    · subst hx
      simp only [put_cell, c1, alloc_cell]
      split
      · rfl
      · have hns : o.sbox ≠ some s.mem.next := by
          intro hs
          obtain ⟨sb', hb', _⟩ := h4 _ hs
          have := h.lt hb'
          omega
        simp [hns]
  · simp [n1]
  · rintro x (hx | hx | hx)
    · simp only [put_next, n1, alloc_next]; omega
    · have := h.lt (h3 x hx)
      simp only [put_next, n1, alloc_next]; omega
    · simp only [put_next, n1, alloc_next]; omega
  · refine ctx_of_parts { o with sbox := some s.mem.next } (by simp) h2 ?_ h3' ?_ (by simp) ?_
    · intro b hb
      have hgb := h3 b hb
      have h1' : b ≠ a := by rintro rfl; rw [h1] at hgb; cases hgb
      have h2' : b ≠ s.mem.next := by have := h.lt hgb; omega
      have h3' : o.sbox ≠ some b := by
        intro hs
        obtain ⟨sb', hb', _⟩ := h4 _ hs
        rw [hgb] at hb'; cases hb'
      simp [c1, h1', h2', h3', hgb]
    · intro b hb
      cases hb
      have h1' : s.mem.next ≠ a := by omega
      have h3' : o.sbox ≠ some s.mem.next := by
        intro hs
        obtain ⟨sb', hb', _⟩ := h4 _ hs
        have := h.lt hb'
        omega
      exact ⟨sb, by simp [c1, h1', h3'], rfl⟩
    · intro x
      simp only [Option.some.injEq, eq_comm]

/-- The group of a context is replaced by a new one. -/
theorem set_group_rep (h : Rep dflt s w own) (c a : Nat) (v : CtxVal) (hd : s.data c = some a)
    (hv : CtxAt dflt s.mem.cell (fun x => own x = some (.ctx c)) (some a) (some v)) (g : EcGroup) :
    ∃ m' own', DSTU_KEY_CTX_set (s.mem.alloc (.group g)).2 a (some s.mem.next) none = some m' ∧
      Rep dflt { s with mem := m' } (w.setCtx c (some { v with curve := g })) own' ∧ Keeps own own' := by
  obtain ⟨o, h1, h2, h3, h3', h4, h4', h5⟩ := ctx_parts hv
  have la := h.lt h1
  have hctx : (s.mem.alloc (.group g)).2.ctx a = some o := by
    have : a ≠ s.mem.next := by omega
    simp [KMem.ctx, h1, this]
  obtain ⟨m1, e1, n1, c1⟩ := freeOpt_live (s.mem.alloc (.group g)).2 o.group (fun b hb => by
    have hb' := h3 b hb
    simp only [alloc_cell]
    split <;> simp [hb'])
  have key := h.setCtx (m := m1.put a (some (.ctx { o with group := some s.mem.next })))
    (foot := fun x => x = a ∨ x = s.mem.next ∨ o.sbox = some x) c ⟨?_, ?_, ?_, ?_, ?_, ?_⟩ (some a) (some { v with curve := g }) ?_
  · rw [setData_self { s with mem := m1.put a (some (.ctx { o with group := some s.mem.next })) } c (some a) hd] at key
    exact ⟨_, _, by simp [DSTU_KEY_CTX_set, CTX_set_group, CTX_set_sbox, hctx, e1], key⟩
  · rintro x (hx | hx | hx)
    · exact Or.inl ((h5 x).mpr (Or.inl hx))
    · exact Or.inr (by omega)
    · exact Or.inl ((h5 x).mpr (Or.inr (Or.inr hx)))
  · intro x hx hx'
    simp only [not_or] at hx
    have hx'' := mt (h5 x).mpr hx'
    simp only [not_or] at hx''
    simp [c1, hx.1, hx.2.1, hx''.2.1]
  · intro x hx hx'
    simp only [not_or] at hx
    have hx'' := (h5 x).mp hx'
    simp only [hx.1, hx.2.2, false_or, or_false] at hx''
    simp [c1, hx.1, hx'']
  · rintro x (hx | hx | hx)
    · simp [hx]
    · subst hx
      simp only [put_cell, c1, alloc_cell]
      split
      · rfl
      · have hns : o.group ≠ some s.mem.next := by
          intro hs
          have := h.lt (h3 _ hs)
          omega
        simp [hns]
    · obtain ⟨sb', hb', _⟩ := h4 x hx
      simp only [put_cell, c1, alloc_cell]
      by_cases hxa : x = a
      · simp [hxa]
      · have hns : o.group ≠ some x := by
          intro hs
          rw [h3 x hs] at hb'
          cases hb'
        simp only [hxa, hns, if_false]
        split
        · rfl
        · simp [hb']
  · simp [n1]
  · rintro x (hx | hx | hx)
    · simp only [put_next, n1, alloc_next]; omega
    · simp only [put_next, n1, alloc_next]; omega
    · obtain ⟨sb', hb', _⟩ := h4 x hx
      have := h.lt hb'
      simp only [put_next, n1, alloc_next]; omega
  · refine ctx_of_parts { o with group := some s.mem.next } (by simp) h2 ?_ (by simp) ?_ h4' ?_
    · intro b hb
      cases hb
      have h1' : s.mem.next ≠ a := by omega
      have h3' : o.group ≠ some s.mem.next := by
        intro hs
        have := h.lt (h3 _ hs)
        omega
      simp [c1, h1', h3']
    · intro b hb
      obtain ⟨sb', hb', hv'⟩ := h4 b hb
      have h1' : b ≠ a := by rintro rfl; rw [h1] at hb'; cases hb'
      have h2' : b ≠ s.mem.next := by have := h.lt hb'; omega
      have h3' : o.group ≠ some b := by
        intro hs
        rw [h3 b hs] at hb'; cases hb'
      exact ⟨sb', by simp [c1, h1', h2', h3', hb'], hv'⟩
    · intro x
      simp only [Option.some.injEq, eq_comm]

theorem ctrlSetSbox_eq : ctrlSetSbox = CTRL_SBOX := by decide
theorem ctrlSetCurve_eq : ctrlSetCurve = CTRL_CURVE := by decide
theorem ctrlDigest_eq : ctrlDigest = CTRL_MD := by decide
theorem ctrlAnnounced_eq : ctrlAnnounced = CTRL_PASSIVE := by decide
theorem paramCurve_eq : paramCurve = CURVE_PARAM_STR := by decide
theorem paramSbox_eq : paramSbox = SBOX_PARAM_STR := by decide

theorem ctrl_rep (P : KeyParams) (h : Rep dflt s w own) (c : Nat) (v v' : CtxVal) (hc : w.ctx c = some v) (type p1 : Int)
    (p2 : CtrlArg) (r : Int) (hr : v.ctrl P type p1 p2 = some (r, v')) :
    ∃ s' own', dstu_pkey_ctrl P.md s c type p1 p2 = some (r, s') ∧ Rep dflt s' (w.setCtx c (some v')) own' ∧ Keeps own own' := by
  obtain ⟨a, hd, hv⟩ := h.data_some hc
  have same : Rep dflt s (w.setCtx c (some v)) own ∧ Keeps own own := by
    rw [setCtx_self w c (some v) hc]; exact ⟨h, Keeps.refl own⟩
  unfold CtxVal.ctrl at hr
  simp only [ctrlSetSbox_eq, ctrlSetCurve_eq, ctrlDigest_eq, ctrlAnnounced_eq] at hr
  unfold dstu_pkey_ctrl
  simp only [hd]
  by_cases t1 : type = CTRL_SBOX
  · simp only [t1, if_true] at hr ⊢
    cases p2 with
    | null => cases hr; exact ⟨s, own, rfl, same⟩
    | bytes l =>
      simp only at hr ⊢
      by_cases hp : p1 ≠ 64
      · rw [if_pos hp] at hr ⊢
        cases hr
        exact ⟨s, own, rfl, same⟩
      · rw [if_neg hp] at hr ⊢
        split at hr
        · rename_i hl
          cases hr
          obtain ⟨m', own', e, hrep⟩ := set_sbox_rep h c a v hd hv ⟨l.toArray, by simp [hl]⟩
          have hf : first64 l = some ⟨l.toArray, by simp [hl]⟩ := by
            unfold first64
            rw [dif_pos (by omega)]
            congr 2
            rw [← hl, List.take_length]
          refine ⟨{ s with mem := m' }, own', ?_, hrep⟩
          simp [hf, e]
        · cases hr
    | group g =>
      simp only at hr ⊢
      split at hr
      · rename_i hp
        cases hr
        rw [if_pos hp]
        exact ⟨s, own, rfl, same⟩
      · cases hr
    | md n =>
      simp only at hr ⊢
      split at hr
      · rename_i hp
        cases hr
        rw [if_pos hp]
        exact ⟨s, own, rfl, same⟩
      · cases hr
  · simp only [t1, if_false] at hr ⊢
    by_cases t2 : type = CTRL_CURVE
    · simp only [t2, if_true] at hr ⊢
      cases p2 with
      | null => cases hr; exact ⟨s, own, rfl, same⟩
      | group g =>
        cases hr
        obtain ⟨m', own', e, hrep⟩ := set_group_rep h c a v hd hv g
        refine ⟨{ s with mem := m' }, own', ?_, hrep⟩
        simp [e]
      | bytes l => cases hr
      | md n => cases hr
    · simp only [t2, if_false] at hr ⊢
      by_cases t3 : type = CTRL_MD
      · simp only [t3, if_true] at hr ⊢
        cases p2 with
        | md n =>
          cases hr
          refine ⟨s, own, ?_, same⟩
          by_cases hn : P.md = n
          · simp [hn]
          · simp [hn, Ne.symm hn]
        | null => cases hr
        | group g => cases hr
        | bytes l => cases hr
      · simp only [t3, if_false] at hr ⊢
        cases hr
        refine ⟨s, own, ?_, same⟩
        split <;> rfl

/-- Freeing a private temporary. -/
theorem Rep.more (h : Rep dflt s w own) (m : KMem) (hc : ∀ x, m.cell x = s.mem.cell x) (hn : s.mem.next ≤ m.next) :
    Rep dflt { s with mem := m } w own := by
  have hcell : m.cell = s.mem.cell := funext hc
  refine ⟨fun x => ?_, fun x hx => h.bound x (le_trans hn hx), fun c => ?_, fun p => ?_⟩
  · simp only [hcell]; exact h.live x
  · simp only [hcell]; exact h.ctx c
  · simp only [hcell]; exact h.key p

/-- A private temporary in memory, next to everything else. -/
theorem Rep.temp (h : Rep dflt s w own) (o : KObj) :
    Rep dflt { s with mem := (s.mem.alloc o).2 } w (fun x => if x = s.mem.next then some .leaked else own x) := by
  have hn : own s.mem.next = none := h.bound _ le_rfl
  have hu : ∀ u : Owner, u ≠ .leaked → ∀ x, own x = some u ↔ (if x = s.mem.next then some Owner.leaked else own x) = some u := by
    intro u hu x
    split
    · rename_i hx
      subst hx
      simp [hn, Ne.symm hu]
    · rfl
  have hcell : ∀ u x, own x = some u → (s.mem.alloc o).2.cell x = s.mem.cell x := by
    intro u x hx
    simp only [alloc_cell]
    rw [if_neg]
    rintro rfl
    rw [hn] at hx
    cases hx
  refine ⟨fun x => ?_, fun x hx => ?_, fun c => ?_, fun p => ?_⟩
  · simp only [alloc_cell]
    split
    · simp
    · exact h.live x
  · simp only [alloc_next] at hx
    rw [if_neg (by omega)]
    exact h.bound x (by omega)
  · exact (h.ctx c).congr (hu _ (by simp)) (hcell _)
  · exact (h.key p).congr (hu _ (by simp)) (hcell _)

/-- An object belonging to nobody is freed. -/
theorem Rep.free (h : Rep dflt s w own) (b : Nat) (hb : own b = some .leaked) :
    Rep dflt { s with mem := s.mem.put b none } w (fun x => if x = b then none else own x) := by
  have hu : ∀ u : Owner, u ≠ .leaked → ∀ x, own x = some u ↔ (if x = b then none else own x) = some u := by
    intro u hu x
    split
    · rename_i hx
      subst hx
      simp [hb, Ne.symm hu]
    · rfl
  have hcell : ∀ u : Owner, u ≠ .leaked → ∀ x, own x = some u → (s.mem.put b none).cell x = s.mem.cell x := by
    intro u hul x hx
    simp only [put_cell]
    rw [if_neg]
    rintro rfl
    rw [hb] at hx
    exact hul (Option.some.inj hx).symm
  refine ⟨fun x => ?_, fun x hx => ?_, fun c => ?_, fun p => ?_⟩
  · simp only [put_cell]
    split
    · simp
    · exact h.live x
  · simp only [put_next] at hx
    split
    · rfl
    · exact h.bound x hx
  · exact (h.ctx c).congr (hu _ (by simp)) (hcell _ (by simp))
  · exact (h.key p).congr (hu _ (by simp)) (hcell _ (by simp))

theorem ctrl_null (mdNid : Nat) (c : Nat) (hd : s.data c = none) (type p1 : Int) (p2 : CtrlArg) :
    dstu_pkey_ctrl mdNid s c type p1 p2 = some (0, s) := by
  simp [dstu_pkey_ctrl, hd]

/-- A temporary may be forgotten. -/
theorem keeps_temp {own own' : Nat → Option Owner} {b : Nat} (hb : own b = none)
    (hk : Keeps (fun x => if x = b then some .leaked else own x) own') :
    own' b = some .leaked ∧ Keeps own (fun x => if x = b then none else own' x) := by
  refine ⟨(hk b).mpr (by simp), fun x => ?_⟩
  by_cases hx : x = b
  · simp [hx, hb]
  · simpa [hx] using hk x

theorem ctrl_str_rep (P : KeyParams) (nids : CurveNids) (sn2nid : List Byte → Nat)
    (hP : ∀ v, P.named v = if sn2nid v = NID_undef then none else group_from_nid nids (sn2nid v))
    (h : Rep dflt s w own) (c : Nat) (type value : List Byte) :
    ∃ s' own' r w', dstu_pkey_ctrl_str nids P.md sn2nid s c type value = some (r, s') ∧
      w.step P (.ctrlStr c type value) = some (r, w') ∧ Rep dflt s' w' own' ∧ Keeps own own' := by
  have hnone : w.ctx c = none → w.step P (.ctrlStr c type value) = some (0, w) := by
    intro hc
    simp only [KeyWorld.step, hc]
  have hsome : ∀ v, w.ctx c = some v → w.step P (.ctrlStr c type value) =
      some ((v.ctrlStr P type value).1, w.setCtx c (some (v.ctrlStr P type value).2)) := by
    intro v hc
    simp only [KeyWorld.step, hc]
  have fail : (∀ v : CtxVal, v.ctrlStr P type value = (0, v)) → w.step P (.ctrlStr c type value) = some (0, w) := by
    intro hf
    cases hc : w.ctx c with
    | none => exact hnone hc
    | some v => rw [hsome v hc, hf v, setCtx_self w c (some v) hc]
  unfold dstu_pkey_ctrl_str
  by_cases t1 : type = CURVE_PARAM_STR
  · rw [if_pos t1]
    simp only
    by_cases hu : sn2nid value = NID_undef
    · rw [if_pos hu]
      exact ⟨s, own, 0, w, rfl, fail (fun v => by simp [CtxVal.ctrlStr, paramCurve_eq, t1, hP, hu]), h, Keeps.refl own⟩
    · rw [if_neg hu]
      cases hg : group_from_nid nids (sn2nid value) with
      | none => exact ⟨s, own, 0, w, rfl, fail (fun v => by simp [CtxVal.ctrlStr, paramCurve_eq, t1, hP, hu, hg]), h, Keeps.refl own⟩
      | some g =>
        have ht := h.temp (.group g)
        have hb : own s.mem.next = none := h.bound _ le_rfl
        have hlive : ∀ {s' w' own'}, Rep dflt s' w' own' → own' s.mem.next = some .leaked →
            (s'.mem.cell s.mem.next).isSome := by
          intro s' w' own' hr ho
          rw [hr.live, ho]
          rfl
        cases hc : w.ctx c with
        | none =>
          obtain ⟨hd, _⟩ := ht.data_none hc
          obtain ⟨h1, h2⟩ := keeps_temp hb (Keeps.refl _)
          have hf : (s.mem.alloc (.group g)).2.free s.mem.next = some ((s.mem.alloc (.group g)).2.put s.mem.next none) :=
            free_live _ _ (.group g) (by simp)
          refine ⟨_, _, 0, w, ?_, hnone hc, ht.free s.mem.next h1, h2⟩
          simp only [ctrl_null P.md c hd, alloc_addr, Option.bind_eq_bind, Option.bind_some, hf]
          rfl
        | some v =>
          obtain ⟨s', own', e, hr, hk⟩ := ctrl_rep P ht c v { v with curve := g } hc CTRL_CURVE 0 (.group g) 1
            (by unfold CtxVal.ctrl; rw [if_neg (by decide), if_pos ctrlSetCurve_eq.symm])
          obtain ⟨h1, h2⟩ := keeps_temp hb hk
          have hl := hlive hr h1
          have hf : s'.mem.free s.mem.next = some (s'.mem.put s.mem.next none) := by simp [KMem.free, hl]
          refine ⟨_, _, 1, _, ?_, ?_, hr.free s.mem.next h1, h2⟩
          · simp only [e, alloc_addr, Option.bind_eq_bind, Option.bind_some, hf]
            rfl
          · rw [hsome v hc]
            simp [CtxVal.ctrlStr, paramCurve_eq, t1, hP, hu, hg]
  · rw [if_neg t1]
    by_cases t2 : type = SBOX_PARAM_STR
    · rw [if_pos t2]
      have t3 : ¬ SBOX_PARAM_STR = CURVE_PARAM_STR := by decide
      rcases string_sbox value with ⟨sb, h1, v, h2, k, h3⟩ | ⟨h1, h2⟩
      · rw [h2]
        simp only [h3, Nat.reduceMul, ne_eq, not_true_eq_false, if_false, Bool.false_eq_true]
        cases hc : w.ctx c with
        | none =>
          obtain ⟨hd, _⟩ := h.data_none hc
          exact ⟨s, own, 0, w, by rw [ctrl_null P.md c hd], hnone hc, h, Keeps.refl own⟩
        | some v =>
          obtain ⟨s', own', e, hr, hk⟩ := ctrl_rep P h c v { v with sbox := some sb } hc CTRL_SBOX 64 (.bytes sb.toList) 1
            (by
              unfold CtxVal.ctrl
              rw [if_pos ctrlSetSbox_eq.symm]
              simp only [ne_eq, not_true_eq_false, if_false]
              rw [dif_pos (by simp)]
              congr)
          exact ⟨s', own', 1, _, e, by rw [hsome v hc]; simp [CtxVal.ctrlStr, paramCurve_eq, paramSbox_eq, t2, t3, h1], hr, hk⟩
      · refine ⟨s, own, 0, w, ?_, fail (fun v => by simp [CtxVal.ctrlStr, paramCurve_eq, paramSbox_eq, t2, t3, h1]), h, Keeps.refl own⟩
        rcases hb : BN_hex2bn value with ⟨n, neg, v⟩
        simp only
        by_cases hn : 64 * 2 ≠ n
        · rw [if_pos hn]
        · rw [if_neg hn]
          cases neg with
          | true => simp
          | false =>
            have := h2 v (by rw [hb]; congr; omega)
            rcases he : bn_encode v 64 with ⟨k, l⟩
            rw [he] at this
            simp only at this
            subst this
            simp
    · rw [if_neg t2]
      exact ⟨s, own, 0, w, rfl, fail (fun v => by simp [CtxVal.ctrlStr, paramCurve_eq, paramSbox_eq, t1, t2]), h, Keeps.refl own⟩

/-- The objects of a key. -/
theorem key_parts {cell : Nat → Option KObj} {foot : Nat → Prop} {t : KeyType} {a : Nat} {v : EvpPkey}
    (h : KeyAt cell foot (t, some a) v) : ∃ o : KeyObj, ∃ sb, cell a = some (.key o) ∧
      v = ⟨t, some ⟨o.group, sb, o.priv, o.pub⟩⟩ ∧
      (∀ b, o.sbox = some b → ∃ s, cell b = some (.sbox s) ∧ sb = some s) ∧ (o.sbox = none → sb = none) ∧
      ∀ x, foot x ↔ x = a ∨ o.sbox = some x := by
  obtain ⟨o, sb, h1, h2, h4, h5⟩ := h
  refine ⟨o, sb, h1, h2, ?_, ?_, h5⟩
  · intro b hb; rw [hb] at h4; exact h4
  · intro hb; rw [hb] at h4; exact h4

theorem key_of_parts {cell : Nat → Option KObj} {foot : Nat → Prop} {t : KeyType} {a : Nat} {v : EvpPkey} (o : KeyObj) (sb)
    (h1 : cell a = some (.key o)) (h2 : v = ⟨t, some ⟨o.group, sb, o.priv, o.pub⟩⟩)
    (h4 : ∀ b, o.sbox = some b → ∃ s, cell b = some (.sbox s) ∧ sb = some s)
    (h4' : o.sbox = none → sb = none) (h5 : ∀ x, foot x ↔ x = a ∨ o.sbox = some x) : KeyAt cell foot (t, some a) v := by
  refine ⟨o, sb, h1, h2, ?_, h5⟩
  cases hg : o.sbox with
  | none => exact h4' hg
  | some b => exact h4 b hg

/-- Freeing a key that is in memory: what is left. -/
theorem key_free_mem (h : Rep dflt s w own) (p : Nat) (m : KMem) (hm : ∀ x, own x = some (.key p) → m.cell x = s.mem.cell x) :
    ∃ m', DSTU_KEY_free m (s.pkey p).2 = some m' ∧ m'.next = m.next ∧
      (∀ x, own x = some (.key p) → m'.cell x = none) ∧ (∀ x, own x ≠ some (.key p) → m'.cell x = m.cell x) := by
  have hk := h.key p
  rcases hp : s.pkey p with ⟨t, q⟩
  rw [hp] at hk
  cases q with
  | none =>
    obtain ⟨_, hf⟩ := hk
    exact ⟨m, rfl, rfl, fun x hx => absurd hx (hf x), fun _ _ => rfl⟩
  | some a =>
    obtain ⟨o, sb, h1, h2, h4, h4', h5⟩ := key_parts hk
    have ha : m.cell a = some (.key o) := by rw [hm a ((h5 a).mpr (Or.inl rfl)), h1]
    have hkey : m.key a = some o := by simp [KMem.key, ha]
    obtain ⟨m1, e1, n1, c1⟩ := freeOpt_live m o.sbox (fun b hb => by
      obtain ⟨sb', hb', _⟩ := h4 b hb
      rw [hm b ((h5 b).mpr (Or.inr hb)), hb']
      rfl)
    have hns : o.sbox ≠ some a := by
      intro hs
      obtain ⟨sb', hb', _⟩ := h4 a hs
      rw [h1] at hb'
      cases hb'
    have e2 := free_live m1 a (.key o) (by rw [c1, if_neg hns, ha])
    refine ⟨m1.put a none, by simp [DSTU_KEY_free, hkey, e1, e2], by simp [n1], fun x hx => ?_, fun x hx => ?_⟩
    · rcases (h5 x).mp hx with hx | hx
      · simp [hx]
      · simp [c1, hx]
    · have := mt (h5 x).mpr hx
      simp only [not_or] at this
      simp [c1, this.1, this.2]

theorem free_rep (h : Rep dflt s w own) (p : Nat) :
    ∃ s' own', dstu_asn1_pkey_free s p = some s' ∧ Rep dflt s' (w.setKey p ⟨(w.key p).type, none⟩) own' ∧ Keeps own own' := by
  obtain ⟨m', e, n, c1, c2⟩ := key_free_mem h p s.mem (fun _ _ => rfl)
  have ht : (w.key p).type = (s.pkey p).1 := by
    have hk := h.key p
    rcases hp : s.pkey p with ⟨t, q⟩
    rw [hp] at hk
    cases q with
    | none => rw [hk.1]
    | some a => obtain ⟨o, sb, _, h2, _⟩ := hk; rw [h2]
  refine ⟨_, _, by simp only [dstu_asn1_pkey_free, e, Option.bind_eq_bind, Option.bind_some]; rfl,
    h.setKey (foot := fun _ => False) p ⟨by simp, fun x _ hx => c2 x hx, fun x _ hx => c1 x hx, by simp, by omega, by simp⟩ _ _ ?_⟩
  exact ⟨by rw [ht], fun _ => id⟩

/-- A new key with all its objects is given to an `EVP_PKEY`. -/
theorem assign_rep (h : Rep dflt s w own) (p : Nat) (t : KeyType) (a : Nat) (m : KMem) (k : DstuKey) (foot : Nat → Prop)
    (hnew : ∀ x, foot x → s.mem.next ≤ x ∧ x < m.next) (hn : s.mem.next ≤ m.next)
    (hold : ∀ x, ¬ foot x → m.cell x = s.mem.cell x) (hk : KeyAt m.cell foot (t, some a) ⟨t, some k⟩) :
    ∃ s' own', EVP_PKEY_assign { s with mem := m } p t a = some s' ∧ Rep dflt s' (w.setKey p ⟨t, some k⟩) own' ∧ Keeps own own' := by
  have hnot : ∀ x o, own x = some o → ¬ foot x := by
    intro x o hx hf
    rw [h.bound x (hnew x hf).1] at hx
    cases hx
  obtain ⟨m', e, n, c1, c2⟩ := key_free_mem h p m (fun x hx => hold x (hnot x _ hx))
  have hfoot : ∀ x, foot x → m'.cell x = m.cell x := by
    intro x hf
    exact c2 x (fun hx => hnot x _ hx hf)
  have hlive : ∀ x, foot x → (m.cell x).isSome := by
    obtain ⟨o, sb, h1, h2, h4, h4', h5⟩ := key_parts hk
    intro x hx
    rcases (h5 x).mp hx with rfl | hx
    · simp [h1]
    · obtain ⟨_, h, _⟩ := h4 x hx
      simp [h]
  have key := h.setKey (m := m') (foot := foot) p ⟨fun x hx => Or.inr (hnew x hx).1, fun x hf hx => ?_, fun x _ hx => c1 x hx,
    fun x hx => by rw [hfoot x hx]; exact hlive x hx, by omega, fun x hx => by rw [n]; exact (hnew x hx).2⟩ (t, some a) ⟨t, some k⟩
    (hk.congr (fun _ => Iff.rfl) hfoot)
  · refine ⟨_, _, ?_, key⟩
    simp only [EVP_PKEY_assign, dstu_asn1_pkey_free, e, Option.bind_eq_bind, Option.bind_some, pure, KState.setPkey]
    congr
    funext i
    split <;> rfl
  · rw [c2 x hx, hold x hf]

theorem assignKey_rep (h : Rep dflt s w own) (p : Nat) (t : KeyType) (k : DstuKey) :
    ∃ s' own', assignKey s p t k = some s' ∧ Rep dflt s' (w.setKey p ⟨t, some k⟩) own' ∧ Keeps own own' := by
  unfold assignKey newKey
  cases hs : k.sbox with
  | none =>
    refine assign_rep h p t _ _ k (fun x => x = s.mem.next) (fun x hx => by subst hx; simp) (by simp) (fun x hx => by simp [hx]) ?_
    refine key_of_parts ⟨k.group, k.priv, k.pub, none⟩ none (by simp) ?_ (by simp) (by simp) (by simp)
    rw [← hs]
  | some sb =>
    refine assign_rep h p t _ _ k (fun x => x = s.mem.next ∨ x = s.mem.next + 1) (fun x hx => by simp; omega) (by simp; omega)
      (fun x hx => by simp only [not_or] at hx; simp [hx]) ?_
    refine key_of_parts ⟨k.group, k.priv, k.pub, some s.mem.next⟩ (some sb) (by simp) ?_ ?_ (by simp) (by intro x; simp; tauto)
    · rw [← hs]
    · intro b hb
      cases hb
      exact ⟨sb, by simp, rfl⟩

theorem ensureGroup_rep (nids : CurveNids) (hdf : get_default_group nids = some dflt) (h : Rep dflt s w own) (c a : Nat)
    (v : CtxVal) (hc : w.ctx c = some v) (hd : s.data c = some a)
    (hv : CtxAt dflt s.mem.cell (fun x => own x = some (.ctx c)) (some a) (some v)) :
    ∃ m own', ensureGroup nids s.mem a = some (some v.curve, m) ∧ Rep dflt { s with mem := m } w own' ∧ Keeps own own' := by
  obtain ⟨o, h1, h2, h3, h3', h4, h4', h5⟩ := ctx_parts hv
  have hctx : s.mem.ctx a = some o := by simp [KMem.ctx, h1]
  unfold ensureGroup
  simp only [hctx, Option.bind_eq_bind, Option.bind_some]
  cases hg : o.group with
  | some b =>
    have hb := h3 b hg
    exact ⟨s.mem, own, by simp [KMem.group, hb], h, Keeps.refl own⟩
  | none =>
    obtain ⟨m', own', e, hr⟩ := set_group_rep h c a v hd hv dflt
    have hne : a ≠ s.mem.next := by have := h.lt h1; omega
    have hctx' : (s.mem.alloc (.group dflt)).2.ctx a = some o := by simp [KMem.ctx, h1, hne]
    simp only [DSTU_KEY_CTX_set, CTX_set_group, CTX_set_sbox, hctx', hg, KMem.freeOpt, Option.bind_eq_bind, Option.bind_some,
      pure, Option.some.injEq] at e
    subst e
    have hvc : ({ v with curve := dflt } : CtxVal) = v := by rw [← h3' hg]
    rw [hvc, setCtx_self w c (some v) hc] at hr
    refine ⟨_, own', ?_, hr⟩
    simp only [hdf, alloc_addr, h3' hg, pure]

theorem keygen_rep (env : Env) (P : KeyParams) (hgen : P.gen = generatePair env) (hdf : get_default_group env.nids = some dflt)
    (h : Rep dflt s w own) (c p : Nat) (draws : List (Option Nat)) (r : Int) (w' : KeyWorld)
    (hr : w.step P (.keygen c p draws) = some (r, w')) :
    ∃ s' own', dstu_pkey_keygen env s c p draws = some (.done r, s') ∧ Rep dflt s' w' own' ∧ Keeps own own' := by
  unfold dstu_pkey_keygen
  cases hc : w.ctx c with
  | none =>
    obtain ⟨hd, _⟩ := h.data_none hc
    simp only [KeyWorld.step, hc] at hr
    cases hr
    exact ⟨s, own, by simp [hd], h, Keeps.refl own⟩
  | some v =>
    obtain ⟨a, hd, hv⟩ := h.data_some hc
    obtain ⟨m1, own1, e1, hr1, hk1⟩ := ensureGroup_rep env.nids hdf h c a v hc hd hv
    simp only [KeyWorld.step, hc, hgen] at hr
    simp only [hd, e1, Option.bind_eq_bind, Option.bind_some]
    have fresh : m1.cell m1.next = none := hr1.fresh _ le_rfl
    cases hp : generatePair env v.curve draws with
    | waiting => rw [hp] at hr; cases hr
    | failed =>
      rw [hp] at hr
      cases hr
      have hkey : (m1.alloc (.key ⟨some v.curve, none, none, none⟩)).2.key m1.next = some ⟨some v.curve, none, none, none⟩ := by
        simp [KMem.key]
      have hf := free_live (m1.alloc (.key ⟨some v.curve, none, none, none⟩)).2 m1.next
        (.key ⟨some v.curve, none, none, none⟩) (by simp)
      have hmore := hr1.more ((m1.alloc (.key ⟨some v.curve, none, none, none⟩)).2.put m1.next none)
        (fun x => by simp only [put_cell, alloc_cell]; split <;> simp_all) (by simp)
      refine ⟨_, own1, ?_, hmore, hk1⟩
      simp [DSTU_KEY_free, hkey, KMem.freeOpt, hf]
    | done dQ =>
      obtain ⟨d, Q⟩ := dQ
      rw [hp] at hr
      cases hr
      obtain ⟨a', hd', hv'⟩ := hr1.data_some hc
      have haa : a' = a := by simp only at hd'; rw [hd] at hd'; exact (Option.some.inj hd').symm
      subst haa
      obtain ⟨o, h1, h2, h3, h3', h4, h4', h5⟩ := ctx_parts hv'
      simp only at h1
      have la : a' < m1.next := hr1.lt h1
      have hne : a' ≠ m1.next := by omega
      have hctx : ((m1.alloc (.key ⟨some v.curve, none, none, none⟩)).2.put m1.next (some (.key ⟨some v.curve, some d, some Q, none⟩))).ctx a' = some o := by
        simp [KMem.ctx, h1, hne]
      simp only [alloc_addr, hctx, Option.bind_some]
      cases hs : o.sbox with
      | none =>
        obtain ⟨s', own', e, hrep, hkeep⟩ := assign_rep hr1 p v.type m1.next
          ((m1.alloc (.key ⟨some v.curve, none, none, none⟩)).2.put m1.next (some (.key ⟨some v.curve, some d, some Q, none⟩)))
          ⟨some v.curve, v.sbox, some d, some Q⟩ (fun x => x = m1.next) (fun x hx => by simp [hx]) (by simp)
          (fun x hx => by simp [hx])
          (key_of_parts ⟨some v.curve, some d, some Q, none⟩ v.sbox (by simp) rfl (by simp) (fun _ => h4' hs) (by simp))
        refine ⟨s', own', ?_, hrep, hk1.trans hkeep⟩
        rw [← h2] at e
        simp only [copySbox, Option.bind_some, DSTU_KEY_set, e]
        rfl
      | some b =>
        obtain ⟨sb, hb, hb'⟩ := h4 b hs
        simp only at hb
        have lb : b < m1.next := hr1.lt hb
        have hbne : b ≠ m1.next := by omega
        have hsb : ((m1.alloc (.key ⟨some v.curve, none, none, none⟩)).2.put m1.next (some (.key ⟨some v.curve, some d, some Q, none⟩))).sbox b = some sb := by
          simp [KMem.sbox, hb, hbne]
        obtain ⟨s', own', e, hrep, hkeep⟩ := assign_rep hr1 p v.type m1.next
          ((((m1.alloc (.key ⟨some v.curve, none, none, none⟩)).2.put m1.next (some (.key ⟨some v.curve, some d, some Q, none⟩))).alloc (.sbox sb)).2.put
            m1.next (some (.key ⟨some v.curve, some d, some Q, some (m1.next + 1)⟩)))
          ⟨some v.curve, v.sbox, some d, some Q⟩ (fun x => x = m1.next ∨ x = m1.next + 1) (fun x hx => by simp; omega) (by simp; omega)
          (fun x hx => by simp only [not_or] at hx; simp [hx])
          (key_of_parts ⟨some v.curve, some d, some Q, some (m1.next + 1)⟩ v.sbox (by simp) rfl
            (fun b hb => by cases hb; exact ⟨sb, by simp, hb'⟩) (by simp) (by intro x; simp; tauto))
        refine ⟨s', own', ?_, hrep, hk1.trans hkeep⟩
        have hkey : (((m1.alloc (.key ⟨some v.curve, none, none, none⟩)).2.put m1.next (some (.key ⟨some v.curve, some d, some Q, none⟩))).alloc (.sbox sb)).2.key
            m1.next = some ⟨some v.curve, some d, some Q, none⟩ := by
          simp [KMem.key]
        rw [← h2] at e
        simp only [copySbox, copy_sbox, hsb, Option.bind_eq_bind, Option.bind_some, pure, DSTU_KEY_set, hkey, KMem.freeOpt]
        simp only [alloc_addr, put_next, alloc_next, e, Option.bind_some]

/-- The value of a key. -/
theorem Rep.keyValue (h : Rep dflt s w own) (p : Nat) : s.keyValue p = some (w.key p) := by
  have hk := h.key p
  unfold KState.keyValue
  rcases hp : s.pkey p with ⟨t, q⟩
  rw [hp] at hk
  cases q with
  | none => rw [hk.1]
  | some a =>
    obtain ⟨o, sb, h1, h2, h4, h4', h5⟩ := key_parts hk
    have hkey : s.mem.key a = some o := by simp [KMem.key, h1]
    simp only [hkey, Option.bind_eq_bind, Option.bind_some]
    cases hs : o.sbox with
    | none => simp [h2, h4' hs]
    | some b =>
      obtain ⟨s', hb, hb'⟩ := h4 b hs
      have : s.mem.sbox b = some s' := by simp [KMem.sbox, hb]
      simp [this, h2, hb']

theorem cmp_eq (t u : KeyType) (k l : DstuKey) : dstu_asn1_param_cmp ⟨t, some k⟩ ⟨u, some l⟩ =
    if k.sbox = l.sbox then (k.group.bind fun g => l.group.bind fun h => some (if g = h then 1 else 0)) else some 0 := by
  unfold dstu_asn1_param_cmp
  simp only
  cases hs : k.sbox with
  | none =>
    cases hr : l.sbox with
    | none => cases k.group <;> cases l.group <;> simp <;> split <;> rfl
    | some r => simp
  | some s =>
    cases hr : l.sbox with
    | none => simp
    | some r =>
      by_cases he : s = r
      · subst he
        cases k.group <;> cases l.group <;> simp <;> split <;> rfl
      · simp [he]

theorem compareParams_eq (a b : EvpPkey) : compareParams a b = dstu_asn1_param_cmp a b := by
  rcases a with ⟨t, _ | k⟩
  · simp [compareParams, dstu_asn1_param_cmp]
  · rcases b with ⟨u, _ | l⟩
    · simp [compareParams, dstu_asn1_param_cmp]
    · rw [cmp_eq]
      unfold compareParams
      simp only
      by_cases hs : k.sbox = l.sbox
      · rw [if_neg (by simpa using hs), if_pos hs]
        cases k.group <;> cases l.group <;> rfl
      · rw [if_pos hs, if_neg hs]

/-- Comparison in memory is comparison of values. -/
theorem cmp_rep (h : Rep dflt s w own) (p q : Nat) (r : Int) (hr : compareParams (w.key p) (w.key q) = some r) :
    param_cmp_mem s p q = some r := by
  rw [compareParams_eq] at hr
  have hp := h.key p
  have hq := h.key q
  unfold param_cmp_mem
  rcases ep : s.pkey p with ⟨t, a⟩
  rcases eq : s.pkey q with ⟨u, b⟩
  rw [ep] at hp
  rw [eq] at hq
  cases a with
  | none =>
    rw [hp.1] at hr
    simpa [dstu_asn1_param_cmp] using hr
  | some a =>
    cases b with
    | none =>
      rw [hq.1] at hr
      obtain ⟨o, sb, h1, h2, h4, h4', h5⟩ := key_parts hp
      rw [h2] at hr
      simpa [dstu_asn1_param_cmp] using hr
    | some b =>
      obtain ⟨o, sb, h1, h2, h4, h4', h5⟩ := key_parts hp
      obtain ⟨o', sb', k1, k2, k4, k4', k5⟩ := key_parts hq
      have e1 : s.mem.key a = some o := by simp [KMem.key, h1]
      have e2 : s.mem.key b = some o' := by simp [KMem.key, k1]
      have e3 : sameSbox s.mem o.sbox o'.sbox = some (decide (sb = sb')) := by
        unfold sameSbox
        cases hs : o.sbox with
        | none =>
          rw [h4' hs]
          cases hs' : o'.sbox with
          | none => rw [k4' hs']; simp
          | some x => obtain ⟨_, _, hx⟩ := k4 x hs'; rw [hx]; simp
        | some y =>
          obtain ⟨z, hz, hy⟩ := h4 y hs
          rw [hy]
          cases hs' : o'.sbox with
          | none => rw [k4' hs']; simp
          | some x =>
            obtain ⟨z', hz', hx⟩ := k4 x hs'
            rw [hx]
            by_cases hxy : y = x
            · subst hxy
              rw [hz] at hz'
              cases hz'
              simp
            · have : ¬ (some y = some x) := by simpa using hxy
              simp [KMem.sbox, hz, hz', hxy, beq_eq_decide]
      rw [h2, k2, cmp_eq] at hr
      simp only [e1, e2, e3, Option.bind_eq_bind, Option.bind_some, decide_eq_true_eq]
      rw [← hr]
      rfl

/-- A key forgets its S-box, which is lost. -/
theorem Rep.drop_sbox (h : Rep dflt s w own) (p a : Nat) (t : KeyType) (o : KeyObj) (k : DstuKey) (hp : s.pkey p = (t, some a))
    (ha : s.mem.cell a = some (.key o)) (hk : w.key p = ⟨t, some k⟩) :
    ∃ own', Rep dflt { s with mem := s.mem.put a (some (.key { o with sbox := none })) }
      (w.setKey p ⟨t, some { k with sbox := none }⟩) own' ∧ (o.sbox = none → Keeps own own') := by
  have hK := h.key p
  rw [hp] at hK
  obtain ⟨o', sb, h1, h2, h4, h4', h5⟩ := key_parts hK
  rw [ha] at h1
  cases h1
  rw [hk] at h2
  simp only [EvpPkey.mk.injEq, Option.some.injEq, true_and] at h2
  have hown_a : own a = some (.key p) := (h5 a).mpr (Or.inl rfl)
  have hns : o.sbox ≠ some a := by
    intro hs
    obtain ⟨sb', hb', _⟩ := h4 a hs
    rw [ha] at hb'
    cases hb'
  have cells : ∀ x, x ≠ a → (s.mem.put a (some (.key { o with sbox := none }))).cell x = s.mem.cell x := by
    intro x hx
    simp [hx]
  refine ⟨fun x => if o.sbox = some x then some .leaked else own x, ⟨fun x => ?_, fun x hx => ?_, fun c => ?_, fun q => ?_⟩, ?_⟩
  · by_cases hx : o.sbox = some x
    · obtain ⟨s', hs', _⟩ := h4 x hx
      have : x ≠ a := by rintro rfl; exact hns hx
      simp [hx, this, hs']
    · by_cases hxa : x = a
      · subst hxa
        simp [hx, hown_a]
      · simp only [hx, if_false]
        rw [cells x hxa]
        exact h.live x
  · simp only [put_next] at hx
    rw [if_neg]
    · exact h.bound x hx
    · intro hs
      obtain ⟨s', hs', _⟩ := h4 x hs
      have := h.lt hs'
      omega
  · refine (h.ctx c).congr (fun x => ?_) (fun x hx => cells x ?_)
    · split
      · rename_i hs
        have := (h5 x).mpr (Or.inr hs)
        rw [this]
        simp
      · rfl
    · rintro rfl
      rw [hown_a] at hx
      cases hx
  · by_cases hq : q = p
    · subst hq
      simp only [KeyWorld.setKey, if_true, hp]
      refine key_of_parts { o with sbox := none } none (by simp) ?_ (by simp) (by simp) (fun x => ?_)
      · rw [h2]
      · simp only [reduceCtorEq, or_false]
        constructor
        · intro hx
          split at hx
          · cases hx
          · rename_i hs
            exact ((h5 x).mp hx).resolve_right hs
        · rintro rfl
          rw [if_neg hns, hown_a]
    · simp only [KeyWorld.setKey, if_neg hq]
      refine (h.key q).congr (fun x => ?_) (fun x hx => cells x ?_)
      · split
        · rename_i hs
          have := (h5 x).mpr (Or.inr hs)
          rw [this]
          simp only [Option.some.injEq, Owner.key.injEq, reduceCtorEq, iff_false]
          exact fun h => hq h.symm
        · rfl
      · rintro rfl
        rw [hown_a] at hx
        cases hx
        exact hq rfl
  · intro hs x
    simp [hs]

/-- A key without S-box gets a group and possibly an S-box. -/
theorem Rep.fill (h : Rep dflt s w own) (p a : Nat) (t : KeyType) (o : KeyObj) (k : DstuKey) (hp : s.pkey p = (t, some a))
    (ha : s.mem.cell a = some (.key o)) (hk : w.key p = ⟨t, some k⟩) (hs : o.sbox = none) (g : EcGroup) :
    (∃ own', Rep dflt { s with mem := s.mem.put a (some (.key { o with group := some g })) }
      (w.setKey p ⟨t, some { k with group := some g }⟩) own' ∧ Keeps own own') ∧
    ∀ m' : KMem, ∀ sb, m'.next = s.mem.next + 1 →
      (∀ x, m'.cell x = if x = a then some (.key { o with group := some g, sbox := some s.mem.next })
        else if x = s.mem.next then some (.sbox sb) else s.mem.cell x) →
      ∃ own', Rep dflt { s with mem := m' } (w.setKey p ⟨t, some { k with group := some g, sbox := some sb }⟩) own' ∧ Keeps own own' := by
  have hK := h.key p
  rw [hp] at hK
  obtain ⟨o', sb, h1, h2, h4, h4', h5⟩ := key_parts hK
  rw [ha] at h1
  cases h1
  rw [hk] at h2
  simp only [EvpPkey.mk.injEq, Option.some.injEq, true_and] at h2
  have la := h.lt ha
  have hown : ∀ x, own x = some (.key p) ↔ x = a := by
    intro x
    rw [h5 x, hs]
    simp
  have hsb := h4' hs
  refine ⟨?_, fun m' sb' hn hc => ?_⟩
  · have key := h.setKey (m := s.mem.put a (some (.key { o with group := some g }))) (foot := fun x => x = a) p
      ⟨fun x hx => Or.inl ((hown x).mpr hx), fun x hx _ => by simp [hx], fun x hx hx' => absurd ((hown x).mp hx') hx,
        fun x hx => by simp [hx], by simp, fun x hx => by subst hx; simpa using la⟩ (t, some a)
      ⟨t, some { k with group := some g }⟩
      (key_of_parts { o with group := some g } sb (by simp) (by rw [h2]) (by simp [hs]) (fun _ => hsb) (by simp [hs]))
    rw [← hp, setPkey_self] at key
    · exact ⟨_, key⟩
  · have key := h.setKey (m := m') (foot := fun x => x = a ∨ x = s.mem.next) p
      ⟨?_, ?_, ?_, ?_, by omega, ?_⟩ (t, some a) ⟨t, some { k with group := some g, sbox := some sb' }⟩ ?_
    · have e : ({ s with mem := m' } : KState).setPkey p (t, some a) = { s with mem := m' } := by
        have := setPkey_self { s with mem := m' } p
        simp only [hp] at this
        exact this
      rw [e] at key
      exact ⟨_, key⟩
    · rintro x (hx | hx)
      · exact Or.inl ((hown x).mpr hx)
      · exact Or.inr (by omega)
    · intro x hx _
      simp only [not_or] at hx
      rw [hc, if_neg hx.1, if_neg hx.2]
    · intro x hx hx'
      exact absurd ((hown x).mp hx') (fun h => hx (Or.inl h))
    · rintro x (hx | hx)
      · rw [hc, if_pos hx]; rfl
      · rw [hc]
        split <;> rfl
    · rintro x (hx | hx) <;> omega
    · refine key_of_parts { o with group := some g, sbox := some s.mem.next } (some sb') (by rw [hc, if_pos rfl]) (by rw [h2]) ?_ (by simp) ?_
      · intro b hb
        cases hb
        exact ⟨sb', by rw [hc, if_neg (by omega), if_pos rfl], rfl⟩
      · intro x
        simp only [Option.some.injEq, eq_comm]

theorem setKey_setKey (w : KeyWorld) (p : Nat) (a b : EvpPkey) : (w.setKey p a).setKey p b = w.setKey p b := by
  unfold KeyWorld.setKey
  congr
  funext i
  split
  · rfl
  · simp_all

/-- The last part of `dstu_asn1_param_copy`, when the destination has a key. -/
theorem param_set_rep (h : Rep dflt s w own) (dst src t f : Nat) (td ts : KeyType) (hne : dst ≠ src)
    (hd : s.pkey dst = (td, some t)) (hs : s.pkey src = (ts, some f)) (fk tk : KeyObj) (fv tv : DstuKey)
    (hf : s.mem.cell f = some (.key fk)) (ht : s.mem.cell t = some (.key tk))
    (hfv : w.key src = ⟨ts, some fv⟩) (htv : w.key dst = ⟨td, some tv⟩) (hstale : fv.sbox = none → tv.sbox = none) (g : EcGroup) :
    t ≠ f ∧
    (fk.sbox = none → ∃ own', Rep dflt { s with mem := s.mem.put t (some (.key { tk with group := some g })) }
      (w.setKey dst ⟨td, some { tv with group := some g, sbox := fv.sbox }⟩) own' ∧ Keeps own own') ∧
    (∀ fb, fk.sbox = some fb → ∃ sb, (s.mem.put t (some (.key { tk with group := some g }))).sbox fb = some sb ∧
      ∃ own', Rep dflt { s with mem := (((s.mem.put t (some (.key { tk with group := some g }))).alloc (.sbox sb)).2.put t (some (.key { tk with group := some g, sbox := some s.mem.next }))) }
      (w.setKey dst ⟨td, some { tv with group := some g, sbox := fv.sbox }⟩) own' ∧ (tv.sbox = none → Keeps own own')) := by
  have hF := h.key src
  rw [hs] at hF
  obtain ⟨_, fsb, f1, f2, f4, f4', f5⟩ := key_parts hF
  rw [hf] at f1
  cases f1
  rw [hfv] at f2
  simp only [EvpPkey.mk.injEq, Option.some.injEq, true_and] at f2
  have hT := h.key dst
  rw [hd] at hT
  obtain ⟨_, tsb, t1, t2, t4, t4', t5⟩ := key_parts hT
  rw [ht] at t1
  cases t1
  rw [htv] at t2
  simp only [EvpPkey.mk.injEq, Option.some.injEq, true_and] at t2
  have hfs : fv.sbox = fsb := by rw [f2]
  have hts : tv.sbox = tsb := by rw [t2]
  have owt : own t = some (.key dst) := (t5 t).mpr (Or.inl rfl)
  have htf : t ≠ f := by
    rintro rfl
    have := (f5 t).mpr (Or.inl rfl)
    rw [owt] at this
    cases this
    exact hne rfl
  refine ⟨htf, fun hfn => ?_, fun fb hfb => ?_⟩
  · have hft : tk.sbox = none := by
      have := hstale (by rw [hfs]; exact f4' hfn)
      rw [hts] at this
      cases hx : tk.sbox with
      | none => rfl
      | some b => obtain ⟨s', _, h'⟩ := t4 b hx; rw [this] at h'; cases h'
    obtain ⟨own', hr, hk⟩ := (h.fill dst t td tk tv hd ht htv hft g).1
    refine ⟨own', ?_, hk⟩
    have : fv.sbox = tv.sbox := by rw [hfs, hts, f4' hfn, t4' hft]
    rw [this]
    exact hr
  · obtain ⟨sb, hsb, hsb'⟩ := f4 fb hfb
    have hfbt : fb ≠ t := by
      rintro rfl
      rw [ht] at hsb
      cases hsb
    refine ⟨sb, by simp [KMem.sbox, hfbt, hsb], ?_⟩
    obtain ⟨own1, hr1, hk1⟩ := h.drop_sbox dst t td tk tv hd ht htv
    have hfill := (hr1.fill dst t td { tk with sbox := none } { tv with sbox := none } hd (by simp) (by simp [KeyWorld.setKey]) rfl g).2
      (((s.mem.put t (some (.key { tk with group := some g }))).alloc (.sbox sb)).2.put t
          (some (.key { tk with group := some g, sbox := some s.mem.next }))) sb (by simp) (fun x => by
            simp only [put_cell, alloc_cell, put_next]
            by_cases hx : x = t
            · simp [hx]
            · simp [hx])
    obtain ⟨own2, hr2, hk2⟩ := hfill
    rw [setKey_setKey] at hr2
    refine ⟨own2, ?_, fun hn => (hk1 ?_).trans hk2⟩
    · rw [hfs, hsb']
      exact hr2
    · rw [hts] at hn
      cases hx : tk.sbox with
      | none => rfl
      | some b => obtain ⟨s', _, h'⟩ := t4 b hx; rw [hn] at h'; cases h'

theorem param_copy_rep (P : KeyParams) (h : Rep dflt s w own) (dst src : Nat) (r : Int) (w' : KeyWorld)
    (hr : w.step P (.paramCopy dst src) = some (r, w')) :
    ∃ s' own', dstu_asn1_param_copy s dst src = some (r, s') ∧ Rep dflt s' w' own' ∧
      ((∀ k, (w.key dst).key = some k → k.sbox = none) → Keeps own own') := by
  have hF := h.key src
  rcases hs : s.pkey src with ⟨ts, q⟩
  rw [hs] at hF
  cases q with
  | none =>
    simp only [KeyWorld.step, hF.1] at hr
    cases hr
    exact ⟨s, own, by simp [dstu_asn1_param_copy, hs], h, fun _ => Keeps.refl own⟩
  | some f =>
    obtain ⟨fk, fsb, f1, f2, f4, f4', f5⟩ := key_parts hF
    have hfk : s.mem.key f = some fk := by simp [KMem.key, f1]
    unfold dstu_asn1_param_copy
    simp only [hs, hfk, Option.bind_eq_bind, Option.bind_some]
    simp only [KeyWorld.step, f2] at hr
    cases hg : fk.group with
    | none =>
      rw [hg] at hr
      cases hr
      exact ⟨s, own, rfl, h, fun _ => Keeps.refl own⟩
    | some g =>
      rw [hg] at hr
      simp only at hr
      by_cases hne : dst = src
      · rw [if_pos hne] at hr
        cases hr
      · rw [if_neg hne] at hr
        have hD := h.key dst
        rcases hd : s.pkey dst with ⟨td, q⟩
        rw [hd] at hD
        cases q with
        | some t =>
          obtain ⟨tk, tsb, t1, t2, t4, t4', t5⟩ := key_parts hD
          rw [t2] at hr
          simp only at hr
          split at hr
          · cases hr
          · rename_i hst
            have hst' : fsb = none → tsb = none := by
              intro hf
              by_contra hcon
              exact hst ⟨hf, hcon⟩
            obtain ⟨p1, p2, p3⟩ := param_set_rep h dst src t f td ts hne hd hs fk tk _ _ f1 t1 f2 t2 hst' g
            have htk : s.mem.key t = some tk := by simp [KMem.key, t1]
            cases hr
            simp only [ensureKey, hd, Option.bind_some, if_neg p1, htk]
            cases hfs : fk.sbox with
            | none =>
              obtain ⟨own', hrep, hk⟩ := p2 hfs
              exact ⟨_, own', rfl, hrep, fun _ => hk⟩
            | some fb =>
              obtain ⟨sb, e, own', hrep, hk⟩ := p3 fb hfs
              have htne : t ≠ s.mem.next := by have := h.lt t1; omega
              have hkey : ((s.mem.put t (some (.key { tk with group := some g }))).alloc (.sbox sb)).2.key t =
                  some { tk with group := some g } := by
                simp [KMem.key, htne]
              refine ⟨_, own', ?_, hrep, fun hn => hk (hn _ (by rw [t2]))⟩
              simp only [copy_sbox, e, Option.bind_eq_bind, Option.bind_some, pure, hkey]
              rfl
        | none =>
          rw [hD.1] at hr
          simp only at hr
          cases hr
          obtain ⟨s1, own1, e1, hr1, hk1⟩ := assign_rep h dst ts s.mem.next (s.mem.alloc (.key ⟨none, none, none, none⟩)).2
            ⟨none, none, none, none⟩ (fun x => x = s.mem.next) (fun x hx => by subst hx; simp) (by simp) (fun x hx => by simp [hx])
            (key_of_parts ⟨none, none, none, none⟩ none (by simp) rfl (by simp) (by simp) (by simp))
          have es1 : s1 = { s with mem := (s.mem.alloc (.key ⟨none, none, none, none⟩)).2 }.setPkey dst (ts, some s.mem.next) := by
            simp only [EVP_PKEY_assign, dstu_asn1_pkey_free, hd, DSTU_KEY_free, Option.bind_eq_bind, Option.bind_some, pure,
              Option.some.injEq] at e1
            rw [← e1]
            simp only [KState.setPkey]
            congr
            funext i
            split <;> rfl
          have hd1 : s1.pkey dst = (ts, some s.mem.next) := by rw [es1]; simp [KState.setPkey]
          have hs1 : s1.pkey src = (ts, some f) := by rw [es1]; simp [KState.setPkey, Ne.symm hne, hs]
          have hfn : f ≠ s.mem.next := by have := h.lt f1; omega
          have c1 : s1.mem.cell s.mem.next = some (.key ⟨none, none, none, none⟩) := by
            rw [es1]; simp [KState.setPkey]
          have c2 : s1.mem.cell f = some (.key fk) := by
            rw [es1]; simp [KState.setPkey, hfn, f1]
          obtain ⟨p1, p2, p3⟩ := param_set_rep hr1 dst src s.mem.next f ts ts hne hd1 hs1 fk ⟨none, none, none, none⟩
            ⟨some g, fsb, fk.priv, fk.pub⟩ ⟨none, none, none, none⟩ c2 c1 (by simp [KeyWorld.setKey, Ne.symm hne, f2, hg])
            (by simp [KeyWorld.setKey]) (fun _ => rfl) g
          have htk : s1.mem.key s.mem.next = some ⟨none, none, none, none⟩ := by simp [KMem.key, c1]
          simp only [ensureKey, hd, alloc_addr, Option.bind_eq_bind, e1, Option.bind_some, pure, if_neg p1, htk]
          cases hfs : fk.sbox with
          | none =>
            obtain ⟨own', hrep, hk⟩ := p2 hfs
            rw [setKey_setKey] at hrep
            exact ⟨_, own', rfl, hrep, fun _ => hk1.trans hk⟩
          | some fb =>
            obtain ⟨sb, e, own', hrep, hk⟩ := p3 fb hfs
            rw [setKey_setKey] at hrep
            have htne : s.mem.next ≠ s1.mem.next := by have := hr1.lt c1; omega
            have hkey : ((s1.mem.put s.mem.next (some (.key ⟨some g, none, none, none⟩))).alloc (.sbox sb)).2.key s.mem.next =
                some ⟨some g, none, none, none⟩ := by
              simp [KMem.key, htne]
            refine ⟨_, own', ?_, hrep, fun hn => hk1.trans (hk rfl)⟩
            simp only [copy_sbox, e, Option.bind_eq_bind, Option.bind_some, pure, hkey]
            rfl

end

end Dstu
