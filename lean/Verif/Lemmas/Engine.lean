import Verif.Spec.Engine

/-! Lemmas about the engine's methods. -/

namespace Dstu

open Spec

/-- The six static variables. -/
inductive Slot where
  | md | ci | ple | pbe | ale | abe
deriving DecidableEq

/-- The method a variable is for. -/
def Slot.meth : Slot → Meth
  | .md => ⟨.digest, 1157⟩
  | .ci => ⟨.cipher, 1154⟩
  | .ple => ⟨.pkey, 1158⟩
  | .pbe => ⟨.pkey, 1159⟩
  | .ale => ⟨.asn1, 1158⟩
  | .abe => ⟨.asn1, 1159⟩

def EngState.slot (s : EngState) : Slot → Option Nat
  | .md => s.dstu_md
  | .ci => s.dstu_cipher
  | .ple => s.dstu_pkey_methods.1
  | .pbe => s.dstu_pkey_methods.2
  | .ale => s.dstu_asn1_methods.1
  | .abe => s.dstu_asn1_methods.2

def EngState.setSlot (s : EngState) (sl : Slot) (v : Option Nat) : EngState :=
  match sl with
  | .md => { s with dstu_md := v }
  | .ci => { s with dstu_cipher := v }
  | .ple => { s with dstu_pkey_methods := (v, s.dstu_pkey_methods.2) }
  | .pbe => { s with dstu_pkey_methods := (s.dstu_pkey_methods.1, v) }
  | .ale => { s with dstu_asn1_methods := (v, s.dstu_asn1_methods.2) }
  | .abe => { s with dstu_asn1_methods := (s.dstu_asn1_methods.1, v) }

/-- The variable is filled if it is empty. -/
def EngState.ensure (s : EngState) (sl : Slot) : EngState :=
  if s.slot sl = none then (s.alloc sl.meth).2.setSlot sl (some s.next) else s

/-- The variable for an identifier. -/
def slotOf (k : MethKind) (nid : Int) : Option Slot :=
  match k with
  | .digest => if nid = 1157 then some .md else none
  | .cipher => if nid = 1154 then some .ci else none
  | .pkey => if nid = 1158 then some .ple else if nid = 1159 then some .pbe else none
  | .asn1 => if nid = 1158 then some .ale else if nid = 1159 then some .abe else none

theorem slotOf_meth {k : MethKind} {nid : Int} {sl : Slot} (h : slotOf k nid = some sl) : sl.meth = ⟨k, nid⟩ := by
  cases k <;> simp only [slotOf] at h <;> (repeat' split at h) <;> (try cases h) <;> simp_all [Slot.meth]

theorem slotOf_some {k : MethKind} {nid : Int} : (slotOf k nid).isSome ↔ nid ∈ algorithms k := by
  cases k <;> simp only [slotOf, algorithms] <;> (repeat' split) <;> simp_all

theorem meth_inj {a b : Slot} (h : a.meth = b.meth) : a = b := by
  cases a <;> cases b <;> first | rfl | (exfalso; revert h; decide)

theorem slot_setSlot (s : EngState) (sl sl' : Slot) (v : Option Nat) : (s.setSlot sl v).slot sl' = if sl' = sl then v else s.slot sl' := by
  cases sl <;> cases sl' <;> rfl

theorem setSlot_rest (s : EngState) (sl : Slot) (v : Option Nat) : (s.setSlot sl v).heap = s.heap ∧ (s.setSlot sl v).next = s.next ∧
    (s.setSlot sl v).namedDigest = s.namedDigest ∧ (s.setSlot sl v).namedCipher = s.namedCipher := by
  cases sl <;> exact ⟨rfl, rfl, rfl, rfl⟩

theorem md_get_eq (s : EngState) : dstu_md_get s = ((s.ensure .md).slot .md, s.ensure .md) := by
  unfold dstu_md_get EngState.ensure
  cases h : s.dstu_md with
  | none =>
    have : s.slot .md = none := h
    simp only [if_true, this]; rfl
  | some a =>
    have : s.slot .md = some a := h
    simp only [this, reduceCtorEq, if_false]; rw [h]

theorem cipher_get_eq (s : EngState) : dstu_cipher_get s = ((s.ensure .ci).slot .ci, s.ensure .ci) := by
  unfold dstu_cipher_get EngState.ensure
  cases h : s.dstu_cipher with
  | none =>
    have : s.slot .ci = none := h
    simp only [if_true, this]; rfl
  | some a =>
    have : s.slot .ci = some a := h
    simp only [this, reduceCtorEq, if_false]; rw [h]

theorem pkey_get_eq (nid : Int) (s : EngState) : dstu_pkey_meth_get nid s =
    match slotOf .pkey nid with | some sl => ((s.ensure sl).slot sl, s.ensure sl) | none => (none, s) := by
  unfold dstu_pkey_meth_get slotOf EngState.ensure
  simp only [NID_dstu4145le, NID_dstu4145be]
  split
  · rename_i hn
    subst hn
    cases h : s.dstu_pkey_methods.1 with
    | none =>
      have : s.slot .ple = none := h
      simp only [if_true, this, dstu_pkey_meth_new, NID_dstu4145le]; rfl
    | some a =>
      have : s.slot .ple = some a := h
      simp only [this, reduceCtorEq, if_false]; rw [h]
  · split
    · rename_i h1 hn
      subst hn
      cases h : s.dstu_pkey_methods.2 with
      | none =>
        have : s.slot .pbe = none := h
        simp only [if_true, this, dstu_pkey_meth_new, NID_dstu4145le, NID_dstu4145be]; rfl
      | some a =>
        have : s.slot .pbe = some a := h
        simp only [this, reduceCtorEq, if_false]; rw [h]
    · rfl

theorem asn1_get_eq (nid : Int) (s : EngState) : dstu_asn1_meth_get nid s =
    match slotOf .asn1 nid with | some sl => ((s.ensure sl).slot sl, s.ensure sl) | none => (none, s) := by
  unfold dstu_asn1_meth_get slotOf EngState.ensure
  simp only [NID_dstu4145le, NID_dstu4145be]
  split
  · rename_i hn
    subst hn
    cases h : s.dstu_asn1_methods.1 with
    | none =>
      have : s.slot .ale = none := h
      simp only [if_true, this, dstu_asn1_meth_new, NID_dstu4145le]; rfl
    | some a =>
      have : s.slot .ale = some a := h
      simp only [this, reduceCtorEq, if_false]; rw [h]
  · split
    · rename_i h1 hn
      subst hn
      cases h : s.dstu_asn1_methods.2 with
      | none =>
        have : s.slot .abe = none := h
        simp only [if_true, this, dstu_asn1_meth_new, NID_dstu4145le, NID_dstu4145be]; rfl
      | some a =>
        have : s.slot .abe = some a := h
        simp only [this, reduceCtorEq, if_false]; rw [h]
    · rfl

theorem ensure_slot (s : EngState) (sl : Slot) : ∃ a, (s.ensure sl).slot sl = some a := by
  unfold EngState.ensure
  split
  · exact ⟨s.next, by rw [slot_setSlot, if_pos rfl]⟩
  · rename_i h
    cases hs : s.slot sl with
    | none => exact absurd hs h
    | some a => exact ⟨a, rfl⟩

/-- What a lookup of an algorithm gives. -/
theorem get_known {k : MethKind} {nid : Int} {sl : Slot} (h : slotOf k nid = some sl) (s : EngState) :
    ∃ a, (s.ensure sl).slot sl = some a ∧ s.get k nid = (.method a, s.ensure sl) ∧
      s.callback k true false nid = (⟨1, some (some a), none⟩, s.ensure sl) := by
  obtain ⟨a, ha⟩ := ensure_slot s sl
  refine ⟨a, ha, ?_⟩
  have hcb : s.callback k true false nid = (⟨1, some (some a), none⟩, s.ensure sl) := by
    cases k with
    | digest =>
      simp only [slotOf] at h
      split at h
      · cases h
        subst_vars
        simp only [EngState.callback, dstu_digests, NID_dstu34311, md_get_eq, ha]
        rfl
      · cases h
    | cipher =>
      simp only [slotOf] at h
      split at h
      · cases h
        subst_vars
        simp only [EngState.callback, dstu_ciphers, NID_dstu28147_cfb, cipher_get_eq, ha]
        rfl
      · cases h
    | pkey =>
      simp only [EngState.callback, dstu_pkey_meths, pkey_get_eq, h, ha]
      rfl
    | asn1 =>
      simp only [EngState.callback, dstu_asn1_meths, asn1_get_eq, h, ha]
      rfl
  refine ⟨?_, hcb⟩
  unfold EngState.get
  rw [hcb]
  rfl

theorem get_unknown {k : MethKind} {nid : Int} (h : slotOf k nid = none) (s : EngState) (h0 : nid ≠ 0 ∨ k = .pkey ∨ k = .asn1) :
    s.get k nid = (.null, s) := by
  cases k with
  | digest =>
    have h0 : nid ≠ 0 := by rcases h0 with h | h | h <;> first | exact h | cases h
    simp only [slotOf] at h
    split at h
    · cases h
    · rename_i hn
      have h0' : (nid != 0) = true := by simpa using h0
      have hn' : ¬ (1157 : Int) = nid := fun e => hn e.symm
      simp only [EngState.get, EngState.callback, dstu_digests, NID_dstu34311, h0', Bool.and_self, if_true, hn', if_false]
  | cipher =>
    have h0 : nid ≠ 0 := by rcases h0 with h | h | h <;> first | exact h | cases h
    simp only [slotOf] at h
    split at h
    · cases h
    · rename_i hn
      have h0' : (nid != 0) = true := by simpa using h0
      have hn' : ¬ (1154 : Int) = nid := fun e => hn e.symm
      simp only [EngState.get, EngState.callback, dstu_ciphers, NID_dstu28147_cfb, h0', Bool.and_self, if_true, hn', if_false]
  | pkey => simp only [EngState.get, EngState.callback, dstu_pkey_meths, pkey_get_eq, h]; rfl
  | asn1 => simp only [EngState.get, EngState.callback, dstu_asn1_meths, asn1_get_eq, h]; rfl

/-- A lookup never changes anything but by filling a variable. -/
theorem get_state (s : EngState) (k : MethKind) (nid : Int) : (s.get k nid).2 = (match slotOf k nid with | some sl => s.ensure sl | none => s) := by
  cases h : slotOf k nid with
  | some sl =>
    obtain ⟨a, _, e, _⟩ := get_known h s
    rw [e]
  | none =>
    by_cases h0 : nid ≠ 0 ∨ k = .pkey ∨ k = .asn1
    · rw [get_unknown h s h0]
    · cases k with
      | digest =>
        have : nid = 0 := by simpa using h0
        subst this; rfl
      | cipher =>
        have : nid = 0 := by simpa using h0
        subst this; rfl
      | pkey => exact absurd (Or.inr (Or.inl rfl)) h0
      | asn1 => exact absurd (Or.inr (Or.inr rfl)) h0

/-- The variables outside `dead` refer to methods in memory, and to all of them. -/
structure EngState.Inv (dead : Slot → Bool) (s : EngState) : Prop where
  live : ∀ sl, dead sl = false → ∀ a, s.slot sl = some a → s.heap a = some sl.meth
  all : ∀ a m, s.heap a = some m → ∃ sl, dead sl = false ∧ s.slot sl = some a
  fresh : ∀ a, s.next ≤ a → s.heap a = none
  named : dead .md = false → ∀ a, s.namedDigest = some a → s.dstu_md = some a
  named' : dead .ci = false → ∀ a, s.namedCipher = some a → s.dstu_cipher = some a

theorem ensure_inv {dead : Slot → Bool} {s : EngState} (h : s.Inv dead) {sl : Slot} (hd : dead sl = false) :
    (s.ensure sl).Inv dead ∧ ∀ sl' a, s.slot sl' = some a → (s.ensure sl).slot sl' = some a := by
  unfold EngState.ensure
  by_cases hs : s.slot sl = none
  · rw [if_pos hs]
    obtain ⟨r1, r2, r3, r4⟩ := setSlot_rest (s.alloc sl.meth).2 sl (some s.next)
    have hslot : ∀ sl', ((s.alloc sl.meth).2.setSlot sl (some s.next)).slot sl' = if sl' = sl then some s.next else s.slot sl' := by
      intro sl'
      rw [slot_setSlot]
      cases sl' <;> rfl
    have hheap : ∀ a, ((s.alloc sl.meth).2.setSlot sl (some s.next)).heap a = if a = s.next then some sl.meth else s.heap a := by
      intro a; rw [r1]; rfl
    have hkeep : ∀ sl' a, s.slot sl' = some a → ((s.alloc sl.meth).2.setSlot sl (some s.next)).slot sl' = some a := by
      intro sl' a ha
      rw [hslot, if_neg]
      · exact ha
      · rintro rfl; rw [hs] at ha; cases ha
    refine ⟨⟨?_, ?_, ?_, ?_, ?_⟩, hkeep⟩
    · intro sl' hd' a ha
      rw [hslot] at ha
      rw [hheap]
      split at ha
      · subst_vars; cases ha; rw [if_pos rfl]
      · have := h.live sl' hd' a ha
        rw [if_neg, this]
        rintro rfl
        rw [h.fresh _ (Nat.le_refl _)] at this; cases this
    · intro a m ha
      rw [hheap] at ha
      split at ha
      · subst_vars; exact ⟨sl, hd, by rw [hslot, if_pos rfl]⟩
      · obtain ⟨sl', h1, h2⟩ := h.all a m ha
        exact ⟨sl', h1, hkeep sl' a h2⟩
    · intro a ha
      rw [r2] at ha
      have ha : s.next + 1 ≤ a := ha
      rw [hheap, if_neg (by omega)]
      exact h.fresh a (by omega)
    · intro hm a ha
      rw [r3] at ha
      exact hkeep .md a (h.named hm a ha)
    · intro hm a ha
      rw [r4] at ha
      exact hkeep .ci a (h.named' hm a ha)
  · rw [if_neg hs]
    exact ⟨h, fun _ _ ha => ha⟩

/-- Freeing what a variable refers to. -/
theorem free_inv {dead : Slot → Bool} {s : EngState} (h : s.Inv dead) {sl : Slot} (hd : dead sl = false) :
    ∃ s', s.free (s.slot sl) = some s' ∧ s'.Inv (fun x => dead x || x == sl) ∧ s'.slot = s.slot := by
  cases hs : s.slot sl with
  | none =>
    refine ⟨s, rfl, ⟨?_, ?_, h.fresh, ?_, ?_⟩, rfl⟩
    · intro sl' hd'
      exact h.live sl' (by simp at hd'; exact hd'.1)
    · intro a m ha
      obtain ⟨sl', h1, h2⟩ := h.all a m ha
      refine ⟨sl', ?_, h2⟩
      simp only [h1, Bool.false_or, beq_eq_false_iff_ne]
      rintro rfl; rw [hs] at h2; cases h2
    · intro hm; exact h.named (by simp at hm; exact hm.1)
    · intro hm; exact h.named' (by simp at hm; exact hm.1)
  | some a =>
    have hl := h.live sl hd a hs
    refine ⟨{ s with heap := fun b => if b = a then none else s.heap b }, ?_, ⟨?_, ?_, ?_, ?_, ?_⟩, by funext x; cases x <;> rfl⟩
    · show (if (s.heap a).isSome then _ else _) = _
      rw [hl]; rfl
    · intro sl' hd' b hb
      have hb : s.slot sl' = some b := by cases sl' <;> exact hb
      simp only [Bool.or_eq_false_iff, beq_eq_false_iff_ne] at hd'
      have hl' := h.live sl' hd'.1 b hb
      show (if b = a then none else s.heap b) = _
      rw [if_neg, hl']
      rintro rfl
      rw [hl] at hl'
      exact hd'.2 (meth_inj (Option.some.inj hl')).symm
    · intro b m hb
      have hb : (if b = a then none else s.heap b) = some m := hb
      split at hb
      · cases hb
      · rename_i hne
        obtain ⟨sl', h1, h2⟩ := h.all b m hb
        refine ⟨sl', ?_, by cases sl' <;> exact h2⟩
        simp only [h1, Bool.false_or, beq_eq_false_iff_ne]
        rintro rfl; rw [hs] at h2; cases h2; exact hne rfl
    · intro b hb
      show (if b = a then none else s.heap b) = none
      split
      · rfl
      · exact h.fresh b hb
    · intro hm; exact h.named (by simp at hm; exact hm.1)
    · intro hm; exact h.named' (by simp at hm; exact hm.1)

/-- The variables that dangle after a finish or a destruction. -/
def deadSet (f d : Bool) : Slot → Bool
  | .md => f
  | .ci => f
  | _ => d

theorem Inv_congr {D D' : Slot → Bool} {s : EngState} (h : s.Inv D) (e : ∀ sl, D sl = D' sl) : s.Inv D' := by
  have : D = D' := funext e
  rwa [← this]

theorem err_inv {D : Slot → Bool} {s : EngState} (h : s.Inv D) (e : ErrState) : ({ s with err := e } : EngState).Inv D :=
  ⟨fun sl hd a ha => h.live sl hd a (by cases sl <;> exact ha),
    fun a m ha => (h.all a m ha).imp fun sl hs => ⟨hs.1, by cases sl <;> exact hs.2⟩, h.fresh, h.named, h.named'⟩

theorem finish_inv {d : Bool} {s : EngState} (h : s.Inv (deadSet false d)) :
    ∃ s', dstu_engine_finish s = some s' ∧ s'.Inv (deadSet true d) := by
  obtain ⟨s1, e1, h1, k1⟩ := free_inv h (sl := .ci) rfl
  obtain ⟨s2, e2, h2, k2⟩ := free_inv h1 (sl := .md) rfl
  have e1' : s.free s.dstu_cipher = some s1 := e1
  have e2' : s1.free s1.dstu_md = some s2 := e2
  refine ⟨{ s2 with err := ERR_unload_DSTU_strings s2.err }, ?_, err_inv (Inv_congr h2 ?_) _⟩
  · unfold dstu_engine_finish
    rw [e1']
    show (s1.free s1.dstu_md >>= _) = _
    rw [e2']
    rfl
  · intro sl; cases sl <;> cases d <;> rfl

theorem release_inv {D : Slot → Bool} {s : EngState} (h : s.Inv D) {k : MethKind} {nid : Int} {sl : Slot} (hs : slotOf k nid = some sl) (hd : D sl = false) :
    ∃ s', s.release k nid = some s' ∧ s'.Inv (fun x => D x || x == sl) := by
  obtain ⟨a, ha, _, hcb⟩ := get_known hs s
  obtain ⟨s', e, h', _⟩ := free_inv (ensure_inv h hd).1 hd
  refine ⟨s', ?_, h'⟩
  unfold EngState.release
  rw [hcb]
  show (if (1 : Int) = 0 then _ else (s.ensure sl).free (some a)) = _
  rw [if_neg (by decide), ← ha]
  exact e

theorem destroy_inv {f : Bool} {s : EngState} (h : s.Inv (deadSet f false)) :
    ∃ s', s.destroy = some s' ∧ s'.Inv (deadSet f true) := by
  obtain ⟨s1, e1, h1⟩ := release_inv h (k := .pkey) (nid := 1158) rfl rfl
  obtain ⟨s2, e2, h2⟩ := release_inv h1 (k := .pkey) (nid := 1159) rfl rfl
  obtain ⟨s3, e3, h3⟩ := release_inv h2 (k := .asn1) (nid := 1158) rfl rfl
  obtain ⟨s4, e4, h4⟩ := release_inv h3 (k := .asn1) (nid := 1159) rfl rfl
  refine ⟨s4, ?_, Inv_congr h4 ?_⟩
  · unfold EngState.destroy
    show (s.release .pkey 1158 >>= _) = _
    rw [e1]
    show (s1.release .pkey 1159 >>= _) = _
    rw [e2]
    show (s2.release .asn1 1158 >>= _) = _
    rw [e3]
    exact e4
  · intro sl; cases sl <;> cases f <;> rfl

theorem bind_inv {d : Bool} {s : EngState} (h : s.Inv (deadSet false d)) (ok : Nat) :
    (dstu_bind ok s).2.Inv (deadSet false d) ∧ ∀ sl a, s.slot sl = some a → (dstu_bind ok s).2.slot sl = some a := by
  unfold dstu_bind
  simp only [md_get_eq, cipher_get_eq]
  have step1 : ∀ s : EngState, s.Inv (deadSet false d) →
      let s1 := if 14 ≤ ok then (if 15 ≤ ok then { s.ensure .md with namedDigest := (s.ensure .md).slot .md } else s.ensure .md) else s
      s1.Inv (deadSet false d) ∧ ∀ sl a, s.slot sl = some a → s1.slot sl = some a := by
    intro s h
    obtain ⟨h1, k1⟩ := ensure_inv h (sl := .md) rfl
    by_cases c1 : 14 ≤ ok
    · by_cases c2 : 15 ≤ ok
      · simp only [c1, c2, if_true]
        refine ⟨⟨fun sl hd a ha => h1.live sl hd a (by cases sl <;> exact ha),
          fun a m ha => (h1.all a m ha).imp fun sl hs => ⟨hs.1, by cases sl <;> exact hs.2⟩, h1.fresh, fun _ a ha => ha, h1.named'⟩, ?_⟩
        intro sl a ha
        have := k1 sl a ha
        cases sl <;> exact this
      · simp only [c1, c2, if_true, if_false]
        exact ⟨h1, k1⟩
    · simp only [c1, if_false]
      exact ⟨h, fun _ _ ha => ha⟩
  have step2 : ∀ s : EngState, s.Inv (deadSet false d) →
      let s1 := if 15 ≤ ok then (if 16 ≤ ok then { s.ensure .ci with namedCipher := (s.ensure .ci).slot .ci } else s.ensure .ci) else s
      s1.Inv (deadSet false d) ∧ ∀ sl a, s.slot sl = some a → s1.slot sl = some a := by
    intro s h
    obtain ⟨h1, k1⟩ := ensure_inv h (sl := .ci) rfl
    by_cases c1 : 15 ≤ ok
    · by_cases c2 : 16 ≤ ok
      · simp only [c1, c2, if_true]
        refine ⟨⟨fun sl hd a ha => h1.live sl hd a (by cases sl <;> exact ha),
          fun a m ha => (h1.all a m ha).imp fun sl hs => ⟨hs.1, by cases sl <;> exact hs.2⟩, h1.fresh, h1.named, fun _ a ha => ha⟩, ?_⟩
        intro sl a ha
        have := k1 sl a ha
        cases sl <;> exact this
      · simp only [c1, c2, if_true, if_false]
        exact ⟨h1, k1⟩
    · simp only [c1, if_false]
      exact ⟨h, fun _ _ ha => ha⟩
  obtain ⟨h1, k1⟩ := step1 s h
  obtain ⟨h2, k2⟩ := step2 _ h1
  split
  · refine ⟨err_inv h2 _, fun sl a ha => ?_⟩
    have := k2 sl a (k1 sl a ha)
    cases sl <;> exact this
  · refine ⟨err_inv h2 _, fun sl a ha => ?_⟩
    have := k2 sl a (k1 sl a ha)
    cases sl <;> exact this

theorem get_inv {D : Slot → Bool} {s : EngState} (h : s.Inv D) (k : MethKind) (nid : Int) (hd : ∀ sl, slotOf k nid = some sl → D sl = false) :
    (s.get k nid).2.Inv D ∧ (∀ sl a, s.slot sl = some a → (s.get k nid).2.slot sl = some a) ∧
      ∀ a, (s.get k nid).1 = .method a → (s.get k nid).2.heap a = some ⟨k, nid⟩ := by
  rw [get_state]
  cases hs : slotOf k nid with
  | some sl =>
    obtain ⟨a, ha, e, _⟩ := get_known hs s
    obtain ⟨h1, k1⟩ := ensure_inv h (hd sl hs)
    refine ⟨h1, k1, fun b hb => ?_⟩
    rw [e] at hb
    cases hb
    rw [← slotOf_meth hs]
    exact h1.live sl (hd sl hs) a ha
  | none =>
    refine ⟨h, fun _ _ ha => ha, fun b hb => ?_⟩
    by_cases h0 : nid ≠ 0 ∨ k = .pkey ∨ k = .asn1
    · rw [get_unknown hs s h0] at hb; cases hb
    · cases k with
      | digest =>
        have : nid = 0 := by simpa using h0
        subst this; cases hb
      | cipher =>
        have : nid = 0 := by simpa using h0
        subst this; cases hb
      | pkey => exact absurd (Or.inr (Or.inl rfl)) h0
      | asn1 => exact absurd (Or.inr (Or.inr rfl)) h0

/-- One careful operation. -/
theorem careful_step {f d : Bool} {s : EngState} (h : s.Inv (deadSet f d)) (op : EngOp) (ops : List EngOp) (hc : careful f d (op :: ops) = true) :
    ∃ r s', s.step op = some (r, s') ∧ (∀ a, r = .method a → (s'.heap a).isSome ∧ s'.heap a = op.wants) ∧
      ∃ f' d', s'.Inv (deadSet f' d') ∧ careful f' d' ops = true ∧
        f' = (f || isFinish op) ∧ d' = (d || isDestroy op) ∧
        (inUse op = true → ∀ sl a, s.slot sl = some a → s'.slot sl = some a) := by
  cases op with
  | bind ok =>
    simp only [careful, Bool.and_eq_true, Bool.not_eq_true'] at hc
    obtain ⟨rfl, hc⟩ := hc
    obtain ⟨h1, k1⟩ := bind_inv h ok
    exact ⟨.null, (dstu_bind ok s).2, rfl, fun a ha => (by cases ha), false, d, h1, hc, rfl, (by cases d <;> rfl), fun _ => k1⟩
  | init => exact ⟨.null, s, rfl, fun a ha => (by cases ha), f, d, h, hc, (by cases f <;> cases d <;> rfl), (by cases f <;> cases d <;> rfl), fun _ _ _ ha => ha⟩
  | get k nid =>
    simp only [careful, Bool.and_eq_true] at hc
    have hd : ∀ sl, slotOf k nid = some sl → deadSet f d sl = false := by
      intro sl hsl
      have hm := slotOf_meth hsl
      cases sl <;> (obtain ⟨rfl, -⟩ := Meth.mk.inj hm) <;> simpa [deadSet] using hc.1
    obtain ⟨h1, k1, l1⟩ := get_inv h k nid hd
    exact ⟨(s.get k nid).1, (s.get k nid).2, rfl, fun a ha => ⟨by rw [l1 a ha]; rfl, l1 a ha⟩, f, d, h1, hc.2, (by cases f <;> cases d <;> rfl), (by cases f <;> cases d <;> rfl), fun _ => k1⟩
  | byName k =>
    simp only [careful, Bool.and_eq_true, Bool.not_eq_true'] at hc
    obtain ⟨rfl, hc⟩ := hc
    cases k with
    | digest =>
      refine ⟨_, s, rfl, fun a ha => ?_, false, d, h, hc, rfl, (by cases d <;> rfl), fun _ _ _ ha => ha⟩
      cases hn : s.namedDigest with
      | none => rw [hn] at ha; cases ha
      | some b =>
        rw [hn] at ha
        cases ha
        have := h.live .md rfl a (h.named rfl a hn)
        exact ⟨by rw [this]; rfl, this⟩
    | cipher =>
      refine ⟨_, s, rfl, fun a ha => ?_, false, d, h, hc, rfl, (by cases d <;> rfl), fun _ _ _ ha => ha⟩
      cases hn : s.namedCipher with
      | none => rw [hn] at ha; cases ha
      | some b =>
        rw [hn] at ha
        cases ha
        have := h.live .ci rfl a (h.named' rfl a hn)
        exact ⟨by rw [this]; rfl, this⟩
    | pkey => exact ⟨.null, s, rfl, fun a ha => (by cases ha), false, d, h, hc, rfl, (by cases d <;> rfl), fun _ _ _ ha => ha⟩
    | asn1 => exact ⟨.null, s, rfl, fun a ha => (by cases ha), false, d, h, hc, rfl, (by cases d <;> rfl), fun _ _ _ ha => ha⟩
  | finish =>
    simp only [careful, Bool.and_eq_true, Bool.not_eq_true'] at hc
    obtain ⟨rfl, hc⟩ := hc
    obtain ⟨s', e, h1⟩ := finish_inv h
    exact ⟨.null, s', by show (dstu_engine_finish s).map _ = _; rw [e]; rfl, fun a ha => (by cases ha), true, d, h1, hc, rfl, (by cases d <;> rfl), fun hu => (by cases hu)⟩
  | destroy =>
    simp only [careful, Bool.and_eq_true, Bool.not_eq_true'] at hc
    obtain ⟨rfl, hc⟩ := hc
    obtain ⟨s', e, h1⟩ := destroy_inv h
    exact ⟨.null, s', by show s.destroy.map _ = _; rw [e]; rfl, fun a ha => (by cases ha), f, true, h1, hc, (by cases f <;> rfl), rfl, fun hu => (by cases hu)⟩

theorem EngState.run_cons (s : EngState) (op : EngOp) (ops : List EngOp) {r : Found} {s1 : EngState} (h : s.step op = some (r, s1)) :
    s.run (op :: ops) = (s1.run ops).map fun (fs, s) => (r :: fs, s) := by
  rw [EngState.run, h]

theorem careful_append {f d : Bool} {a b : List EngOp} (h : careful f d (a ++ b) = true) : careful f d a = true := by
  induction a generalizing f d with
  | nil => rfl
  | cons op a ih =>
    cases op <;> simp only [List.cons_append, careful, Bool.and_eq_true] at h ⊢ <;> first | exact ⟨h.1, ih h.2⟩ | exact ih h

/-- A careful history, then one more careful operation. -/
theorem careful_run {f d : Bool} {s : EngState} (h : s.Inv (deadSet f d)) (ops rest : List EngOp) (hc : careful f d (ops ++ rest) = true) :
    ∃ fs s', s.run ops = some (fs, s') ∧ fs.length = ops.length ∧ s'.Inv (deadSet (f || ops.any isFinish) (d || ops.any isDestroy)) ∧
      careful (f || ops.any isFinish) (d || ops.any isDestroy) rest = true ∧
      (ops.all inUse = true → ∀ sl a, s.slot sl = some a → s'.slot sl = some a) := by
  induction ops generalizing f d s with
  | nil => exact ⟨[], s, rfl, rfl, (by simpa using h), (by simpa using hc), fun _ _ _ ha => ha⟩
  | cons op ops ih =>
    obtain ⟨r, s1, e1, _, f', d', h1, hc1, rfl, rfl, k1⟩ := careful_step h op (ops ++ rest) hc
    obtain ⟨fs, s', e2, hl, h2, hc2, k2⟩ := ih h1 hc1
    refine ⟨r :: fs, s', ?_, by simp [hl], ?_, ?_, ?_⟩
    · rw [EngState.run_cons _ _ _ e1, e2]; rfl
    · simpa [Bool.or_assoc] using h2
    · simpa [Bool.or_assoc] using hc2
    · intro hu sl a ha
      simp only [List.all_cons, Bool.and_eq_true] at hu
      exact k2 hu.2 sl a (k1 hu.1 sl a ha)

theorem EngState.run_append (s : EngState) (a b : List EngOp) {fs : List Found} {s1 : EngState} (h : s.run a = some (fs, s1)) :
    s.run (a ++ b) = (s1.run b).map fun (gs, s) => (fs ++ gs, s) := by
  induction a generalizing s fs with
  | nil => cases h; cases hr : s1.run b <;> simp [hr]
  | cons op a ih =>
    cases hs : s.step op with
    | none => rw [EngState.run, hs] at h; cases h
    | some p =>
      obtain ⟨r, s2⟩ := p
      rw [List.cons_append, EngState.run_cons _ _ _ hs]
      rw [EngState.run_cons _ _ _ hs] at h
      cases hr : s2.run a with
      | none => rw [hr] at h; cases h
      | some q =>
        obtain ⟨fs', s3⟩ := q
        rw [hr] at h
        cases h
        rw [ih s2 hr]
        cases s1.run b <;> rfl

theorem boot_engine_inv (g : ErrRegistry) : (EngState.boot g).Inv (deadSet false false) :=
  ⟨fun sl _ a ha => (by cases sl <;> cases ha), fun a m ha => (by cases ha), fun _ _ => rfl, fun _ a ha => (by cases ha), fun _ a ha => (by cases ha)⟩

theorem careful_inUse (ops : List EngOp) (h : ops.all inUse = true) : careful false false ops = true := by
  induction ops with
  | nil => rfl
  | cons op ops ih =>
    simp only [List.all_cons, Bool.and_eq_true] at h
    have := ih h.2
    cases op <;> simp_all [careful, inUse]

theorem inUse_no (ops : List EngOp) (h : ops.all inUse = true) : ops.any isFinish = false ∧ ops.any isDestroy = false := by
  induction ops with
  | nil => exact ⟨rfl, rfl⟩
  | cons op ops ih =>
    simp only [List.all_cons, Bool.and_eq_true] at h
    have := ih h.2
    cases op <;> simp_all [isFinish, isDestroy, inUse]

end Dstu
