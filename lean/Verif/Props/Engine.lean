import Verif.Lemmas.Engine

/-! Lookup and lifetime of the engine's methods: C48, C49. -/

namespace Dstu.Props

open Spec

/-- C48, part 1.  The list of algorithms of each kind, with its length. -/
theorem C48_list (s : EngState) (k : MethKind) : s.list k = (((algorithms k).length : Int), some (algorithms k)) := by
  cases k <;> rfl

/-- C48, part 2.  As long as the engine is in use: looking up an algorithm of the list gives a method
in memory of that kind and that identifier; and after any further use the same lookup gives the same method, still
in memory. -/
theorem C48_known (g : ErrRegistry) (before after : List EngOp) (hb : before.all inUse = true) (ha : after.all inUse = true)
    (k : MethKind) (nid : Int) (hn : nid ∈ algorithms k) :
    ∃ fs a gs s, (EngState.boot g).run (before ++ [.get k nid] ++ after ++ [.get k nid]) = some (fs ++ [.method a] ++ gs ++ [.method a], s) ∧
      fs.length = before.length ∧ gs.length = after.length ∧ s.heap a = some ⟨k, nid⟩ := by
  obtain ⟨sl, hsl⟩ := Option.isSome_iff_exists.1 (slotOf_some.2 hn)
  have hcb := careful_inUse (before ++ []) (by simpa using hb)
  obtain ⟨fs, s1, e1, l1, h1, _, _⟩ := careful_run (boot_engine_inv g) before [] hcb
  rw [(inUse_no _ hb).1, (inUse_no _ hb).2] at h1
  obtain ⟨a, ha1, eg, _⟩ := get_known hsl s1
  obtain ⟨h2, _⟩ := ensure_inv h1 (sl := sl) (by cases sl <;> rfl)
  have hca := careful_inUse (after ++ []) (by simpa using ha)
  obtain ⟨gs, s2, e2, l2, h3, _, k3⟩ := careful_run h2 after [] hca
  have ha2 := k3 ha sl a ha1
  obtain ⟨b, hb1, eg2, _⟩ := get_known hsl s2
  rw [(inUse_no _ ha).1, (inUse_no _ ha).2] at h3
  obtain ⟨h4, k4⟩ := ensure_inv h3 (sl := sl) (by cases sl <;> rfl)
  have : b = a := by have := k4 sl a ha2; rw [hb1] at this; exact Option.some.inj this
  subst this
  refine ⟨fs, b, gs, s2.ensure sl, ?_, l1, l2, ?_⟩
  · have r1 : ∀ (s : EngState) (r : Found × EngState), s.get k nid = r → s.run [.get k nid] = some ([r.1], r.2) := by
      intro s r hr
      rw [EngState.run, show s.step (.get k nid) = some r from congrArg some hr]
      rfl
    have t1 : (EngState.boot g).run (before ++ [.get k nid]) = some (fs ++ [.method b], s1.ensure sl) := by
      rw [EngState.run_append _ _ _ e1, r1 s1 _ eg]; rfl
    have t2 : (EngState.boot g).run (before ++ [.get k nid] ++ after) = some (fs ++ [.method b] ++ gs, s2) := by
      rw [EngState.run_append _ _ _ t1, e2]; rfl
    rw [EngState.run_append _ _ _ t2, r1 s2 _ eg2]; rfl
  · rw [← slotOf_meth hsl]
    exact h4.live sl (by cases sl <;> rfl) b hb1

/-- C48, loading.  At any time in use, loading the engine reports success exactly if all seventeen steps succeed; the digest and the cipher are then found by name, in memory, and they are
the methods the lookup by identifier gives; initialising the engine succeeds and changes nothing. -/
theorem C48_loaded (g : ErrRegistry) (before : List EngOp) (hb : before.all inUse = true) (ok : Nat) :
    ∃ fs s, (EngState.boot g).run before = some (fs, s) ∧ ((dstu_bind ok s).1 = true ↔ 17 ≤ ok) ∧ dstu_engine_init s = (true, s) ∧
      ((dstu_bind ok s).1 = true → ∃ a b, (EngState.boot g).run (before ++ [.bind ok, .init, .byName .digest, .byName .cipher, .get .digest 1157, .get .cipher 1154]) =
        some (fs ++ [.null, .null, .method a, .method b, .method a, .method b], (dstu_bind ok s).2) ∧
        (dstu_bind ok s).2.heap a = some ⟨.digest, 1157⟩ ∧ (dstu_bind ok s).2.heap b = some ⟨.cipher, 1154⟩) := by
  have hcb := careful_inUse (before ++ []) (by simpa using hb)
  obtain ⟨fs, s, e1, _, h1, _, _⟩ := careful_run (boot_engine_inv g) before [] hcb
  rw [(inUse_no _ hb).1, (inUse_no _ hb).2] at h1
  have hok : (dstu_bind ok s).1 = true ↔ 17 ≤ ok := by
    simp only [dstu_bind]
    split <;> simp <;> omega
  refine ⟨fs, s, e1, hok, rfl, fun h => ?_⟩
  have h2 := (bind_inv h1 ok).1
  have h17 := hok.1 h
  have hn : (∃ a, (dstu_bind ok s).2.namedDigest = some a) ∧ ∃ b, (dstu_bind ok s).2.namedCipher = some b := by
    unfold dstu_bind
    simp only [md_get_eq, cipher_get_eq, show 14 ≤ ok by omega, show 15 ≤ ok by omega, show 16 ≤ ok by omega, show ¬ ok < 17 by omega, if_true, if_false]
    obtain ⟨a, ha⟩ := ensure_slot s .md
    obtain ⟨b, hb⟩ := ensure_slot { s.ensure .md with namedDigest := (s.ensure .md).slot .md } .ci
    refine ⟨⟨a, ?_⟩, b, hb⟩
    have hk : ∀ t : EngState, (t.ensure .ci).namedDigest = t.namedDigest := fun t => by
      unfold EngState.ensure
      split <;> rfl
    exact (hk _).trans ha
  obtain ⟨⟨a, ha⟩, b, hb⟩ := hn
  have sa : (dstu_bind ok s).2.slot .md = some a := h2.named rfl a ha
  have sb : (dstu_bind ok s).2.slot .ci = some b := h2.named' rfl b hb
  refine ⟨a, b, ?_, h2.live .md rfl a sa, h2.live .ci rfl b sb⟩
  have same : ∀ sl c, (dstu_bind ok s).2.slot sl = some c → (dstu_bind ok s).2.ensure sl = (dstu_bind ok s).2 := by
    intro sl c hc
    unfold EngState.ensure
    rw [if_neg (by rw [hc]; simp)]
  obtain ⟨a', ea, ga, _⟩ := get_known (k := .digest) (nid := 1157) (sl := .md) rfl (dstu_bind ok s).2
  obtain ⟨b', eb, gb, _⟩ := get_known (k := .cipher) (nid := 1154) (sl := .ci) rfl (dstu_bind ok s).2
  rw [same _ _ sa] at ea ga
  rw [same _ _ sb] at eb gb
  rw [sa] at ea; cases ea
  rw [sb] at eb; cases eb
  rw [EngState.run_append _ _ _ e1]
  simp only [EngState.run, EngState.step, dstu_engine_init, ha, hb, ga, gb, Option.elim, Option.map]

/-- Loading twice, finishing nothing in between. -/
example (g : ErrRegistry) : ([EngOp.bind 17, .get .pkey 1158, .bind 3].all inUse = true) ∧
    (dstu_bind 17 (EngState.boot g)).1 = true ∧ (dstu_bind 16 (EngState.boot g)).1 = false := ⟨by decide, rfl, rfl⟩

/-- C48, part 3.  Any other identifier yields failure and no method, and changes nothing; except 0 for digests and
ciphers.

Missing: the identifier 0 for digests and ciphers, refuted below. -/
theorem C48_unknown_partial (s : EngState) (k : MethKind) (nid : Int) (hn : nid ∉ algorithms k) (h0 : nid ≠ 0 ∨ k = .pkey ∨ k = .asn1) :
    s.get k nid = (.null, s) := by
  refine get_unknown ?_ s h0
  cases h : slotOf k nid with
  | none => rfl
  | some sl => exact absurd (slotOf_some.1 (by rw [h]; rfl)) hn

/-- C48 fails for the identifier 0: looking up the digest or the cipher of identifier 0, which the engine does not have,
returns the value of a variable nobody has written. -/
theorem C48_zero_refuted : ¬ ∀ (s : EngState) (k : MethKind) (nid : Int), nid ∉ algorithms k → s.get k nid = (.null, s) := by
  intro h
  have := congrArg Prod.fst (h (.boot ⟨fun _ => none, 128, [], []⟩) .digest 0 (by decide))
  exact absurd this (by decide)

/-- Both lookups of the example of C48. -/
example : ∃ s, (EngState.boot ⟨fun _ => none, 128, [], []⟩).run [.bind 17, .get .pkey 1159, .init, .get .asn1 1159, .get .digest 1157, .get .pkey 1159, .get .cipher 5] =
    some ([.null, .method 2, .null, .method 3, .method 0, .method 2, .null], s) := ⟨_, rfl⟩

/-- C49 for careful histories: nothing is freed twice and no operation hands out a freed method: at the moment it
is handed out the method is in memory and is the one asked for.  If the history contains the finish and the
destruction of the engine, all methods have been freed at its end.

Missing: histories that use digests or ciphers, or finish, after a finish; refuted below. -/
theorem C49_lifetime_partial (g : ErrRegistry) (ops : List EngOp) (hc : careful false false ops = true) :
    (∀ done op, done ++ [op] <+: ops → ∃ fs r s, (EngState.boot g).run (done ++ [op]) = some (fs ++ [r], s) ∧
      ∀ a, r = .method a → (s.heap a).isSome ∧ s.heap a = op.wants) ∧
    (∃ fs s, (EngState.boot g).run ops = some (fs, s) ∧ (ops.any isFinish = true → ops.any isDestroy = true → ∀ a, s.heap a = none)) := by
  constructor
  · rintro done op ⟨rest, rfl⟩
    rw [List.append_assoc] at hc
    obtain ⟨fs, s1, e1, l1, h1, hc1, _⟩ := careful_run (boot_engine_inv g) done ([op] ++ rest) hc
    obtain ⟨r, s2, e2, hr, _⟩ := careful_step h1 op rest hc1
    refine ⟨fs, r, s2, ?_, hr⟩
    rw [EngState.run_append _ _ _ e1, EngState.run_cons _ _ _ e2]
    rfl
  · obtain ⟨fs, s1, e1, l1, h1, _, _⟩ := careful_run (boot_engine_inv g) ops [] (by simpa using hc)
    refine ⟨fs, s1, e1, fun hf hd a => ?_⟩
    rw [hf, hd] at h1
    cases ha : s1.heap a with
    | none => rfl
    | some m =>
      obtain ⟨sl, hs, _⟩ := h1.all a m ha
      cases sl <;> cases hs

example : careful false false [.bind 17, .init, .get .digest 1157, .get .pkey 1158, .byName .cipher, .finish, .get .asn1 1158, .destroy] = true := rfl

/-- C49 fails: an engine that is finished, initialised again and asked for its digest hands out a freed method. -/
theorem C49_reuse_refuted : ∃ fs a s, (EngState.boot ⟨fun _ => none, 128, [], []⟩).run [.bind 17, .init, .finish, .init, .get .digest 1157] =
    some (fs ++ [.method a], s) ∧ s.heap a = none := ⟨[.null, .null, .null, .null], 0, _, rfl, rfl⟩

/-- C49 fails: an engine that is finished, initialised again and finished again frees its methods twice. -/
theorem C49_double_free_refuted : (EngState.boot ⟨fun _ => none, 128, [], []⟩).run [.bind 17, .init, .finish, .init, .finish] = none := rfl

/-- C49 fails: after a finish OpenSSL still finds the freed cipher by name. -/
theorem C49_name_refuted : ∃ fs a s, (EngState.boot ⟨fun _ => none, 128, [], []⟩).run [.bind 17, .init, .finish, .byName .cipher] =
    some (fs ++ [.method a], s) ∧ s.heap a = none := ⟨[.null, .null, .null], 1, _, rfl, rfl⟩

example (g : ErrRegistry) := C48_known g [.bind 17, .get .pkey 1159] [.init] rfl rfl .digest 1157 (by decide)
example (s : EngState) : s.get .cipher 5 = (.null, s) := C48_unknown_partial s .cipher 5 (by decide) (Or.inl (by decide))
example (g : ErrRegistry) := C49_lifetime_partial g [.bind 17, .init, .get .digest 1157, .get .pkey 1158, .byName .cipher, .finish, .get .asn1 1158, .destroy] rfl

end Dstu.Props
