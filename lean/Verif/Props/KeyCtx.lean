import Verif.Lemmas.KeyHeap
import Verif.Props.KeyPair

/-! Contexts and keys in memory: C39, C43, C68, C69. -/

namespace Dstu.Props

open Spec

/-- The specification with the curves, identifiers and random generator of the engine. -/
noncomputable def keyParams (env : Env) (mdNid : Nat) (sn2nid : List Byte → Nat) (dflt : EcGroup) : KeyParams :=
  ⟨dflt, fun v => if sn2nid v = NID_undef then none else group_from_nid env.nids (sn2nid v), mdNid, generatePair env⟩

theorem default_exists (nids : CurveNids) : ∃ g, get_default_group nids = some g := by
  obtain ⟨_, g, _, h, _⟩ := C33_curve_table_sound nids 6
  exact ⟨g, h⟩

/-- The default curve is the seventh built-in one. -/
noncomputable def defaultCurve (nids : CurveNids) : EcGroup := (default_exists nids).choose

theorem defaultCurve_eq (nids : CurveNids) : get_default_group nids = some (defaultCurve nids) :=
  (default_exists nids).choose_spec

section

variable (env : Env) (mdNid : Nat) (sn2nid : List Byte → Nat)

/-- The specification of contexts and keys of this engine. -/
noncomputable abbrev engineKeys : KeyParams := keyParams env mdNid sn2nid (defaultCurve env.nids)

theorem step_rep {s : KState} {w w' : KeyWorld} {own} {op : KeyOp} {r : Int} (h : Rep (defaultCurve env.nids) s w own)
    (hr : w.step (engineKeys env mdNid sn2nid) op = some (r, w')) :
    ∃ s' own', s.step env mdNid sn2nid op = some (r, s') ∧ Rep (defaultCurve env.nids) s' w' own' ∧
      (op.NoOverwrite w → Keeps own own') := by
  cases op with
  | init c t =>
    simp only [KeyWorld.step] at hr
    cases hc : w.ctx c with
    | some v => rw [hc] at hr; cases hr
    | none =>
      rw [hc] at hr
      cases hr
      obtain ⟨s', own', e, h1, h2⟩ := init_rep h c t hc
      exact ⟨s', own', by simp [KState.step, e], h1, fun _ => h2⟩
  | cleanup c =>
    cases hr
    obtain ⟨s', own', e, h1, h2⟩ := cleanup_rep h c
    exact ⟨s', own', by simp [KState.step, e], h1, fun _ => h2⟩
  | copy dst src =>
    simp only [KeyWorld.step] at hr
    cases hc : w.ctx dst with
    | some v => rw [hc] at hr; cases hr
    | none =>
      rw [hc] at hr
      cases hr
      obtain ⟨s', own', e, h1, h2⟩ := copy_rep h dst src hc
      exact ⟨s', own', by simp [KState.step, e], h1, fun _ => h2⟩
  | ctrl c type p1 p2 =>
    simp only [KeyWorld.step] at hr
    cases hc : w.ctx c with
    | none =>
      rw [hc] at hr
      cases hr
      exact ⟨s, own, by simp [KState.step, ctrl_null mdNid c (h.data_none hc).1], h, fun _ => Keeps.refl own⟩
    | some v =>
      rw [hc] at hr
      simp only [Option.map_eq_some_iff] at hr
      obtain ⟨⟨r', v'⟩, hv, he⟩ := hr
      cases he
      obtain ⟨s', own', e, h1, h2⟩ := ctrl_rep (engineKeys env mdNid sn2nid) h c v v' hc type p1 p2 _ hv
      exact ⟨s', own', e, h1, fun _ => h2⟩
  | ctrlStr c type value =>
    obtain ⟨s', own', r', w'', e1, e2, h1, h2⟩ :=
      ctrl_str_rep (engineKeys env mdNid sn2nid) env.nids sn2nid (fun _ => rfl) h c type value
    rw [hr] at e2
    cases e2
    exact ⟨s', own', e1, h1, fun _ => h2⟩
  | keygen c p draws =>
    obtain ⟨s', own', e, h1, h2⟩ :=
      keygen_rep env (engineKeys env mdNid sn2nid) rfl (defaultCurve_eq _) h c p draws r w' hr
    exact ⟨s', own', by simp [KState.step, e], h1, fun _ => h2⟩
  | assign p t k =>
    cases hr
    obtain ⟨s', own', e, h1, h2⟩ := assignKey_rep h p t k
    exact ⟨s', own', by simp [KState.step, e], h1, fun _ => h2⟩
  | paramCopy dst src => exact param_copy_rep (engineKeys env mdNid sn2nid) h dst src r w' hr
  | paramCmp p q =>
    simp only [KeyWorld.step, Option.map_eq_some_iff] at hr
    obtain ⟨r', hc, he⟩ := hr
    cases he
    exact ⟨s, own, by simp [KState.step, cmp_rep h p q _ hc], h, fun _ => Keeps.refl own⟩
  | free p =>
    cases hr
    obtain ⟨s', own', e, h1, h2⟩ := free_rep h p
    exact ⟨s', own', by simp [KState.step, e], h1, fun _ => h2⟩

theorem run_rep (ops : List KeyOp) : ∀ {s : KState} {w w' : KeyWorld} {own} {rs : List Int}, Rep (defaultCurve env.nids) s w own →
    w.run (engineKeys env mdNid sn2nid) ops = some (rs, w') →
    ∃ s' own', s.run env mdNid sn2nid ops = some (rs, s') ∧ Rep (defaultCurve env.nids) s' w' own' ∧
      (w.NoOverwrite (engineKeys env mdNid sn2nid) ops → Keeps own own') := by
  induction ops with
  | nil =>
    intro s w w' own rs h hr
    cases hr
    exact ⟨s, own, rfl, h, fun _ => Keeps.refl own⟩
  | cons op ops ih =>
    intro s w w' own rs h hr
    simp only [KeyWorld.run] at hr
    cases hs : w.step (engineKeys env mdNid sn2nid) op with
    | none => rw [hs] at hr; cases hr
    | some rw1 =>
      obtain ⟨r, w1⟩ := rw1
      rw [hs] at hr
      simp only [Option.map_eq_some_iff] at hr
      obtain ⟨⟨rs1, w2⟩, hr1, he⟩ := hr
      cases he
      obtain ⟨s1, own1, e1, h1, k1⟩ := step_rep env mdNid sn2nid h hs
      obtain ⟨s2, own2, e2, h2, k2⟩ := ih h1 hr1
      refine ⟨s2, own2, by simp [KState.run, e1, e2], h2, fun hn => ?_⟩
      simp only [KeyWorld.NoOverwrite, hs] at hn
      exact (k1 hn.1).trans (k2 hn.2)

theorem empty_rep (dflt : EcGroup) : Rep dflt KState.empty KeyWorld.empty (fun _ => none) :=
  ⟨fun _ => by simp [KState.empty], fun _ _ => rfl, fun _ => by simp [CtxAt, KState.empty, KeyWorld.empty],
    fun _ => by simp [KeyAt, KState.empty, KeyWorld.empty]⟩

/-! ### C43 -/

/-- C43.  Every sequence of calls that the interface allows is free of undefined behaviour (use after
free, double free, null dereference), answers as the specification says, and leaves every key with the
value the specification says: contexts and keys behave as separate values. -/
theorem C43_contexts_are_values (ops : List KeyOp) (rs : List Int) (w : KeyWorld)
    (h : KeyWorld.empty.run (engineKeys env mdNid sn2nid) ops = some (rs, w)) :
    ∃ s, KState.empty.run env mdNid sn2nid ops = some (rs, s) ∧ ∀ p, s.keyValue p = some (w.key p) := by
  obtain ⟨s, own, e, hr, _⟩ := run_rep env mdNid sn2nid ops (empty_rep _) h
  exact ⟨s, e, hr.keyValue⟩

end

/-- Contexts are changed only by calls for them. -/
theorem step_frame (P : KeyParams) (w w' : KeyWorld) (op : KeyOp) (r : Int) (c : Nat) (hc : ¬ op.Changes c)
    (h : w.step P op = some (r, w')) : w'.ctx c = w.ctx c := by
  cases op with
  | init d t =>
    simp only [KeyWorld.step] at h
    split at h
    · cases h
    · cases h; simp [KeyWorld.setCtx, Ne.symm (show d ≠ c from hc)]
  | cleanup d => cases h; simp [KeyWorld.setCtx, Ne.symm (show d ≠ c from hc)]
  | copy d e =>
    simp only [KeyWorld.step] at h
    split at h
    · cases h
    · cases h; simp [KeyWorld.setCtx, Ne.symm (show d ≠ c from hc)]
  | ctrl d t p1 p2 =>
    simp only [KeyWorld.step] at h
    split at h
    · cases h; rfl
    · simp only [Option.map_eq_some_iff] at h
      obtain ⟨_, _, he⟩ := h
      cases he
      simp [KeyWorld.setCtx, Ne.symm (show d ≠ c from hc)]
  | ctrlStr d t v =>
    simp only [KeyWorld.step] at h
    split at h
    · cases h; rfl
    · cases h; simp [KeyWorld.setCtx, Ne.symm (show d ≠ c from hc)]
  | keygen d p l =>
    simp only [KeyWorld.step] at h
    repeat' split at h
    all_goals first | (cases h; rfl) | cases h
  | assign p t k => cases h; rfl
  | paramCopy d e =>
    simp only [KeyWorld.step] at h
    repeat' split at h
    all_goals first | (cases h; rfl) | cases h
  | paramCmp p q =>
    simp only [KeyWorld.step, Option.map_eq_some_iff] at h
    obtain ⟨_, _, he⟩ := h
    cases he
    rfl
  | free p => cases h; rfl

theorem run_frame (P : KeyParams) (c : Nat) (ops : List KeyOp) : ∀ (w w' : KeyWorld) (rs : List Int), (∀ op ∈ ops, ¬ op.Changes c) →
    w.run P ops = some (rs, w') → w'.ctx c = w.ctx c := by
  induction ops with
  | nil => intro w w' rs _ h; cases h; rfl
  | cons op ops ih =>
    intro w w' rs hc h
    simp only [KeyWorld.run] at h
    split at h
    · cases h
    · rename_i r w1 hs
      simp only [Option.map_eq_some_iff] at h
      obtain ⟨⟨rs1, w2⟩, hr, he⟩ := h
      cases he
      rw [ih _ _ _ (fun o ho => hc o (List.mem_cons_of_mem _ ho)) hr,
        step_frame P w w1 op r c (hc op List.mem_cons_self) hs]

theorem run_append (P : KeyParams) (l m : List KeyOp) : ∀ w : KeyWorld, w.run P (l ++ m) =
    (w.run P l).bind fun rw => (rw.2.run P m).map fun rw' => (rw.1 ++ rw'.1, rw'.2) := by
  induction l with
  | nil => intro w; simp [KeyWorld.run]
  | cons op l ih =>
    intro w
    simp only [List.cons_append, KeyWorld.run]
    split
    · rfl
    · rename_i r w1 _
      rw [ih]
      cases w1.run P l with
      | none => rfl
      | some x => simp [Option.map_map, Function.comp_def]

section

variable (env : Env) (mdNid : Nat) (sn2nid : List Byte → Nat)

/-- C43, what the controls do.  After any allowed history, set the S-box and the curve of a context that
exists, and do anything allowed that is not addressed to this context (other contexts may be copies of
it and be changed, the context may be copied, keys may be generated from it and freed).  Then a key
generated from the context has that curve, that S-box, and a private key `d ≥ 1` drawn by the generator
with public key `-d G`. -/
theorem C43_controls_determine_keys (before between : List KeyOp) (rs : List Int) (w : KeyWorld) (c p : Nat) (v : CtxVal)
    (hb : KeyWorld.empty.run (engineKeys env mdNid sn2nid) before = some (rs, w)) (hv : w.ctx c = some v)
    (sb : Bytes 64) (g : EcGroup) [hg : GoodGroup g] (hno : ∀ op ∈ between, ¬ op.Changes c) (rs1 : List Int) (w1 : KeyWorld)
    (hbet : KeyWorld.empty.run (engineKeys env mdNid sn2nid)
      (before ++ [.ctrl c ctrlSetSbox 64 (.bytes sb.toList), .ctrl c ctrlSetCurve 0 (.group g)] ++ between) = some (rs1, w1))
    (d : Nat) (hd : d ≠ 0) (rest : List (Option Nat)) :
    ∃ rs' s, KState.empty.run env mdNid sn2nid (before ++ [.ctrl c ctrlSetSbox 64 (.bytes sb.toList), .ctrl c ctrlSetCurve 0 (.group g)] ++
        between ++ [.keygen c p (some d :: rest)]) = some (rs', s) ∧
      s.keyValue p = some ⟨v.type, some ⟨some g, some sb, some d, some (affine (-(d • g.gen)))⟩⟩ := by
  have hctl : w.run (engineKeys env mdNid sn2nid) [.ctrl c ctrlSetSbox 64 (.bytes sb.toList), .ctrl c ctrlSetCurve 0 (.group g)] =
      some ([1, 1], (w.setCtx c (some { v with sbox := some sb })).setCtx c (some { v with sbox := some sb, curve := g })) := by
    have h1 : v.ctrl (engineKeys env mdNid sn2nid) ctrlSetSbox 64 (.bytes sb.toList) = some (1, { v with sbox := some sb }) := by
      unfold CtxVal.ctrl
      rw [if_pos rfl]
      simp only [ne_eq, not_true_eq_false, if_false]
      rw [dif_pos (by simp)]
      congr
    have h2 : ({ v with sbox := some sb } : CtxVal).ctrl (engineKeys env mdNid sn2nid) ctrlSetCurve 0 (.group g) =
        some (1, { v with sbox := some sb, curve := g }) := by
      unfold CtxVal.ctrl
      rw [if_neg (by decide), if_pos rfl]
    have h3 : (w.setCtx c (some { v with sbox := some sb })).ctx c = some { v with sbox := some sb } := by simp [KeyWorld.setCtx]
    simp only [KeyWorld.run, KeyWorld.step, hv, h1, h3, h2, Option.map_some]
  have hbet' := hbet
  rw [run_append, run_append, hb] at hbet'
  simp only [Option.bind_some, hctl, Option.map_some, Option.map_eq_some_iff] at hbet'
  obtain ⟨⟨rs2, w2⟩, hw2, he⟩ := hbet'
  cases he
  have hc1 := run_frame _ c between _ _ _ hno hw2
  have hc2 : w2.ctx c = some { v with sbox := some sb, curve := g } := by rw [hc1]; simp [KeyWorld.setCtx]
  have hgen : generatePair env g (some d :: rest) = .done (d, affine (-(d • g.gen))) := by
    simp only [generatePair, genLoop, hd, if_false, add_public_key_good]
  have hkg : w2.run (engineKeys env mdNid sn2nid) [.keygen c p (some d :: rest)] =
      some ([1], w2.setKey p ⟨v.type, some ⟨some g, some sb, some d, some (affine (-(d • g.gen)))⟩⟩) := by
    have : (engineKeys env mdNid sn2nid).gen = generatePair env := rfl
    simp only [KeyWorld.run, KeyWorld.step, hc2, this, hgen, Option.map_some]
  have all : KeyWorld.empty.run (engineKeys env mdNid sn2nid) (before ++ [.ctrl c ctrlSetSbox 64 (.bytes sb.toList), .ctrl c ctrlSetCurve 0 (.group g)] ++
        between ++ [.keygen c p (some d :: rest)]) =
      some (((rs ++ [1, 1]) ++ rs2) ++ [1], w2.setKey p ⟨v.type, some ⟨some g, some sb, some d, some (affine (-(d • g.gen)))⟩⟩) := by
    rw [run_append, hbet]
    simp only [Option.bind_some, Option.map_some, hkg]
  obtain ⟨s, e, hval⟩ := C43_contexts_are_values env mdNid sn2nid _ _ _ all
  refine ⟨_, s, e, ?_⟩
  rw [hval p]
  simp [KeyWorld.setKey]

/-- C43, rejected controls: in any state, a control that answers 0 changes nothing. -/
theorem C43_rejected_changes_nothing (s s' : KState) (c : Nat) (type p1 : Int) (p2 : CtrlArg)
    (h : dstu_pkey_ctrl mdNid s c type p1 p2 = some (0, s')) : s' = s := by
  unfold dstu_pkey_ctrl at h
  repeat' split at h
  all_goals first
    | (cases h; rfl)
    | (simp [Option.bind_eq_some_iff] at h)

/-- C43, rejected string controls: in any state, a string control that answers 0 changes no context, no
key and no object in memory. -/
theorem C43_rejected_string_changes_nothing (nids : CurveNids) (s s' : KState) (c : Nat) (type value : List Byte)
    (hlow : ∀ x, s.mem.next ≤ x → s.mem.cell x = none)
    (h : dstu_pkey_ctrl_str nids mdNid sn2nid s c type value = some (0, s')) :
    s'.data = s.data ∧ s'.pkey = s.pkey ∧ s'.mem.cell = s.mem.cell := by
  have same : ∀ t, t = s → t.data = s.data ∧ t.pkey = s.pkey ∧ t.mem.cell = s.mem.cell := by
    rintro _ rfl
    exact ⟨rfl, rfl, rfl⟩
  unfold dstu_pkey_ctrl_str at h
  by_cases h1 : type = CURVE_PARAM_STR
  · rw [if_pos h1] at h
    simp only at h
    by_cases h2 : sn2nid value = NID_undef
    · rw [if_pos h2] at h
      cases h
      exact same _ rfl
    rw [if_neg h2] at h
    cases hg : group_from_nid nids (sn2nid value) with
    | none =>
      rw [hg] at h
      cases h
      exact same _ rfl
    | some g =>
      rw [hg] at h
      simp only [Option.bind_eq_bind, Option.bind_eq_some_iff, pure, Option.some.injEq, Prod.mk.injEq] at h
      obtain ⟨⟨r, s1⟩, h1, m, h2, h3, h4⟩ := h
      simp only at h3
      subst h3
      have := C43_rejected_changes_nothing mdNid _ _ _ _ _ _ h1
      subst this
      simp only [KMem.free, KMem.alloc, KMem.put, if_true] at h2
      subst h4
      cases h2
      refine ⟨rfl, rfl, ?_⟩
      funext x
      show (if x = s.mem.next then none else if x = s.mem.next then some (KObj.group g) else s.mem.cell x) = s.mem.cell x
      by_cases hx : x = s.mem.next
      · rw [if_pos hx, hlow x (by omega)]
      · rw [if_neg hx, if_neg hx]
  · rw [if_neg h1] at h
    repeat' split at h
    all_goals first
      | (cases h <;> exact same _ rfl)
      | exact same _ (C43_rejected_changes_nothing mdNid _ _ _ _ _ _ h)

/-! ### C39 -/

/-- C39, where it holds.  After any allowed history: if the source has parameters, the destination is
another key, and the destination has no S-box unless the source has one, then copying the parameters
succeeds, the comparison that follows reports equality, and the source and every other key keep their
values.  That no memory is shared is part of `C43_contexts_are_values`, which holds for all later calls too.
Missing: a destination with an S-box and a source without, see `C39_param_copy_refuted`. -/
theorem C39_param_copy_partial (before : List KeyOp) (rs : List Int) (w : KeyWorld)
    (hb : KeyWorld.empty.run (engineKeys env mdNid sn2nid) before = some (rs, w)) (dst src : Nat) (hne : dst ≠ src)
    (f : DstuKey) (g : EcGroup) (hf : (w.key src).key = some f) (hg : f.group = some g)
    (hst : f.sbox = none → ∀ t, (w.key dst).key = some t → t.sbox = none) :
    ∃ s, KState.empty.run env mdNid sn2nid (before ++ [.paramCopy dst src, .paramCmp dst src]) = some (rs ++ [1, 1], s) ∧
      ∀ p, p ≠ dst → s.keyValue p = some (w.key p) := by
  have hcmp : ∀ t u k, k.group = some g → k.sbox = f.sbox → compareParams ⟨t, some k⟩ ⟨u, some f⟩ = some 1 := by
    intro t u k h1 h2
    rw [compareParams_eq]
    rw [cmp_iff t u k f g g h1 hg, h2]
    simp
  have hsrc : w.key src = ⟨(w.key src).type, some f⟩ := by
    rw [← hf]
  have finish : ∀ v : EvpPkey, (∃ t k, v = ⟨t, some k⟩ ∧ k.group = some g ∧ k.sbox = f.sbox) →
      w.step (engineKeys env mdNid sn2nid) (.paramCopy dst src) = some (1, w.setKey dst v) →
      ∃ s, KState.empty.run env mdNid sn2nid (before ++ [.paramCopy dst src, .paramCmp dst src]) = some (rs ++ [1, 1], s) ∧
      ∀ p, p ≠ dst → s.keyValue p = some (w.key p) := by
    rintro _ ⟨t, k, rfl, h1, h2⟩ hstep
    have hrun : KeyWorld.empty.run (engineKeys env mdNid sn2nid) (before ++ [.paramCopy dst src, .paramCmp dst src]) =
        some (rs ++ [1, 1], w.setKey dst ⟨t, some k⟩) := by
      rw [run_append, hb]
      simp only [Option.bind_some, KeyWorld.run, hstep]
      have : ((w.setKey dst ⟨t, some k⟩).step (engineKeys env mdNid sn2nid) (.paramCmp dst src)) =
          some (1, w.setKey dst ⟨t, some k⟩) := by
        simp only [KeyWorld.step, KeyWorld.setKey, if_true, if_neg (Ne.symm hne)]
        rw [hsrc, hcmp _ _ _ h1 h2]
        rfl
      simp only [this, Option.map_some]
    obtain ⟨s, e, hv⟩ := C43_contexts_are_values env mdNid sn2nid _ _ _ hrun
    refine ⟨s, e, fun p hp => ?_⟩
    rw [hv p]
    simp [KeyWorld.setKey, hp]
  cases hd : (w.key dst).key with
  | none =>
    refine finish ⟨(w.key src).type, some ⟨some g, f.sbox, none, none⟩⟩ ⟨_, _, rfl, rfl, rfl⟩ ?_
    simp only [KeyWorld.step, hf, hg, if_neg hne, hd]
  | some t =>
    refine finish ⟨(w.key dst).type, some { t with group := some g, sbox := f.sbox }⟩ ⟨_, _, rfl, rfl, rfl⟩ ?_
    simp only [KeyWorld.step, hf, hg, if_neg hne, hd]
    rw [if_neg]
    rintro ⟨h1, h2⟩
    exact h2 (hst h1 t hd)

/-- C39 fails if the destination has an S-box and the source has none: the copy reports success, but the
parameters are then reported to differ. -/
theorem C39_param_copy_refuted (g : EcGroup) (t : KeyType) (sb : Bytes 64) :
    ∃ s, KState.empty.run env mdNid sn2nid [.assign 0 t ⟨some g, none, none, none⟩, .assign 1 t ⟨some g, some sb, none, none⟩,
      .paramCopy 1 0, .paramCmp 1 0] = some ([1, 1, 1, 0], s) := by
  simp [KState.run, KState.step, assignKey, newKey, EVP_PKEY_assign, dstu_asn1_pkey_free, DSTU_KEY_free, KState.empty,
    KMem.alloc, KMem.put, KState.setPkey, dstu_asn1_param_copy, KMem.key, ensureKey, param_cmp_mem, sameSbox]

/-! ### C68 -/

/-- `value` writes the S-box in hexadecimal, in lower or upper case: two digits for each byte, the higher
one first. -/
def WritesSbox (value : List Byte) (sb : Bytes 64) : Prop :=
  value.length = 128 ∧ ∀ i : Fin 64, hexVal (value.getD (2 * i) 0) = some (sb[i].toNat / 16) ∧
    hexVal (value.getD (2 * i + 1) 0) = some (sb[i].toNat % 16)

theorem sboxOfString_writes {value : List Byte} {sb : Bytes 64} (h : WritesSbox value sb) (h0 : sb ≠ Vector.replicate 64 0) :
    sboxOfString value = some sb := by
  obtain ⟨hl, hd⟩ := h
  have hs : (Vector.ofFn fun i : Fin 64 => BitVec.ofNat 8 (16 * ((hexVal (value.getD (2 * i) 0)).getD 0) +
      (hexVal (value.getD (2 * i + 1) 0)).getD 0)) = sb := by
    ext i hi : 1
    rw [Vector.getElem_ofFn, (hd ⟨i, hi⟩).1, (hd ⟨i, hi⟩).2]
    apply BitVec.eq_of_toNat_eq
    simp only [Option.getD_some, BitVec.toNat_ofNat, Fin.getElem_fin]
    have := sb[i].isLt
    omega
  unfold sboxOfString
  rw [if_pos]
  · simp only [hs]
    rw [if_neg h0]
  · refine ⟨by omega, ?_, ?_⟩
    · intro c hc
      obtain ⟨j, hj, rfl⟩ := List.getElem_of_mem (List.mem_of_mem_take hc)
      have e : value[j] = value.getD j 0 := by simp [List.getD_eq_getElem?_getD, hj]
      rcases Nat.even_or_odd' j with ⟨k, rfl | rfl⟩
      · rw [e, (hd ⟨k, by omega⟩).1]; rfl
      · rw [e, (hd ⟨k, by omega⟩).2]; rfl
    · intro c hc
      rw [List.getElem?_eq_none (by omega)] at hc
      cases hc

/-- Two operations with the same effect on values can be exchanged in any allowed history: all answers and
all keys are the same. -/
theorem exchange (before after : List KeyOp) (op op' : KeyOp) (rs : List Int) (w : KeyWorld)
    (hb : KeyWorld.empty.run (engineKeys env mdNid sn2nid) before = some (rs, w))
    (he : w.step (engineKeys env mdNid sn2nid) op = w.step (engineKeys env mdNid sn2nid) op') (rs1 : List Int) (w1 : KeyWorld)
    (h : KeyWorld.empty.run (engineKeys env mdNid sn2nid) (before ++ op :: after) = some (rs1, w1)) :
    ∃ s s', KState.empty.run env mdNid sn2nid (before ++ op :: after) = some (rs1, s) ∧
      KState.empty.run env mdNid sn2nid (before ++ op' :: after) = some (rs1, s') ∧ ∀ p, s.keyValue p = s'.keyValue p := by
  have h' : KeyWorld.empty.run (engineKeys env mdNid sn2nid) (before ++ op' :: after) = some (rs1, w1) := by
    rw [← h, run_append, run_append, hb]
    simp only [Option.bind_some, KeyWorld.run, he]
  obtain ⟨s, e, hv⟩ := C43_contexts_are_values env mdNid sn2nid _ _ _ h
  obtain ⟨s', e', hv'⟩ := C43_contexts_are_values env mdNid sn2nid _ _ _ h'
  exact ⟨s, s', e, e', fun p => by rw [hv, hv']⟩

/-- C68 for S-boxes that are not all zero: in any allowed history, setting the S-box by the string of its
hexadecimal digits can be exchanged with setting it by its 64 bytes; all answers, before and after, and
all keys are the same.  Missing: the S-box of zeros, see `C68_string_sbox_refuted`. -/
theorem C68_string_sbox_partial (before after : List KeyOp) (c : Nat) (value : List Byte) (sb : Bytes 64)
    (hw : WritesSbox value sb) (h0 : sb ≠ Vector.replicate 64 0) (rs1 : List Int) (w1 : KeyWorld)
    (h : KeyWorld.empty.run (engineKeys env mdNid sn2nid)
      (before ++ .ctrl c ctrlSetSbox 64 (.bytes sb.toList) :: after) = some (rs1, w1)) :
    ∃ s s', KState.empty.run env mdNid sn2nid (before ++ .ctrl c ctrlSetSbox 64 (.bytes sb.toList) :: after) = some (rs1, s) ∧
      KState.empty.run env mdNid sn2nid (before ++ .ctrlStr c paramSbox value :: after) = some (rs1, s') ∧
      ∀ p, s.keyValue p = s'.keyValue p := by
  have hb := h
  rw [run_append] at hb
  cases hw1 : KeyWorld.empty.run (engineKeys env mdNid sn2nid) before with
  | none => rw [hw1] at hb; cases hb
  | some x =>
    obtain ⟨rs, w⟩ := x
    refine exchange env mdNid sn2nid before after _ _ rs w hw1 ?_ rs1 w1 h
    cases hc : w.ctx c with
    | none => simp only [KeyWorld.step, hc]
    | some v =>
      have h1 : v.ctrl (engineKeys env mdNid sn2nid) ctrlSetSbox 64 (.bytes sb.toList) = some (1, { v with sbox := some sb }) := by
        unfold CtxVal.ctrl
        rw [if_pos rfl]
        simp only [ne_eq, not_true_eq_false, if_false]
        rw [dif_pos (by simp)]
        congr
      have h2 : v.ctrlStr (engineKeys env mdNid sn2nid) paramSbox value = (1, { v with sbox := some sb }) := by
        unfold CtxVal.ctrlStr
        rw [if_neg (by decide), if_pos rfl, sboxOfString_writes hw h0]
      simp only [KeyWorld.step, hc, h1, h2, Option.map_some]

/-- C68 for curves: in any allowed history, setting the curve by a name of a built-in curve can be exchanged
with setting it by the group. -/
theorem C68_string_curve (before after : List KeyOp) (c : Nat) (value : List Byte) (g : EcGroup)
    (hn : sn2nid value ≠ NID_undef) (hg : group_from_nid env.nids (sn2nid value) = some g) (rs1 : List Int) (w1 : KeyWorld)
    (h : KeyWorld.empty.run (engineKeys env mdNid sn2nid) (before ++ .ctrl c ctrlSetCurve 0 (.group g) :: after) = some (rs1, w1)) :
    ∃ s s', KState.empty.run env mdNid sn2nid (before ++ .ctrl c ctrlSetCurve 0 (.group g) :: after) = some (rs1, s) ∧
      KState.empty.run env mdNid sn2nid (before ++ .ctrlStr c paramCurve value :: after) = some (rs1, s') ∧
      ∀ p, s.keyValue p = s'.keyValue p := by
  have hb := h
  rw [run_append] at hb
  cases hw1 : KeyWorld.empty.run (engineKeys env mdNid sn2nid) before with
  | none => rw [hw1] at hb; cases hb
  | some x =>
    obtain ⟨rs, w⟩ := x
    refine exchange env mdNid sn2nid before after _ _ rs w hw1 ?_ rs1 w1 h
    cases hc : w.ctx c with
    | none => simp only [KeyWorld.step, hc]
    | some v =>
      have h1 : v.ctrl (engineKeys env mdNid sn2nid) ctrlSetCurve 0 (.group g) = some (1, { v with curve := g }) := by
        unfold CtxVal.ctrl
        rw [if_neg (by decide), if_pos rfl]
      have h2 : v.ctrlStr (engineKeys env mdNid sn2nid) paramCurve value = (1, { v with curve := g }) := by
        unfold CtxVal.ctrlStr
        rw [if_pos rfl]
        simp only [engineKeys, keyParams, if_neg hn, hg]
      simp only [KeyWorld.step, hc, h1, h2, Option.map_some]

/-- C68 fails for the S-box of zeros: the binary control accepts it, the string control refuses it. -/
theorem C68_string_sbox_refuted (t : KeyType) :
    WritesSbox (List.replicate 128 0x30) (Vector.replicate 64 0) ∧
    (∃ s, KState.empty.run env mdNid sn2nid [.init 0 t, .ctrl 0 ctrlSetSbox 64 (.bytes (List.replicate 64 0))] = some ([1, 1], s)) ∧
    ∃ s, KState.empty.run env mdNid sn2nid [.init 0 t, .ctrlStr 0 paramSbox (List.replicate 128 0x30)] = some ([1, 0], s) := by
  have hz : sboxOfString (List.replicate 128 0x30) = none := by decide +kernel
  refine ⟨⟨by simp, by decide +kernel⟩, ?_, ?_⟩
  · obtain ⟨s, e, _⟩ := C43_contexts_are_values env mdNid sn2nid
      [.init 0 t, .ctrl 0 ctrlSetSbox 64 (.bytes (List.replicate 64 0))] [1, 1] _ rfl
    exact ⟨s, e⟩
  · have : KeyWorld.empty.run (engineKeys env mdNid sn2nid) [.init 0 t, .ctrlStr 0 paramSbox (List.replicate 128 0x30)] =
        some ([1, 0], (KeyWorld.empty.setCtx 0 (some ⟨t, defaultCurve env.nids, none⟩)).setCtx 0
          (some ⟨t, defaultCurve env.nids, none⟩)) := by
      have h2 : (⟨t, defaultCurve env.nids, none⟩ : CtxVal).ctrlStr (engineKeys env mdNid sn2nid) paramSbox
          (List.replicate 128 0x30) = (0, ⟨t, defaultCurve env.nids, none⟩) := by
        unfold CtxVal.ctrlStr
        rw [if_neg (by decide), if_pos rfl, hz]
      have hd : (engineKeys env mdNid sn2nid).default = defaultCurve env.nids := rfl
      simp only [KeyWorld.run, KeyWorld.step, KeyWorld.empty, KeyWorld.setCtx, if_true, Option.map_some, hd, h2]
    obtain ⟨s, e, _⟩ := C43_contexts_are_values env mdNid sn2nid _ _ _ this
    exact ⟨s, e⟩

/-! ### C69 -/

/-- C69, where it holds.  After any allowed history in which parameters were only copied to keys without
an S-box, once all contexts are cleaned up and all keys are freed, no memory is left allocated. -/
theorem C69_memory_released_partial (ops : List KeyOp) (rs : List Int) (w : KeyWorld)
    (h : KeyWorld.empty.run (engineKeys env mdNid sn2nid) ops = some (rs, w))
    (hn : KeyWorld.empty.NoOverwrite (engineKeys env mdNid sn2nid) ops) (hc : ∀ c, w.ctx c = none) (hk : ∀ p, (w.key p).key = none) :
    ∃ s, KState.empty.run env mdNid sn2nid ops = some (rs, s) ∧ s.Clean := by
  obtain ⟨s, own, e, hr, keep⟩ := run_rep env mdNid sn2nid ops (empty_rep _) h
  refine ⟨s, e, fun x => ?_⟩
  have hown : own x = none := by
    cases ho : own x with
    | none => rfl
    | some o =>
      cases o with
      | leaked => exact absurd ((keep hn x).mp ho) (by simp)
      | ctx c => exact absurd ho ((hr.data_none (hc c)).2 x)
      | key p =>
        have hK := hr.key p
        rcases hp : s.pkey p with ⟨t, q⟩
        rw [hp] at hK
        cases q with
        | none => exact absurd ho (hK.2 x)
        | some a =>
          obtain ⟨_, _, _, h2, _⟩ := key_parts hK
          have := hk p
          rw [h2] at this
          cases this
  have := hr.live x
  rw [hown] at this
  simpa using this

/-- C69 fails if parameters with an S-box are copied to a key that has one: the old S-box is never freed. -/
theorem C69_memory_released_refuted (g : EcGroup) (t : KeyType) (sb sb' : Bytes 64) :
    ∃ s, KState.empty.run env mdNid sn2nid [.assign 0 t ⟨some g, some sb, none, none⟩, .assign 1 t ⟨some g, some sb', none, none⟩,
      .paramCopy 1 0, .free 0, .free 1] = some ([1, 1, 1, 0, 0], s) ∧ ¬ s.Clean := by
  refine ⟨_, by
    simp [KState.run, KState.step, assignKey, newKey, EVP_PKEY_assign, dstu_asn1_pkey_free, DSTU_KEY_free, KState.empty,
      KMem.alloc, KMem.put, KState.setPkey, dstu_asn1_param_copy, KMem.key, ensureKey, copy_sbox, KMem.sbox, KMem.freeOpt,
      KMem.free]
    rfl, ?_⟩
  intro h
  have := h 2
  simp at this

end

/-- Set an S-box and a curve, copy the context, change and release the copy, generate a key: it has the
S-box and the curve that were set. -/
example : ∃ rs' s, KState.empty.run envEx 7 (fun _ => 0) ([.init 0 .be] ++
      [.ctrl 0 ctrlSetSbox 64 (.bytes (Vector.replicate 64 0x5a : Bytes 64).toList), .ctrl 0 ctrlSetCurve 0 (.group g163)] ++
      [.copy 1 0, .ctrl 1 ctrlSetSbox 64 (.bytes (List.replicate 64 7)), .cleanup 1] ++ [.keygen 0 4 [some 3]]) = some (rs', s) ∧
    s.keyValue 4 = some ⟨.be, some ⟨some g163, some (Vector.replicate 64 0x5a), some 3, some (affine (-(3 • g163.gen)))⟩⟩ :=
  C43_controls_determine_keys envEx 7 (fun _ => 0) [.init 0 .be] [.copy 1 0, .ctrl 1 ctrlSetSbox 64 (.bytes (List.replicate 64 7)), .cleanup 1]
    _ _ 0 4 ⟨.be, _, none⟩ rfl rfl (Vector.replicate 64 0x5a) g163 (by simp [KeyOp.Changes]) _ _ rfl 3 (by omega) []

/-- The parameters of a key with an S-box are copied to a key that has none, and to no key. -/
example : ∃ s, KState.empty.run envEx 7 (fun _ => 0) ([.assign 0 .le (keyEx163 g163), .assign 1 .be ⟨none, none, none, none⟩] ++
      [.paramCopy 1 0, .paramCmp 1 0]) = some ([1, 1] ++ [1, 1], s) ∧ ∀ p, p ≠ 1 →
      s.keyValue p = some (if p = 0 then ⟨.le, some (keyEx163 g163)⟩ else ⟨.le, none⟩) := by
  obtain ⟨s, h1, h2⟩ := C39_param_copy_partial envEx 7 (fun _ => 0)
    [.assign 0 .le (keyEx163 g163), .assign 1 .be ⟨none, none, none, none⟩] _ _ rfl 1 0 (by omega) _ g163 rfl rfl (by
      intro h
      cases h)
  refine ⟨s, h1, fun p hp => ?_⟩
  rw [h2 p hp]
  simp [KeyWorld.setKey, KeyWorld.empty, hp]

/-- Uses of the string control: a digit string with both cases. -/
example : WritesSbox ([0x61, 0x42] ++ List.replicate 126 0x33) ((#v[0xab#8] ++ Vector.replicate 63 0x33#8 : Vector (BitVec 8) (1 + 63))) := by
  refine ⟨by simp, by decide +kernel⟩

/-- A history that leaves nothing allocated: two contexts, a generated key and a copy of its parameters. -/
example : ∃ s, KState.empty.run envEx 7 (fun _ => 0) [.init 0 .be, .ctrl 0 ctrlSetSbox 64 (.bytes (List.replicate 64 7)), .copy 1 0,
      .cleanup 0, .assign 4 .be (keyEx163 g163), .paramCopy 5 4, .free 4, .cleanup 1, .free 5] =
    some ([1, 1, 1, 0, 1, 1, 0, 0, 0], s) ∧ s.Clean := by
  refine C69_memory_released_partial envEx 7 (fun _ => 0) _ _ _ rfl ?_ ?_ ?_
  · exact ⟨trivial, trivial, trivial, trivial, trivial, (fun k hk => by cases hk), trivial, trivial, trivial, trivial⟩
  · intro c
    simp [KeyWorld.setCtx, KeyWorld.setKey, KeyWorld.empty]
    intro h1 h0
    simp [h1, h0]
  · intro p
    simp [KeyWorld.setCtx, KeyWorld.setKey, KeyWorld.empty]
    by_cases h5 : p = 5
    · simp [h5]
    · by_cases h4 : p = 4 <;> simp [h5, h4]

/-- A context that is used, and controls that it refuses. -/
example : ∃ s, KState.empty.run envEx 7 (fun _ => 0) [.init 0 .be, .ctrl 0 ctrlSetSbox 64 (.bytes (List.replicate 64 7)), .ctrl 0 ctrlSetSbox 63 (.bytes (List.replicate 64 7)), .copy 1 0] = some ([1, 1, 0, 1], s) := by
  obtain ⟨s, h, _⟩ := C43_contexts_are_values envEx 7 (fun _ => 0) [.init 0 .be, .ctrl 0 ctrlSetSbox 64 (.bytes (List.replicate 64 7)), .ctrl 0 ctrlSetSbox 63 (.bytes (List.replicate 64 7)), .copy 1 0] _ _ rfl
  exact ⟨s, h⟩

/-- The S-box set with a string and with a control, and the curve with a name and with a control, between other calls; a refused control. -/
example : ∃ s s', KState.empty.run envEx 7 (fun _ => 0) ([.init 0 .be] ++ .ctrl 0 ctrlSetSbox 64 (.bytes (#v[0xab#8] ++ Vector.replicate 63 0x33#8 : Vector (BitVec 8) (1 + 63)).toList) ::
      [.copy 1 0, .cleanup 0]) = some ([1, 1, 1, 0], s) ∧
    KState.empty.run envEx 7 (fun _ => 0) ([.init 0 .be] ++ .ctrlStr 0 paramSbox ([0x61, 0x42] ++ List.replicate 126 0x33) :: [.copy 1 0, .cleanup 0]) = some ([1, 1, 1, 0], s') ∧
    ∀ p, s.keyValue p = s'.keyValue p :=
  C68_string_sbox_partial envEx 7 (fun _ => 0) [.init 0 .be] [.copy 1 0, .cleanup 0] 0 ([0x61, 0x42] ++ List.replicate 126 0x33)
    (#v[0xab#8] ++ Vector.replicate 63 0x33#8 : Vector (BitVec 8) (1 + 63)) ⟨by simp, by decide +kernel⟩ (by decide +kernel) _ _ rfl

/-- The curve set with a name and with a control. -/
example : ∃ s s', KState.empty.run envEx 7 (fun _ => 1149) ([.init 0 .be] ++ .ctrl 0 ctrlSetCurve 0 (.group g163) :: [.copy 1 0]) = some ([1, 1, 1], s) ∧
    KState.empty.run envEx 7 (fun _ => 1149) ([.init 0 .be] ++ .ctrlStr 0 paramCurve [0x63] :: [.copy 1 0]) = some ([1, 1, 1], s') ∧ ∀ p, s.keyValue p = s'.keyValue p :=
  C68_string_curve envEx 7 (fun _ => 1149) [.init 0 .be] [.copy 1 0] 0 [0x63] g163 (by decide) g163_builtin _ _ rfl

/-- An unknown name of a curve, in a context of any state. -/
example (s : KState) (c : Nat) (hlow : ∀ x, s.mem.next ≤ x → s.mem.cell x = none) :=
  C43_rejected_string_changes_nothing 7 (fun _ => 0) envEx.nids s s c CURVE_PARAM_STR [0x63] hlow (by
    unfold dstu_pkey_ctrl_str
    rw [if_pos rfl]
    rfl)

example (s : KState) (c : Nat) := C43_rejected_changes_nothing 7 s s c ctrlSetSbox 63 (.bytes (List.replicate 64 7)) (by
  cases h : s.data c <;> simp [dstu_pkey_ctrl, h, ctrlSetSbox, CTRL_SBOX])

end Dstu.Props
