import Verif.Lemmas.HashStream
import Verif.Model.Md

namespace Dstu

open Spec (Digest Digests DigestOp)

theorem MdHeap.put_self (h : MdHeap) (i v) : h.put i v i = v := by simp [MdHeap.put]
theorem MdHeap.put_ne (h : MdHeap) (i j v) (hj : j ≠ i) : h.put i v j = h j := by simp [MdHeap.put, hj]
theorem Digests.put_self (h : Digests) (i v) : h.put i v i = v := by simp [Digests.put]
theorem Digests.put_ne (h : Digests) (i j v) (hj : j ≠ i) : h.put i v j = h j := by simp [Digests.put, hj]

/-- Context number `self` stands for the abstract one. -/
def MdSim (self : Nat) : Option MdData → Option Digest → Prop
  | none, none => True
  | some d, some .fresh => d.cipher_ctx = none ∨ d.cipher_ctx = some self
  | some d, some (.active sb m) => d.cipher_ctx = some self ∧
      (m.length < 2 ^ 63 → d.cctx.Tables (Spec.tableOf sb) ∧ d.dctx.After (Spec.tableOf sb) m)
  | some d, some .mixed => d.cipher_ctx = some self
  | _, _ => False

def MdHeap.Sim (h : MdHeap) (d : Digests) : Prop := ∀ i, MdSim i (h i) (d i)

theorem sim_put (h : MdHeap) (d : Digests) (hs : h.Sim d) (i) (x y) (hxy : MdSim i x y) :
    (h.put i x).Sim (d.put i y) := by
  intro j
  by_cases hj : j = i
  · subst hj; rw [MdHeap.put_self, Digests.put_self]; exact hxy
  · rw [MdHeap.put_ne _ _ _ _ hj, Digests.put_ne _ _ _ _ hj]; exact hs j

theorem sim_put_same (h : MdHeap) (d : Digests) (hs : h.Sim d) (i) (x) (hxy : MdSim i x (d i)) :
    (h.put i x).Sim d := by
  intro j
  by_cases hj : j = i
  · subst hj; rw [MdHeap.put_self]; exact hxy
  · rw [MdHeap.put_ne _ _ _ _ hj]; exact hs j

theorem zero_after (T) : HashCtx.zero.After T [] := start_after T HashCtx.zero

theorem tables_gost_init (c : GostCtx) (sb : Bytes 64) :
    (gost_init c (some (unpack_sbox sb))).Tables (Spec.tableOf sb) :=
  kboxinit_tables c _ _ (unpack_holds sb)

/-- The cipher pointer of a context is null or its own. -/
theorem sim_ptr (h : MdHeap) (d : Digests) (hs : h.Sim d) (i) (c : MdData) (hc : h i = some c) (p)
    (hp : c.cipher_ctx = some p) : p = i := by
  have := hs i
  rw [hc] at this
  rcases hd : d i with _ | x
  · rw [hd] at this; exact this.elim
  · rw [hd] at this
    rcases x with _ | ⟨sb, m⟩ | _
    · simp only [MdSim] at this; rw [hp] at this; simpa using this
    · simp only [MdSim] at this; rw [hp] at this; simpa using this.1
    · simp only [MdSim] at this; rw [hp] at this; simpa using this

theorem update_eq (h : MdHeap) (i) (c : MdData) (hc : h i = some c) (hp : c.cipher_ctx = some i) (data) :
    dstu_md_update h i data = (hash_block c.cctx c.dctx data).map fun r =>
      h.put i (some { c with cctx := r.1, dctx := r.2 }) := by
  simp only [dstu_md_update, hc, hp, Option.bind_eq_bind, Option.bind_some]
  rcases hash_block c.cctx c.dctx data with _ | ⟨g, e⟩
  · rfl
  · simp only [Option.bind_some, MdHeap.put_self, Option.map_some, Option.pure_def]
    congr 1
    funext j
    simp only [MdHeap.put]
    split <;> rfl

theorem final_eq (h : MdHeap) (i) (c : MdData) (hc : h i = some c) (hp : c.cipher_ctx = some i) :
    dstu_md_final h i = (finish_hash c.cctx c.dctx).map fun r =>
      (h.put i (some { c with cctx := r.1 }), r.2) := by
  simp only [dstu_md_final, hc, hp, Option.bind_eq_bind, Option.bind_some]
  rcases finish_hash c.cctx c.dctx with _ | ⟨g, e⟩ <;> rfl

/-- Finishing keeps the tables of the cipher context. -/
theorem finish_tables (c : GostCtx) (T) (hc : c.Tables T) (h : HashCtx) (r) (hr : finish_hash c h = some r) :
    r.1.Tables T := by
  simp only [finish_hash, Option.bind_eq_bind, Option.bind_eq_some_iff] at hr
  obtain ⟨⟨c1, H, S, n⟩, h1, h2⟩ := hr
  have t1 : c1.Tables T := by
    unfold finishPartial at h1
    split at h1
    · split at h1
      · simp only [Option.bind_eq_bind, Option.bind_eq_some_iff] at h1
        obtain ⟨b, _, _, _, h1⟩ := h1
        simp only [Option.some.injEq, Prod.mk.injEq] at h1
        rw [← h1.1]
        exact (hash_step_bytes c T hc _ _).1
      · cases h1
    · simp only [Option.some.injEq, Prod.mk.injEq] at h1
      rw [← h1.1]; exact hc
  simp only at h2
  split at h2
  · simp only [Option.bind_eq_some_iff, Option.some.injEq] at h2
    obtain ⟨b, _, h2⟩ := h2
    rw [← h2]
    refine (hash_step_bytes _ T (hash_step_bytes _ T ?_ _ _).1 _ _).1
    split
    · exact (hash_step_bytes _ T t1 _ _).1
    · exact t1
  · cases h2

theorem wholeBlocks_nil : wholeBlocks [] (([] : List Byte).length / 32) = [] := by
  rw [List.length_nil]; rfl

theorem after_nil_congr (T T') (h : HashCtx) (ha : h.After T []) : h.After T' [] :=
  ⟨ha.len, ha.left, ha.lt, by simpa only [wholeBlocks_nil, List.foldl_nil] using ha.H, ha.S, ha.rem⟩

theorem step_sim_new (h : MdHeap) (d : Digests) (hs : h.Sim d) (i : Nat) (h' : MdHeap)
    (hr : h.step (.new i) = some h') : h'.Sim (d.step default_sbox (.new i)) := by
  simp only [MdHeap.step, Option.some.injEq] at hr
  subst hr
  exact sim_put h d hs i _ _ (Or.inl rfl)

theorem step_sim_init (h : MdHeap) (d : Digests) (hs : h.Sim d) (i : Nat) (sb : Option (Bytes 64)) (h' : MdHeap)
    (hr : h.step (.init i sb) = some h') : h'.Sim (d.step default_sbox (.init i sb)) := by
  simp only [MdHeap.step, dstu_md_init, Option.bind_eq_bind, Option.bind_eq_some_iff, Option.pure_def,
    Option.some.injEq] at hr
  obtain ⟨c, hc, rfl⟩ := hr
  have hi := hs i
  rw [hc] at hi
  rcases hd : d i with _ | x
  · rw [hd] at hi; exact hi.elim
  · simp only [Digests.step, hd]
    refine sim_put h d hs i _ _ ⟨rfl, fun _ =>
      ⟨tables_gost_init c.cctx (sb.getD default_sbox), zero_after _⟩⟩

theorem step_sim_update (h : MdHeap) (d : Digests) (hs : h.Sim d) (i : Nat) (data : List Byte) (h' : MdHeap)
    (hr : h.step (.update i data) = some h') : h'.Sim (d.step default_sbox (.update i data)) := by
  simp only [MdHeap.step] at hr
  rcases hc : h i with _ | c
  · simp [dstu_md_update, hc] at hr
  · have hi := hs i
    rw [hc] at hi
    rcases hp : c.cipher_ctx with _ | p
    · simp [dstu_md_update, hc, hp] at hr
    · have := sim_ptr h d hs i c hc p hp
      subst this
      rw [update_eq h p c hc hp, Option.map_eq_some_iff] at hr
      obtain ⟨⟨g, e⟩, hb, rfl⟩ := hr
      rcases hd : d p with _ | x
      · rw [hd] at hi; exact hi.elim
      · rw [hd] at hi
        simp only [Digests.step, hd]
        rcases x with _ | ⟨sb, m⟩ | _
        · refine sim_put_same h d hs p _ ?_
          rw [hd]; exact Or.inr hp
        · obtain ⟨_, ha⟩ := hi
          refine sim_put h d hs p _ _ ⟨hp, ?_⟩
          intro hl
          have hl' := hl
          simp only [List.length_append] at hl
          obtain ⟨ht, ha⟩ := ha (by omega)
          obtain ⟨c1, h1, e1, t1, a1⟩ := hash_block_after c.cctx _ ht c.dctx m ha data hl'
          rw [hb] at e1
          cases e1
          exact ⟨t1, a1⟩
        · refine sim_put_same h d hs p _ ?_
          rw [hd]; exact hp

theorem step_sim_final (h : MdHeap) (d : Digests) (hs : h.Sim d) (i : Nat) (h' : MdHeap)
    (hr : h.step (.final i) = some h') : h'.Sim (d.step default_sbox (.final i)) := by
  simp only [MdHeap.step, Option.map_eq_some_iff] at hr
  obtain ⟨r, hr, rfl⟩ := hr
  rcases hc : h i with _ | c
  · simp [dstu_md_final, hc] at hr
  · have hi := hs i
    rw [hc] at hi
    rcases hp : c.cipher_ctx with _ | p
    · simp [dstu_md_final, hc, hp] at hr
    · have := sim_ptr h d hs i c hc p hp
      subst this
      rw [final_eq h p c hc hp, Option.map_eq_some_iff] at hr
      obtain ⟨⟨g, e⟩, hb, rfl⟩ := hr
      simp only [Digests.step]
      refine sim_put_same h d hs p _ ?_
      rcases hd : d p with _ | x
      · rw [hd] at hi; exact hi.elim
      · rw [hd] at hi
        rcases x with _ | ⟨sb, m⟩ | _
        · exact Or.inr hp
        · obtain ⟨_, ha⟩ := hi
          refine ⟨hp, fun hl => ?_⟩
          obtain ⟨ht, ha⟩ := ha hl
          have t : g.Tables (Spec.tableOf sb) := finish_tables c.cctx _ ht c.dctx (g, e) hb
          exact ⟨t, ha⟩
        · exact hp

theorem step_sim_copy (h : MdHeap) (d : Digests) (hs : h.Sim d) (i : Nat) (j : Nat) (h' : MdHeap)
    (hr : h.step (.copy i j) = some h') : h'.Sim (d.step default_sbox (.copy i j)) := by
  simp only [MdHeap.step, Option.some.injEq] at hr
  subst hr
  have hi := hs i
  have hj := hs j
  simp only [dstu_md_copy, Digests.step]
  rcases hci : h i with _ | ci
  · rw [hci] at hi
    rcases hdi : d i with _ | x
    · exact hs
    · rw [hdi] at hi; exact hi.elim
  · rw [hci] at hi
    rcases hdi : d i with _ | x
    · rw [hdi] at hi; exact hi.elim
    · rcases hcj : h j with _ | cj
      · rw [hcj] at hj
        rcases hdj : d j with _ | y
        · exact hs
        · rw [hdj] at hj; exact hj.elim
      · rw [hcj] at hj
        rcases hdj : d j with _ | y
        · rw [hdj] at hj; exact hj.elim
        · rw [hdj] at hj
          refine sim_put h d hs i _ _ ?_
          rcases y with _ | ⟨sb, m⟩ | _
          · exact Or.inr rfl
          · exact ⟨rfl, hj.2⟩
          · rfl

theorem step_sim_cleanup (h : MdHeap) (d : Digests) (hs : h.Sim d) (i : Nat) (h' : MdHeap)
    (hr : h.step (.cleanup i) = some h') : h'.Sim (d.step default_sbox (.cleanup i)) := by
  simp only [MdHeap.step, Option.some.injEq] at hr
  subst hr
  have hi := hs i
  simp only [dstu_md_cleanup, Digests.step]
  rcases hci : h i with _ | ci
  · rw [hci] at hi
    rcases hdi : d i with _ | x
    · exact hs
    · rw [hdi] at hi; exact hi.elim
  · rw [hci] at hi
    rcases hdi : d i with _ | x
    · rw [hdi] at hi; exact hi.elim
    · exact sim_put h d hs i _ _ (Or.inl rfl)

theorem step_sim_ctrl (h : MdHeap) (d : Digests) (hs : h.Sim d) (i : Nat) (cmd : Int) (p1 : Int) (p2 : Option (Bytes 64)) (h' : MdHeap)
    (hr : h.step (.ctrl i cmd p1 p2) = some h') : h'.Sim (d.step default_sbox (.ctrl i cmd p1 p2)) := by
  simp only [MdHeap.step, Option.map_eq_some_iff] at hr
  obtain ⟨⟨ret, r⟩, hr, rfl⟩ := hr
  have hi := hs i
  unfold dstu_md_ctrl at hr
  simp only [Digests.step]
  by_cases hcmd : cmd = DSTU_SET_CUSTOM_SBOX
  · rw [if_pos hcmd] at hr
    have hcmd' : cmd = Spec.sboxControl := hcmd
    rcases p2 with _ | p2
    · simp only [Option.some.injEq, Prod.mk.injEq] at hr
      rw [← hr.2]
      rcases d i with _ | (_ | _ | _) <;> exact hs
    · simp only at hr
      by_cases hp1 : p1 = 64
      · rw [if_neg (by simp [hp1])] at hr
        simp only [Option.bind_eq_bind, Option.bind_eq_some_iff, Option.pure_def, Option.some.injEq,
          Prod.mk.injEq] at hr
        obtain ⟨c, hc, _, rfl⟩ := hr
        rw [hc] at hi
        rcases hd : d i with _ | x
        · rw [hd] at hi; exact hi.elim
        · rw [hd] at hi
          rcases x with _ | ⟨sb, m⟩ | _
          · refine sim_put_same h d hs i _ ?_
            rw [hd]; simp only [MdSim] at hi ⊢; exact hi
          · simp only
            rw [if_pos ⟨hcmd', hp1⟩]
            refine sim_put h d hs i _ _ ?_
            split
            · subst_vars
              have t := tables_gost_init c.cctx p2
              exact ⟨hi.1, fun hl => ⟨t, after_nil_congr _ _ _ (hi.2 hl).2⟩⟩
            · exact hi.1
          · refine sim_put_same h d hs i _ ?_
            rw [hd]; simp only [MdSim] at hi ⊢; exact hi
      · rw [if_pos hp1] at hr
        simp only [Option.some.injEq, Prod.mk.injEq] at hr
        rw [← hr.2]
        rcases d i with _ | (_ | _ | _)
        · exact hs
        · exact hs
        · simp only
          rw [if_neg (fun h => hp1 h.2)]
          exact hs
        · exact hs
  · rw [if_neg hcmd] at hr
    simp only [Option.some.injEq, Prod.mk.injEq] at hr
    rw [← hr.2]
    rcases d i with _ | (_ | _ | _) <;> rcases p2 with _ | p2 <;> try exact hs
    simp only
    rw [if_neg (fun h => hcmd h.1)]
    exact hs

theorem step_sim_free (h : MdHeap) (d : Digests) (hs : h.Sim d) (i : Nat) (h' : MdHeap)
    (hr : h.step (.free i) = some h') : h'.Sim (d.step default_sbox (.free i)) := by
  simp only [MdHeap.step, Option.some.injEq] at hr
  subst hr
  exact sim_put h d hs i _ _ trivial

/-- The step of the heap follows the abstract step, whenever it is defined. -/
theorem step_sim (h : MdHeap) (d : Digests) (hs : h.Sim d) (op : DigestOp) (h' : MdHeap)
    (hr : h.step op = some h') : h'.Sim (d.step default_sbox op) := by
  cases op with
  | new i => exact step_sim_new h d hs i h' hr
  | init i sb => exact step_sim_init h d hs i sb h' hr
  | update i data => exact step_sim_update h d hs i data h' hr
  | final i => exact step_sim_final h d hs i h' hr
  | copy i j => exact step_sim_copy h d hs i j h' hr
  | cleanup i => exact step_sim_cleanup h d hs i h' hr
  | ctrl i cmd p1 p2 => exact step_sim_ctrl h d hs i cmd p1 p2 h' hr
  | free i => exact step_sim_free h d hs i h' hr

theorem run_sim (h : MdHeap) (d : Digests) (hs : h.Sim d) (ops : List DigestOp) (h' : MdHeap)
    (hr : h.run ops = some h') : h'.Sim (d.run default_sbox ops) := by
  induction ops generalizing h d with
  | nil => simp only [MdHeap.run, Option.some.injEq] at hr; subst hr; exact hs
  | cons op ops ih =>
    simp only [MdHeap.run, Option.bind_eq_some_iff] at hr
    obtain ⟨h1, e1, hr⟩ := hr
    exact ih h1 _ (step_sim h d hs op h1 e1) hr

theorem empty_sim : MdHeap.empty.Sim (fun _ => none) := fun _ => trivial

theorem sim_active (h : MdHeap) (d : Digests) (hs : h.Sim d) (i sb m) (hd : d i = some (.active sb m)) :
    ∃ c, h i = some c ∧ c.cipher_ctx = some i ∧
      (m.length < 2 ^ 63 → c.cctx.Tables (Spec.tableOf sb) ∧ c.dctx.After (Spec.tableOf sb) m) := by
  have hi := hs i
  rw [hd] at hi
  rcases hc : h i with _ | c
  · rw [hc] at hi; exact hi.elim
  · rw [hc] at hi
    exact ⟨c, rfl, hi.1, hi.2⟩

/-- Finishing an active context gives the hash of its message. -/
theorem sim_final (h : MdHeap) (d : Digests) (hs : h.Sim d) (i sb m) (hd : d i = some (.active sb m))
    (hl : m.length < 2 ^ 60) :
    ∃ h', dstu_md_final h i = some (h', Spec.gost34311 (Spec.tableOf sb) m) := by
  obtain ⟨c, hc, hp, ha⟩ := sim_active h d hs i sb m hd
  obtain ⟨ht, ha⟩ := ha (by omega)
  obtain ⟨c', e, _⟩ := finish_after c.cctx _ ht c.dctx m ha hl
  rw [final_eq h i c hc hp, e]
  exact ⟨_, rfl⟩

/-- Legal operations are defined. -/
theorem step_legal (h : MdHeap) (d : Digests) (hs : h.Sim d) (op : DigestOp) (hl : d.Legal op) :
    ∃ h', h.step op = some h' := by
  have hex : ∀ i, d i ≠ none → ∃ c, h i = some c := by
    intro i hi
    have := hs i
    rcases hc : h i with _ | c
    · rw [hc] at this
      rcases hd : d i with _ | x
      · exact absurd hd hi
      · rw [hd] at this; exact this.elim
    · exact ⟨c, rfl⟩
  cases op with
  | init i sb =>
    obtain ⟨c, hc⟩ := hex i hl
    simp [MdHeap.step, dstu_md_init, hc]
  | ctrl i cmd p1 p2 =>
    obtain ⟨c, hc⟩ := hex i hl
    simp only [MdHeap.step, dstu_md_ctrl, hc]
    split
    · rcases p2 with _ | p2
      · exact ⟨_, rfl⟩
      · simp only
        split <;> exact ⟨_, rfl⟩
    · exact ⟨_, rfl⟩
  | update i data =>
    obtain ⟨sb, m, hd, hlen⟩ := hl
    obtain ⟨c, hc, hp, ha⟩ := sim_active h d hs i sb m hd
    have hlen' := hlen
    simp only [List.length_append] at hlen'
    obtain ⟨ht, ha⟩ := ha (by omega)
    obtain ⟨c1, h1, e1, _⟩ := hash_block_after c.cctx _ ht c.dctx m ha data (by omega)
    simp only [MdHeap.step]
    rw [update_eq h i c hc hp, e1]
    exact ⟨_, rfl⟩
  | final i =>
    obtain ⟨sb, m, hd, hlen⟩ := hl
    obtain ⟨h', e⟩ := sim_final h d hs i sb m hd hlen
    simp only [MdHeap.step]
    rw [e]
    exact ⟨_, rfl⟩
  | new i => exact ⟨_, rfl⟩
  | copy i j => exact ⟨_, rfl⟩
  | cleanup i => exact ⟨_, rfl⟩
  | free i => exact ⟨_, rfl⟩

theorem run_legal (h : MdHeap) (d : Digests) (hs : h.Sim d) (ops : List DigestOp)
    (hl : d.LegalRun default_sbox ops) : ∃ h', h.run ops = some h' := by
  induction ops generalizing h d with
  | nil => exact ⟨h, rfl⟩
  | cons op ops ih =>
    obtain ⟨h1, e1⟩ := step_legal h d hs op hl.1
    obtain ⟨h2, e2⟩ := ih h1 _ (step_sim h d hs op h1 e1) hl.2
    exact ⟨h2, by simp [MdHeap.run, e1, e2]⟩

end Dstu

namespace Dstu

open Spec (Digest Digests DigestOp)

/-- Operations on other contexts do not touch a context. -/
theorem step_other (h : MdHeap) (d : Digests) (hs : h.Sim d) (op : DigestOp) (h' : MdHeap)
    (hr : h.step op = some h') (j : Nat) (hj : op.target ≠ j) : h' j = h j := by
  have hj' : j ≠ op.target := fun e => hj e.symm
  cases op with
  | new i =>
    simp only [MdHeap.step, Option.some.injEq] at hr
    rw [← hr]; exact MdHeap.put_ne _ _ _ _ hj'
  | init i sb =>
    simp only [MdHeap.step, dstu_md_init, Option.bind_eq_bind, Option.bind_eq_some_iff, Option.pure_def,
      Option.some.injEq] at hr
    obtain ⟨c, hc, rfl⟩ := hr
    exact MdHeap.put_ne _ _ _ _ hj'
  | update i data =>
    simp only [MdHeap.step] at hr
    rcases hc : h i with _ | c
    · simp [dstu_md_update, hc] at hr
    · rcases hp : c.cipher_ctx with _ | p
      · simp [dstu_md_update, hc, hp] at hr
      · have := sim_ptr h d hs i c hc p hp
        subst this
        rw [update_eq h p c hc hp, Option.map_eq_some_iff] at hr
        obtain ⟨⟨g, e⟩, hb, rfl⟩ := hr
        exact MdHeap.put_ne _ _ _ _ hj'
  | final i =>
    simp only [MdHeap.step, Option.map_eq_some_iff] at hr
    obtain ⟨r, hr, rfl⟩ := hr
    rcases hc : h i with _ | c
    · simp [dstu_md_final, hc] at hr
    · rcases hp : c.cipher_ctx with _ | p
      · simp [dstu_md_final, hc, hp] at hr
      · have := sim_ptr h d hs i c hc p hp
        subst this
        rw [final_eq h p c hc hp, Option.map_eq_some_iff] at hr
        obtain ⟨⟨g, e⟩, hb, rfl⟩ := hr
        exact MdHeap.put_ne _ _ _ _ hj'
  | copy i k =>
    simp only [MdHeap.step, Option.some.injEq] at hr
    subst hr
    rcases hci : h i with _ | ci
    · simp only [dstu_md_copy, hci]
    · rcases hck : h k with _ | ck
      · simp only [dstu_md_copy, hci, hck]
      · simp only [dstu_md_copy, hci, hck]
        exact MdHeap.put_ne _ _ _ _ hj'
  | cleanup i =>
    simp only [MdHeap.step, Option.some.injEq] at hr
    subst hr
    rcases hci : h i with _ | ci
    · simp only [dstu_md_cleanup, hci]
    · simp only [dstu_md_cleanup, hci]
      exact MdHeap.put_ne _ _ _ _ hj'
  | ctrl i cmd p1 p2 =>
    simp only [MdHeap.step, Option.map_eq_some_iff] at hr
    obtain ⟨⟨ret, r⟩, hr, rfl⟩ := hr
    unfold dstu_md_ctrl at hr
    split at hr
    · rcases p2 with _ | p2
      · simp only [Option.some.injEq, Prod.mk.injEq] at hr
        rw [← hr.2]
      · simp only at hr
        split at hr
        · simp only [Option.some.injEq, Prod.mk.injEq] at hr
          rw [← hr.2]
        · simp only [Option.bind_eq_bind, Option.bind_eq_some_iff, Option.pure_def, Option.some.injEq,
            Prod.mk.injEq] at hr
          obtain ⟨c, hc, _, rfl⟩ := hr
          exact MdHeap.put_ne _ _ _ _ hj'
    · simp only [Option.some.injEq, Prod.mk.injEq] at hr
      rw [← hr.2]
  | free i =>
    simp only [MdHeap.step, Option.some.injEq] at hr
    rw [← hr]; exact MdHeap.put_ne _ _ _ _ hj'

theorem run_other (h : MdHeap) (d : Digests) (hs : h.Sim d) (ops : List DigestOp) (h' : MdHeap)
    (hr : h.run ops = some h') (j : Nat) (hj : ∀ op ∈ ops, op.target ≠ j) : h' j = h j := by
  induction ops generalizing h d with
  | nil => simp only [MdHeap.run, Option.some.injEq] at hr; rw [hr]
  | cons op ops ih =>
    simp only [MdHeap.run, Option.bind_eq_some_iff] at hr
    obtain ⟨h1, e1, hr⟩ := hr
    rw [ih h1 _ (step_sim h d hs op h1 e1) hr (fun o ho => hj o (List.mem_cons_of_mem _ ho)),
      step_other h d hs op h1 e1 j (hj op List.mem_cons_self)]

/-- The digest a context would give now. -/
def MdHeap.digest (h : MdHeap) (i : Nat) : Option (Bytes 32) := (dstu_md_final h i).map (·.2)

theorem digest_local (h h' : MdHeap) (d d' : Digests) (hs : h.Sim d) (hs' : h'.Sim d') (i)
    (e : h' i = h i) : h'.digest i = h.digest i := by
  unfold MdHeap.digest
  rcases hc : h i with _ | c
  · rw [hc] at e
    simp [dstu_md_final, hc, e]
  · rw [hc] at e
    rcases hp : c.cipher_ctx with _ | p
    · simp [dstu_md_final, hc, e, hp]
    · have := sim_ptr h d hs i c hc p hp
      subst this
      rw [final_eq h p c hc hp, final_eq h' p c e hp]
      rcases finish_hash c.cctx c.dctx with _ | r <;> rfl

end Dstu
