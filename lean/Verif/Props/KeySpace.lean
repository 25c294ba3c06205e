import Verif.Spec.KeySpace
import Verif.Props.Draws
import Verif.Props.Binding
import Mathlib.Data.Set.Card
import Mathlib.Data.Fintype.Pi

/-! C113: which private keys can be generated. -/

namespace Dstu.Props

open Spec WeierstrassCurve

/-! ### The draws as a function of the stream -/

open Classical in
/-- The outcome of a draw from byte `pos` on, and where the stream is used up to. -/
noncomputable def drawnAt (g : RbgSeed) (n pos : Nat) : Option Nat × Nat :=
  if h : ∃ p : Nat × Nat, g.Draws n pos p.1 p.2 then (some h.choose.1, h.choose.2) else (none, pos + 100 * drawBytes n)

theorem draws_unique {g : RbgSeed} {n pos r pos' r₂ pos₂ : Nat} (h : g.Draws n pos r pos') (h₂ : g.Draws n pos r₂ pos₂) : r = r₂ ∧ pos' = pos₂ := by
  obtain ⟨j, _, h1, h2, h3⟩ := h
  obtain ⟨i, _, k1, k2, k3⟩ := h₂
  have hij : i = j := by
    rcases Nat.lt_trichotomy i j with hlt | he | hlt
    · rw [h2 i hlt] at k1; cases k1
    · exact he
    · rw [k2 j hlt] at h1; cases h1
  subst hij
  rw [h1] at k1
  exact ⟨Option.some.inj k1, by rw [h3, k3]⟩

theorem drawnAt_some {g : RbgSeed} {n pos r pos' : Nat} (h : g.Draws n pos r pos') : drawnAt g n pos = (some r, pos') := by
  unfold drawnAt
  have hex : ∃ p : Nat × Nat, g.Draws n pos p.1 p.2 := ⟨(r, pos'), h⟩
  rw [dif_pos hex]
  obtain ⟨h1, h2⟩ := draws_unique hex.choose_spec h
  rw [h1, h2]

theorem drawnAt_none {g : RbgSeed} {n pos : Nat} (h : ∀ i < 99, g.candidate n pos i = none) : drawnAt g n pos = (none, pos + 100 * drawBytes n) := by
  unfold drawnAt
  rw [dif_neg]
  rintro ⟨p, j, hj, h1, _⟩
  rw [h j hj] at h1
  cases h1

/-- The outcomes of `k` draws. -/
noncomputable def outs (g : RbgSeed) (n : Nat) : Nat → Nat → List (Option Nat)
  | 0, _ => []
  | k + 1, pos => (drawnAt g n pos).1 :: outs g n k (drawnAt g n pos).2

theorem outs_append (g : RbgSeed) (n : Nat) : ∀ k l pos, ∃ t, outs g n (k + l) pos = outs g n k pos ++ t
  | 0, l, pos => ⟨_, rfl⟩
  | k + 1, l, pos => by
    obtain ⟨t, ht⟩ := outs_append g n k l (drawnAt g n pos).2
    refine ⟨t, ?_⟩
    rw [show k + 1 + l = (k + l) + 1 by omega, outs, outs, ht]
    rfl

theorem draws_outs (n : Nat) (hn : 1 < n) (hsz : numBits n < 2 ^ 29) (e : RandEnv) : ∀ (k : Nat) (st st' : RbgState) (v : RbgView) (rs : List (Option Nat)),
    Shows st.rbg v → (st.lock = .unset ∨ st.lock = .live) → draws true e n k st = some (rs, st') →
    (∀ g pos, v.reseed e = some (g, pos) → rs = outs g n k pos) ∧ (v.reseed e = none → ∀ d, genLoop rs ≠ .done d)
  | 0, st, st', v, rs, _, _, h => by
    cases h
    exact ⟨fun _ _ _ => rfl, fun _ d hd => by cases hd⟩
  | k + 1, st, st', v, rs, hs, hl, h => by
    obtain ⟨out, st₁, h1, h2, h3⟩ := C110_from_stream e n hn hsz st v hs hl
    rw [draws, h1] at h
    simp only [Option.map_eq_some_iff] at h
    obtain ⟨⟨rs', st₂⟩, h4, h5⟩ := h
    obtain ⟨rfl, rfl⟩ := Prod.mk.inj h5
    rcases h3 with ⟨h6, rfl, _⟩ | ⟨g, pos, pos', h6, h7, h8⟩
    · exact ⟨fun g pos hg => (by rw [h6] at hg; cases hg), fun _ d hd => by cases hd⟩
    · refine ⟨fun g' q hg => ?_, fun hnone => (by rw [h6] at hnone; cases hnone)⟩
      rw [h6] at hg
      obtain ⟨rfl, rfl⟩ := Prod.mk.inj (Option.some.inj hg)
      have hd : drawnAt g n pos = (out, pos') := by
        rcases h8 with ⟨r, rfl, h8⟩ | ⟨rfl, h8, rfl⟩
        · exact drawnAt_some h8
        · exact drawnAt_none h8
      rw [outs, hd]
      rw [(draws_outs n hn hsz e k st₁ _ (some (g, pos')) rs' h7 (Or.inr h2) h4).1 g pos' rfl]

/-! ### Only the eight bytes of the state change -/

theorem state_shift (g : RbgSeed) (q : Nat) : ∀ j, ({ g with s := g.state q } : RbgSeed).state j = g.state (q + j)
  | 0 => rfl
  | j + 1 => by
    rw [RbgSeed.state, state_shift g q j]
    rfl

theorem segment_shift (g : RbgSeed) (pos o n : Nat) : ({ g with s := g.state (8 * pos) } : RbgSeed).segment o n = g.segment (pos + o) n := by
  unfold RbgSeed.segment RbgSeed.byte RbgSeed.bit
  simp only [state_shift]
  apply List.map_congr_left
  intro i _
  rw [show 8 * (pos + o + i) = 8 * pos + 8 * (o + i) by ring]
  simp only [Nat.add_assoc]
  rfl

theorem candidate_shift (g : RbgSeed) (n pos o j : Nat) : ({ g with s := g.state (8 * pos) } : RbgSeed).candidate n o j = g.candidate n (pos + o) j := by
  unfold RbgSeed.candidate
  rw [segment_shift, Nat.add_assoc]

theorem drawnAt_shift (g : RbgSeed) (n pos o : Nat) : drawnAt g n (pos + o) =
    ((drawnAt { g with s := g.state (8 * pos) } n o).1, pos + (drawnAt { g with s := g.state (8 * pos) } n o).2) := by
  by_cases h : ∃ p : Nat × Nat, ({ g with s := g.state (8 * pos) } : RbgSeed).Draws n o p.1 p.2
  · obtain ⟨⟨r, pos'⟩, h⟩ := h
    rw [drawnAt_some h]
    apply drawnAt_some
    obtain ⟨j, hj, h1, h2, h3⟩ := h
    refine ⟨j, hj, by rw [← candidate_shift]; exact h1, fun i hi => by rw [← candidate_shift]; exact h2 i hi, ?_⟩
    simp only at h3 ⊢
    omega
  · have h' : ¬ ∃ p : Nat × Nat, g.Draws n (pos + o) p.1 p.2 := by
      rintro ⟨⟨r, pos'⟩, j, hj, h1, h2, h3⟩
      exact h ⟨(r, o + (j + 1) * drawBytes n), j, hj, by rw [candidate_shift]; exact h1, fun i hi => by rw [candidate_shift]; exact h2 i hi, rfl⟩
    unfold drawnAt
    rw [dif_neg h, dif_neg h', Nat.add_assoc]

theorem outs_shift (g : RbgSeed) (n pos : Nat) : ∀ k o, outs g n k (pos + o) = outs { g with s := g.state (8 * pos) } n k o
  | 0, _ => rfl
  | k + 1, o => by
    rw [outs, outs, drawnAt_shift, outs_shift g n pos k]

theorem genLoop_append : ∀ (l t : List (Option Nat)) (d : Nat), genLoop l = .done d → genLoop (l ++ t) = .done d
  | [], _, _, h => by cases h
  | none :: _, _, _, h => by cases h
  | some x :: l, t, d, h => by
    rw [List.cons_append, genLoop]
    rw [genLoop] at h
    split
    · rename_i h0
      rw [if_pos h0] at h
      exact genLoop_append l t d h
    · rename_i h0
      rwa [if_neg h0] at h

/-- A secret gives at most one private key. -/
theorem outs_key_unique (g : RbgSeed) (n k k' d d' : Nat) (h : genLoop (outs g n k 0) = .done d) (h' : genLoop (outs g n k' 0) = .done d') : d = d' := by
  rcases Nat.le_total k k' with hk | hk
  · obtain ⟨t, ht⟩ := outs_append g n k (k' - k) 0
    rw [Nat.add_sub_cancel' hk] at ht
    rw [ht, genLoop_append _ _ _ h] at h'
    cases h'; rfl
  · obtain ⟨t, ht⟩ := outs_append g n k' (k - k') 0
    rw [Nat.add_sub_cancel' hk] at ht
    rw [ht, genLoop_append _ _ _ h'] at h
    cases h; rfl

/-- During the life of a process with this source of entropy the generator is not seeded, or with this seed. -/
theorem view_seed (seed : Bytes 40) (date : Bytes 8) : ∀ (cs : List RbgCall) (v : RbgView), (∀ c ∈ cs, CallSeedsWith seed date c) →
    (∀ g pos, v = some (g, pos) → g = RbgSeed.ofSeed seed date) → ∀ g pos, cs.foldl viewStep v = some (g, pos) → g = RbgSeed.ofSeed seed date
  | [], v, _, hv => hv
  | c :: cs, v, hc, hv => by
    rw [List.foldl_cons]
    refine view_seed seed date cs _ (fun c h => hc c (List.mem_cons_of_mem _ h)) ?_
    have hc0 := hc c List.mem_cons_self
    have hre : ∀ e, SeedsWith seed date e → ∀ g pos, v.reseed e = some (g, pos) → g = RbgSeed.ofSeed seed date := by
      intro e he g pos hg
      cases v with
      | some p => exact hv g pos hg
      | none =>
        simp only [RbgView.reseed] at hg
        split at hg
        · cases hs : e.seed with
          | none => rw [hs] at hg; cases hg
          | some s =>
            rw [hs] at hg
            obtain ⟨rfl, h2⟩ := he s hs
            rw [← h2]
            exact (Prod.mk.inj (Option.some.inj hg)).1.symm
        · cases hg
    intro g pos hg
    cases c with
    | seed => exact hv g pos hg
    | cleanup => exact hv g pos hg
    | status e => exact hre e hc0 g pos hg
    | bytes e buf num =>
      simp only [viewStep, Option.map_eq_some_iff] at hg
      obtain ⟨⟨g', pos'⟩, h1, h2⟩ := hg
      rw [← (Prod.mk.inj h2).1]
      exact hre e hc0 g' pos' h1

section
variable {g : EcGroup} [GoodGroup g]

/-- `d` is a private key that a process whose source of entropy gives `seed` at the time `date` can generate, at some moment of its life. -/
def Generable (g : EcGroup) [GoodGroup g] (seed : Bytes 40) (date : Bytes 8) (d : Nat) : Prop :=
  ∃ (cs : List RbgCall) (as : List RbgAnswer) (st : RbgState) (e : RandEnv) (key key' : EcKey g) (k : Nat),
    (∀ c ∈ cs, c.Allowed ∧ CallSeedsWith seed date c) ∧ SeedsWith seed date e ∧ RbgState.boot.run true cs = some (as, st) ∧
      generateDrawing true e g key k st = some (.done key') ∧ key'.priv = some d

theorem generable_state (hn : 1 < g.n) (hsz : numBits g.n < 2 ^ 29) (seed : Bytes 40) (date : Bytes 8) (d : Nat) (h : Generable g seed date d) :
    ∃ (s : Bytes 8) (k : Nat), genLoop (outs { RbgSeed.ofSeed seed date with s := s } g.n k 0) = .done d := by
  obtain ⟨cs, as, st, e, key, key', k, hcs, he, hrun, hgen, hpriv⟩ := h
  obtain ⟨as', st', r1, _, r2, r3⟩ := run_follows cs .boot none rfl (Or.inl rfl) (fun c hc => (hcs c hc).1)
  rw [hrun] at r1
  obtain ⟨rfl, rfl⟩ := Prod.mk.inj (Option.some.inj r1)
  have hview := view_seed seed date (cs ++ [.status e]) none (by
    intro c hc
    rcases List.mem_append.mp hc with hc | hc
    · exact (hcs c hc).2
    · rw [List.mem_singleton.mp hc]
      exact he) (fun _ _ h => by cases h)
  rw [List.foldl_append] at hview
  generalize cs.foldl viewStep none = v at r3 hview
  change ∀ g pos, v.reseed e = some (g, pos) → g = RbgSeed.ofSeed seed date at hview
  unfold generateDrawing at hgen
  rw [Option.map_eq_some_iff] at hgen
  obtain ⟨⟨rs, st₁⟩, g1, g2⟩ := hgen
  simp only at g2
  obtain ⟨o1, o2⟩ := draws_outs g.n hn hsz e k st st₁ v rs r3 r2 g1
  have hloop : genLoop rs = .done d := by
    unfold dstu_generate_key at g2
    split at g2
    · cases g2
    · cases g2
    · rename_i prk hprk
      simp only [dstu_add_public_key, Option.bind_eq_bind, Option.bind_some, Option.pure_def] at g2
      cases g2
      rw [hprk, Option.some.inj hpriv]
  cases hv : v.reseed e with
  | none => exact absurd hloop (o2 hv d)
  | some p =>
    obtain ⟨g₀, pos⟩ := p
    have := hview g₀ pos hv
    subst this
    rw [o1 _ pos hv, ← Nat.add_zero pos, outs_shift] at hloop
    exact ⟨_, k, hloop⟩

/-- If each of a set of numbers has an owner that owns nothing else, there are no more of them than owners. -/
theorem owners {T : Type} [Finite T] (S : Set Nat) (R : T → Nat → Prop) (hex : ∀ d ∈ S, ∃ t, R t d) (hu : ∀ t d d', R t d → R t d' → d = d') :
    S.Finite ∧ S.ncard ≤ Nat.card T := by
  classical
  let f : S → T := fun d => (hex d.1 d.2).choose
  have hf : Function.Injective f := by
    intro a b hab
    apply Subtype.ext
    have ha := (hex a.1 a.2).choose_spec
    have hb := (hex b.1 b.2).choose_spec
    change R (f a) a.1 at ha
    change R (f b) b.1 at hb
    rw [← hab] at hb
    exact hu _ _ _ ha hb
  have hfin : Finite S := Finite.of_injective f hf
  exact ⟨hfin, Nat.card_le_card_of_injective f hf⟩

theorem missing {S : Set Nat} {N n : Nat} (hS : S.Finite ∧ S.ncard ≤ N) (h : N + 1 < n) : ∃ d, 1 ≤ d ∧ d < n ∧ d ∉ S := by
  by_contra hno
  have hall : (Finset.Ioo 0 n : Set Nat) ⊆ S := by
    intro d hd
    by_contra hdS
    obtain ⟨h1, h2⟩ := Finset.mem_Ioo.mp (Finset.mem_coe.mp hd)
    exact hno ⟨d, h1, h2, hdS⟩
  have := Set.ncard_le_ncard hall hS.1
  rw [Set.ncard_coe_finset, Nat.card_Ioo] at this
  omega

/-- The bytes as functions. -/
def bytesFn {k : Nat} (v : Bytes k) : Fin k → Fin 256 := fun i => (v[i]).toFin

theorem bytesFn_injective {k : Nat} : Function.Injective (bytesFn (k := k)) := by
  intro a b h
  ext i hi : 1
  have := congrFun h ⟨i, hi⟩
  exact BitVec.eq_of_toFin_eq this

instance {k : Nat} : Finite (Bytes k) := Finite.of_injective _ bytesFn_injective

theorem bytes_card (k : Nat) : Nat.card (Bytes k) ≤ 256 ^ k := by
  have := Nat.card_le_card_of_injective _ (bytesFn_injective (k := k))
  rwa [Nat.card_fun, Nat.card_fin, Nat.card_fin] at this

/-- C113, how many: for a given seed and time, all the private keys that a process can generate, however long it lives and whatever else it asks the generator for, are at most `2^64`. -/
theorem C113_at_most (hn : 1 < g.n) (hsz : numBits g.n < 2 ^ 29) (seed : Bytes 40) (date : Bytes 8) :
    {d | Generable g seed date d}.Finite ∧ {d | Generable g seed date d}.ncard ≤ 2 ^ 64 := by
  obtain ⟨h1, h2⟩ := owners {d | Generable g seed date d} (fun (s : Bytes 8) d => ∃ k, genLoop (outs { RbgSeed.ofSeed seed date with s := s } g.n k 0) = .done d)
    (fun d hd => generable_state hn hsz seed date d hd) (fun s d d' ⟨k, h⟩ ⟨k', h'⟩ => outs_key_unique _ _ k k' d d' h h')
  exact ⟨h1, h2.trans ((bytes_card 8).trans (by norm_num))⟩

/-- C113 over all seeds and times: at most `2^384` private keys can ever be generated. -/
theorem C113_at_most_ever (hn : 1 < g.n) (hsz : numBits g.n < 2 ^ 29) :
    {d | ∃ seed date, Generable g seed date d}.Finite ∧ {d | ∃ seed date, Generable g seed date d}.ncard ≤ 2 ^ 384 := by
  obtain ⟨h1, h2⟩ := owners {d | ∃ seed date, Generable g seed date d}
    (fun (t : Bytes 32 × Bytes 8 × Bytes 8) d => ∃ k, genLoop (outs ⟨t.1, t.2.1, t.2.2⟩ g.n k 0) = .done d)
    (fun d ⟨seed, date, hd⟩ => by
      obtain ⟨s, k, h⟩ := generable_state hn hsz seed date d hd
      exact ⟨((RbgSeed.ofSeed seed date).key, s, date), k, h⟩)
    (fun s d d' ⟨k, h⟩ ⟨k', h'⟩ => outs_key_unique _ _ k k' d d' h h')
  refine ⟨h1, h2.trans ?_⟩
  rw [Nat.card_prod, Nat.card_prod]
  calc _ ≤ 256 ^ 32 * (256 ^ 8 * 256 ^ 8) := Nat.mul_le_mul (bytes_card 32) (Nat.mul_le_mul (bytes_card 8) (bytes_card 8))
    _ = 2 ^ 384 := by rw [show 256 = 2 ^ 8 from rfl, ← pow_mul, ← pow_mul, ← pow_add, ← pow_add]

end

theorem named_order_size (nids : CurveNids) (i : Fin 10) (g : EcGroup) (hg : group_from_named_curve nids i = some g) :
    2 ^ 160 < g.n ∧ numBits g.n < 2 ^ 29 ∧ (i = 9 → 2 ^ 428 < g.n) := by
  have hgood := (named_dstu nids i g hg).good
  have hdc := named_dstu nids i g hg
  obtain ⟨c, m, ks, hc, hm, he, hge⟩ := named_entry nids i g hg
  have hd : fieldDegree g.p = m := by
    rw [hge]
    change fieldDegree (arr2poly c.poly) = m
    rw [he.poly]; exact he.log2
  have hsz := named_size nids i g hg
  rw [hd] at hsz
  have hm163 : 163 ≤ m ∧ (i = 9 → m = 431) := by
    clear hsz hd hge he hc hdc hg
    fin_cases i <;> (cases hm; decide)
  have hlo : ∀ t, t ≤ m → 2 ^ t ≤ 2 ^ m := fun t h => Nat.pow_le_pow_right (by omega) h
  have h4 : 2 ^ m < 4 * g.n := by rcases hsz with h | h <;> omega
  refine ⟨?_, ?_, fun h9 => ?_⟩
  · have := hlo 163 hm163.1
    omega
  · have h1 := hdc.n_ok.2
    have h2 := hdc.small
    rw [Int.toNat_natCast] at h1
    have h3 : numBits g.p ≤ fieldDegree g.p + 1 := by
      unfold numBits fieldDegree
      split <;> omega
    have h5 : (2 : Nat) ^ 20 + 2 < 2 ^ 29 := by norm_num
    omega
  · have := hlo 431 (by rw [hm163.2 h9])
    omega

/-- C113 is false for every process: on each of the ten built-in curves, whatever the seed and the time, there is a private key that the process never generates. -/
theorem C113_process_refuted (nids : CurveNids) (i : Fin 10) (g : EcGroup) [GoodGroup g] (hg : group_from_named_curve nids i = some g) (seed : Bytes 40) (date : Bytes 8) :
    ∃ d, 1 ≤ d ∧ d < g.n ∧ ¬ Generable g seed date d := by
  obtain ⟨h1, h2, _⟩ := named_order_size nids i g hg
  exact missing (C113_at_most (by omega) h2 seed date) (by omega)

/-- C113 is false altogether on the curve of degree 431: there is a private key that no process generates, with any seed, at any time. -/
theorem C113_never_refuted (nids : CurveNids) (g : EcGroup) [GoodGroup g] (hg : group_from_named_curve nids 9 = some g) :
    ∃ d, 1 ≤ d ∧ d < g.n ∧ ∀ seed date, ¬ Generable g seed date d := by
  obtain ⟨h1, h2, h3⟩ := named_order_size nids 9 g hg
  have h9 := h3 rfl
  obtain ⟨d, k1, k2, k3⟩ := missing (C113_at_most_ever (by omega) h2) (show 2 ^ 384 + 1 < g.n by omega)
  exact ⟨d, k1, k2, fun seed date h => k3 ⟨seed, date, h⟩⟩

/-- C113, what holds: no private key is excluded by the arithmetic.  If the first block of a process' stream makes the number `d`, which as many blocks do as any other number (C110),
then the first key pair it generates has the private key `d`. -/
theorem C113_first_block_partial {g : EcGroup} [GoodGroup g] (hn : 1 < g.n) (hsz : numBits g.n < 2 ^ 29) (e : RandEnv) (seed : Bytes 40) (hst : e.status = true)
    (hseed : e.seed = some seed) (key : EcKey g) (d : Nat) (hd : 1 ≤ d)
    (h : below g.n (beValue ((RbgSeed.ofSeed seed e.curr).segment 0 (drawBytes g.n))) = some d) :
    generateDrawing true e g key 1 .boot = some (.done ⟨some d, some (-(d • g.gen))⟩) := by
  obtain ⟨out, st', h1, _, h3⟩ := C110_from_stream e g.n hn hsz .boot none rfl (Or.inl rfl)
  have hre : RbgView.reseed none e = some (RbgSeed.ofSeed seed e.curr, 0) := by simp [RbgView.reseed, hst, hseed]
  have hc : (RbgSeed.ofSeed seed e.curr).candidate g.n 0 0 = some d := by
    unfold RbgSeed.candidate
    rw [Nat.zero_mul]
    exact h
  have hout : out = some d := by
    rcases h3 with ⟨h6, _⟩ | ⟨g₀, pos, pos', h6, _, h8⟩
    · rw [hre] at h6; cases h6
    · rw [hre] at h6
      obtain ⟨rfl, rfl⟩ := Prod.mk.inj (Option.some.inj h6)
      rcases h8 with ⟨r, rfl, h8⟩ | ⟨_, h8, _⟩
      · rw [(draws_unique h8 ⟨0, by omega, hc, fun i hi => absurd hi (by omega), rfl⟩).1]
      · rw [h8 0 (by omega)] at hc; cases hc
  unfold generateDrawing
  rw [draws, h1]
  simp only [draws, Option.map_some, hout, dstu_generate_key, genLoop, if_neg (show ¬ d = 0 by omega), dstu_add_public_key, Option.bind_eq_bind, Option.bind_some,
    Option.pure_def, ec_mul]

theorem blockTiny : below 17 (beValue ((RbgSeed.ofSeed (Vector.ofFn fun i => BitVec.ofNat 8 (7 + i.val)) (Vector.replicate 8 0)).segment 0 1)) = some 1 := by
  decide +kernel

/-- On the small curve: the process of the examples generates the private key 1, and of the 16 private keys at most `2^64`. -/
example : Generable gTiny (Vector.ofFn fun i => BitVec.ofNat 8 (7 + i.val)) (Vector.replicate 8 0) 1 ∧
    {d | Generable gTiny (Vector.ofFn fun i => BitVec.ofNat 8 (7 + i.val)) (Vector.replicate 8 0) d}.ncard ≤ 2 ^ 64 ∧
    {d | ∃ seed date, Generable gTiny seed date d}.ncard ≤ 2 ^ 384 := by
  have hn : 1 < gTiny.n := by rw [gTiny_numbers.1]; decide
  have hsz : numBits gTiny.n < 2 ^ 29 := by rw [gTiny_numbers.1]; decide
  have h := C113_first_block_partial hn hsz envTiny _ rfl rfl keyTiny 1 (by omega) (by rw [gTiny_numbers.1]; exact blockTiny)
  refine ⟨⟨[], [], .boot, envTiny, keyTiny, _, 1, by simp, ?_, rfl, h, rfl⟩, (C113_at_most hn hsz _ _).2, (C113_at_most_ever hn hsz).2⟩
  intro s hs
  exact ⟨(Option.some.inj hs).symm, rfl⟩

example : ∃ d, 1 ≤ d ∧ d < gEx.n ∧ ¬ Generable gEx (Vector.replicate 40 7) (Vector.replicate 8 0) d :=
  C113_process_refuted nidsEx 6 gEx gEx_named _ _

example : ∃ g, ∃ _ : GoodGroup g, group_from_named_curve nidsEx 9 = some g ∧ ∃ d, 1 ≤ d ∧ d < g.n ∧ ∀ seed date, ¬ Generable g seed date d := by
  obtain ⟨c, g, _, hg, hv, _, _⟩ := C33_curve_table_sound nidsEx 9
  have hgood : GoodGroup g := ⟨hv⟩
  exact ⟨g, hgood, hg, C113_never_refuted nidsEx g hg⟩

end Dstu.Props
