import Verif.Lemmas.Rbg
import Verif.Model.RbgThreads

/-! The invariant of the random generator called by many threads. -/

namespace Dstu

open Spec

/-- Between taking and releasing the lock. -/
def RandPc.Crit : RandPc → Prop
  | .out | .once | .acquire | .ret => False
  | _ => True

/-- The lock is held by the thread that is between taking and releasing it. -/
def LockInv (σ : RandSystem) : Prop := ∀ t, (σ.thread t).pc.Crit ↔ σ.shared.holder = some t

theorem thread_step_other (σ : RandSystem) (t u : Nat) (e : RandEnv) (h : u ≠ t) : (σ.step t e).thread u = σ.thread u := by
  unfold RandSystem.step
  split
  · rfl
  · simp [h]

/-- What one step does to the lock. -/
theorem step_lock {me : Nat} {e : RandEnv} {sh sh' : RandShared} {t t' : RandThread} (h : t.step me e sh = some (sh', t')) :
    (t.pc.Crit ∧ t'.pc.Crit ∧ sh'.holder = sh.holder) ∨ (¬ t.pc.Crit ∧ ¬ t'.pc.Crit ∧ sh'.holder = sh.holder) ∨
    (¬ t.pc.Crit ∧ t'.pc.Crit ∧ sh.holder = none ∧ sh'.holder = some me) ∨
    (t.pc.Crit ∧ ¬ t'.pc.Crit ∧ sh'.holder = none) := by
  unfold RandThread.step at h
  cases hp : t.pc <;> rw [hp] at h <;> simp only at h
  all_goals (try split at h)
  all_goals (try (cases h))
  all_goals (try split)
  all_goals (try simp [RandPc.Crit])
  all_goals (try assumption)

theorem lock_step {σ : RandSystem} (hl : LockInv σ) (t : Nat) (e : RandEnv) : LockInv (σ.step t e) := by
  unfold RandSystem.step
  split
  · exact hl
  rename_i sh th h
  intro u
  have hs := step_lock h
  have ht := hl t
  by_cases hu : u = t
  · subst hu
    simp only [if_true]
    rcases hs with ⟨h1, h2, h3⟩ | ⟨h1, h2, h3⟩ | ⟨h1, h2, h3, h4⟩ | ⟨h1, h2, h3⟩
    · rw [h3]; tauto
    · rw [h3]; tauto
    · rw [h4]; tauto
    · rw [h3]; simp [h2]
  · simp only [if_neg hu]
    rw [hl u]
    rcases hs with ⟨h1, h2, h3⟩ | ⟨h1, h2, h3⟩ | ⟨h1, h2, h3, h4⟩ | ⟨h1, h2, h3⟩
    · rw [h3]
    · rw [h3]
    · rw [h3, h4]; simp [Ne.symm hu]
    · rw [h3, ht.mp h1]; simp [Ne.symm hu]

/-- A step outside the critical section does not touch the generator. -/
theorem step_rbg {me : Nat} {e : RandEnv} {sh sh' : RandShared} {t t' : RandThread} (h : t.step me e sh = some (sh', t'))
    (hc : ¬ t.pc.Crit) : sh'.rbg = sh.rbg := by
  unfold RandThread.step at h
  cases hp : t.pc <;> rw [hp] at h hc <;> simp only [RandPc.Crit, not_true, not_false_iff] at h hc
  all_goals (try split at h)
  all_goals (try (cases h))
  all_goals rfl

/-- The request asks for bytes. -/
def RandReq.IsBytes : RandReq → Prop
  | .bytes _ => True
  | .status => False

/-! ### Before the generator is seeded -/

/-- The cipher is loaded with the key of the seed. -/
def KeyLoaded (m : Rbg) (t : RandThread) : Prop :=
  ∀ blk, gostcrypt m.cryptor blk = encrypt dke1 (seedKey t.seed) blk

/-- What holds of a thread as long as the generator is not seeded. -/
def Pre (m : Rbg) (t : RandThread) : Prop :=
  (∀ d ∈ t.done, d.req.IsBytes → d.rv = false) ∧
  match t.pc with
  | .out | .once | .acquire | .test | .askStatus | .testStatus | .askSeed | .setTables => True
  | .setKey => ∀ k blk, gostcrypt (gost_key_nomask m.cryptor k) blk = encrypt dke1 k blk
  | .setS => KeyLoaded m t
  | .setI => KeyLoaded m t ∧ m.s.bytes = seedTail t.seed
  | .setFlag => KeyLoaded m t ∧ m.s.bytes = seedTail t.seed ∧ m.I.bytes = encrypt dke1 (seedKey t.seed) t.curr
  | .setFlag2 => False
  | .gotStatus => t.status = false
  | _ => t.req.IsBytes → t.rv = false

/-- A thread outside the critical section does not depend on the generator. -/
theorem pre_other {m m' : Rbg} {t : RandThread} (h : Pre m t) (hc : ¬ t.pc.Crit) : Pre m' t := by
  obtain ⟨h1, h2⟩ := h
  refine ⟨h1, ?_⟩
  cases hp : t.pc <;> rw [hp] at h2 hc <;> simp only [RandPc.Crit, not_true, not_false_iff] at h2 hc ⊢
  exact h2

/-- A step that does not seed the generator. -/
theorem pre_step {me : Nat} {e : RandEnv} {sh sh' : RandShared} {t t' : RandThread} (h : t.step me e sh = some (sh', t'))
    (hi : sh.rbg.initialized = false) (hp : Pre sh.rbg t) (hi' : sh'.rbg.initialized = false) : Pre sh'.rbg t' := by
  obtain ⟨hd, hp⟩ := hp
  unfold RandThread.step at h
  cases hpc : t.pc <;> rw [hpc] at h hp <;> simp only at h hp
  case out =>
    split at h
    · cases h
    · cases h; exact ⟨hd, trivial⟩
    · cases h; exact ⟨hd, trivial⟩
  case once => cases h; exact ⟨hd, trivial⟩
  case acquire =>
    split at h
    · cases h
    · cases h
      cases t.req <;> exact ⟨hd, trivial⟩
  case test =>
    cases h
    refine ⟨hd, ?_⟩
    simp only [hi, Bool.false_eq_true, if_false]
  case askStatus => cases h; exact ⟨hd, trivial⟩
  case testStatus =>
    cases h
    refine ⟨hd, ?_⟩
    cases hs : t.status <;> simp [hi]
  case askSeed =>
    split at h
    · cases h; exact ⟨hd, rfl⟩
    · cases h; exact ⟨hd, trivial⟩
  case setTables =>
    cases h
    refine ⟨hd, fun k blk => ?_⟩
    exact seeded_cryptor _ _ _
  case setKey => cases h; exact ⟨hd, fun blk => hp _ blk⟩
  case setS => cases h; exact ⟨hd, hp, U4x2.bytes_ofBytes _⟩
  case setI =>
    cases h
    refine ⟨hd, hp.1, hp.2, ?_⟩
    simp only [U4x2.bytes_ofBytes]
    exact hp.1 _
  case setFlag => cases h; cases hi'
  case gotStatus =>
    split at h
    · rename_i hr
      cases h
      refine ⟨hd, fun hb => ?_⟩
      simp only at hb
      rw [hr] at hb
      exact hb.elim
    · cases h; exact ⟨hd, fun _ => hp⟩
  case loop => split at h <;> (cases h; exact ⟨hd, hp⟩)
  case bitLoop => split at h <;> (cases h; exact ⟨hd, hp⟩)
  case ret =>
    cases h
    refine ⟨?_, trivial⟩
    intro d hd'
    simp only [List.mem_append, List.mem_singleton] at hd'
    rcases hd' with hd' | rfl
    · exact hd d hd'
    · exact hp
  all_goals (cases h; exact ⟨hd, hp⟩)

/-! ### After the generator is seeded -/

/-- `buf` is a segment of the stream among the first `n` bits, and all its bytes belong to request `k` of
thread `me`. -/
def Seg (g : RbgSeed) (n : Nat) (owner : Nat → Nat × Nat) (me k : Nat) (buf : List Byte) : Prop :=
  ∃ o, 8 * (o + buf.length) ≤ n ∧ buf = g.segment o buf.length ∧ ∀ b, o ≤ b → b < o + buf.length → owner b = (me, k)

/-- All successful requests of a thread got segments of their own. -/
def DoneOk (g : RbgSeed) (n : Nat) (owner : Nat → Nat × Nat) (me : Nat) (t : RandThread) : Prop :=
  (∀ (k : Nat) (d : RandDone), t.done[k]? = some d → d.req.IsBytes → d.rv = true → Seg g n owner me k d.buf) ∧
  (t.pc = .unlock ∨ t.pc = .ret → t.req.IsBytes → t.rv = true → Seg g n owner me t.done.length t.buf)

theorem Seg.mono {g : RbgSeed} {n n' : Nat} {owner owner' : Nat → Nat × Nat} {me k : Nat} {buf : List Byte}
    (h : Seg g n owner me k buf) (hn : n ≤ n') (ho : ∀ b, 8 * (b + 1) ≤ n → owner' b = owner b) : Seg g n' owner' me k buf := by
  obtain ⟨o, h1, h2, h3⟩ := h
  exact ⟨o, by omega, h2, fun b hb1 hb2 => by rw [ho b (by omega), h3 b hb1 hb2]⟩

theorem DoneOk.mono {g : RbgSeed} {n n' : Nat} {owner owner' : Nat → Nat × Nat} {me : Nat} {t : RandThread}
    (h : DoneOk g n owner me t) (hn : n ≤ n') (ho : ∀ b, 8 * (b + 1) ≤ n → owner' b = owner b) : DoneOk g n' owner' me t :=
  ⟨fun k d h1 h2 h3 => (h.1 k d h1 h2 h3).mono hn ho, fun h1 h2 h3 => (h.2 h1 h2 h3).mono hn ho⟩

/-- The first `t.i` bytes are written and byte `t.i` has its first `j` bits; `n` bits are taken. -/
structure Filling (g : RbgSeed) (n : Nat) (owner : Nat → Nat × Nat) (me : Nat) (t : RandThread) (o : Nat) : Prop where
  bits : n = 8 * (o + t.i) + t.j
  lt : t.i < t.buf.length
  wrote : t.buf.take t.i = g.segment o t.i
  byte : t.buf[t.i]? = some (partByte g (o + t.i) t.j)
  own : ∀ b, o ≤ b → b ≤ o + t.i → owner b = (me, t.done.length)

/-- What holds of the thread with the lock and the generator. -/
def Busy (g : RbgSeed) (n : Nat) (owner : Nat → Nat × Nat) (me : Nat) (t : RandThread) (m : Rbg) : Prop :=
  match t.pc with
  | .askSeed | .setTables | .setKey | .setS | .setI | .setFlag => False
  | .loop => m.Holds g n ∧ t.i ≤ t.buf.length ∧ ∃ o, n = 8 * (o + t.i) ∧ t.buf.take t.i = g.segment o t.i ∧
      ∀ b, o ≤ b → b < o + t.i → owner b = (me, t.done.length)
  | .bitLoop => m.Holds g n ∧ t.j ≤ 8 ∧ ∃ o, Filling g n owner me t o
  | .x0 => m.Holds g n ∧ t.j < 8 ∧ ∃ o, Filling g n owner me t o
  | .x1 => m.Holds g n ∧ t.j < 8 ∧ (∃ o, Filling g n owner me t o) ∧ t.x.1 = m.I.1 ^^^ m.s.1
  | .encX => m.Holds g n ∧ t.j < 8 ∧ (∃ o, Filling g n owner me t o) ∧ t.x = (m.I.1 ^^^ m.s.1, m.I.2 ^^^ m.s.2)
  | .s0 => m.Holds g n ∧ t.j < 8 ∧ (∃ o, Filling g n owner me t o) ∧ t.x.bytes = g.E (xor8 g.I (g.state n))
  | .s1 => (∃ s, { m with s := s }.Holds g n) ∧ t.j < 8 ∧ (∃ o, Filling g n owner me t o) ∧
      t.x.bytes = g.E (xor8 g.I (g.state n)) ∧ m.s.1 = t.x.1 ^^^ m.I.1
  | .encS => (∃ s, { m with s := s }.Holds g n) ∧ t.j < 8 ∧ (∃ o, Filling g n owner me t o) ∧
      t.x.bytes = g.E (xor8 g.I (g.state n)) ∧ m.s = (t.x.1 ^^^ m.I.1, t.x.2 ^^^ m.I.2)
  | .putBit => m.Holds g (n + 1) ∧ t.j < 8 ∧ (∃ o, Filling g n owner me t o) ∧ t.x.bytes = g.E (xor8 g.I (g.state n))
  | _ => m.Holds g n ∧ 8 ∣ n

/-- What holds of the generator. -/
def Core (g : RbgSeed) (n : Nat) (owner : Nat → Nat × Nat) (σ : RandSystem) : Prop :=
  match σ.shared.holder with
  | none => σ.shared.rbg.Holds g n ∧ 8 ∣ n
  | some t => Busy g n owner t (σ.thread t) σ.shared.rbg

/-- The secret a thread is going to seed the generator with. -/
def RandThread.secret (t : RandThread) : RbgSeed := ⟨seedKey t.seed, seedTail t.seed, t.curr⟩

/-- A thread that seeds the generator does it with a secret with property `P`. -/
def SeedFrom (P : RbgSeed → Prop) (t : RandThread) : Prop :=
  match t.pc with
  | .setTables | .setKey | .setS | .setI | .setFlag => P t.secret
  | _ => True

theorem seedFrom_step {P : RbgSeed → Prop} {me : Nat} {e : RandEnv} {sh sh' : RandShared} {t t' : RandThread}
    (h : t.step me e sh = some (sh', t')) (hP : ∀ seed, e.seed = some seed → P (e.gen seed)) (hf : SeedFrom P t) : SeedFrom P t' := by
  unfold RandThread.step at h
  unfold SeedFrom at hf
  cases hpc : t.pc <;> rw [hpc] at h hf <;> simp only at h hf
  case askSeed =>
    split at h
    · cases h; trivial
    · rename_i hs
      cases h
      exact hP _ hs
  all_goals (try split at h)
  all_goals (cases h)
  all_goals (try trivial)
  all_goals (unfold SeedFrom)
  all_goals (simp only)
  all_goals (try split)
  all_goals (try trivial)
  all_goals (try (rename_i h1; revert h1; split <;> simp))

/-- The invariant. -/
def RandInv (P : RbgSeed → Prop) (σ : RandSystem) : Prop :=
  LockInv σ ∧ (∀ t, SeedFrom P (σ.thread t)) ∧
  ((σ.shared.rbg.initialized = false ∧ ∀ t, Pre σ.shared.rbg (σ.thread t)) ∨
   ∃ g n owner, P g ∧ (∀ t, DoneOk g n owner t (σ.thread t)) ∧ Core g n owner σ)

theorem take_set_self (l : List Byte) (i : Nat) (a : Byte) : (l.set i a).take i = l.take i := by
  rw [List.take_set, List.set_eq_of_length_le (by simp)]

/-- A step inside the critical section: what is new. -/
theorem busy_step {g : RbgSeed} {n : Nat} {owner : Nat → Nat × Nat} {me : Nat} {e : RandEnv} {sh sh' : RandShared}
    {t t' : RandThread} (h : t.step me e sh = some (sh', t')) (hc : t.pc.Crit) (hd : DoneOk g n owner me t)
    (hb : Busy g n owner me t sh.rbg) :
    ∃ n' owner', n ≤ n' ∧ (∀ b, 8 * (b + 1) ≤ n → owner' b = owner b) ∧ DoneOk g n' owner' me t' ∧
      (t.pc ≠ .unlock → Busy g n' owner' me t' sh'.rbg) ∧ (t.pc = .unlock → sh'.rbg.Holds g n' ∧ 8 ∣ n') := by
  have keep : ∀ t' : RandThread, t'.done = t.done → t'.pc ≠ .unlock → t'.pc ≠ .ret → DoneOk g n owner me t' := by
    intro t' h1 h2 h3
    refine ⟨fun k d hk => ?_, fun h => ?_⟩
    · rw [h1] at hk
      exact hd.1 k d hk
    · rcases h with h | h
      · exact absurd h h2
      · exact absurd h h3
  have keep' : ∀ (t' : RandThread) (n' : Nat) (owner' : Nat → Nat × Nat), t'.done = t.done → t'.pc ≠ .unlock → t'.pc ≠ .ret → n ≤ n' →
      (∀ b, 8 * (b + 1) ≤ n → owner' b = owner b) → DoneOk g n' owner' me t' :=
    fun t' n' owner' h1 h2 h3 h4 h5 => (keep t' h1 h2 h3).mono h4 h5
  unfold RandThread.step at h
  cases hpc : t.pc <;> rw [hpc] at h hc <;> simp only [RandPc.Crit] at h hc <;> simp only [Busy, hpc] at hb
  case test =>
    obtain ⟨h1, h2⟩ := hb
    cases h
    refine ⟨n, owner, le_refl _, fun _ _ => rfl, keep _ rfl (by split <;> simp) (by split <;> simp), fun _ => ?_, by simp⟩
    simp only [h1.init, if_true, Busy]
    obtain ⟨o, ho⟩ := h2
    exact ⟨h1, by omega, o, by omega, by simp [RbgSeed.segment], fun b hb1 hb2 => by omega⟩
  case askStatus =>
    cases h
    exact ⟨n, owner, le_refl _, fun _ _ => rfl, keep _ rfl (by simp) (by simp), fun _ => hb, by simp⟩
  case testStatus =>
    obtain ⟨h1, h2⟩ := hb
    cases h
    refine ⟨n, owner, le_refl _, fun _ _ => rfl, keep _ rfl (by split <;> simp) (by split <;> simp), fun _ => ?_, by simp⟩
    simp only [h1.init, Bool.not_true, Bool.and_false, Bool.false_eq_true, if_false, Busy]
    exact ⟨h1, h2⟩
  case setFlag2 =>
    obtain ⟨h1, h2⟩ := hb
    cases h
    exact ⟨n, owner, le_refl _, fun _ _ => rfl, keep _ rfl (by simp) (by simp), fun _ => ⟨⟨h1.I, h1.s, h1.cryptor, rfl⟩, h2⟩, by simp⟩
  case gotStatus =>
    obtain ⟨h1, h2⟩ := hb
    split at h
    · rename_i hr
      cases h
      refine ⟨n, owner, le_refl _, fun _ _ => rfl, ⟨hd.1, fun _ hb => ?_⟩, fun _ => ⟨h1, h2⟩, by simp⟩
      simp only at hb
      rw [hr] at hb
      exact hb.elim
    · cases h
      refine ⟨n, owner, le_refl _, fun _ _ => rfl, keep _ rfl (by simp) (by simp), fun _ => ?_, by simp⟩
      obtain ⟨o, ho⟩ := h2
      exact ⟨h1, Nat.zero_le _, o, by simpa using ho, by simp [RbgSeed.segment], fun b hb1 hb2 => by simp only at hb2; omega⟩
  case loop =>
    obtain ⟨h1, h2, o, h3, h4, h5⟩ := hb
    split at h
    · rename_i hlt
      cases h
      refine ⟨n, fun b => if b = o + t.i then (me, t.done.length) else owner b, le_refl _, ?_, ?_, fun _ => ?_, by simp⟩
      · intro b hb
        show (if b = o + t.i then _ else _) = _
        rw [if_neg (by omega)]
      · exact keep' _ _ _ rfl (by simp) (by simp) (le_refl _) (fun b hb => by rw [if_neg (by omega)])
      · refine ⟨h1, Nat.zero_le _, o, ⟨by simpa using h3, by simpa using hlt, ?_, ?_, ?_⟩⟩
        · rw [take_set_self, h4]
        · simp [hlt, partByte_zero]
        · intro b hb1 hb2
          simp only at hb2 ⊢
          by_cases hb : b = o + t.i
          · rw [if_pos hb]
          · rw [if_neg hb, h5 b hb1 (by omega)]
    · rename_i hge
      cases h
      have hi : t.i = t.buf.length := by omega
      refine ⟨n, owner, le_refl _, fun _ _ => rfl, ⟨hd.1, fun _ _ _ => ?_⟩, fun _ => ⟨h1, ⟨o + t.i, h3⟩⟩, by simp⟩
      rw [hi, List.take_length] at h4
      exact ⟨o, by rw [h3, hi], h4, fun b hb1 hb2 => h5 b hb1 (by simp only at hb2; omega)⟩
  case bitLoop =>
    obtain ⟨h1, h2, o, h3⟩ := hb
    split at h
    · rename_i hlt
      cases h
      exact ⟨n, owner, le_refl _, fun _ _ => rfl, keep _ rfl (by simp) (by simp), fun _ => ⟨h1, hlt, o, ⟨h3.1, h3.2, h3.3, h3.4, h3.5⟩⟩, by simp⟩
    · cases h
      have hj : t.j = 8 := by omega
      refine ⟨n, owner, le_refl _, fun _ _ => rfl, keep _ rfl (by simp) (by simp), fun _ => ⟨h1, h3.lt, o, ?_, ?_, ?_⟩, by simp⟩
      · have := h3.bits
        simp only
        omega
      · have := h3.byte
        rw [hj, partByte_eight] at this
        simp only [List.take_add_one, this, h3.wrote, segment_snoc, Option.toList]
      · intro b hb1 hb2
        exact h3.own b hb1 (by simp only at hb2; omega)
  case x0 =>
    obtain ⟨h1, h2, o, h3⟩ := hb
    cases h
    exact ⟨n, owner, le_refl _, fun _ _ => rfl, keep _ rfl (by simp) (by simp), fun _ => ⟨h1, h2, ⟨o, ⟨h3.1, h3.2, h3.3, h3.4, h3.5⟩⟩, rfl⟩, by simp⟩
  case x1 =>
    obtain ⟨h1, h2, ⟨o, h3⟩, h4⟩ := hb
    cases h
    exact ⟨n, owner, le_refl _, fun _ _ => rfl, keep _ rfl (by simp) (by simp),
      fun _ => ⟨h1, h2, ⟨o, ⟨h3.1, h3.2, h3.3, h3.4, h3.5⟩⟩, by simp only [h4]⟩, by simp⟩
  case encX =>
    obtain ⟨h1, h2, ⟨o, h3⟩, h4⟩ := hb
    cases h
    refine ⟨n, owner, le_refl _, fun _ _ => rfl, keep _ rfl (by simp) (by simp),
      fun _ => ⟨h1, h2, ⟨o, ⟨h3.1, h3.2, h3.3, h3.4, h3.5⟩⟩, ?_⟩, by simp⟩
    rw [U4x2.bytes_ofBytes, h4, U4x2.bytes_xor, h1.I, h1.s, h1.cryptor]
  case s0 =>
    obtain ⟨h1, h2, ⟨o, h3⟩, h4⟩ := hb
    cases h
    exact ⟨n, owner, le_refl _, fun _ _ => rfl, keep _ rfl (by simp) (by simp),
      fun _ => ⟨⟨sh.rbg.s, h1⟩, h2, ⟨o, ⟨h3.1, h3.2, h3.3, h3.4, h3.5⟩⟩, h4, rfl⟩, by simp⟩
  case s1 =>
    obtain ⟨⟨s, h1⟩, h2, ⟨o, h3⟩, h4, h5⟩ := hb
    cases h
    exact ⟨n, owner, le_refl _, fun _ _ => rfl, keep _ rfl (by simp) (by simp),
      fun _ => ⟨⟨s, h1⟩, h2, ⟨o, ⟨h3.1, h3.2, h3.3, h3.4, h3.5⟩⟩, h4, by simp only [h5]⟩, by simp⟩
  case encS =>
    obtain ⟨⟨s, h1⟩, h2, ⟨o, h3⟩, h4, h5⟩ := hb
    cases h
    refine ⟨n, owner, le_refl _, fun _ _ => rfl, keep _ rfl (by simp) (by simp),
      fun _ => ⟨⟨h1.I, ?_, h1.cryptor, h1.init⟩, h2, ⟨o, ⟨h3.1, h3.2, h3.3, h3.4, h3.5⟩⟩, h4⟩, by simp⟩
    have hI : sh.rbg.I.bytes = g.I := h1.I
    have hE : ∀ blk, gostcrypt sh.rbg.cryptor blk = g.E blk := h1.cryptor
    simp only [U4x2.bytes_ofBytes, h5, U4x2.bytes_xor, h4, hI, hE, RbgSeed.state]
  case putBit =>
    obtain ⟨h1, h2, ⟨o, h3⟩, h4⟩ := hb
    cases h
    have hbit : (t.x.1 &&& 1).setWidth 8 = if g.bit n then (1 : Byte) else 0 := by
      rw [low_bit, h4]
      rfl
    have hb := h3.bits
    refine ⟨n + 1, owner, Nat.le_succ _, fun _ _ => rfl,
      keep' _ _ _ rfl (by simp) (by simp) (Nat.le_succ _) (fun _ _ => rfl), fun _ => ⟨h1, h2, o, ⟨?_, ?_, ?_, ?_, h3.own⟩⟩, by simp⟩
    · simp only; omega
    · simpa using h3.lt
    · rw [take_set_self, h3.wrote]
    · have hget : t.buf.getD t.i 0 = partByte g (o + t.i) t.j := by
        rw [List.getD_eq_getElem?_getD, h3.byte]
        rfl
      simp only [List.getElem?_set_self h3.lt, hget, hbit]
      rw [hb, partByte_succ g _ _ h2]
  case unlock =>
    obtain ⟨h1, h2⟩ := hb
    cases h
    exact ⟨n, owner, le_refl _, fun _ _ => rfl, ⟨hd.1, fun _ => hd.2 (Or.inl hpc)⟩, fun hh => absurd rfl hh, fun _ => ⟨h1, h2⟩⟩

/-- A step outside the critical section keeps the requests in order. -/
theorem outside_step {g : RbgSeed} {n : Nat} {owner : Nat → Nat × Nat} {me : Nat} {e : RandEnv} {sh sh' : RandShared}
    {t t' : RandThread} (h : t.step me e sh = some (sh', t')) (hc : ¬ t.pc.Crit) (hd : DoneOk g n owner me t) :
    DoneOk g n owner me t' ∧ (t'.pc.Crit → t'.pc = .test ∨ t'.pc = .askStatus) := by
  unfold RandThread.step at h
  cases hpc : t.pc <;> rw [hpc] at h hc <;> simp only [RandPc.Crit, not_true, not_false_iff] at h hc
  case out =>
    split at h
    · cases h
    · cases h; exact ⟨⟨hd.1, by simp⟩, by simp [RandPc.Crit]⟩
    · cases h; exact ⟨⟨hd.1, by simp⟩, by simp [RandPc.Crit]⟩
  case once => cases h; exact ⟨⟨hd.1, by simp⟩, by simp [RandPc.Crit]⟩
  case acquire =>
    split at h
    · cases h
    · cases h
      cases hr : t.req <;> exact ⟨⟨hd.1, by simp⟩, by simp⟩
  case ret =>
    cases h
    refine ⟨⟨?_, by simp⟩, by simp [RandPc.Crit]⟩
    intro k d hk
    simp only at hk
    rcases Nat.lt_trichotomy k t.done.length with hlt | heq | hgt
    · rw [List.getElem?_append_left hlt] at hk
      exact hd.1 k d hk
    · subst heq
      simp at hk
      subst hk
      exact hd.2 (Or.inr hpc)
    · rw [List.getElem?_eq_none (by simp; omega)] at hk
      cases hk

/-- A thread of a generator not seeded is right about whatever happens later. -/
theorem pre_done {m : Rbg} {t : RandThread} (h : Pre m t) (g : RbgSeed) (n : Nat) (owner : Nat → Nat × Nat) (me : Nat) :
    DoneOk g n owner me t := by
  obtain ⟨h1, h2⟩ := h
  refine ⟨fun k d hk hb hr => ?_, fun hp hb hr => ?_⟩
  · have := h1 d (List.mem_of_getElem? hk) hb
    rw [hr] at this
    cases this
  · rcases hp with hp | hp <;>
    · rw [hp] at h2
      have := h2 hb
      rw [hr] at this
      cases this

/-- The step that seeds the generator. -/
theorem seeding_step {me : Nat} {e : RandEnv} {sh sh' : RandShared} {t t' : RandThread} (h : t.step me e sh = some (sh', t'))
    (hi : sh.rbg.initialized = false) (hp : Pre sh.rbg t) (hi' : sh'.rbg.initialized = true) :
    t.pc = .setFlag ∧ t'.pc = .setFlag2 ∧ t'.done = t.done ∧ sh'.rbg.Holds t.secret 0 := by
  obtain ⟨hd, hp⟩ := hp
  unfold RandThread.step at h
  cases hpc : t.pc <;> rw [hpc] at h hp <;> simp only at h hp
  case setFlag =>
    cases h
    exact ⟨rfl, rfl, rfl, ⟨hp.2.2, hp.2.1, hp.1, rfl⟩⟩
  all_goals (try split at h)
  all_goals (cases h)
  all_goals (simp only [hi] at hi'; cases hi')

theorem inv_step {P : RbgSeed → Prop} {σ : RandSystem} (h : RandInv P σ) (t : Nat) (e : RandEnv)
    (hP : ∀ seed, e.seed = some seed → P (e.gen seed)) : RandInv P (σ.step t e) := by
  obtain ⟨hl, hf, hd⟩ := h
  have hl' := lock_step hl t e
  have hf' : ∀ u, SeedFrom P ((σ.step t e).thread u) := by
    intro u
    by_cases hu : u = t
    · subst hu
      unfold RandSystem.step
      split
      · exact hf u
      · rename_i sh th h
        simpa using seedFrom_step h hP (hf u)
    · rw [thread_step_other _ _ _ _ hu]
      exact hf u
  refine ⟨hl', hf', ?_⟩
  cases hs : (σ.thread t).step t e σ.shared with
  | none =>
    rw [show σ.step t e = σ by simp only [RandSystem.step, hs]]
    exact hd
  | some p =>
    obtain ⟨sh, th⟩ := p
    have hσ : σ.step t e = ⟨sh, fun u => if u = t then th else σ.thread u⟩ := by simp only [RandSystem.step, hs]
    rw [hσ] at hl' ⊢
    have hother : (σ.thread t).pc.Crit → ∀ u, u ≠ t → ¬ (σ.thread u).pc.Crit := by
      intro hc u hu hcu
      rw [hl t] at hc
      rw [hl u, hc] at hcu
      exact hu (Option.some.inj hcu).symm
    rcases hd with ⟨hi, hp⟩ | ⟨g, n, owner, hg, hdone, hcore⟩
    · cases hi' : sh.rbg.initialized with
      | false =>
        refine Or.inl ⟨rfl, fun u => ?_⟩
        by_cases hu : u = t
        · subst hu
          simp only [if_true]
          exact pre_step hs hi (hp u) hi'
        · simp only [if_neg hu]
          by_cases hc : (σ.thread t).pc.Crit
          · exact pre_other (hp u) (hother hc u hu)
          · rw [step_rbg hs hc]
            exact hp u
      | true =>
        obtain ⟨h0, h1, h2, h3⟩ := seeding_step hs hi (hp t) hi'
        have hg := hf t
        simp only [SeedFrom, h0] at hg
        refine Or.inr ⟨_, 0, fun _ => (0, 0), hg, fun u => ?_, ?_⟩
        · by_cases hu : u = t
          · subst hu
            simp only [if_true]
            have := pre_done (hp u) (σ.thread u).secret 0 (fun _ => (0, 0)) u
            refine ⟨fun k d hk => this.1 k d (by rw [← h2]; exact hk), fun hpc => ?_⟩
            rw [h1] at hpc
            simp at hpc
          · simp only [if_neg hu]
            exact pre_done (hp u) _ _ _ _
        · have hh : sh.holder = some t := (hl' t).mp (by simp [h1, RandPc.Crit])
          simp only [Core, hh, if_true, Busy, h1]
          exact ⟨h3, Dvd.intro 0 rfl⟩
    · right
      by_cases hc : (σ.thread t).pc.Crit
      · have hh : σ.shared.holder = some t := (hl t).mp hc
        have hb : Busy g n owner t (σ.thread t) σ.shared.rbg := by
          simpa only [Core, hh] using hcore
        obtain ⟨n', owner', hn, ho, h1, h2, h3⟩ := busy_step hs hc (hdone t) hb
        refine ⟨g, n', owner', hg, fun u => ?_, ?_⟩
        · by_cases hu : u = t
          · subst hu; simpa using h1
          · simp only [if_neg hu]
            exact (hdone u).mono hn ho
        · rcases step_lock hs with ⟨_, h5, h6⟩ | ⟨h4, _, _⟩ | ⟨h4, _, _, _⟩ | ⟨_, h5, h6⟩
          · rw [hh] at h6
            simp only [Core, h6, if_true]
            refine h2 ?_
            intro hu
            have : sh.holder = none := by
              simp only [RandThread.step, hu] at hs
              cases hs
              rfl
            rw [h6] at this
            cases this
          · exact absurd hc h4
          · exact absurd hc h4
          · simp only [Core, h6]
            apply h3
            by_contra hu
            have hb' := h2 hu
            have : th.pc.Crit := by
              revert hs hu hc
              unfold RandThread.step
              cases hpc : (σ.thread t).pc <;> simp only [RandPc.Crit] <;> intro hs hu hc
              all_goals (try split at hs)
              all_goals (try (cases hs))
              all_goals (try (split))
              all_goals (try trivial)
            exact h5 this
      · obtain ⟨h1, h2⟩ := outside_step hs hc (hdone t)
        have hr := step_rbg hs hc
        refine ⟨g, n, owner, hg, fun u => ?_, ?_⟩
        · by_cases hu : u = t
          · subst hu; simpa using h1
          · simp only [if_neg hu]
            exact hdone u
        · rcases step_lock hs with ⟨h4, _, _⟩ | ⟨_, h5, h6⟩ | ⟨_, h5, h6, h7⟩ | ⟨h4, _, _⟩
          · exact absurd h4 hc
          · simp only [Core] at hcore ⊢
            rw [h6, hr]
            cases hh : σ.shared.holder with
            | none => rw [hh] at hcore; exact hcore
            | some u =>
              rw [hh] at hcore
              have hu : u ≠ t := by
                rintro rfl
                exact hc ((hl u).mpr hh)
              simpa only [if_neg hu] using hcore
          · simp only [Core, h6] at hcore
            simp only [Core, h7, if_true, hr]
            rcases h2 h5 with hp | hp <;> simp only [Busy, hp] <;> exact hcore
          · exact absurd h4 hc

theorem boot_inv (P : RbgSeed → Prop) (script : Nat → List RandReq) : RandInv P (.boot script) := by
  refine ⟨fun t => ?_, fun t => trivial, Or.inl ⟨rfl, fun t => ⟨?_, trivial⟩⟩⟩
  · simp [RandSystem.boot, RandThread.start, RandPc.Crit]
  · intro d hd
    cases hd

theorem run_inv (P : RbgSeed → Prop) : ∀ (schedule : List (Nat × RandEnv)) (σ : RandSystem),
    (∀ p ∈ schedule, ∀ seed, p.2.seed = some seed → P (p.2.gen seed)) → RandInv P σ → RandInv P (σ.run schedule)
  | [], _, _, h => h
  | (t, e) :: sch, σ, hP, h =>
    run_inv P sch (σ.step t e) (fun p hp => hP p (List.mem_cons_of_mem _ hp)) (inv_step h t e (hP (t, e) List.mem_cons_self))

/-! ### Requests -/

/-- The requests of a thread: made, being made, and to come; buffers keep their length. -/
def Script (script : List RandReq) (t : RandThread) : Prop :=
  (∀ d ∈ t.done, ∀ b, d.req = .bytes b → d.buf.length = b.length) ∧
  if t.pc = .out then t.done.map RandDone.req ++ t.todo = script
  else t.done.map RandDone.req ++ t.req :: t.todo = script ∧ ∀ b, t.req = .bytes b → t.buf.length = b.length

theorem script_step {script : List RandReq} {me : Nat} {e : RandEnv} {sh sh' : RandShared} {t t' : RandThread}
    (h : t.step me e sh = some (sh', t')) (hs : Script script t) : Script script t' := by
  obtain ⟨hd, hs⟩ := hs
  unfold RandThread.step at h
  cases hpc : t.pc <;> rw [hpc] at h hs <;> simp only [if_true, reduceCtorEq, if_false] at h hs
  case out =>
    split at h
    · cases h
    · rename_i ht
      cases h
      rw [ht] at hs
      refine ⟨hd, ?_⟩
      simp only [reduceCtorEq, if_false]
      exact ⟨hs, fun b hb => by cases hb; rfl⟩
    · rename_i ht
      cases h
      rw [ht] at hs
      refine ⟨hd, ?_⟩
      simp only [reduceCtorEq, if_false]
      exact ⟨hs, fun b hb => by cases hb⟩
  case ret =>
    cases h
    refine ⟨?_, ?_⟩
    · intro d hd' b hb
      simp only [List.mem_append, List.mem_singleton] at hd'
      rcases hd' with hd' | rfl
      · exact hd d hd' b hb
      · exact hs.2 b hb
    · simp only [if_true, List.map_append, List.map_cons, List.map_nil, List.append_assoc, List.cons_append, List.nil_append]
      exact hs.1
  all_goals (try split at h)
  all_goals (cases h)
  all_goals (refine ⟨hd, ?_⟩)
  all_goals (rw [if_neg (by simp only; (try split) <;> simp)])
  all_goals (try exact hs)
  all_goals (exact ⟨hs.1, fun b hb => by simpa using hs.2 b hb⟩)

theorem run_script (script : Nat → List RandReq) : ∀ (schedule : List (Nat × RandEnv)) (σ : RandSystem),
    (∀ t, Script (script t) (σ.thread t)) → ∀ t, Script (script t) ((σ.run schedule).thread t)
  | [], _, h => h
  | (t, e) :: sch, σ, h => by
    refine run_script script sch (σ.step t e) ?_
    intro u
    by_cases hu : u = t
    · subst hu
      unfold RandSystem.step
      split
      · exact h u
      · rename_i sh th hs
        simpa using script_step hs (h u)
    · rw [thread_step_other _ _ _ _ hu]
      exact h u

end Dstu
