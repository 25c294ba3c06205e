import Verif.Lemmas.Md
import Verif.Props.Cipher

/-! Properties C17-C22: the hash function and digest contexts. -/

namespace Dstu.Props

open Spec (DigestOp)

/-- The abstract contexts after a history. -/
def expected (hist : List DigestOp) : Spec.Digests := Spec.Digests.run default_sbox (fun _ => none) hist

/-! ## C17 -/

/-- C17: after any history of operations on any number of contexts, finishing a context that stands
for S-box `sb` and message `m` gives the GOST 34.311-95 hash of `m` with `sb`. -/
theorem C17_any_history (hist : List DigestOp) (h : MdHeap) (hr : MdHeap.empty.run hist = some h)
    (i : Nat) (sb m) (he : expected hist i = some (.active sb m)) (hl : m.length < 2 ^ 60) :
    h.digest i = some (Spec.gost34311 (Spec.tableOf sb) m) := by
  obtain ⟨h', e⟩ := sim_final h _ (run_sim _ _ empty_sim hist h hr) i sb m he hl
  simp [MdHeap.digest, e]

/-- C17: no operation a user may apply is undefined, in any history. -/
theorem C17_defined (hist : List DigestOp)
    (hl : Spec.Digests.LegalRun default_sbox (fun _ => none) hist) :
    ∃ h, MdHeap.empty.run hist = some h :=
  run_legal _ _ empty_sim hist hl

theorem updates_expected (d : Spec.Digests) (i : Nat) (sb m) (chunks : List (List Byte))
    (hd : d i = some (.active sb m)) :
    Spec.Digests.run default_sbox d (chunks.map (.update i)) i = some (.active sb (m ++ chunks.flatten)) := by
  induction chunks generalizing d m with
  | nil => simpa [Spec.Digests.run] using hd
  | cons c cs ih =>
    simp only [List.map_cons, Spec.Digests.run, List.foldl_cons]
    have := ih (d.step default_sbox (.update i c)) (m ++ c) (by
      simp [Spec.Digests.step, hd, Spec.Digests.put])
    simpa [Spec.Digests.run] using this

theorem updates_legal (d : Spec.Digests) (i : Nat) (sb m) (chunks : List (List Byte))
    (hd : d i = some (.active sb m)) (hl : (m ++ chunks.flatten).length < 2 ^ 60) :
    Spec.Digests.LegalRun default_sbox d (chunks.map (.update i)) := by
  induction chunks generalizing d m with
  | nil => trivial
  | cons c cs ih =>
    refine ⟨⟨sb, m, hd, ?_⟩, ?_⟩
    · simp only [List.length_append, List.flatten_cons] at hl ⊢
      omega
    · exact ih (d.step default_sbox (.update i c)) (m ++ c) (by
        simp [Spec.Digests.step, hd, Spec.Digests.put]) (by simpa using hl)

/-- C17: starting a message in an existing context, whatever happened before, feeding it in any
chunks and finishing gives the hash of the message. -/
theorem C17_digest (hist : List DigestOp) (h0 : MdHeap) (hr : MdHeap.empty.run hist = some h0)
    (i : Nat) (hi : h0 i ≠ none) (sbox : Option (Bytes 64)) (chunks : List (List Byte))
    (hl : chunks.flatten.length < 2 ^ 60) :
    ∃ h, h0.run (.init i sbox :: chunks.map (.update i)) = some h ∧
      h.digest i = some (Spec.gost34311 (Spec.tableOf (sbox.getD default_sbox)) chunks.flatten) := by
  have hs := run_sim _ _ empty_sim hist h0 hr
  generalize Spec.Digests.run default_sbox (fun _ => none) hist = d at hs
  have hdi : ∃ x, d i = some x := by
    have := hs i
    rcases hc : h0 i with _ | c
    · exact absurd hc hi
    · rw [hc] at this
      rcases hd : d i with _ | x
      · rw [hd] at this; exact this.elim
      · exact ⟨x, rfl⟩
  obtain ⟨x, hx⟩ := hdi
  have hd1 : d.step default_sbox (.init i sbox) i = some (.active (sbox.getD default_sbox) []) := by
    simp [Spec.Digests.step, hx, Spec.Digests.put]
  obtain ⟨h, e⟩ := run_legal h0 d hs (.init i sbox :: chunks.map (.update i))
    ⟨by simp [Spec.Digests.Legal, hx], updates_legal _ i _ [] chunks hd1 (by simpa using hl)⟩
  refine ⟨h, e, ?_⟩
  have hs2 := run_sim h0 d hs _ h e
  obtain ⟨h', e'⟩ := sim_final h _ hs2 i (sbox.getD default_sbox) chunks.flatten (by
    have := updates_expected _ i _ [] chunks hd1
    simpa [Spec.Digests.run] using this) hl
  simp [MdHeap.digest, e']

def ascii (s : String) : List Byte := s.toList.map fun c => BitVec.ofNat 8 c.toNat

/-- A history meeting the hypotheses. -/
example : (MdHeap.empty.run [.new 3, .init 3 none, .update 3 (ascii "123"), .final 3,
    .update 3 (ascii "456")]).isSome ∧
    expected [.new 3, .init 3 none, .update 3 (ascii "123"), .final 3, .update 3 (ascii "456")] 3 =
      some (.active default_sbox (ascii "123456")) := by
  constructor
  · have := C17_defined [.new 3, .init 3 none, .update 3 (ascii "123"), .final 3, .update 3 (ascii "456")]
      ⟨trivial, by simp [Spec.Digests.Legal, Spec.Digests.step, Spec.Digests.put],
        ⟨default_sbox, [], rfl, by decide⟩, ⟨default_sbox, ascii "123", rfl, by decide⟩,
        ⟨default_sbox, ascii "123", rfl, by decide⟩, trivial⟩
    obtain ⟨h, e⟩ := this
    rw [e]; rfl
  · rfl

/-! The published test vectors of the repository (/repo/tests/test.cpp:249-256), as tests of the
specification. -/

theorem gost34311_123456 : Spec.gost34311 (Spec.tableOf default_sbox) (ascii "123456") =
    #v[0x96, 0x48, 0xe3, 0x65, 0x0b, 0x97, 0x0d, 0x62, 0x39, 0xbc, 0x76, 0xcd, 0x4c, 0xa5, 0x94, 0x4c,
      0x2c, 0x9c, 0x27, 0x69, 0x24, 0x02, 0xf4, 0xd4, 0x87, 0x05, 0x88, 0x99, 0x2b, 0xe3, 0x7d, 0x5d] := by
  have hb : Spec.hBlocks (ascii "123456") = [Spec.ofBytes (Vector.ofFn fun i : Fin 32 =>
      ((ascii "123456")[i.val]?).getD 0)] := by
    rw [Spec.hBlocks, if_neg (by decide), blocks_short 32 (by omega) _ (by decide) (by decide)]
    rfl
  unfold Spec.gost34311
  rw [hb]
  decide +kernel

/-! ## C18 -/

/-- C18: two ways of cutting a message, empty updates included, in any two contexts with any
histories, give the same digest. -/
theorem C18_split_independent (hist₁ hist₂ : List DigestOp) (h₁ h₂ : MdHeap)
    (hr₁ : MdHeap.empty.run hist₁ = some h₁) (hr₂ : MdHeap.empty.run hist₂ = some h₂) (i j : Nat)
    (hi : h₁ i ≠ none) (hj : h₂ j ≠ none) (sbox : Option (Bytes 64)) (a b : List (List Byte))
    (hab : a.flatten = b.flatten) (hl : a.flatten.length < 2 ^ 60) :
    ∃ h₁' h₂' out, h₁.run (.init i sbox :: a.map (.update i)) = some h₁' ∧
      h₂.run (.init j sbox :: b.map (.update j)) = some h₂' ∧
      h₁'.digest i = some out ∧ h₂'.digest j = some out := by
  obtain ⟨h, e, d⟩ := C17_digest hist₁ h₁ hr₁ i hi sbox a hl
  obtain ⟨h', e', d'⟩ := C17_digest hist₂ h₂ hr₂ j hj sbox b (hab ▸ hl)
  exact ⟨h, h', _, e, e', d, by rw [d', hab]⟩

example : [ascii "12", [], ascii "3456"].flatten = [ascii "123456"].flatten ∧
    [ascii "12", [], ascii "3456"].flatten.length < 2 ^ 60 ∧
    MdHeap.empty.run [.new 0] = some (MdHeap.empty.put 0 (some MdData.zero)) ∧
    MdHeap.empty.put 0 (some MdData.zero) 0 ≠ none := by
  refine ⟨rfl, by decide, rfl, ?_⟩
  simp [MdHeap.put]

/-! ## C19 -/

/-- Feeding data (`some d`) and finishing (`none`) in any order: the digests obtained. -/
def interleave (h : MdHeap) (i : Nat) : List (Option (List Byte)) → Option (List (Bytes 32))
  | [] => some []
  | some d :: evs => do
    let h ← dstu_md_update h i d
    interleave h i evs
  | none :: evs => do
    let (h, out) ← dstu_md_final h i
    let outs ← interleave h i evs
    return out :: outs

/-- What they should be: each finish gives the hash of everything fed so far. -/
def prefixDigests (T : Fin 8 → BitVec 4 → BitVec 4) (m : List Byte) :
    List (Option (List Byte)) → List (Bytes 32)
  | [] => []
  | some d :: evs => prefixDigests T (m ++ d) evs
  | none :: evs => Spec.gost34311 T m :: prefixDigests T m evs

/-- All data fed. -/
def fedData (evs : List (Option (List Byte))) : List Byte := (evs.map (·.getD [])).flatten

theorem interleave_spec (h : MdHeap) (d : Spec.Digests) (hs : h.Sim d) (i : Nat) (sb m)
    (hd : d i = some (.active sb m)) (evs) (hl : (m ++ fedData evs).length < 2 ^ 60) :
    interleave h i evs = some (prefixDigests (Spec.tableOf sb) m evs) := by
  induction evs generalizing h d m with
  | nil => rfl
  | cons ev evs ih =>
    cases ev with
    | some x =>
      have hl' : (m ++ x).length < 2 ^ 60 := by
        simp only [fedData, List.map_cons, List.flatten_cons, List.length_append, Option.getD_some] at hl ⊢
        omega
      obtain ⟨h1, e⟩ := step_legal h d hs (.update i x) ⟨sb, m, hd, hl'⟩
      have hs1 := step_sim h d hs (.update i x) h1 e
      simp only [interleave]
      have e' : dstu_md_update h i x = some h1 := e
      rw [e']
      simp only [Option.bind_eq_bind, Option.bind_some, prefixDigests]
      exact ih h1 _ hs1 (m ++ x) (by simp [Spec.Digests.step, hd, Spec.Digests.put]) (by
        simpa [fedData] using hl)
    | none =>
      have hl' : (m ++ fedData evs).length < 2 ^ 60 := by simpa [fedData] using hl
      obtain ⟨h1, e⟩ := sim_final h d hs i sb m hd (by
        simp only [List.length_append] at hl'; omega)
      have hs1 : h1.Sim d := step_sim h d hs (.final i) h1 (by simp [MdHeap.step, e])
      simp only [interleave]
      rw [e]
      simp only [Option.bind_eq_bind, Option.bind_some, prefixDigests]
      rw [ih h1 d hs1 m hd hl']
      rfl

/-- C19: after any history that leaves context `i` with S-box `sb` and message `m`, every finish in any
sequence of updates and finishes gives the hash of all data fed up to it. -/
theorem C19_final_harmless (hist : List DigestOp) (h : MdHeap) (hr : MdHeap.empty.run hist = some h)
    (i : Nat) (sb m) (he : expected hist i = some (.active sb m)) (evs : List (Option (List Byte)))
    (hl : (m ++ fedData evs).length < 2 ^ 60) :
    interleave h i evs = some (prefixDigests (Spec.tableOf sb) m evs) :=
  interleave_spec h _ (run_sim _ _ empty_sim hist h hr) i sb m he evs hl

example (T) : prefixDigests T [1] [none, none, some [2], none] =
    [Spec.gost34311 T [1], Spec.gost34311 T [1], Spec.gost34311 T [1, 2]] := rfl

/-! ## C20 -/

/-- C20: after any history, operations on other contexts (copies of this one or not; copying from
this one included) leave the digest of a context as it was. -/
theorem C20_independent (hist : List DigestOp) (h : MdHeap) (hr : MdHeap.empty.run hist = some h)
    (j : Nat) (ops : List DigestOp) (hj : ∀ op ∈ ops, op.target ≠ j) (h' : MdHeap)
    (hr' : h.run ops = some h') : h'.digest j = h.digest j := by
  have hs := run_sim _ _ empty_sim hist h hr
  exact digest_local h h' _ _ hs (run_sim h _ hs ops h' hr') j (run_other h _ hs ops h' hr' j hj)

/-- C20: the copy gives the digest of the original, now and after the same further data. -/
theorem C20_copy_equal (hist : List DigestOp) (h : MdHeap) (hr : MdHeap.empty.run hist = some h)
    (i j : Nat) (hi : h i ≠ none) (sb m) (he : expected hist j = some (.active sb m))
    (chunks : List (List Byte)) (hl : (m ++ chunks.flatten).length < 2 ^ 60) :
    ∃ h₁ h₂, (dstu_md_copy h i j).run (chunks.map (.update i)) = some h₁ ∧
      h.run (chunks.map (.update j)) = some h₂ ∧ h₁.digest i = h₂.digest j ∧
      h₁.digest i = some (Spec.gost34311 (Spec.tableOf sb) (m ++ chunks.flatten)) := by
  have hs := run_sim _ _ empty_sim hist h hr
  have hd : (Spec.Digests.run default_sbox (fun _ => none) hist) j = some (.active sb m) := he
  generalize Spec.Digests.run default_sbox (fun _ => none) hist = d at hs hd
  have hs1 : (dstu_md_copy h i j).Sim (d.step default_sbox (.copy i j)) := step_sim h d hs (.copy i j) _ rfl
  have hd1 : d.step default_sbox (.copy i j) i = some (.active sb m) := by
    have := hs i
    rcases hc : h i with _ | c
    · exact absurd hc hi
    · rw [hc] at this
      rcases hdi : d i with _ | x
      · rw [hdi] at this; exact this.elim
      · simp [Spec.Digests.step, hd, hdi, Spec.Digests.put]
  obtain ⟨h1, e1⟩ := run_legal _ _ hs1 _ (updates_legal _ i sb m chunks hd1 hl)
  obtain ⟨h2, e2⟩ := run_legal _ _ hs _ (updates_legal _ j sb m chunks hd hl)
  obtain ⟨_, f1⟩ := sim_final h1 _ (run_sim _ _ hs1 _ h1 e1) i sb _
    (updates_expected _ i sb m chunks hd1) hl
  obtain ⟨_, f2⟩ := sim_final h2 _ (run_sim _ _ hs _ h2 e2) j sb _
    (updates_expected _ j sb m chunks hd) hl
  exact ⟨h1, h2, e1, e2, by simp [MdHeap.digest, f1, f2], by simp [MdHeap.digest, f1]⟩

/-- Histories meeting the hypotheses: the two contexts go separate ways after the copy. -/
example : expected [.new 0, .new 1, .init 0 none, .update 0 [1], .copy 1 0, .update 1 [2], .cleanup 0] 1 =
    some (.active default_sbox [1, 2]) ∧
  expected [.new 0, .new 1, .init 0 none, .update 0 [1], .copy 1 0, .update 0 [3], .cleanup 1] 0 =
    some (.active default_sbox [1, 3]) := ⟨rfl, rfl⟩

/-! ## C21 -/

/-- C21: a digest initialised with a key carrying an S-box uses it, otherwise the default one. -/
theorem C21_key_sbox (hist : List DigestOp) (h : MdHeap) (i : Nat) (sb : Bytes 64) (m : List Byte)
    (hl : m.length < 2 ^ 60) :
    (MdHeap.empty.run (hist ++ [.new i, .init i (some sb), .update i m]) = some h →
      h.digest i = some (Spec.gost34311 (Spec.tableOf sb) m)) ∧
    (MdHeap.empty.run (hist ++ [.new i, .init i none, .update i m]) = some h →
      h.digest i = some (Spec.gost34311 (Spec.tableOf default_sbox) m)) := by
  constructor
  · intro hr
    refine C17_any_history _ h hr i sb m ?_ hl
    simp [expected, Spec.Digests.run, Spec.Digests.step, Spec.Digests.put]
  · intro hr
    refine C17_any_history _ h hr i default_sbox m ?_ hl
    simp [expected, Spec.Digests.run, Spec.Digests.step, Spec.Digests.put]

/-- C21: the S-box control succeeds exactly for a non-null pointer and the length 64, any other
control is refused, and a refused control changes nothing. -/
theorem C21_ctrl_result (h : MdHeap) (i : Nat) (hi : h i ≠ none) (cmd p1 : Int) (p2 : Option (Bytes 64)) :
    (cmd = 0x1001 ∧ p1 = 64 ∧ p2 ≠ none → ∃ h', dstu_md_ctrl h i cmd p1 p2 = some (1, h')) ∧
    (¬ (cmd = 0x1001 ∧ p1 = 64 ∧ p2 ≠ none) → dstu_md_ctrl h i cmd p1 p2 = some (0, h)) := by
  obtain ⟨c, hc⟩ := Option.ne_none_iff_exists'.mp hi
  constructor
  · rintro ⟨rfl, rfl, h2⟩
    obtain ⟨b, rfl⟩ := Option.ne_none_iff_exists'.mp h2
    simp [dstu_md_ctrl, DSTU_SET_CUSTOM_SBOX, hc]
  · intro hn
    unfold dstu_md_ctrl
    split
    · rename_i hcmd
      rcases p2 with _ | b
      · rfl
      · simp only
        rw [if_pos]
        intro h64
        exact hn ⟨hcmd, h64, by simp⟩
    · rfl

/-- C21: the S-box set by the control before any data is the one used, whatever happened before and
whatever other controls were tried in between; the last successful one counts. -/
theorem C21_ctrl_sbox (hist : List DigestOp) (h : MdHeap) (i : Nat) (key : Option (Bytes 64))
    (tries : List (Int × Int × Option (Bytes 64))) (sb : Bytes 64) (m : List Byte)
    (hl : m.length < 2 ^ 60)
    (hr : MdHeap.empty.run (hist ++ [.new i, .init i key] ++
      tries.map (fun t => .ctrl i t.1 t.2.1 t.2.2) ++ [.ctrl i 0x1001 64 (some sb), .update i m]) = some h) :
    h.digest i = some (Spec.gost34311 (Spec.tableOf sb) m) := by
  refine C17_any_history _ h hr i sb m ?_ hl
  unfold expected Spec.Digests.run
  rw [List.foldl_append, List.foldl_append]
  generalize hd : List.foldl (Spec.Digests.step default_sbox) (fun _ => none)
    (hist ++ [.new i, .init i key]) = d
  have hdi : ∃ s, d i = some (.active s []) := by
    refine ⟨key.getD default_sbox, ?_⟩
    rw [← hd]
    simp [Spec.Digests.step, Spec.Digests.put]
  clear hd hr
  have : ∃ s, List.foldl (Spec.Digests.step default_sbox) d
      (tries.map fun t => .ctrl i t.1 t.2.1 t.2.2) i = some (.active s []) := by
    induction tries generalizing d with
    | nil => exact hdi
    | cons t ts ih =>
      simp only [List.map_cons, List.foldl_cons]
      apply ih
      obtain ⟨s, hs⟩ := hdi
      obtain ⟨cmd, p1, p2⟩ := t
      rcases p2 with _ | b
      · exact ⟨s, by simp [Spec.Digests.step, hs]⟩
      · by_cases hc : cmd = Spec.sboxControl ∧ p1 = 64
        · exact ⟨b, by simp [Spec.Digests.step, hs, hc, Spec.Digests.put]⟩
        · exact ⟨s, by simp only [Spec.Digests.step, hs, if_neg hc]⟩
  obtain ⟨s, hs⟩ := this
  simp [Spec.Digests.step, hs, Spec.Digests.put, Spec.sboxControl]

/-- Both outcomes of the control occur. -/
example : ((dstu_md_ctrl (MdHeap.empty.put 0 (some MdData.zero)) 0 0x1001 64 (some demoSbox)).map (·.1)) = some 1 ∧
    ((dstu_md_ctrl (MdHeap.empty.put 0 (some MdData.zero)) 0 0x1001 63 (some demoSbox)).map (·.1)) = some 0 ∧
    demoSbox ≠ default_sbox := by
  refine ⟨rfl, rfl, by decide +kernel⟩

/-! ## C22 -/

/-- C22, the full statement: finishing is defined for every message and the length block is the exact
length in bits modulo nothing, that is, the digest is that of the definition. -/
def C22_full : Prop := ∀ (m : List Byte) (h : MdHeap),
  MdHeap.empty.run [.new 0, .init 0 none, .update 0 m] = some h →
  h.digest 0 = some (Spec.gost34311 (Spec.tableOf default_sbox) m)

/-- C22 fails: at `2^60` bytes the bit counter, a signed 64-bit number, overflows. -/
theorem C22_full_refuted : ¬ C22_full := by
  intro hfull
  have hlen : (List.replicate (2 ^ 60) (0 : Byte)).length = 2 ^ 60 := List.length_replicate
  generalize List.replicate (2 ^ 60) (0 : Byte) = m at hlen
  have hd : (expected [.new 0, .init 0 none]) 0 = some (.active default_sbox []) := rfl
  obtain ⟨h0, e0⟩ := C17_defined [.new 0, .init 0 none]
    ⟨trivial, by simp [Spec.Digests.Legal, Spec.Digests.step, Spec.Digests.put], trivial⟩
  have hs0 := run_sim _ _ empty_sim _ h0 e0
  obtain ⟨c, hc, hp, ha⟩ := sim_active h0 _ hs0 0 _ _ hd
  obtain ⟨ht, ha⟩ := ha (by simp)
  obtain ⟨c1, d1, e1, t1, a1⟩ := hash_block_after c.cctx _ ht c.dctx [] ha m
    (by rw [List.nil_append, hlen]; omega)
  have hu := update_eq h0 0 c hc hp m
  rw [e1, Option.map_some] at hu
  obtain ⟨h1, hh1⟩ : ∃ h1 : MdHeap, h1 = h0.put 0 (some { c with cctx := c1, dctx := d1 }) := ⟨_, rfl⟩
  rw [← hh1] at hu
  have hrun : MdHeap.empty.run [.new 0, .init 0 none, .update 0 m] = some h1 := by
    simp only [MdHeap.run, Option.bind_eq_some_iff, Option.some.injEq] at e0 ⊢
    obtain ⟨x, hx, y, hy, hz⟩ := e0
    refine ⟨x, hx, y, hy, h1, ?_, rfl⟩
    rw [hz]
    exact hu
  have := hfull m h1 hrun
  have hnone : finish_hash c1 d1 = none :=
    finish_overflow c1 _ t1 d1 _ a1 (by rw [List.nil_append, hlen]; omega) (by rw [List.nil_append, hlen])
  rw [MdHeap.digest, final_eq h1 0 { c with cctx := c1, dctx := d1 } (by rw [hh1, MdHeap.put_self]) hp] at this
  simp only [hnone, Option.map_none] at this
  cases this

/-- C22, the part that holds: for every message of fewer than `2^60` bytes.  Missing: longer
messages, for which the counter overflows (`C22_full_refuted`). -/
theorem C22_length_partial (m : List Byte) (hl : m.length < 2 ^ 60) (h : MdHeap)
    (hr : MdHeap.empty.run [.new 0, .init 0 none, .update 0 m] = some h) :
    h.digest 0 = some (Spec.gost34311 (Spec.tableOf default_sbox) m) :=
  C17_any_history _ h hr 0 default_sbox m (by
    simp [expected, Spec.Digests.run, Spec.Digests.step, Spec.Digests.put]) hl

/-- A history with two contexts, of which one has been given data. -/
def demoHistory : List DigestOp := [.new 0, .new 1, .init 0 none, .update 0 (ascii "12"), .final 0]

theorem demoHistory_runs : ∃ h, MdHeap.empty.run demoHistory = some h ∧ h 0 ≠ none ∧ h 1 ≠ none := by
  obtain ⟨h, e⟩ := C17_defined demoHistory ⟨trivial, trivial, by simp [Spec.Digests.Legal, Spec.Digests.step, Spec.Digests.put],
    ⟨default_sbox, [], rfl, by decide⟩, ⟨default_sbox, ascii "12", rfl, by decide⟩, trivial⟩
  have hs := run_sim _ _ empty_sim _ h e
  refine ⟨h, e, fun h0 => ?_, fun h0 => ?_⟩
  · have := hs 0
    rw [h0] at this
    exact this.elim
  · have := hs 1
    rw [h0] at this
    exact this.elim

/-- `demoHistory` meets the hypotheses of the theorems about histories. -/
example : ∃ h, MdHeap.empty.run demoHistory = some h ∧
    h.digest 0 = some (Spec.gost34311 (Spec.tableOf default_sbox) (ascii "12")) ∧
    (∃ h', h.run (.init 1 (some demoSbox) :: [ascii "3", []].map (.update 1)) = some h' ∧ h'.digest 1 = some (Spec.gost34311 (Spec.tableOf demoSbox) (ascii "3"))) ∧
    interleave h 0 [none, some (ascii "3"), none] = some [Spec.gost34311 (Spec.tableOf default_sbox) (ascii "12"), Spec.gost34311 (Spec.tableOf default_sbox) (ascii "123")] ∧
    (∀ h', h.run [.cleanup 1] = some h' → h'.digest 0 = h.digest 0) ∧
    (∃ h₁ h₂, (dstu_md_copy h 1 0).run ([ascii "3"].map (.update 1)) = some h₁ ∧ h.run ([ascii "3"].map (.update 0)) = some h₂ ∧ h₁.digest 1 = h₂.digest 0 ∧
      h₁.digest 1 = some (Spec.gost34311 (Spec.tableOf default_sbox) (ascii "123"))) ∧
    (∃ h₁' h₂' out, h.run (.init 0 none :: [ascii "12", ascii "3"].map (.update 0)) = some h₁' ∧ h.run (.init 1 none :: [ascii "123"].map (.update 1)) = some h₂' ∧
      h₁'.digest 0 = some out ∧ h₂'.digest 1 = some out) ∧
    dstu_md_ctrl h 1 0x1001 63 (some demoSbox) = some (0, h) := by
  obtain ⟨h, e, h0, h1⟩ := demoHistory_runs
  have hx : expected demoHistory 0 = some (.active default_sbox (ascii "12")) := rfl
  exact ⟨h, e, C17_any_history demoHistory h e 0 _ _ hx (by decide), C17_digest demoHistory h e 1 h1 (some demoSbox) [ascii "3", []] (by decide),
    C19_final_harmless demoHistory h e 0 _ _ hx [none, some (ascii "3"), none] (by decide),
    fun h' e' => C20_independent demoHistory h e 0 [.cleanup 1] (by simp [DigestOp.target]) h' e',
    C20_copy_equal demoHistory h e 1 0 h1 _ _ hx [ascii "3"] (by decide),
    C18_split_independent demoHistory demoHistory h h e e 0 1 h0 h1 none [ascii "12", ascii "3"] [ascii "123"] rfl (by decide),
    (C21_ctrl_result h 1 h1 0x1001 63 (some demoSbox)).2 (by decide)⟩

/-- Runs as in `C21_key_sbox`, `C21_ctrl_sbox` and `C22_length_partial`. -/
example : (∃ h, MdHeap.empty.run ([] ++ [.new 2, .init 2 (some demoSbox), .update 2 (ascii "a")]) = some h ∧ h.digest 2 = some (Spec.gost34311 (Spec.tableOf demoSbox) (ascii "a"))) ∧
    (∃ h, MdHeap.empty.run ([] ++ [.new 2, .init 2 none] ++ [(5, 64, none)].map (fun t : Int × Int × Option (Bytes 64) => .ctrl 2 t.1 t.2.1 t.2.2) ++
      [.ctrl 2 0x1001 64 (some demoSbox), .update 2 (ascii "a")]) = some h ∧ h.digest 2 = some (Spec.gost34311 (Spec.tableOf demoSbox) (ascii "a"))) ∧
    ∃ h, MdHeap.empty.run [.new 0, .init 0 none, .update 0 (ascii "a")] = some h ∧ h.digest 0 = some (Spec.gost34311 (Spec.tableOf default_sbox) (ascii "a")) := by
  refine ⟨?_, ?_, ?_⟩
  · obtain ⟨h, e⟩ := C17_defined [.new 2, .init 2 (some demoSbox), .update 2 (ascii "a")] ⟨trivial, by simp [Spec.Digests.Legal, Spec.Digests.step, Spec.Digests.put],
      ⟨demoSbox, [], rfl, by decide⟩, trivial⟩
    exact ⟨h, e, (C21_key_sbox [] h 2 demoSbox (ascii "a") (by decide)).1 e⟩
  · obtain ⟨h, e⟩ := C17_defined [.new 2, .init 2 none, .ctrl 2 5 64 none, .ctrl 2 0x1001 64 (some demoSbox), .update 2 (ascii "a")] ⟨trivial, by simp [Spec.Digests.Legal, Spec.Digests.step, Spec.Digests.put],
      by simp [Spec.Digests.Legal, Spec.Digests.step, Spec.Digests.put], by simp [Spec.Digests.Legal, Spec.Digests.step, Spec.Digests.put], ⟨demoSbox, [], rfl, by decide⟩, trivial⟩
    exact ⟨h, e, C21_ctrl_sbox [] h 2 none [(5, 64, none)] demoSbox (ascii "a") (by decide) e⟩
  · obtain ⟨h, e⟩ := C17_defined [.new 0, .init 0 none, .update 0 (ascii "a")] ⟨trivial, by simp [Spec.Digests.Legal, Spec.Digests.step, Spec.Digests.put],
      ⟨default_sbox, [], rfl, by decide⟩, trivial⟩
    exact ⟨h, e, C22_length_partial (ascii "a") (by decide) h e⟩

end Dstu.Props
