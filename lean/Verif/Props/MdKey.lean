import Verif.Spec.MdKey
import Verif.Props.Hash

/-! Property C102: digests started for a key, whatever its algorithm. -/

namespace Dstu.Props

open Spec (DigestOp)

/-- Start a message in context `i` for the key object `key`, feed `m` and finish. -/
def keyDigest (mem : Memory) (h : MdHeap) (i : Nat) (key : Option Nat) (m : List Byte) : Option (Bytes 32) := do
  let h ← dstu_md_init_key mem h i key
  let h ← dstu_md_update h i m
  h.digest i

theorem pointer_of_word {mem : Memory} {p v : Nat} (h : Spec.WordAt mem p v) : mem.pointer p = some v := by
  obtain ⟨hv, hb⟩ := h
  have h0 := hb 0 (by omega)
  have h1 := hb 1 (by omega)
  have h2 := hb 2 (by omega)
  have h3 := hb 3 (by omega)
  have h4 := hb 4 (by omega)
  have h5 := hb 5 (by omega)
  have h6 := hb 6 (by omega)
  have h7 := hb 7 (by omega)
  rw [Memory.pointer, if_pos (fun k hk => by rw [hb k hk]; rfl)]
  simp only [Nat.add_zero] at h0
  simp only [List.range, List.range.loop, List.foldr_cons, List.foldr_nil, Nat.add_zero, h0, h1, h2, h3, h4, h5, h6, h7,
    Option.getD_some, BitVec.toNat_ofNat]
  refine congrArg some ?_
  clear hb h0 h1 h2 h3 h4 h5 h6 h7
  norm_num
  omega

theorem bytes64_of_table {mem : Memory} {p : Nat} {t : Bytes 64} (h : Spec.TableAt mem p t) :
    mem.bytes64 p = some t := by
  rw [Memory.bytes64, if_pos (fun k hk => by rw [h k hk]; rfl)]
  refine congrArg some (Vector.ext fun k hk => ?_)
  rw [Vector.getElem_ofFn, h k hk, Option.getD_some]

theorem keyDigest_of {mem : Memory} (hist : List DigestOp) (h : MdHeap) (hr : MdHeap.empty.run hist = some h)
    (i : Nat) (hi : h i ≠ none) (key : Option Nat) (sb : Option (Bytes 64)) (hk : md_key_sbox mem key = some sb)
    (m : List Byte) (hl : m.length < 2 ^ 60) :
    keyDigest mem h i key m = some (Spec.gost34311 (Spec.tableOf (sb.getD default_sbox)) m) := by
  have hs := run_sim _ _ empty_sim hist h hr
  have hd : Spec.Digests.run default_sbox (fun _ => none) hist i ≠ none := by
    intro e
    have := hs i
    rw [e] at this
    rcases hc : h i with _ | c
    · exact hi hc
    · rw [hc] at this; exact this
  obtain ⟨x, hx⟩ := Option.ne_none_iff_exists'.mp hd
  have hst : ∀ d : Spec.Digests, d i = some x →
      (d.step default_sbox (.init i sb)) i = some (.active (sb.getD default_sbox) []) := by
    intro d e
    simp [Spec.Digests.step, e, Spec.Digests.put]
  obtain ⟨h', e'⟩ := run_legal h _ hs [.init i sb, .update i m]
    ⟨hd, ⟨_, _, hst _ hx, by simpa using hl⟩, trivial⟩
  simp only [MdHeap.run, MdHeap.step, Option.bind_eq_some_iff, Option.some.injEq] at e'
  obtain ⟨h1, e1, h2, e2, rfl⟩ := e'
  have hs1 := step_sim _ _ hs (.init i sb) h1 e1
  have hs2 := step_sim _ _ hs1 (.update i m) h2 e2
  have hd2 : ((Spec.Digests.run default_sbox (fun _ => none) hist).step default_sbox (.init i sb)).step default_sbox
      (.update i m) i = some (.active (sb.getD default_sbox) m) := by
    have e := hst _ hx
    generalize Spec.Digests.step default_sbox _ (.init i sb) = d at e
    simp [Spec.Digests.step, e, Spec.Digests.put]
  obtain ⟨h3, e3⟩ := sim_final h2 _ hs2 i _ m hd2 hl
  simp [keyDigest, dstu_md_init_key, hk, e1, e2, MdHeap.digest, e3]

/-- C102: without a key the digest is the one with the default S-box, with a DSTU key the one with the S-box of the
key, or with the default S-box when the key has none; in every context, after any history. -/
theorem C102_dstu_key (mem : Memory) (hist : List DigestOp) (h : MdHeap) (hr : MdHeap.empty.run hist = some h)
    (i : Nat) (hi : h i ≠ none) (m : List Byte) (hl : m.length < 2 ^ 60) :
    keyDigest mem h i none m = some (Spec.gost34311 (Spec.tableOf default_sbox) m) ∧
    ∀ p sbox, Spec.DstuKeyAt mem p sbox →
      keyDigest mem h i (some p) m = some (Spec.gost34311 (Spec.tableOf (sbox.getD default_sbox)) m) := by
  refine ⟨keyDigest_of hist h hr i hi none none rfl m hl, ?_⟩
  rintro p sbox ⟨ec, q, -, hq, ht⟩
  refine keyDigest_of hist h hr i hi _ sbox ?_ m hl
  rcases sbox with _ | t
  · obtain rfl : q = 0 := ht
    simp [md_key_sbox, pointer_of_word hq]
  · simp [md_key_sbox, pointer_of_word hq, ht.1, bytes64_of_table ht.2]

/-- C102, in full: the key of another algorithm has no S-box, so the digest is the one with the default S-box
whatever the two words its object begins with. -/
def C102_full : Prop :=
  ∀ (mem : Memory) (hist : List DigestOp) (h : MdHeap), MdHeap.empty.run hist = some h → ∀ i, h i ≠ none →
    ∀ p v w, Spec.WordAt mem p v → Spec.WordAt mem (p + 8) w → ∀ m : List Byte, m.length < 2 ^ 60 →
      keyDigest mem h i (some p) m = some (Spec.gost34311 (Spec.tableOf default_sbox) m)

/-- C102, the part that holds: the key of another algorithm whose object has a null second word (an EC key of no
engine) gives the digest with the default S-box.  Missing: objects with another second word, see
`C102_other_table`. -/
theorem C102_other_key_partial (mem : Memory) (hist : List DigestOp) (h : MdHeap)
    (hr : MdHeap.empty.run hist = some h) (i : Nat) (hi : h i ≠ none) (p : Nat) (hw : Spec.WordAt mem (p + 8) 0)
    (m : List Byte) (hl : m.length < 2 ^ 60) :
    keyDigest mem h i (some p) m = some (Spec.gost34311 (Spec.tableOf default_sbox) m) :=
  keyDigest_of hist h hr i hi _ none (by simp [md_key_sbox, pointer_of_word hw]) m hl

/-- C102: for any other object the 64 bytes its second word points to become the S-box, and it is undefined when
they cannot be read. -/
theorem C102_other_table (mem : Memory) (hist : List DigestOp) (h : MdHeap)
    (hr : MdHeap.empty.run hist = some h) (i : Nat) (hi : h i ≠ none) (p q : Nat) (hw : Spec.WordAt mem (p + 8) q)
    (hq : q ≠ 0) (m : List Byte) (hl : m.length < 2 ^ 60) :
    (∀ t, Spec.TableAt mem q t → keyDigest mem h i (some p) m = some (Spec.gost34311 (Spec.tableOf t) m)) ∧
    (∀ k < 64, mem (q + k) = none → keyDigest mem h i (some p) m = none) := by
  constructor
  · intro t ht
    exact keyDigest_of hist h hr i hi _ (some t)
      (by simp [md_key_sbox, pointer_of_word hw, hq, bytes64_of_table ht]) m hl
  · intro k hk e
    have : mem.bytes64 q = none := by
      rw [Memory.bytes64, if_neg]
      intro hall
      have := hall k hk
      rw [e] at this
      exact absurd this (by decide)
    simp [keyDigest, dstu_md_init_key, md_key_sbox, pointer_of_word hw, hq, this]

/-- A table of eight pointers into a library loaded at `base`, as a method of OpenSSL begins. -/
def methodTable (base : Nat) : Bytes 64 :=
  Vector.ofFn fun k => BitVec.ofNat 8 ((base + 16 * (k.val / 8)) / 256 ^ (k.val % 8))

/-- The object of a key at 4096: a word, then the address 8192 of a table of a library loaded at `base`. -/
def otherKey (base : Nat) : Memory := fun a =>
  if 4096 ≤ a ∧ a < 4104 then some 0
  else if 4104 ≤ a ∧ a < 4112 then some (BitVec.ofNat 8 (8192 / 256 ^ (a - 4104)))
  else if 8192 ≤ a ∧ a < 8256 then some ((methodTable base)[(a - 8192) % 64]'(by omega))
  else none

theorem otherKey_words (base : Nat) :
    Spec.WordAt (otherKey base) 4096 0 ∧ Spec.WordAt (otherKey base) (4096 + 8) 8192 ∧
      Spec.TableAt (otherKey base) 8192 (methodTable base) := by
  refine ⟨⟨by decide, fun k hk => ?_⟩, ⟨by decide, fun k hk => ?_⟩, fun k hk => ?_⟩
  · rw [otherKey, if_pos (by omega)]
    simp
  · rw [otherKey, if_neg (by omega), if_pos (by omega)]
    simp
  · rw [otherKey, if_neg (by omega), if_neg (by omega), if_pos (by omega)]
    simp only [show (8192 + k - 8192) % 64 = k by omega]

theorem methodDigest (t : Bytes 64) : Spec.gost34311 (Spec.tableOf t) (ascii "123456") =
    (let m := Spec.ofBytes (Vector.ofFn fun i : Fin 32 => ((ascii "123456")[i.val]?).getD 0)
    Spec.toBytes (Spec.hStep (Spec.tableOf t) (Spec.hStep (Spec.tableOf t) (Spec.hStep (Spec.tableOf t) 0 m)
      (BitVec.ofNat 256 48)) (0 + m))) := by
  have hb : Spec.hBlocks (ascii "123456") = [Spec.ofBytes (Vector.ofFn fun i : Fin 32 =>
      ((ascii "123456")[i.val]?).getD 0)] := by
    rw [Spec.hBlocks, if_neg (by decide), blocks_short 32 (by omega) _ (by decide) (by decide)]
    rfl
  unfold Spec.gost34311
  rw [hb]
  rfl

theorem emptyContext : ∃ h, MdHeap.empty.run [.new 0] = some h ∧ h 0 ≠ none :=
  ⟨_, rfl, by simp [MdHeap.put]⟩

/-- C102 does not hold in full: a readable object can give another digest, and the digest of one and the same
message depends on where a library was loaded. -/
theorem C102_refuted : ¬ C102_full ∧
    ∃ h, MdHeap.empty.run [.new 0] = some h ∧ keyDigest (otherKey 0x7f0012345678) h 0 (some 4096) (ascii "123456") ≠
      keyDigest (otherKey 0x7f5562345678) h 0 (some 4096) (ascii "123456") := by
  obtain ⟨h, hr, hi⟩ := emptyContext
  have hd (base : Nat) := (C102_other_table (otherKey base) _ h hr 0 hi 4096 8192 (otherKey_words base).2.1
    (by decide) (ascii "123456") (by decide)).1 _ (otherKey_words base).2.2
  constructor
  · intro hf
    have e := hf _ _ h hr 0 hi 4096 0 8192 (otherKey_words 0x7f0012345678).1 (otherKey_words 0x7f0012345678).2.1
      (ascii "123456") (by decide)
    rw [hd, gost34311_123456, methodDigest] at e
    exact absurd (Option.some.inj e) (by decide +kernel)
  · refine ⟨h, hr, ?_⟩
    rw [hd, hd, methodDigest, methodDigest]
    intro e
    exact absurd (Option.some.inj e) (by decide +kernel)

/-- C102: and it can crash: the second word need not be an address. -/
theorem C102_crash_refuted : ∃ mem h, MdHeap.empty.run [.new 0] = some h ∧ h 0 ≠ none ∧
    (∃ v, Spec.WordAt mem 4096 v) ∧ (∃ w, Spec.WordAt mem (4096 + 8) w) ∧ keyDigest mem h 0 (some 4096) [] = none := by
  obtain ⟨h, hr, hi⟩ := emptyContext
  let mem : Memory := fun a => if 4096 ≤ a ∧ a < 4112 then some 1 else none
  have hw : ∀ p, 4096 ≤ p → p + 8 ≤ 4112 → Spec.WordAt mem p 0x0101010101010101 := by
    intro p h1 h2
    refine ⟨by decide, fun k hk => ?_⟩
    have : mem (p + k) = some 1 := if_pos (by omega)
    rw [this]
    have : ∀ k < 8, (1 : Byte) = BitVec.ofNat 8 (0x0101010101010101 / 256 ^ k) := by decide
    rw [← this k hk]
  refine ⟨mem, h, hr, hi, ⟨_, hw 4096 (by omega) (by omega)⟩, ⟨_, hw (4096 + 8) (by omega) (by omega)⟩, ?_⟩
  exact (C102_other_table mem _ h hr 0 hi 4096 _ (hw (4096 + 8) (by omega) (by omega)) (by decide) [] (by decide)).2 0
    (by decide) (if_neg (by omega))

/-- The memory with a DSTU key at 4096 with `demoSbox` at 8192. -/
def dstuKeyMem : Memory := fun a =>
  if 4096 ≤ a ∧ a < 4104 then some 7
  else if 4104 ≤ a ∧ a < 4112 then some (BitVec.ofNat 8 (8192 / 256 ^ (a - 4104)))
  else if 8192 ≤ a ∧ a < 8256 then some (demoSbox[(a - 8192) % 64]'(by omega))
  else none

example : Spec.DstuKeyAt dstuKeyMem 4096 (some demoSbox) ∧ (∃ h, MdHeap.empty.run [.new 0] = some h ∧ h 0 ≠ none) ∧
    Spec.WordAt (fun _ => some 0) (4096 + 8) 0 := by
  refine ⟨⟨0x0707070707070707, 8192, ⟨by decide, fun k hk => ?_⟩, ⟨by decide, fun k hk => ?_⟩, by decide,
    fun k hk => ?_⟩, emptyContext, by decide, fun k hk => ?_⟩
  · rw [dstuKeyMem, if_pos (by omega)]
    have : ∀ k < 8, (7 : Byte) = BitVec.ofNat 8 (0x0707070707070707 / 256 ^ k) := by decide
    rw [← this k hk]
  · rw [dstuKeyMem, if_neg (by omega), if_pos (by omega)]
    simp
  · rw [dstuKeyMem, if_neg (by omega), if_neg (by omega), if_pos (by omega)]
    simp only [show (8192 + k - 8192) % 64 = k by omega]
  · simp

end Dstu.Props
