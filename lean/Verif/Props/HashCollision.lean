import Verif.Lemmas.HashCollision
import Verif.Props.Hash

/-!
# Property C120: a digest vouches for one message
-/

namespace Dstu.Props

open Spec (DigestOp)

/-- C120: two digests computed after any histories, with the same S-box, for different messages, are different unless the step function of the standard has a collision, and then two of the
steps made for these messages are one.  So neither the padding nor the length nor the pieces give a way round the step function. -/
theorem C120_collision (hist₁ hist₂ : List DigestOp) (h₁ h₂ : MdHeap) (hr₁ : MdHeap.empty.run hist₁ = some h₁) (hr₂ : MdHeap.empty.run hist₂ = some h₂) (i j : Nat) (sb m₁ m₂)
    (he₁ : expected hist₁ i = some (.active sb m₁)) (he₂ : expected hist₂ j = some (.active sb m₂)) (hl₁ : m₁.length < 2 ^ 60) (hl₂ : m₂.length < 2 ^ 60) (hne : m₁ ≠ m₂)
    (hd : h₁.digest i = h₂.digest j) :
    ∃ p ∈ Spec.hashSteps (Spec.tableOf sb) m₁, ∃ q ∈ Spec.hashSteps (Spec.tableOf sb) m₂,
      p ≠ q ∧ Spec.hStep (Spec.tableOf sb) p.1 p.2 = Spec.hStep (Spec.tableOf sb) q.1 q.2 := by
  rw [C17_any_history hist₁ h₁ hr₁ i sb m₁ he₁ hl₁, C17_any_history hist₂ h₂ hr₂ j sb m₂ he₂ hl₂] at hd
  exact hash_collision _ m₁ m₂ hl₁ hl₂ hne (Option.some.inj hd)

/-- A message of 32 bytes: all zero, but for a one at 2, 10, 22, 28 and 30. -/
def bumpy : List Byte := (List.range 32).map fun i => if i ∈ [2, 10, 22, 28, 30] then 1 else 0

/-- With the S-box of zeros it has the digest of the message of 32 zeros: the engine accepts any S-box. -/
theorem bumpy_digest : Spec.gost34311 (Spec.tableOf (zeros 64)) bumpy = Spec.gost34311 (Spec.tableOf (zeros 64)) (List.replicate 32 0) := by
  have h : ∀ m : List Byte, m.length = 32 → Spec.hBlocks m = [Spec.ofBytes (Vector.ofFn fun i : Fin 32 => (m[i.val]?).getD 0)] := by
    intro m hm
    have hn : m ≠ [] := by rintro rfl; cases hm
    rw [Spec.hBlocks, if_neg hn, blocks_short 32 (by omega) _ hn (by omega)]
    rfl
  unfold Spec.gost34311
  rw [h _ (by decide), h _ (by decide)]
  decide +kernel

/-- Two messages that meet the hypotheses. -/
example : ∃ h₁ h₂, MdHeap.empty.run [.new 3, .init 3 (some (zeros 64)), .update 3 bumpy] = some h₁ ∧
    MdHeap.empty.run [.new 0, .init 0 (some (zeros 64)), .update 0 (List.replicate 32 0)] = some h₂ ∧ bumpy ≠ List.replicate 32 0 ∧ h₁.digest 3 = h₂.digest 0 ∧
    ∃ p ∈ Spec.hashSteps (Spec.tableOf (zeros 64)) bumpy, ∃ q ∈ Spec.hashSteps (Spec.tableOf (zeros 64)) (List.replicate 32 0),
      p ≠ q ∧ Spec.hStep (Spec.tableOf (zeros 64)) p.1 p.2 = Spec.hStep (Spec.tableOf (zeros 64)) q.1 q.2 := by
  have legal : ∀ (i : Nat) (m : List Byte), m.length < 2 ^ 60 → Spec.Digests.LegalRun default_sbox (fun _ => none) [.new i, .init i (some (zeros 64)), .update i m] := by
    intro i m hm
    exact ⟨trivial, by simp [Spec.Digests.Legal, Spec.Digests.step, Spec.Digests.put], ⟨zeros 64, [], by simp [Spec.Digests.step, Spec.Digests.put], by simpa using hm⟩, trivial⟩
  have active : ∀ (i : Nat) (m : List Byte), expected [.new i, .init i (some (zeros 64)), .update i m] i = some (.active (zeros 64) m) := by
    intro i m
    simp [expected, Spec.Digests.run, Spec.Digests.step, Spec.Digests.put]
  have hb1 : bumpy.length < 2 ^ 60 := by decide
  have hb2 : (List.replicate 32 (0 : Byte)).length < 2 ^ 60 := by decide
  obtain ⟨h₁, e₁⟩ := C17_defined _ (legal 3 bumpy hb1)
  obtain ⟨h₂, e₂⟩ := C17_defined _ (legal 0 (List.replicate 32 0) hb2)
  have hne : bumpy ≠ List.replicate 32 0 := by decide
  have hd : h₁.digest 3 = h₂.digest 0 := by
    rw [C17_any_history _ h₁ e₁ 3 _ _ (active 3 bumpy) hb1, C17_any_history _ h₂ e₂ 0 _ _ (active 0 _) hb2, bumpy_digest]
  exact ⟨h₁, h₂, e₁, e₂, hne, hd, C120_collision _ _ h₁ h₂ e₁ e₂ 3 0 _ _ _ (active 3 bumpy) (active 0 _) hb1 hb2 hne hd⟩

end Dstu.Props
