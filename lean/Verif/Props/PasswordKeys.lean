import Verif.Lemmas.HashCollision
import Verif.Lemmas.Key6
import Verif.Props.HashCollision
import Mathlib.Data.Fintype.BigOperators
import Mathlib.Tactic.NormNum

/-! # Property C120 for passwords: the keys of Key-6 containers -/

namespace Dstu.Props

open Spec (hashTimes dke1)

/-- Two messages with the same `n`-fold hash collide at some level. -/
theorem hashTimes_collision (T) (n : Nat) (x y : List Byte) (hx : x.length < 2 ^ 60) (hy : y.length < 2 ^ 60) (hne : x ≠ y) (h : hashTimes T n x = hashTimes T n y) :
    ∃ k < n, ∃ p ∈ Spec.hashSteps T (hashTimes T k x), ∃ q ∈ Spec.hashSteps T (hashTimes T k y), p ≠ q ∧ Spec.hStep T p.1 p.2 = Spec.hStep T q.1 q.2 := by
  induction n generalizing x y with
  | zero => exact absurd h hne
  | succ n ih =>
    by_cases he : Spec.gost34311 T x = Spec.gost34311 T y
    · exact ⟨0, by omega, hash_collision T x y hx hy hne he⟩
    · obtain ⟨k, hk, hc⟩ := ih (Spec.gost34311 T x).toList (Spec.gost34311 T y).toList (by simp) (by simp) (fun e => he (Vector.toList_inj.1 e)) h
      exact ⟨k + 1, by omega, hc⟩

/-- C120 for passwords: the keys made of two different passwords are different, whatever is in uninitialised memory, unless two of the steps of the 10000 hashes made for them are a collision
of the step function. -/
theorem C120_password (g₁ g₂ : Nat → GostCtx) (p₁ p₂ : List Byte) (hl₁ : p₁.length < 2 ^ 60) (hl₂ : p₂.length < 2 ^ 60) (hne : p₁ ≠ p₂) (h : pkdf g₁ p₁ = pkdf g₂ p₂) :
    ∃ k < 10000, ∃ p ∈ Spec.hashSteps dke1 (hashTimes dke1 k p₁), ∃ q ∈ Spec.hashSteps dke1 (hashTimes dke1 k p₂), p ≠ q ∧ Spec.hStep dke1 p.1 p.2 = Spec.hStep dke1 q.1 q.2 := by
  obtain ⟨k₁, e₁, h₁⟩ := pkdf_eq g₁ p₁ hl₁
  obtain ⟨k₂, e₂, h₂⟩ := pkdf_eq g₂ p₂ hl₂
  rw [e₁, e₂] at h
  obtain rfl := Option.some.inj h
  exact hashTimes_collision dke1 10000 p₁ p₂ hl₁ hl₂ hne (h₁.symm.trans h₂)

/-- A password of 33 bytes. -/
def password33 (w : Fin 33 → Fin 256) : List Byte := List.ofFn fun i => (BitVec.ofFin (w i) : Byte)

theorem password33_length (w : Fin 33 → Fin 256) : (password33 w).length < 2 ^ 60 := by simp [password33]

/-- There are two passwords with the same key, because there are more passwords of 33 bytes than keys. -/
example (g : Nat → GostCtx) : ∃ p₁ p₂ : List Byte, p₁.length < 2 ^ 60 ∧ p₂.length < 2 ^ 60 ∧ p₁ ≠ p₂ ∧ pkdf g p₁ = pkdf g p₂ := by
  choose f hf _ using fun w => pkdf_eq g (password33 w) (password33_length w)
  have hn : ¬ Function.Injective fun w => (⟨Spec.leNat (f w).toList, by simpa using leNat_lt (f w).toList⟩ : Fin (256 ^ 32)) := by
    intro hi
    have := Fintype.card_le_of_injective _ hi
    simp only [Fintype.card_fun, Fintype.card_fin] at this
    norm_num at this
  simp only [Function.Injective, not_forall] at hn
  obtain ⟨u, v, he, huv⟩ := hn
  refine ⟨password33 u, password33 v, password33_length u, password33_length v, fun e => huv ?_, ?_⟩
  · funext i
    exact congrArg BitVec.toFin (congrFun (List.ofFn_injective e) i)
  · rw [hf, hf, Vector.toList_inj.1 (leNat_inj _ _ (by simp) (Fin.mk.inj_iff.1 he))]

end Dstu.Props
