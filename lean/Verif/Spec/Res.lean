import Verif.Model.Res

/-! What it means that a program copes with failures. -/

namespace Dstu

namespace Res

/-- The object of a pointer that may be NULL. -/
def own : Option Nat → Multiset Nat
  | none => 0
  | some p => {p}

variable {α : Type}

/-- Started with the objects `pre` and any others, under fates with `H`, the program is free of undefined behaviour, and leaves the objects `post` and the
others. -/
def Safe (H : Fate → Prop) (f : Res α) (pre : Multiset Nat) (post : α → Multiset Nat) : Prop :=
  ∀ w c F, H w → c.live = pre + F → ∃ r c', f w c = some (r, c') ∧ c'.live = post r + F

/-- The same, but when the result is not `ok` more objects than `post` may be left. -/
def SafeIf (H : Fate → Prop) (f : Res α) (pre : Multiset Nat) (post : α → Multiset Nat) (ok : α → Prop) : Prop :=
  ∀ w c F, H w → c.live = pre + F → ∃ r c' L, f w c = some (r, c') ∧ c'.live = post r + L + F ∧ (ok r → L = 0)

/-- When the result is one of success, no call has failed. -/
def Reports (f : Res α) (success : α → Prop) : Prop := ∀ w c r c', f w c = some (r, c') → success r → c'.faults = c.faults

/-- No call fails that makes something of this kind. -/
def Never (k : Kind) (w : Fate) : Prop := ∀ n, w k n = true

/-- Any failures. -/
def Any (_ : Fate) : Prop := True

end Res

end Dstu
