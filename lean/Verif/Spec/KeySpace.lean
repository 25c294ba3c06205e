import Verif.Spec.Rbg

/-! Which private keys can be generated: the life of a process whose source of entropy gives one seed. -/

namespace Dstu.Spec

/-- Whenever a seed is asked for at this moment, it is `seed`, and the time is `date`. -/
def SeedsWith (seed : Vector (BitVec 8) 40) (date : Vector (BitVec 8) 8) (e : RandEnv) : Prop :=
  ∀ s, e.seed = some s → s = seed ∧ e.curr = date

/-- The same for the moment of a call. -/
def CallSeedsWith (seed : Vector (BitVec 8) 40) (date : Vector (BitVec 8) 8) : RbgCall → Prop
  | .bytes e _ _ => SeedsWith seed date e
  | .status e => SeedsWith seed date e
  | _ => True

end Dstu.Spec
