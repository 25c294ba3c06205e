import Verif.Spec.Dke1
import Verif.Model.Sbox

/-! The default S-box of the code is the table of the specification. -/

namespace Dstu

open Dstu.Spec

theorem tableOf_default_at : ∀ r : Fin 8, ∀ k : Fin 16, tableOf default_sbox r (BitVec.ofFin k) = dke1 r (BitVec.ofFin k) := by decide +kernel

theorem tableOf_default : tableOf default_sbox = dke1 := by
  funext r n
  exact tableOf_default_at r n.toFin

end Dstu
