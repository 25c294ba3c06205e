import Verif.Spec.Res
import Verif.Model.FailLib

/-! What belongs to the objects of dstulib. -/

namespace Dstu

namespace Fail

open Res

/-- What belongs to a key. -/
def keyOwn : Option KeyPtr → Multiset Nat
  | none => 0
  | some k => own k.self + (own k.ec + own k.sbox)

/-- What belongs to a context. -/
def ctxOwn : Option CtxPtr → Multiset Nat
  | none => 0
  | some k => own k.self + (own k.group + own k.sbox)

end Fail

end Dstu
