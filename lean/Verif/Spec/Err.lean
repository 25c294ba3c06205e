import Verif.Model.Err

/-! What a user sees of the engine's error strings. -/

namespace Dstu.Spec

/-- The names of the engine's functions, by function code (engine/err.h). -/
def functionName : Nat → Option String
  | 100 => some "BIND_DSTU"
  | 101 => some "DSTU_ASN1_PARAM_DECODE"
  | 102 => some "DSTU_ASN1_PARAM_COPY"
  | 103 => some "DSTU_ASN1_PARAM_ENCODE"
  | 104 => some "DSTU_ASN1_PARAM_PRINT"
  | 105 => some "DSTU_ASN1_PRIV_DECODE"
  | 106 => some "DSTU_ASN1_PRIV_ENCODE"
  | 107 => some "DSTU_ASN1_PUB_DECODE"
  | 108 => some "DSTU_ASN1_PUB_ENCODE"
  | 109 => some "DSTU_DO_SIGN"
  | 110 => some "DSTU_DO_VERIFY"
  | 111 => some "DSTU_PKEY_INIT_BE"
  | 112 => some "DSTU_PKEY_INIT_LE"
  | 113 => some "DSTU_PKEY_KEYGEN"
  | 114 => some "DSTU_PKEY_SIGN"
  | 115 => some "DSTU_PKEY_VERIFY"
  | 116 => some "DSTU_PKEY_CTRL"
  | _ => none

/-- The engine's own reasons, by reason code (engine/err.h). -/
def reasonText : Nat → Option String
  | 100 => some "ameth init failed"
  | 101 => some "pmeth init failed"
  | 102 => some "invalid asn1 parameters"
  | 103 => some "asn1 parameter encode failed"
  | 104 => some "not dstu key"
  | 105 => some "point compress failed"
  | 106 => some "point uncompress failed"
  | 107 => some "incorrect field type"
  | 108 => some "invalid digest type"
  | _ => none

/-- The strings the engine registers, as pairs of a function and a reason code. -/
def ownString (f r : Nat) : Option String :=
  if r = 0 then (if f = 0 then some "dstu" else functionName f)
  else if f = 0 then reasonText r else none

/-- The strings are registered after a history: the last load or unload was a load. -/
def registered : List ErrOp → Bool :=
  List.foldl (fun b op => match op with | .load => true | .unload => false | _ => b) false

/-- The errors raised in a history, oldest first. -/
def raised : List ErrOp → List (Nat × Nat) :=
  List.filterMap fun op => match op with | .raise f r => some (f, r) | _ => none

/-- How many library numbers the others asked for. -/
def othersAsked (ops : List ErrOp) : Nat := ops.countP fun op => match op with | .otherNumber => true | _ => false

/-- The engine needs a library number for this. -/
def _root_.Dstu.ErrOp.asks : ErrOp → Bool
  | .load => true
  | .raise _ _ => true
  | _ => false

/-- The operation is one of the engine's. -/
def _root_.Dstu.ErrOp.engine : ErrOp → Bool
  | .load => true
  | .unload => true
  | .raise _ _ => true
  | _ => false

end Dstu.Spec
