import Verif.Model.Engine

/-! What a user of the engine's methods relies on. -/

namespace Dstu.Spec

/-- The algorithms of the engine: the digest DSTU 34311, the cipher DSTU 28147 in CFB mode, and the two forms of the
DSTU 4145 key. -/
def algorithms : MethKind → List Int
  | .digest => [1157]
  | .cipher => [1154]
  | .pkey => [1158, 1159]
  | .asn1 => [1158, 1159]

/-- The engine is being used: nothing finishes it or destroys it. -/
def inUse (op : EngOp) : Bool := match op with | .finish => false | .destroy => false | _ => true

def isFinish (op : EngOp) : Bool := match op with | .finish => true | _ => false

def isDestroy (op : EngOp) : Bool := match op with | .destroy => true | _ => false

/-- A history that finishes the engine at most once, destroys it at most once, looks up digests and ciphers
and binds only before the finish, and looks up key methods only before the destruction. -/
def careful : (finished destroyed : Bool) → List EngOp → Bool
  | _, _, [] => true
  | f, d, .finish :: ops => !f && careful true d ops
  | f, d, .destroy :: ops => !d && careful f true ops
  | f, d, .init :: ops => careful f d ops
  | f, d, .bind _ :: ops => !f && careful f d ops
  | f, d, .byName _ :: ops => !f && careful f d ops
  | f, d, .get k _ :: ops => (if k = .digest ∨ k = .cipher then !f else !d) && careful f d ops

/-- What an operation is asked for. -/
def _root_.Dstu.EngOp.wants : EngOp → Option Meth
  | .get k nid => some ⟨k, nid⟩
  | .byName .digest => some ⟨.digest, 1157⟩
  | .byName .cipher => some ⟨.cipher, 1154⟩
  | _ => none

end Dstu.Spec
