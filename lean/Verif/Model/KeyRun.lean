import Verif.Spec.KeyCtx

/-! Sequences of calls to the functions of `Verif.Model.KeyHeap`. -/

namespace Dstu

open Spec

/-- One call.  `none`: undefined behaviour, or the call does not return.  Functions without a result
answer 0, assignment 1. -/
noncomputable def KState.step (env : Env) (mdNid : Nat) (sn2nid : List Byte → Nat) (s : KState) :
    KeyOp → Option (Int × KState)
  | .init c type => some (dstu_pkey_init s c type)
  | .cleanup c => (dstu_pkey_cleanup s c).map fun s => (0, s)
  | .copy dst src => dstu_pkey_copy s dst src
  | .ctrl c type p1 p2 => dstu_pkey_ctrl mdNid s c type p1 p2
  | .ctrlStr c type value => dstu_pkey_ctrl_str env.nids mdNid sn2nid s c type value
  | .keygen c p draws =>
    match dstu_pkey_keygen env s c p draws with
    | some (.done r, s) => some (r, s)
    | _ => none
  | .assign p type k => (assignKey s p type k).map fun s => (1, s)
  | .paramCopy dst src => dstu_asn1_param_copy s dst src
  | .paramCmp p q => (param_cmp_mem s p q).map fun r => (r, s)
  | .free p => (dstu_asn1_pkey_free s p).map fun s => (0, s)

/-- A sequence of calls: all answers and the final state. -/
noncomputable def KState.run (env : Env) (mdNid : Nat) (sn2nid : List Byte → Nat) (s : KState) :
    List KeyOp → Option (List Int × KState)
  | [] => some ([], s)
  | op :: ops =>
    match s.step env mdNid sn2nid op with
    | none => none
    | some (r, s) => (s.run env mdNid sn2nid ops).map fun (rs, s) => (r :: rs, s)

end Dstu
