import Verif.Model.Hash

/-! The hash interface of the library, used without the engine. -/

namespace Dstu

/-- `gost_hash_ctx`, /repo/dstulib/gost/gosthash.h:22-29, with the cipher context behind its pointer; `none` is the null pointer. -/
structure LibHash where
  dctx : HashCtx
  cipher : Option GostCtx

/-- `init_gost_hash_ctx`, /repo/dstulib/gost/gosthash.c:153-163.  `mem`: what the memory given by `MYALLOC` holds, `none` when there is none. -/
def init_gost_hash_ctx (mem : Option GostCtx) (subst : Option SubstBlock) : Bool × LibHash :=
  match mem with
  | none => (false, ⟨HashCtx.zero, none⟩)
  | some c => (true, ⟨HashCtx.zero, some (gost_init c subst)⟩)

/-- `start_hash`, /repo/dstulib/gost/gosthash.c:183-192, with the check of the pointer. -/
def lib_start (x : LibHash) : Bool × LibHash :=
  match x.cipher with
  | none => (false, x)
  | some _ => (true, { x with dctx := start_hash x.dctx })

/-- `hash_block`, /repo/dstulib/gost/gosthash.c:202-233, on the context; `none`: undefined. -/
def lib_block (x : LibHash) (data : List Byte) : Option LibHash :=
  match x.cipher with
  | none => none
  | some c => (hash_block c x.dctx data).map fun r => ⟨r.2, some r.1⟩

/-- `finish_hash`, /repo/dstulib/gost/gosthash.c:240-269, on the context: only the cipher context changes. -/
def lib_finish (x : LibHash) : Option (Bytes 32 × LibHash) :=
  match x.cipher with
  | none => none
  | some c => (finish_hash c x.dctx).map fun r => (r.2, { x with cipher := some r.1 })

/-- `done_gost_hash_ctx`, /repo/dstulib/gost/gosthash.c:171-178: frees the cipher context; the context keeps the dangling pointer, and a null pointer is accepted.  The result is
the number of blocks freed. -/
def done_gost_hash_ctx (x : LibHash) : Nat := if x.cipher.isSome then 1 else 0

end Dstu
