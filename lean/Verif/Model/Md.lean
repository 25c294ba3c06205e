import Verif.Model.Hash
import Verif.Model.Sbox
import Verif.Spec.Digest

/-! Model of the digest method /repo/engine/md.c: contexts in a heap, each with its own copy of the
cipher context and a pointer to the cipher context to be used. -/

namespace Dstu

/-- `struct dstu_digest_ctx`  /repo/engine/md.c:19-23.  `cipher_ctx` is the member of the same name of
`gost_hash_ctx` (/repo/dstulib/gost/gosthash.h:22-29): null or the number of the context whose `cctx` it
points to. -/
structure MdData where
  dctx : HashCtx
  cipher_ctx : Option Nat
  cctx : GostCtx

/-- All bytes zero. -/
def MdData.zero : MdData :=
  ⟨HashCtx.zero, none, ⟨Vector.replicate 8 0, Vector.replicate 8 0, fun _ => 0, fun _ => 0,
    fun _ => 0, fun _ => 0⟩⟩

/-- The `md_data` of each `EVP_MD_CTX`; `none` when it has none. -/
abbrev MdHeap := Nat → Option MdData

def MdHeap.put (h : MdHeap) (i : Nat) (v : Option MdData) : MdHeap := fun j => if j = i then v else h j

/-- `dstu_md_init`  /repo/engine/md.c:25-39; `sbox` is the S-box of the key of the context, if the context
has a key context with a key carrying one.  `none` is undefined behaviour (null dereference). -/
def dstu_md_init (h : MdHeap) (i : Nat) (sbox : Option (Bytes 64)) : Option MdHeap := do
  let c ← h i
  let sbox_source := sbox.getD default_sbox
  let sb := unpack_sbox sbox_source
  let c := { c with dctx := HashCtx.zero, cipher_ctx := none }
  let c := { c with cctx := gost_init c.cctx (some sb) }
  let c := { c with cipher_ctx := some i }
  return h.put i (some c)

/-- `dstu_md_update`  /repo/engine/md.c:41-44.  A null cipher context counts as undefined behaviour even when
too few bytes are given for it to be dereferenced. -/
def dstu_md_update (h : MdHeap) (i : Nat) (data : List Byte) : Option MdHeap := do
  let c ← h i
  let p ← c.cipher_ctx
  let q ← h p
  let (g, d) ← hash_block q.cctx c.dctx data
  let h := h.put p (some { q with cctx := g })
  let c ← h i
  return h.put i (some { c with dctx := d })

/-- `dstu_md_final`  /repo/engine/md.c:46-49: the heap and the digest. -/
def dstu_md_final (h : MdHeap) (i : Nat) : Option (MdHeap × Bytes 32) := do
  let c ← h i
  let p ← c.cipher_ctx
  let q ← h p
  let (g, out) ← finish_hash q.cctx c.dctx
  return (h.put p (some { q with cctx := g }), out)

/-- `dstu_md_copy`  /repo/engine/md.c:51-61 -/
def dstu_md_copy (h : MdHeap) (to src : Nat) : MdHeap :=
  match h to, h src with
  | some _, some f => h.put to (some { f with cipher_ctx := some to })
  | _, _ => h

/-- `dstu_md_cleanup`  /repo/engine/md.c:63-69 -/
def dstu_md_cleanup (h : MdHeap) (i : Nat) : MdHeap :=
  match h i with
  | some _ => h.put i (some MdData.zero)
  | none => h

/-- `DSTU_SET_CUSTOM_SBOX`  /repo/engine/control.h:5 with OpenSSL's `EVP_MD_CTRL_ALG_CTRL` = 0x1000 -/
def DSTU_SET_CUSTOM_SBOX : Int := 0x1000 + 1

/-- `dstu_md_ctrl`  /repo/engine/md.c:71-87: result and heap. -/
def dstu_md_ctrl (h : MdHeap) (i : Nat) (cmd p1 : Int) (p2 : Option (Bytes 64)) : Option (Int × MdHeap) :=
  if cmd = DSTU_SET_CUSTOM_SBOX then
    match p2 with
    | none => some (0, h)
    | some p2 =>
      if p1 ≠ 64 then some (0, h) else do
        let sb := unpack_sbox p2
        let c ← h i
        return (1, h.put i (some { c with cctx := gost_init c.cctx (some sb) }))
  else some (0, h)

/-- One operation on the heap.  `new` and `free` are the library's: `EVP_DigestInit_ex` allocates zeroed
`md_data`, `EVP_MD_CTX_reset` releases it. -/
def MdHeap.step (h : MdHeap) : Spec.DigestOp → Option MdHeap
  | .new i => some (h.put i (some MdData.zero))
  | .init i sb => dstu_md_init h i sb
  | .update i data => dstu_md_update h i data
  | .final i => (dstu_md_final h i).map (·.1)
  | .copy to src => some (dstu_md_copy h to src)
  | .cleanup i => some (dstu_md_cleanup h i)
  | .ctrl i cmd p1 p2 => (dstu_md_ctrl h i cmd p1 p2).map (·.2)
  | .free i => some (h.put i none)

def MdHeap.run (h : MdHeap) : List Spec.DigestOp → Option MdHeap
  | [] => some h
  | op :: ops => (h.step op).bind fun h => h.run ops

/-- No context has data. -/
def MdHeap.empty : MdHeap := fun _ => none

end Dstu
