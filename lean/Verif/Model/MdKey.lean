import Verif.Model.Md

/-! Model of /repo/engine/md.c:25-39 from the key on: the memory `dstu_md_init` reads when the digest
context has a key, which need not be a DSTU key. -/

namespace Dstu

/-- The bytes of the process; `none` where nothing is mapped. -/
abbrev Memory := Nat → Option Byte

/-- A 64-bit pointer in memory, least significant byte first; `none`: not readable. -/
def Memory.pointer (mem : Memory) (p : Nat) : Option Nat :=
  if ∀ k < 8, (mem (p + k)).isSome then
    some ((List.range 8).foldr (fun k n => ((mem (p + k)).getD 0).toNat + 256 * n) 0)
  else none

/-- The 64 bytes `unpack_sbox` reads (/repo/dstulib/params.c:335-366); `none`: not readable. -/
def Memory.bytes64 (mem : Memory) (p : Nat) : Option (Bytes 64) :=
  if ∀ k < 64, (mem (p + k)).isSome then some (Vector.ofFn fun k => (mem (p + k)).getD 0) else none

/-- /repo/engine/md.c:31, `dstu_key && dstu_key->sbox ? dstu_key->sbox : ...`: what `EVP_PKEY_get0` returned is taken
for a `DSTU_KEY` (/repo/dstulib/key.h:14-18), whose `sbox` is the second pointer.  The outer `none` is undefined
behaviour, the inner one stands for `default_sbox`. -/
def md_key_sbox (mem : Memory) (key : Option Nat) : Option (Option (Bytes 64)) :=
  match key with
  | none => some none
  | some dstu_key => do
    let sbox ← mem.pointer (dstu_key + 8)
    if sbox = 0 then some none else (mem.bytes64 sbox).map some

/-- `dstu_md_init`  /repo/engine/md.c:25-39 for a context with the key object `key`: the address `EVP_PKEY_get0`
returned, `none` when there is no key context, no key or no object. -/
def dstu_md_init_key (mem : Memory) (h : MdHeap) (i : Nat) (key : Option Nat) : Option MdHeap := do
  let sbox ← md_key_sbox mem key
  dstu_md_init h i sbox

end Dstu
