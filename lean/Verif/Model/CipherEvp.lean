import Verif.Model.Envelope
import Verif.Spec.CipherSessions

/-! Cipher contexts as OpenSSL 1.1.1 drives the methods of /repo/engine/cipher.c, according to the flags set in
/repo/engine/cipher.c:231-253 (`EVP_CIPH_CUSTOM_IV`, `EVP_CIPH_FLAG_CUSTOM_CIPHER`, `EVP_CIPH_ALWAYS_CALL_INIT`, no `EVP_CIPH_CUSTOM_COPY`). -/

namespace Dstu

open Spec

/-- The `EVP_CIPHER_CTX` objects: `none` is no object, `some none` one without cipher. -/
abbrev CipherHeap := Nat → Option (Option CipherCtx)

def CipherHeap.put (h : CipherHeap) (i : Nat) (v : Option CipherCtx) : CipherHeap := fun j => if j = i then some v else h j

def CipherHeap.empty : CipherHeap := fun _ => none

/-- One call.  Stand-in for OpenSSL's `EVP_CIPHER_CTX_new`, `EVP_CipherInit_ex` (direction kept when -1 is given; the method is called even
without key because of `EVP_CIPH_ALWAYS_CALL_INIT`; a context that already has the cipher of the engine keeps its data), `EVP_CipherUpdate` and `EVP_CipherFinal_ex` (which hand everything to
`do_cipher` because of `EVP_CIPH_FLAG_CUSTOM_CIPHER` and report failure for a negative result), `EVP_CIPHER_CTX_ctrl`, `EVP_CIPHER_asn1_to_param`, `EVP_CIPHER_param_to_asn1`,
`EVP_CIPHER_CTX_copy` (the bytes of the context and of the cipher data) and `EVP_CIPHER_CTX_reset`, with `dstu_cipher_cleanup`, /repo/engine/cipher.c:145-149, doing nothing.
`none` is undefined behaviour. -/
def CipherHeap.step (h : CipherHeap) : CipherOp → Option (CipherHeap × Seen)
  | .new i => some (h.put i none, .ok)
  | .init i enc key iv rnd => do
    let c ← h i
    let c := c.getD (freshCipher false)
    let c := { c with encrypting := enc.getD c.encrypting }
    return (h.put i (some (dstu_cipher_init c rnd key iv)), .ok)
  | .update i data => do
    let c ← (← h i)
    let r ← dstu_cipher_do_cipher c (.buf data)
    if r.ret < 0 then return (h.put i (some r.ctx), .refused)
    else return (h.put i (some r.ctx), .bytes r.out)
  | .final i => do
    let c ← (← h i)
    let r ← dstu_cipher_do_cipher c (.null 0)
    if r.ret < 0 then return (h.put i (some r.ctx), .refused)
    else return (h.put i (some r.ctx), .bytes r.out)
  | .sbox i p => do
    let c ← (← h i)
    let (r, c) ← dstu_cipher_ctrl c (.setSbox 64 (some p.toList))
    return (h.put i (some c), if r = 1 then .ok else .refused)
  | .load i iv p => do
    let c ← (← h i)
    let (r, c) ← dstu_cipher_get_asn1_parameters c ⟨16, cipherParams iv.toList p.toList⟩
    return (h.put i (some c), if r = 1 then .ok else .refused)
  | .save i => do
    let c ← (← h i)
    return (h, .bytes (dstu_cipher_set_asn1_parameters c))
  | .copy i j => do
    let _ ← h i
    let c ← (← h j)
    if i = j then none
    return (h.put i (some c), .ok)
  | .reset i => do
    let _ ← h i
    return (h.put i none, .ok)

/-- A history of calls. -/
def CipherHeap.run (h : CipherHeap) : List CipherOp → Option (CipherHeap × List Seen)
  | [] => some (h, [])
  | op :: ops => do
    let (h, s) ← h.step op
    let (h, ss) ← CipherHeap.run h ops
    return (h, s :: ss)

end Dstu
