import Verif.Model.Cipher

/-!
# The update function of /repo/engine/cipher.c on memory

Input and output are addresses in one memory, so that they may overlap.  The context and the local
arrays are outside this memory.
-/

namespace Dstu

/-- The caller's memory. -/
abbrev Mem := Nat → Byte

/-- `*p = b` -/
def Mem.put (m : Mem) (p : Nat) (b : Byte) : Mem := fun a => if a = p then b else m a

/-- The byte loops /repo/engine/cipher.c:70-84 and 123-137, and the inner loops of `gost_enc_cfb` and
`gost_dec_cfb` (/repo/dstulib/gost/gost89.c:419-421 and 437-439): `k` is the index into `buf` and `iv`,
`n` the number of bytes left. -/
def xorLoopM (enc : Bool) (buf : Bytes 8) (iv : Bytes 8) (k : Nat) (m : Mem) (inp out : Nat) :
    (n : Nat) → Option (Bytes 8 × Mem)
  | 0 => some (iv, m)
  | n + 1 =>
    if h : k < 8 then
      if enc then
        let m := m.put out (m inp ^^^ buf[k])
        let iv := iv.set k (m out)
        xorLoopM enc buf iv (k + 1) m (inp + 1) (out + 1) n
      else
        let iv := iv.set k (m inp)
        let m := m.put out (m inp ^^^ buf[k])
        xorLoopM enc buf iv (k + 1) m (inp + 1) (out + 1) n
    else none

/-- `gost_enc_cfb` (`enc`) and `gost_dec_cfb` (`!enc`)  /repo/dstulib/gost/gost89.c:408-441 on memory -/
def cfbM (g : GostCtx) (enc : Bool) (cur_iv : Bytes 8) (m : Mem) (inp out : Nat) :
    (blocks : Nat) → Option Mem
  | 0 => some m
  | n + 1 =>
    match xorLoopM enc (gostcrypt g cur_iv) cur_iv 0 m inp out 8 with
    | none => none
    | some (cur_iv, m) => cfbM g enc cur_iv m (inp + 8) (out + 8) n

/-- `memcpy(local, p, 8)` -/
def Mem.get8 (m : Mem) (p : Nat) : Bytes 8 := Vector.ofFn fun i : Fin 8 => m (p + i.val)

/-- Local variables of the update function that change: context, memory, `in`, `out`, `inl`. -/
structure CState where
  ctx : CipherCtx
  m : Mem
  inp : Nat
  out : Nat
  inl : Nat

/-- Lines 66-92 of /repo/engine/cipher.c -/
def dcHeadM (s : CState) : Option CState :=
  if s.ctx.num ≠ 0 then
    if s.ctx.num ≤ 8 then
      let toUse := if s.ctx.num < s.inl then s.ctx.num else s.inl
      match xorLoopM s.ctx.encrypting s.ctx.buf s.ctx.iv (8 - s.ctx.num) s.m s.inp s.out toUse with
      | none => none
      | some (iv, m) =>
        let num := s.ctx.num - toUse
        let ctx := { s.ctx with iv := iv, num := num }
        let ctx := if num = 0 then { ctx with buf := gostcrypt ctx.g ctx.iv } else ctx
        some ⟨ctx, m, s.inp + toUse, s.out + toUse, s.inl - toUse⟩
    else none
  else some s

/-- Lines 94-119 of /repo/engine/cipher.c -/
def dcBlocksM (s : CState) : Option CState :=
  let blocks := s.inl >>> 3
  if blocks ≠ 0 then
    if s.ctx.encrypting then
      match cfbM s.ctx.g true s.ctx.iv s.m s.inp s.out blocks with
      | none => none
      | some m =>
        let iv := m.get8 (s.out + blocks * 8 - 8)
        some ⟨{ s.ctx with iv := iv, buf := gostcrypt s.ctx.g iv }, m, s.inp + blocks * 8,
          s.out + blocks * 8, s.inl - blocks * 8⟩
    else
      let tmpiv := s.ctx.iv
      let iv := s.m.get8 (s.inp + blocks * 8 - 8)
      match cfbM s.ctx.g false tmpiv s.m s.inp s.out blocks with
      | none => none
      | some m =>
        some ⟨{ s.ctx with iv := iv, buf := gostcrypt s.ctx.g iv }, m, s.inp + blocks * 8,
          s.out + blocks * 8, s.inl - blocks * 8⟩
  else some s

/-- Lines 121-140 of /repo/engine/cipher.c -/
def dcTailM (s : CState) : Option CState :=
  if s.inl ≠ 0 then
    match xorLoopM s.ctx.encrypting s.ctx.buf s.ctx.iv 0 s.m s.inp s.out s.inl with
    | none => none
    | some (iv, m) =>
      some ⟨{ s.ctx with iv := iv, num := 8 - s.inl }, m, s.inp + s.inl, s.out + s.inl, s.inl⟩
  else some s

/-- `dstu_cipher_do_cipher`  /repo/engine/cipher.c:50-143 with pointers `inp` (possibly null) and `out`:
return value, context and memory.  `none` is undefined behaviour. -/
def do_cipher_mem (ctx : CipherCtx) (m : Mem) (inp : Option Nat) (out inl : Nat) :
    Option (Int × CipherCtx × Mem) :=
  match inp with
  | none => if inl = 0 then some (0, ctx, m) else some (-1, ctx, m)
  | some inp =>
    if inl = 0 then some (-1, ctx, m)
    else do
      let s ← dcHeadM ⟨ctx, m, inp, out, inl⟩
      let s ← dcBlocksM s
      let s ← dcTailM s
      return ((s.out - out : Nat), s.ctx, s.m)

end Dstu
