import Verif.Spec.Rbg
import Verif.Spec.Bytes
import Mathlib.Data.ZMod.Basic

/-! Random numbers below an order `n` made of a stream of bytes, and what may be computed from signatures and from the memory of the generator. -/

namespace Dstu.Spec

/-- How many multiples of `n` are used: three if `n` is less than five quarters of the power of two below it, otherwise one. -/
def multiples (n : Nat) : Nat := if 4 * n < 5 * 2 ^ n.log2 then 3 else 1

/-- The number of bits needed for the numbers below `multiples n * n`. -/
def drawBits (n : Nat) : Nat := (multiples n * n).log2 + 1

/-- The bytes needed for so many bits. -/
def drawBytes (n : Nat) : Nat := (drawBits n + 7) / 8

/-- The number below `n` made of a number `v`, if there is one. -/
def below (n v : Nat) : Option Nat :=
  if v % 2 ^ drawBits n < multiples n * n then some (v % 2 ^ drawBits n % n) else none

/-- The number made of block `j` of the stream, counted from byte `pos` on. -/
def RbgSeed.candidate (g : RbgSeed) (n pos j : Nat) : Option Nat :=
  below n (beValue (g.segment (pos + j * drawBytes n) (drawBytes n)))

/-- From byte `pos` on, the number `r` is drawn, and the stream is used up to byte `pos'`: it is made of the first block that gives a number, of 99 that are tried. -/
def RbgSeed.Draws (g : RbgSeed) (n pos r pos' : Nat) : Prop :=
  ∃ j < 99, g.candidate n pos j = some r ∧ (∀ i < j, g.candidate n pos i = none) ∧ pos' = pos + (j + 1) * drawBytes n

/-- The number `s` of a raw signature: its first half. -/
def sHalf (sig : List (BitVec 8)) : Nat := beValue (sig.take (sig.length / 2))

/-- The number `r` of a raw signature: its second half. -/
def rHalf (sig : List (BitVec 8)) : Nat := beValue (sig.drop (sig.length / 2))

/-- What anyone can compute from two signatures and the order: `(s - s') / (r - r')` modulo `n`. -/
def quotientOf (n : Nat) (sig sig' : List (BitVec 8)) : Nat :=
  (((sHalf sig : ZMod n) - sHalf sig') * ((rHalf sig : ZMod n) - rHalf sig')⁻¹).val

/-- What anyone can compute from a signature, its nonce and the order: `(s - e) / r` modulo `n`. -/
def keyFromNonce (n e : Nat) (sig : List (BitVec 8)) : Nat := (((sHalf sig : ZMod n) - e) * (rHalf sig : ZMod n)⁻¹).val

end Dstu.Spec
