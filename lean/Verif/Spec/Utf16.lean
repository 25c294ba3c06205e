import Verif.Model.Basic

/-! Passwords as texts: UTF-8 and UTF-16BE.  Lean's `Char` is a Unicode scalar value. -/

namespace Dstu.Spec

/-- A character in UTF-8, as Lean encodes it. -/
def utf8Char (c : Char) : List Byte := (String.utf8EncodeChar c).map UInt8.toBitVec

/-- A text in UTF-8. -/
def utf8 (t : List Char) : List Byte := t.flatMap utf8Char

/-- A 16-bit unit, most significant byte first. -/
def unit16 (n : Nat) : List Byte := [BitVec.ofNat 8 (n / 256), BitVec.ofNat 8 (n % 256)]

/-- A character in UTF-16BE: one unit, or a surrogate pair for characters from 0x10000. -/
def utf16Char (c : Char) : List Byte :=
  if c.toNat < 0x10000 then unit16 c.toNat
  else unit16 (0xD800 + (c.toNat - 0x10000) / 0x400) ++ unit16 (0xDC00 + (c.toNat - 0x10000) % 0x400)

/-- A text in UTF-16BE. -/
def utf16 (t : List Char) : List Byte := t.flatMap utf16Char

end Dstu.Spec
