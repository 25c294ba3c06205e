import Verif.Props.Hash

/-! The repository's own test vectors for the digest, evaluated in the model by the kernel.

These are tests, not properties: they compare the model with outputs that the authors of the code
recorded. -/

namespace Dstu.Props

/-! ### Digest: /repo/tests/test.cpp:255-257 -/

/-- One call of `EVP_Digest`: new context, init, one update, final. -/
def digestOnce (data : List Byte) : Option (List Byte) := do
  let h ← MdHeap.empty.run [.new 0, .init 0 none, .update 0 data]
  let (_, out) ← dstu_md_final h 0
  return out.toList

example : digestOnce (ascii "123456") = some
    [0x96, 0x48, 0xe3, 0x65, 0x0b, 0x97, 0x0d, 0x62, 0x39, 0xbc, 0x76, 0xcd, 0x4c, 0xa5, 0x94, 0x4c, 0x2c, 0x9c,
      0x27, 0x69, 0x24, 0x02, 0xf4, 0xd4, 0x87, 0x05, 0x88, 0x99, 0x2b, 0xe3, 0x7d, 0x5d] := by
  decide +kernel

example : digestOnce (ascii "abcdefghijklmnopqrstuvwxyz012345") = some
    [0x39, 0xe1, 0xea, 0xe5, 0x83, 0xce, 0x45, 0xbb, 0xfd, 0x32, 0x8d, 0x92, 0x20, 0xe7, 0x81, 0x85, 0xaa, 0xf9,
      0xdb, 0x32, 0x4b, 0xdf, 0xbc, 0xaa, 0x83, 0xb6, 0xbf, 0x99, 0x65, 0x7b, 0x93, 0x75] := by
  decide +kernel

example : digestOnce (ascii "abcdefghijklmnopqrstuvwxyz0123456789") = some
    [0x0b, 0xce, 0xc7, 0x20, 0x2d, 0x92, 0x5b, 0xc9, 0x57, 0x93, 0x5a, 0x09, 0xf3, 0xcf, 0xa1, 0x35, 0x4f, 0xb8,
      0x71, 0x3c, 0xfc, 0x36, 0x34, 0x55, 0x7c, 0x1d, 0xe5, 0x0c, 0x5e, 0x8c, 0x12, 0x51] := by
  decide +kernel

end Dstu.Props
