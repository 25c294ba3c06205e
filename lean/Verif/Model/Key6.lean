import Verif.Model.Md
import Verif.Model.Jks

/-! Model of keylib/key6.c and of the `_bio` readers of the three containers.  Memory allocation succeeds. -/

namespace Dstu

/-- `IITParams`  /repo/keylib/iit_asn1.h:6-10 -/
structure IITParams where
  mac : List Byte
  pad : Option (List Byte)

/-- `IITHeader`  /repo/keylib/iit_asn1.h:12-16; `none` is a null pointer, `type` is the encoding of the identifier. -/
structure IITHeader where
  type : Option (List Byte)
  params : Option IITParams

/-- `IITStore`  /repo/keylib/iit_asn1.h:18-22 -/
structure IITStore where
  header : Option IITHeader
  data : Option (List Byte)

/-- What is given from outside: OpenSSL's decoder for `IITStore` and `pkcs8Keys` (keylib/utils.c). -/
structure Key6Lib (κ : Type) where
  d2i_IITStore : List Byte → Option IITStore
  keys : List Byte → Option (Option (κ × Option κ))

/-- What uninitialised variables hold and what the random generator gives, during one call: the cipher contexts of the calls of
`hash` and the one of `decryptKey6`, the mask, and the block `res`. -/
structure Garbage where
  hashCtx : Nat → GostCtx
  ctx : GostCtx
  mask : Vector W32 8
  res : Nat → Byte

/-- keylib/key6.c:18 `iitStoreOID`, 1.3.6.1.4.1.19398.1.1.1.2, encoded. -/
def iitStoreOID : List Byte := [0x2B, 0x06, 0x01, 0x04, 0x01, 0x81, 0x97, 0x46, 0x01, 0x01, 0x01, 0x02]

/-- keylib/key6.c:20-32 `hash`; `c` is the uninitialised context. -/
def key6Hash (c : GostCtx) (data : List Byte) : Option (Bytes 32) := do
  let c := gost_init c (some (unpack_sbox default_sbox))
  let (c, h) ← hash_block c HashCtx.zero data
  let (_, dest) ← finish_hash c h
  return dest

/-- keylib/key6.c:38-39: the loop, `n` steps. -/
def pkdfLoop (g : Nat → GostCtx) : (n : Nat) → Bytes 32 → Option (Bytes 32)
  | 0, key => some key
  | n + 1, key =>
    match key6Hash (g n) key.toList with
    | none => none
    | some key => pkdfLoop g n key

/-- keylib/key6.c:34-40 `pkdf`. -/
def pkdf (g : Nat → GostCtx) (password : List Byte) : Option (Bytes 32) :=
  match key6Hash (g 9999) password with
  | none => none
  | some key => pkdfLoop g 9999 key

/-- keylib/key6.c:42-61, in `decryptKey6`: what is in `res`.  `gost_dec` writes whole blocks; the rest, at least 8 bytes, is not
initialised. -/
def key6Plain (g : Garbage) (source password : List Byte) : Option (List Byte) := do
  let resSize := source.length + 8
  let ctx := gost_init g.ctx (some (unpack_sbox default_sbox))
  let key ← pkdf g.hashCtx password
  let ctx := gost_key ctx g.mask key
  let dec ← gost_dec ctx source (source.length / 8)
  return dec ++ (List.range' dec.length (resSize - dec.length)).map g.res

variable {κ χ : Type} (lib : Key6Lib κ)

/-- keylib/key6.c:42-66 `decryptKey6`. -/
def decryptKey6 (g : Garbage) (data pad password : List Byte) (ks : Option Nat) (m : ImpMem κ χ) : Option (Bool × Option Nat × ImpMem κ χ) := do
  let res ← key6Plain g (data ++ pad) password
  keysFromPKCS8 lib.keys res ks m

/-- keylib/key6.c:68-104 `parseKey6`: the returned value, `*ks` (it was `ks` before) and the memory. -/
def parseKey6 (g : Garbage) (data password : List Byte) (ks : Option Nat) (m : ImpMem κ χ) : Option (Bool × Option Nat × ImpMem κ χ) :=
  match lib.d2i_IITStore data with
  | some ⟨some ⟨some type, some params⟩, some data⟩ =>
    if type ≠ iitStoreOID then some (false, ks, m)
    else
      match params.pad with
      | none => decryptKey6 lib g data [] password ks m
      | some pad => decryptKey6 lib g data pad password ks m
  | _ => some (false, ks, m)

/-- How a `BIO` stops giving data: at the end, by an error, or because it would have to wait. -/
inductive BioEnd where
  | eof
  | error
  | retry

/-- The loops keylib/pkcs12.c:237-254, keylib/jks.c:418-435, keylib/key6.c:126-143, which are the same: `chunks` is what the successful
calls of `BIO_read_ex` give.  The result is the contents of `mem`, or `none` for the return of 0.  A failing `BIO_read_ex` gives 0, whatever the
reason. -/
def bioLoop : (chunks : List (List Byte)) → BioEnd → (mem : List Byte) → Option (List Byte)
  | [], .eof, mem | [], .error, mem | [], .retry, mem => if mem.length > 0 then some mem else none
  | chunk :: chunks, e, mem => if chunk.length = 0 then some mem else bioLoop chunks e (mem ++ chunk)

/-- keylib/pkcs12.c:228-264, keylib/jks.c:409-445, keylib/key6.c:117-153, with the parser as a parameter. -/
def readBio (parse : List Byte → Option (Bool × Option Nat × ImpMem κ χ)) (chunks : List (List Byte)) (e : BioEnd) (ks : Option Nat) (m : ImpMem κ χ) :
    Option (Bool × Option Nat × ImpMem κ χ) :=
  match bioLoop chunks e [] with
  | none => some (false, ks, m)
  | some mem => if mem.length = 0 then some (false, ks, m) else parse mem

/-- keylib/pkcs12.c:228-264 `readPKCS12_bio`. -/
def readPKCS12_bio {D : Type} (p12 : P12Lib D κ χ) (chunks : List (List Byte)) (e : BioEnd) (password : List Byte) (ks : Option Nat) (m : ImpMem κ χ) :
    Option (Bool × Option Nat × ImpMem κ χ) := readBio (fun data => parsePKCS12 p12 data password ks m) chunks e ks m

/-- keylib/jks.c:409-445 `readJKS_bio`. -/
def readJKS_bio (jks : JksLib κ χ) (chunks : List (List Byte)) (e : BioEnd) (storagePass keyPass : List Byte) (ks : Option Nat) (m : ImpMem κ χ) :
    Option (Bool × Option Nat × ImpMem κ χ) := readBio (fun data => parseJKS jks data storagePass keyPass ks m) chunks e ks m

/-- keylib/key6.c:117-153 `readKey6_bio`. -/
def readKey6_bio (g : Garbage) (chunks : List (List Byte)) (e : BioEnd) (password : List Byte) (ks : Option Nat) (m : ImpMem κ χ) :
    Option (Bool × Option Nat × ImpMem κ χ) := readBio (fun data => parseKey6 lib g data password ks m) chunks e ks m

end Dstu
