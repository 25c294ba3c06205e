import Verif.Model.Sign
import Verif.Model.Pkcs12

/-! Where a size of type `size_t` is passed on as an `int`: the digest in engine/sign.c, and the password in keylib/pkcs12.c.  The other models take
these arguments as lists of bytes, without this conversion. -/

namespace Dstu

/-- A `size_t` converted to `int`: the low 32 bits as a signed number (implementation-defined in C; so it is for the compilers in use). -/
def intOfSize (n : Nat) : Int := if n % 2 ^ 32 < 2 ^ 31 then ((n % 2 ^ 32 : Nat) : Int) else ((n % 2 ^ 32 : Nat) : Int) - 2 ^ 32

/-- engine/sign.c:35-36: the loop of `hash_to_field`, which copies `n` bytes in opposite order; `none`: outside the digest. -/
def reverseFirst (hash : List Byte) : (n : Nat) → Option (List Byte)
  | 0 => some []
  | n + 1 =>
    match hash[n]?, reverseFirst hash n with
    | some b, some h => some (b :: h)
    | _, _ => none

/-- engine/sign.c:27-49 `hash_to_field`, called at 105 and 199 with a `size_t` for the `int hash_len`.  `OPENSSL_malloc` (line 30) gives NULL for 0, and for a
negative number, which is converted to a size above 2 ^ 63.  The outer `none` is undefined behaviour. -/
def hash_to_field_size (hash : List Byte) (fieldsize : Nat) : Option (Option Nat) :=
  let hash_len := intOfSize hash.length
  if hash_len ≤ 0 then some none
  else
    match reverseFirst hash hash_len.toNat with
    | none => none
    | some h =>
      let fe := bin2bn h
      let fe := if fe = 0 then 1 else fe
      some (bn_truncate_bits fe fieldsize)

/-- The bytes of the digest that `hash_to_field` uses, see `hash_to_field_size_eq`. -/
def digestUsed (tbs : List Byte) : List Byte := tbs.take (intOfSize tbs.length).toNat

/-- engine/pmeth.c:228-314 `dstu_pkey_sign`.  The digest is used at engine/sign.c:105 only. -/
noncomputable def pkey_sign_size (type : KeyType) (g : EcGroup) [GoodGroup g] (key : EcKey g) (sig : Bool) (siglen : Nat) (tbs : List Byte)
    (draws : List (Option Nat)) : Drawn SignOut := dstu_pkey_sign type g key sig siglen (digestUsed tbs) draws

/-- engine/pmeth.c:316-395 `dstu_pkey_verify`.  The digest is used at engine/sign.c:199 only.  For signatures of 2 ^ 31 bytes or more see `pkey_verify_long`. -/
noncomputable def pkey_verify_size (dec : OctetDecoder) (type : KeyType) (g : EcGroup) [GoodGroup g] (key : EcKey g) (sig tbs : List Byte) : Bool :=
  dstu_pkey_verify dec type g key sig (digestUsed tbs)

/-- OpenSSL `BN_bin2bn(mem, len, ...)` where a `size_t` is passed for the `int len` (engine/sign.c:208, 211).  A negative number is taken for one of at least 2 ^ 31 bytes, for which
OpenSSL 1.1.1 refuses to make a number: `none`. -/
def bin2bn_size (mem : List Byte) (len : Nat) : Option Nat :=
  if intOfSize len < 0 then none else some (bin2bn (mem.take (intOfSize len).toNat))

/-- engine/sign.c:163-254 `dstu_do_verify` with sizes as they are.  That OpenSSL also refuses to make numbers of 2 ^ 26 bytes and more is not modelled: they are above the order, so the
verdict is the same. -/
noncomputable def do_verify_size (g : EcGroup) [GoodGroup g] (key : EcKey g) (tbs sig : List Byte) : Bool :=
  match key.pub with
  | none => false
  | some Q =>
    match hash_to_field (digestUsed tbs) g.degree with
    | none => false
    | some h =>
      match bin2bn_size sig (sig.length / 2), bin2bn_size (sig.drop (sig.length / 2)) (sig.length / 2) with
      | some s, some r =>
        if s = 0 ∨ r = 0 then false
        else if s ≥ g.n ∨ r ≥ g.n then false
        else
          match affine (ec_mul g s (some (Q, r))) with
          | none => false
          | some (Rx, _) =>
            match field_to_bn (gf2m_mul g.p h Rx) g.n with
            | none => false
            | some r1 => r = r1
      | _, _ => false

/-- engine/pmeth.c:375-379: the block `fresh` from `OPENSSL_malloc`, whose contents are not set, after `reverse_bytes_copy` (dstulib/params.c:583-591), to which the `size_t siglen` is passed
as an `int`.  `none`: outside `src`. -/
def reverse_copy_size (fresh src : List Byte) : Option (List Byte) :=
  (reverse_bytes_copy src (intOfSize src.length).toNat).map fun l => l ++ fresh.drop (intOfSize src.length).toNat

/-- engine/pmeth.c:316-395 `dstu_pkey_verify` with sizes as they are; `fresh` is the uninitialised block of `siglen` bytes allocated at line 375.  The size of an octet string is an `int`, line
363. -/
noncomputable def pkey_verify_long (dec : OctetDecoder) (type : KeyType) (g : EcGroup) [GoodGroup g] (key : EcKey g) (fresh sig tbs : List Byte) : Bool :=
  let sig := (dec.d2i sig).getD sig
  if sig.length % 2 = 1 then false
  else if sig.length < 2 * numBytes g.n then false
  else
    match type with
    | .le =>
      match reverse_copy_size fresh sig with
      | none => false
      | some sig_be => do_verify_size g key tbs sig_be
    | .be => do_verify_size g key tbs sig

/-- The functions of OpenSSL that keylib/pkcs12.c calls with a password, given as a pointer (here: the bytes that are readable there) and an `int`; the other
functions, and what these do for the passwords themselves, are in `lib`.  If the number is not negative, then so many bytes are the password.  Otherwise
nothing is assumed (-1 stands for the length of a C string). -/
structure P12LibC (D κ χ : Type) where
  lib : P12Lib D κ χ
  verify_mac : D → List Byte → Int → Bool
  unpack_p7encdata : List Byte → List Byte → Int → Option (List Bag)
  decrypt_skey : List Byte → List Byte → Int → Option (List Byte)
  verify_mac_eq : ∀ d mem (n : Nat), n ≤ mem.length → verify_mac d mem n = lib.verify_mac d (mem.take n)
  unpack_p7encdata_eq : ∀ c mem (n : Nat), n ≤ mem.length → unpack_p7encdata c mem n = lib.unpack_p7encdata c (mem.take n)
  decrypt_skey_eq : ∀ c mem (n : Nat), n ≤ mem.length → decrypt_skey c mem n = lib.decrypt_skey c (mem.take n)

/-- The functions as they are called at keylib/pkcs12.c:62, 97, 148, 179, where the `size_t passSize` becomes an `int`. -/
def P12LibC.at {D κ χ : Type} (lib : P12LibC D κ χ) (passSize : Nat) : P12Lib D κ χ :=
  { lib.lib with
    verify_mac := fun d mem => lib.verify_mac d mem (intOfSize passSize)
    unpack_p7encdata := fun c mem => lib.unpack_p7encdata c mem (intOfSize passSize)
    decrypt_skey := fun c mem => lib.decrypt_skey c mem (intOfSize passSize) }

/-- keylib/pkcs12.c:166-215 `parsePKCS12`, with `passSize`; `password` is what is readable at the pointer. -/
def parsePKCS12_size {D κ χ : Type} (lib : P12LibC D κ χ) (data password : List Byte) (passSize : Nat) (ks : Option Nat) (m : ImpMem κ χ) :
    Option (Bool × Option Nat × ImpMem κ χ) := parsePKCS12 (lib.at passSize) data password ks m

end Dstu
