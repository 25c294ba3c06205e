import Verif.Model.Basic

/-! Model of engine/err.c: the error strings, and the parts of OpenSSL's error registry they use. -/

namespace Dstu

/-- `ERR_PACK` of OpenSSL, used in engine/err.c:62-63, 125. -/
def ERR_PACK (l f r : Nat) : Nat := ((l % 256) <<< 24) ||| ((f % 4096) <<< 12) ||| (r % 4096)

/-- `ERR_GET_LIB` of OpenSSL: the library a code belongs to. -/
def ERR_GET_LIB (c : Nat) : Nat := (c >>> 24) % 256

/-- `ERR_STRING_DATA`, engine/err.c:65-107.  A table ends at its first entry with code 0. -/
structure ERR_STRING_DATA where
  error : Nat
  string : String
deriving DecidableEq

/-- `ERR_FUNC`, engine/err.c:62. -/
def ERR_FUNC (func : Nat) : Nat := ERR_PACK 0 func 0

/-- `ERR_REASON`, engine/err.c:63. -/
def ERR_REASON (reason : Nat) : Nat := ERR_PACK 0 0 reason

/-- The initial contents of `DSTU_str_functs`, engine/err.c:65-85; the codes are those of engine/err.h:21-37. -/
def DSTU_str_functs : List ERR_STRING_DATA := [
  ⟨ERR_FUNC 100, "BIND_DSTU"⟩,
  ⟨ERR_FUNC 102, "DSTU_ASN1_PARAM_COPY"⟩,
  ⟨ERR_FUNC 101, "DSTU_ASN1_PARAM_DECODE"⟩,
  ⟨ERR_FUNC 103, "DSTU_ASN1_PARAM_ENCODE"⟩,
  ⟨ERR_FUNC 104, "DSTU_ASN1_PARAM_PRINT"⟩,
  ⟨ERR_FUNC 105, "DSTU_ASN1_PRIV_DECODE"⟩,
  ⟨ERR_FUNC 106, "DSTU_ASN1_PRIV_ENCODE"⟩,
  ⟨ERR_FUNC 107, "DSTU_ASN1_PUB_DECODE"⟩,
  ⟨ERR_FUNC 108, "DSTU_ASN1_PUB_ENCODE"⟩,
  ⟨ERR_FUNC 109, "DSTU_DO_SIGN"⟩,
  ⟨ERR_FUNC 110, "DSTU_DO_VERIFY"⟩,
  ⟨ERR_FUNC 116, "DSTU_PKEY_CTRL"⟩,
  ⟨ERR_FUNC 111, "DSTU_PKEY_INIT_BE"⟩,
  ⟨ERR_FUNC 112, "DSTU_PKEY_INIT_LE"⟩,
  ⟨ERR_FUNC 113, "DSTU_PKEY_KEYGEN"⟩,
  ⟨ERR_FUNC 114, "DSTU_PKEY_SIGN"⟩,
  ⟨ERR_FUNC 115, "DSTU_PKEY_VERIFY"⟩]

/-- The initial contents of `DSTU_str_reasons`, engine/err.c:87-99; the codes are those of engine/err.h:40-48. -/
def DSTU_str_reasons : List ERR_STRING_DATA := [
  ⟨ERR_REASON 100, "ameth init failed"⟩,
  ⟨ERR_REASON 103, "asn1 parameter encode failed"⟩,
  ⟨ERR_REASON 107, "incorrect field type"⟩,
  ⟨ERR_REASON 102, "invalid asn1 parameters"⟩,
  ⟨ERR_REASON 108, "invalid digest type"⟩,
  ⟨ERR_REASON 104, "not dstu key"⟩,
  ⟨ERR_REASON 101, "pmeth init failed"⟩,
  ⟨ERR_REASON 105, "point compress failed"⟩,
  ⟨ERR_REASON 106, "point uncompress failed"⟩]

/-- The initial contents of `DSTU_lib_name`, engine/err.c:103-107. -/
def DSTU_lib_name : List ERR_STRING_DATA := [⟨0, "dstu"⟩]

/-- What OpenSSL keeps: the hash table of strings, the next library number, the numbers given to other
libraries and the queue of errors raised by the engine (newest last). -/
structure ErrRegistry where
  strings : Nat → Option String
  nextLib : Nat
  others : List Nat
  queue : List Nat

/-- The static variables of engine/err.c:65-110 and the registry of OpenSSL. -/
structure ErrState where
  functs : List ERR_STRING_DATA
  reasons : List ERR_STRING_DATA
  libName : List ERR_STRING_DATA
  libCode : Nat
  init : Bool
  reg : ErrRegistry

/-- The static variables when the program starts, engine/err.c:65-110. -/
def ErrState.boot (reg : ErrRegistry) : ErrState :=
  ⟨DSTU_str_functs, DSTU_str_reasons, DSTU_lib_name, 0, true, reg⟩

/-- `ERR_get_next_error_library` of OpenSSL: a counter. -/
def ERR_get_next_error_library (g : ErrRegistry) : Nat × ErrRegistry := (g.nextLib, { g with nextLib := g.nextLib + 1 })

/-- One `lh_insert` (`some`) or `lh_delete` (`none`) in the hash table of OpenSSL. -/
def ErrRegistry.put (g : ErrRegistry) (c : Nat) (s : Option String) : ErrRegistry :=
  { g with strings := fun x => if x = c then s else g.strings x }

/-- The entries before the terminator. -/
def liveEntries (t : List ERR_STRING_DATA) : List ERR_STRING_DATA := t.takeWhile fun e => e.error != 0

/-- `err_patch` of OpenSSL: the library number is written into the caller's table, up to its terminator. -/
def err_patch (lib : Nat) : List ERR_STRING_DATA → List ERR_STRING_DATA
  | [] => []
  | e :: t => if e.error = 0 then e :: t else ⟨e.error ||| ERR_PACK lib 0 0, e.string⟩ :: err_patch lib t

/-- `ERR_load_strings` of OpenSSL 1.1.1: patches the table in place, then inserts its entries. -/
def ERR_load_strings (lib : Nat) (t : List ERR_STRING_DATA) (g : ErrRegistry) : List ERR_STRING_DATA × ErrRegistry :=
  let t := err_patch lib t
  (t, (liveEntries t).foldl (fun g e => g.put e.error (some e.string)) g)

/-- `ERR_unload_strings` of OpenSSL 1.1.1: deletes by the codes in the table; the library number is ignored. -/
def ERR_unload_strings (_lib : Nat) (t : List ERR_STRING_DATA) (g : ErrRegistry) : ErrRegistry :=
  (liveEntries t).foldl (fun g e => g.put e.error none) g

/-- `DSTU_lib_name->error = code`, engine/err.c:125. -/
def setFirst (code : Nat) : List ERR_STRING_DATA → List ERR_STRING_DATA
  | [] => []
  | e :: t => ⟨code, e.string⟩ :: t

/-- engine/err.c:114-115 and 146-147: the library number is asked for once. -/
def ErrState.number (s : ErrState) : ErrState :=
  if s.libCode = 0 then
    let (l, g) := ERR_get_next_error_library s.reg
    { s with libCode := l, reg := g }
  else s

/-- engine/err.c:112-128 `ERR_load_DSTU_strings`. -/
def ERR_load_DSTU_strings (s : ErrState) : ErrState :=
  let s := s.number
  if s.init then
    let s := { s with init := false }
    let (t, g) := ERR_load_strings s.libCode s.functs s.reg
    let s := { s with functs := t, reg := g }
    let (t, g) := ERR_load_strings s.libCode s.reasons s.reg
    let s := { s with reasons := t, reg := g }
    let s := { s with libName := setFirst (ERR_PACK s.libCode 0 0) s.libName }
    let (t, g) := ERR_load_strings 0 s.libName s.reg
    { s with libName := t, reg := g }
  else s

/-- engine/err.c:130-142 `ERR_unload_DSTU_strings`. -/
def ERR_unload_DSTU_strings (s : ErrState) : ErrState :=
  if s.init = false then
    let s := { s with reg := ERR_unload_strings s.libCode s.functs s.reg }
    let s := { s with reg := ERR_unload_strings s.libCode s.reasons s.reg }
    let s := { s with reg := ERR_unload_strings 0 s.libName s.reg }
    { s with init := true }
  else s

/-- engine/err.c:144-149 `ERR_DSTU_error`.  Simplification: OpenSSL's queue is unbounded and without
file and line. -/
def ERR_DSTU_error (function reason : Nat) (s : ErrState) : ErrState :=
  let s := s.number
  { s with reg := { s.reg with queue := s.reg.queue ++ [ERR_PACK s.libCode function reason] } }

/-- `ERR_lib_error_string` of OpenSSL. -/
def ERR_lib_error_string (g : ErrRegistry) (c : Nat) : Option String := g.strings (ERR_PACK (ERR_GET_LIB c) 0 0)

/-- `ERR_func_error_string` of OpenSSL. -/
def ERR_func_error_string (g : ErrRegistry) (c : Nat) : Option String :=
  g.strings (ERR_PACK (ERR_GET_LIB c) ((c >>> 12) % 4096) 0)

/-- `ERR_reason_error_string` of OpenSSL: the library's text, else the text common to all libraries. -/
def ERR_reason_error_string (g : ErrRegistry) (c : Nat) : Option String :=
  (g.strings (ERR_PACK (ERR_GET_LIB c) 0 (c % 4096))).or (g.strings (ERR_PACK 0 0 (c % 4096)))

/-- The function and reason codes of every `DSTUerr` in the sources, with the lines in engine/.  The codes
of OpenSSL: `ERR_R_MALLOC_FAILURE` 65, `ERR_R_EVP_LIB` 6, `ERR_R_EC_LIB` 16, `ERR_R_X509_LIB` 11, `ERR_R_BN_LIB` 3,
`ERR_R_ASN1_LIB` 13. -/
def raisedSites : List (Nat × Nat) := [
  (112, 65),  -- pmeth.c:46
  (111, 65),  -- pmeth.c:56
  (113, 104),  -- pmeth.c:83
  (116, 104),  -- pmeth.c:134
  (116, 108),  -- pmeth.c:162
  (114, 104),  -- pmeth.c:242, pmeth.c:249, pmeth.c:256
  (115, 104),  -- pmeth.c:330, pmeth.c:337, pmeth.c:344, pmeth.c:354
  (109, 107),  -- sign.c:72
  (110, 107),  -- sign.c:179
  (100, 6),  -- dstu.c:208
  (101, 102),  -- ameth.c:36, ameth.c:45
  (101, 6),  -- ameth.c:51
  (103, 103),  -- ameth.c:80
  (102, 6),  -- ameth.c:110
  (102, 16),  -- ameth.c:117
  (102, 65),  -- ameth.c:126
  (104, 6),  -- ameth.c:172
  (105, 11),  -- ameth.c:196
  (105, 6),  -- ameth.c:206
  (105, 104),  -- ameth.c:212, ameth.c:219, ameth.c:226
  (105, 65),  -- ameth.c:236
  (105, 3),  -- ameth.c:245
  (105, 16),  -- ameth.c:252, ameth.c:258
  (106, 104),  -- ameth.c:288, ameth.c:306, ameth.c:313
  (106, 13),  -- ameth.c:295, ameth.c:344
  (106, 65),  -- ameth.c:321
  (106, 3),  -- ameth.c:327
  (107, 11),  -- ameth.c:415
  (107, 104),  -- ameth.c:422, ameth.c:438, ameth.c:445, ameth.c:455
  (107, 6),  -- ameth.c:432
  (107, 16),  -- ameth.c:462
  (107, 13),  -- ameth.c:469
  (107, 65),  -- ameth.c:478
  (107, 106),  -- ameth.c:488, ameth.c:500
  (108, 104),  -- ameth.c:531, ameth.c:549, ameth.c:565
  (108, 13),  -- ameth.c:538, ameth.c:588, ameth.c:598
  (108, 16),  -- ameth.c:556
  (108, 65),  -- ameth.c:572
  (108, 105),  -- ameth.c:578
  (108, 11)]  -- ameth.c:611

/-- What can happen: the engine's three operations, another library asking for a number, another
library inserting or deleting a string. -/
inductive ErrOp where
  | load
  | unload
  | raise (function reason : Nat)
  | otherNumber
  | otherPut (code : Nat) (s : Option String)

/-- One operation.  Another library only uses the numbers given to it and those OpenSSL reserves (below
128); an attempt on another number is ignored. -/
def ErrState.step (s : ErrState) : ErrOp → ErrState
  | .load => ERR_load_DSTU_strings s
  | .unload => ERR_unload_DSTU_strings s
  | .raise f r => ERR_DSTU_error f r s
  | .otherNumber =>
    let (l, g) := ERR_get_next_error_library s.reg
    { s with reg := { g with others := l :: g.others } }
  | .otherPut c t =>
    if ERR_GET_LIB c < 128 ∨ ERR_GET_LIB c ∈ s.reg.others then { s with reg := s.reg.put c t } else s

/-- A history of operations. -/
def ErrState.run (s : ErrState) (ops : List ErrOp) : ErrState := ops.foldl ErrState.step s

end Dstu
