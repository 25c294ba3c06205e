import Verif.Model.KeyHeap

/-! What contexts and keys mean, without memory: a context has a type, a curve and an S-box, a key is a
value, and every operation changes only the context or key it is applied to. -/

namespace Dstu.Spec

/-- A key generation context.  One whose curve was never set has the default curve. -/
structure CtxVal where
  type : KeyType
  curve : EcGroup
  sbox : Option (Bytes 64)

/-- All contexts (`none`: not initialised or cleaned up) and all keys. -/
structure KeyWorld where
  ctx : Nat → Option CtxVal
  key : Nat → EvpPkey

/-- No contexts, no keys. -/
def KeyWorld.empty : KeyWorld := ⟨fun _ => none, fun _ => ⟨.le, none⟩⟩

def KeyWorld.setCtx (w : KeyWorld) (c : Nat) (v : Option CtxVal) : KeyWorld :=
  { w with ctx := fun i => if i = c then v else w.ctx i }

def KeyWorld.setKey (w : KeyWorld) (p : Nat) (v : EvpPkey) : KeyWorld :=
  { w with key := fun i => if i = p then v else w.key i }

/-- Operations on contexts and keys. -/
inductive KeyOp where
  /-- initialise a new context -/
  | init (c : Nat) (type : KeyType)
  /-- release a context -/
  | cleanup (c : Nat)
  /-- make a new context that is a copy of another one -/
  | copy (dst src : Nat)
  /-- control command -/
  | ctrl (c : Nat) (type p1 : Int) (p2 : CtrlArg)
  /-- control command given by strings -/
  | ctrlStr (c : Nat) (type value : List Byte)
  /-- generate a key with the given outcomes of the random generator -/
  | keygen (c p : Nat) (draws : List (Option Nat))
  /-- a key obtained otherwise, for instance decoded -/
  | assign (p : Nat) (type : KeyType) (k : DstuKey)
  /-- copy the parameters of a key -/
  | paramCopy (dst src : Nat)
  /-- compare the parameters of two keys -/
  | paramCmp (p q : Nat)
  /-- release a key -/
  | free (p : Nat)

/-- The characters 0-9, a-f and 0-9, A-F. -/
def lowerHex : List Byte :=
  [0x30, 0x31, 0x32, 0x33, 0x34, 0x35, 0x36, 0x37, 0x38, 0x39, 0x61, 0x62, 0x63, 0x64, 0x65, 0x66]
def upperHex : List Byte :=
  [0x30, 0x31, 0x32, 0x33, 0x34, 0x35, 0x36, 0x37, 0x38, 0x39, 0x41, 0x42, 0x43, 0x44, 0x45, 0x46]

def hexVal (c : Byte) : Option Nat :=
  match lowerHex.findIdx? (· = c) with
  | some i => some i
  | none => upperHex.findIdx? (· = c)

/-- The S-box a string describes: 128 hexadecimal digits, not followed by another one, two for each byte.
The S-box of zeros only is not accepted in this form. -/
def sboxOfString (value : List Byte) : Option (Bytes 64) :=
  if 128 ≤ value.length ∧ (∀ c ∈ value.take 128, (hexVal c).isSome) ∧ (∀ c, value[128]? = some c → hexVal c = none) then
    let s : Bytes 64 := Vector.ofFn fun i =>
      BitVec.ofNat 8 (16 * ((hexVal (value.getD (2 * i) 0)).getD 0) + (hexVal (value.getD (2 * i + 1) 0)).getD 0)
    if s = Vector.replicate 64 0 then none else some s
  else none

/-- The parameters of the machine: the default curve, curves by name, the identifier of the digest, and how
a key pair is generated. -/
structure KeyParams where
  default : EcGroup
  named : List Byte → Option EcGroup
  md : Nat
  gen : EcGroup → List (Option Nat) → Drawn (Nat × Option (Nat × Nat))

/-- The commands that set the S-box and the curve: OpenSSL's first number for the commands of an algorithm, 4096, plus 1 and 2. -/
def ctrlSetSbox : Int := 4097
def ctrlSetCurve : Int := 4098

/-- The command by which OpenSSL asks whether a digest may be used. -/
def ctrlDigest : Int := 1

/-- The commands by which OpenSSL announces an operation, and which are answered with yes: PKCS#7 encryption, decryption and signing,
the start of a digest, and CMS signing. -/
def ctrlAnnounced : List Int := [3, 4, 5, 7, 11]

/-- The strings `curve` and `sbox`. -/
def paramCurve : List Byte := "curve".toList.map fun c => BitVec.ofNat 8 c.toNat
def paramSbox : List Byte := "sbox".toList.map fun c => BitVec.ofNat 8 c.toNat

/-- Comparing the parameters of two keys: 1 if curves and S-boxes are the same, 0 if not, -2 if one has no parameters at all.  `none`: the S-boxes are the same
and a curve is missing. -/
def compareParams (a b : EvpPkey) : Option Int :=
  match a.key, b.key with
  | some k, some l =>
    if k.sbox ≠ l.sbox then some 0
    else
      match k.group, l.group with
      | some g, some h => some (if g = h then 1 else 0)
      | _, _ => none
  | _, _ => some (-2)

/-- Control command on a context: the answer and the new value of the context.  `none`: the argument is
not what the command demands. -/
def CtxVal.ctrl (P : KeyParams) (v : CtxVal) (type p1 : Int) (p2 : CtrlArg) : Option (Int × CtxVal) :=
  if type = ctrlSetSbox then
    match p2 with
    | .null => some (0, v)
    | .bytes l =>
      if p1 ≠ 64 then some (0, v)
      else if h : l.length = 64 then some (1, { v with sbox := some ⟨l.toArray, by simp [h]⟩ })
      else none
    | _ => if p1 ≠ 64 then some (0, v) else none
  else if type = ctrlSetCurve then
    match p2 with
    | .null => some (0, v)
    | .group g => some (1, { v with curve := g })
    | _ => none
  else if type = ctrlDigest then
    match p2 with
    | .md nid => some (if nid = P.md then 1 else 0, v)
    | _ => none
  else some (if type ∈ ctrlAnnounced then 1 else 0, v)

/-- Control command given by strings. -/
def CtxVal.ctrlStr (P : KeyParams) (v : CtxVal) (type value : List Byte) : Int × CtxVal :=
  if type = paramCurve then
    match P.named value with
    | none => (0, v)
    | some g => (1, { v with curve := g })
  else if type = paramSbox then
    match sboxOfString value with
    | none => (0, v)
    | some s => (1, { v with sbox := some s })
  else (0, v)

/-- One operation: the answer and the new state.  `none`: a call the interface does not allow (a context
is initialised or copied into although it is in use; wrong argument; a key's parameters are copied to
itself; parameters are compared that do not exist), a copy of parameters without an S-box to a key with
one, or a generation that is still drawing. -/
def KeyWorld.step (P : KeyParams) (w : KeyWorld) : KeyOp → Option (Int × KeyWorld)
  | .init c type =>
    match w.ctx c with
    | some _ => none
    | none => some (1, w.setCtx c (some ⟨type, P.default, none⟩))
  | .cleanup c => some (0, w.setCtx c none)
  | .copy dst src =>
    match w.ctx dst with
    | some _ => none
    | none => some (1, w.setCtx dst (w.ctx src))
  | .ctrl c type p1 p2 =>
    match w.ctx c with
    | none => some (0, w)
    | some v => (v.ctrl P type p1 p2).map fun (r, v) => (r, w.setCtx c (some v))
  | .ctrlStr c type value =>
    match w.ctx c with
    | none => some (0, w)
    | some v => some ((v.ctrlStr P type value).1, w.setCtx c (some (v.ctrlStr P type value).2))
  | .keygen c p draws =>
    match w.ctx c with
    | none => some (0, w)
    | some v =>
      match P.gen v.curve draws with
      | .waiting => none
      | .failed => some (0, w)
      | .done (d, Q) => some (1, w.setKey p ⟨v.type, some ⟨some v.curve, v.sbox, some d, some Q⟩⟩)
  | .assign p type k => some (1, w.setKey p ⟨type, some k⟩)
  | .paramCopy dst src =>
    match (w.key src).key with
    | none => some (0, w)
    | some f =>
      match f.group with
      | none => some (0, w)
      | some g =>
        if dst = src then none
        else
          match (w.key dst).key with
          | none => some (1, w.setKey dst ⟨(w.key src).type, some ⟨some g, f.sbox, none, none⟩⟩)
          | some t =>
            if f.sbox = none ∧ t.sbox ≠ none then none
            else some (1, w.setKey dst ⟨(w.key dst).type, some { t with group := some g, sbox := f.sbox }⟩)
  | .paramCmp p q => (compareParams (w.key p) (w.key q)).map fun r => (r, w)
  | .free p => some (0, w.setKey p ⟨(w.key p).type, none⟩)

/-- A sequence of operations: all answers and the final state. -/
def KeyWorld.run (P : KeyParams) (w : KeyWorld) : List KeyOp → Option (List Int × KeyWorld)
  | [] => some ([], w)
  | op :: ops =>
    match w.step P op with
    | none => none
    | some (r, w) => (w.run P ops).map fun (rs, w) => (r :: rs, w)

/-- Not a copy of parameters to a key that has an S-box. -/
def KeyOp.NoOverwrite (w : KeyWorld) : KeyOp → Prop
  | .paramCopy dst _ => ∀ k, (w.key dst).key = some k → k.sbox = none
  | _ => True

/-- Parameters are only copied to keys without an S-box. -/
def KeyWorld.NoOverwrite (P : KeyParams) (w : KeyWorld) : List KeyOp → Prop
  | [] => True
  | op :: ops =>
    op.NoOverwrite w ∧
    match w.step P op with
    | none => True
    | some (_, w) => w.NoOverwrite P ops

/-- The operation may change context `c`. -/
def KeyOp.Changes (c : Nat) : KeyOp → Prop
  | .init d _ => d = c
  | .cleanup d => d = c
  | .copy d _ => d = c
  | .ctrl d _ _ _ => d = c
  | .ctrlStr d _ _ => d = c
  | _ => False

/-- The operation may change key `p`. -/
def KeyOp.ChangesKey (p : Nat) : KeyOp → Prop
  | .keygen _ q _ => q = p
  | .assign q _ _ => q = p
  | .paramCopy q _ => q = p
  | .free q => q = p
  | _ => False

end Dstu.Spec
