import Verif.Model.Asn1Keylib

/-! The decoder of OpenSSL 1.1.1 for the templates of /repo/dstulib/asn1.c, /repo/keylib/iit_asn1.c and /repo/keylib/attrcurvespec_asn1.c with all of BER that it reads
(crypto/asn1/asn1_lib.c, tasn_dec.c): tag numbers in the long form, indefinite lengths and strings in pieces.  Simplification: lengths are numbers without bound, where OpenSSL refuses
lengths that do not fit into a `long`; no input is that long. -/

namespace Dstu

/-- The tag number in the long form (OpenSSL `ASN1_get_object`, the loop with `INT_MAX >> 7`). -/
def highTag : Nat → List Byte → Option (Nat × List Byte)
  | _, [] => none
  | acc, b :: l =>
    if b.toNat < 128 then some (acc * 128 + b.toNat, l)
    else if 2 ^ 24 ≤ acc * 128 + (b.toNat - 128) then none
    else highTag (acc * 128 + (b.toNat - 128)) l

/-- The contents of an element and what follows it, or, if the length is indefinite, what follows the header. -/
inductive BerBody where
  | closed (c rest : List Byte)
  | opened (rest : List Byte)

/-- An element: class, tag number, whether it is constructed, contents. -/
structure BerElem where
  cls : Byte
  num : Nat
  cst : Bool
  body : BerBody

/-- The identifier octets (OpenSSL `ASN1_get_object`). -/
def getIdent : List Byte → Option (Byte × Bool × Nat × List Byte)
  | [] => none
  | b :: l =>
    if b &&& 0x1f = 0x1f then
      match highTag 0 l with
      | none => none
      | some (n, l) => some (b &&& 0xc0, b &&& 0x20 != 0, n, l)
    else some (b &&& 0xc0, b &&& 0x20 != 0, (b &&& 0x1f).toNat, l)

/-- OpenSSL `ASN1_get_object`; `none`: bad header, or an element that is longer than the input. -/
def getBer (l : List Byte) : Option BerElem :=
  match getIdent l with
  | none => none
  | some (cls, cst, num, l) =>
    match l with
    | [] => none
    | b :: r =>
      if b = 0x80 then (if cst then some ⟨cls, num, cst, .opened r⟩ else none)
      else
        match parseLen (b :: r) with
        | none => none
        | some (n, r) => if r.length < n then none else some ⟨cls, num, cst, .closed (r.take n) (r.drop n)⟩

/-- OpenSSL `asn1_check_eoc`: the two zero bytes that end an indefinite length. -/
def isEoc : List Byte → Bool
  | 0 :: 0 :: _ => true
  | _ => false

/-- OpenSSL `asn1_collect`: the pieces of a string, of any type, joined.  `depth`: how many levels may be nested below this one; `inf`: up to the end mark, else up to the end of the input.
`fuel`: at most so many rounds; each takes at least two bytes. -/
def asn1_collect : (fuel depth : Nat) → (inf : Bool) → List Byte → Option (List Byte × List Byte)
  | 0, _, _, _ => none
  | fuel + 1, depth, inf, l =>
    if l = [] then (if inf then none else some ([], []))
    else if isEoc l then (if inf then some ([], l.drop 2) else none)
    else
      match getBer l with
      | none => none
      | some o =>
        if o.cst then
          match depth with
          | 0 => none
          | d + 1 =>
            match o.body with
            | .closed c r =>
              match asn1_collect fuel d false c with
              | none => none
              | some (a, _) => (asn1_collect fuel (d + 1) inf r).map fun x => (a ++ x.1, x.2)
            | .opened r =>
              match asn1_collect fuel d true r with
              | none => none
              | some (a, r) => (asn1_collect fuel (d + 1) inf r).map fun x => (a ++ x.1, x.2)
        else
          match o.body with
          | .closed c r => (asn1_collect fuel depth inf r).map fun x => (c ++ x.1, x.2)
          | .opened _ => none

/-- The tag number of a primitive type. -/
def Prim.num : Prim → Nat
  | .integer => 2
  | .octets => 4
  | .object => 6

/-- OpenSSL `asn1_check_tlen`: the element must have the universal tag number; another tag is no error if the element may be absent. -/
def checkBer (num : Nat) (opt : Bool) (l : List Byte) : D2i (Bool × BerBody) :=
  match getBer l with
  | none => .error
  | some o => if o.cls = 0 ∧ o.num = num then .ok (o.cst, o.body) [] else if opt then .absent else .error

/-- The contents of a primitive type and what follows (OpenSSL `asn1_d2i_ex_primitive`): strings may be constructed, nested at most five deep (`ASN1_MAX_STRING_NEST`),
integers and identifiers may not. -/
def Prim.contents (k : Prim) (cst : Bool) (b : BerBody) : Option (List Byte × List Byte) :=
  match cst, b with
  | false, .closed c r => some (c, r)
  | false, .opened _ => none
  | true, b =>
    match k with
    | .octets =>
      match b with
      | .closed c r => (asn1_collect (c.length + 1) 5 false c).map fun x => (x.1, r)
      | .opened r => asn1_collect (r.length + 1) 5 true r
    | _ => none

mutual
/-- OpenSSL `asn1_item_embed_d2i`, primitive types, sequences and choices. -/
def Item.ber : (i : Item) → Bool → List Byte → D2i i.Val
  | .prim k, opt, l => match checkBer k.num opt l with
    | .absent => .absent
    | .error => .error
    | .ok (cst, b) _ => match k.contents cst b with
      | none => .error
      | some (c, r) => match k.dec c with
        | none => .error
        | some v => .ok v r
  | .seq fs, opt, l => match checkBer 16 opt l with
    | .absent => .absent
    | .error => .error
    | .ok (false, _) _ => .error
    | .ok (true, .closed c r) _ => match fs.seqBer false c with
      | none => .error
      | some (v, _) => .ok v r
    | .ok (true, .opened r) _ => match fs.seqBer true r with
      | none => .error
      | some (v, r) => .ok v r
  | .choice as, opt, l => as.choiceBer opt l
/-- The loop over the fields, up to the end mark (`inf`) or the end of the contents: it stops there; the last field is read as if it were not optional; an end mark in contents of definite
length and contents left over are errors. -/
def Fields.seqBer : (fs : Fields) → Bool → List Byte → Option (fs.SeqVal × List Byte)
  | .nil, inf, l => if inf then (if isEoc l then some ((), l.drop 2) else none) else (if l = [] then some ((), []) else none)
  | .cons true i r, inf, l =>
    if l = [] then (if inf then none else (Fields.cons true i r).allAbsent.map fun vs => (vs, []))
    else if isEoc l then (if inf then (Fields.cons true i r).allAbsent.map fun vs => (vs, l.drop 2) else none)
    else match i.ber (!r.isNil) l with
      | .error => none
      | .absent => (r.seqBer inf l).map fun x => ((none, x.1), x.2)
      | .ok v l => (r.seqBer inf l).map fun x => ((some v, x.1), x.2)
  | .cons false i r, inf, l =>
    if l = [] then none
    else if isEoc l then none
    else match i.ber false l with
      | .ok v l => (r.seqBer inf l).map fun x => ((v, x.1), x.2)
      | _ => none
/-- The loop over the alternatives: the first that is not absent decides. -/
def Fields.choiceBer : (as : Fields) → Bool → List Byte → D2i as.ChoiceVal
  | .nil, opt, _ => if opt then .absent else .error
  | .cons _ i r, opt, l => match i.ber true l with
    | .absent => (r.choiceBer opt l).map .inr
    | .error => .error
    | .ok v l => .ok (.inl v) l
end

/-- `d2i_DSTU_AlgorithmParameters`, /repo/dstulib/asn1.c:59. -/
def ber_params (l : List Byte) : Option (AlgorithmParameters × List Byte) :=
  match itAlgorithmParameters.ber false l with
  | .ok v r => some (.ofVal v, r)
  | _ => none

/-- `d2i_DSTU_Gost28147Parameters`, /repo/dstulib/asn1.c:67. -/
def ber_cipher (l : List Byte) : Option ((List Byte × List Byte) × List Byte) :=
  match itGost28147Parameters.ber false l with
  | .ok (iv, dke, ()) r => some ((iv, dke), r)
  | _ => none

/-- `d2i_ASN1_OCTET_STRING`, used at /repo/engine/pmeth.c:360. -/
def ber_octets (l : List Byte) : Option (List Byte) :=
  match (Item.prim .octets).ber false l with
  | .ok c _ => some c
  | _ => none

/-- `d2i_IITStore`, /repo/keylib/iit_asn1.c:23, called at /repo/keylib/key6.c:73. -/
def ber_IITStore (l : List Byte) : Option IITStore :=
  match itIITStore.ber false l with
  | .ok v _ => some (.ofVal v)
  | _ => none

/-- `ASN1_TYPE_unpack_sequence` with the template of /repo/keylib/attrcurvespec_asn1.c:5-12, /repo/keylib/utils.c:160. -/
def ber_AttrCurveSpec (der : List Byte) : Option CustomCurveSpec :=
  match itAttrCurveSpec.ber false der with
  | .ok (s, _, _, ()) _ => some (.ofVal s)
  | _ => none

end Dstu
