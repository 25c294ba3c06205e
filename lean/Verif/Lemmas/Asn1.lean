import Verif.Model.Key
import Verif.Lemmas.Der
import Verif.Lemmas.Bytes

/-! DER encoding of the parameter structures after the templates in dstulib/asn1.c:9-60, and a decoder:
an instance of `ParamCodec`. -/

namespace Dstu

open Spec

/-- The contents of an element with the given tag at the start of the input, and the rest. -/
def parseTlv (tag : Byte) : List Byte → Option (List Byte × List Byte)
  | [] => none
  | b :: l =>
    if b ≠ tag then none
    else
      match parseLen l with
      | none => none
      | some (n, r) => if r.length < n then none else some (r.take n, r.drop n)

theorem parseTlv_tlv (tag : Byte) (c rest : List Byte) (hc : c.length < 2 ^ 28) :
    parseTlv tag (tlv tag c ++ rest) = some (c, rest) := by
  simp only [tlv, List.cons_append, List.append_assoc, parseTlv, ne_eq, not_true, if_false, parseLen_derLen _ hc]
  rw [if_neg (by simp), List.take_left' rfl, List.drop_left' rfl]

theorem parseTlv_other (tag tag' : Byte) (c rest : List Byte) (h : tag ≠ tag') :
    parseTlv tag' (tlv tag c ++ rest) = none := by
  simp only [tlv, List.cons_append, parseTlv]
  rw [if_pos h]

theorem tlv_length (tag : Byte) (c : List Byte) (h : c.length < 2 ^ 28) : (tlv tag c).length ≤ 6 + c.length := by
  have h4 := numBytes_small c.length h
  unfold tlv derLen
  split
  · simp
    omega
  · simp [bn2bin_length]
    omega

theorem intBytes_bound (v : Int) : -(256 : Int) ^ intBytes v ≤ 2 * v ∧ 2 * v < 256 ^ intBytes v := by
  have key : ∀ n : Nat, 2 * (n + 1) ≤ 256 ^ (numBits n / 8 + 1) := by
    intro n
    have h := lt_two_pow_numBits n
    have : 2 ^ (numBits n + 1) ≤ 256 ^ (numBits n / 8 + 1) := by
      rw [show (256 : Nat) = 2 ^ 8 by norm_num, ← pow_mul]
      exact Nat.pow_le_pow_right (by omega) (by omega)
    rw [pow_succ] at this
    omega
  unfold intBytes
  split
  · rename_i h
    have := key v.toNat
    have h2 : ((2 * (v.toNat + 1) : Nat) : Int) ≤ ((256 ^ (numBits v.toNat / 8 + 1) : Nat) : Int) := by exact_mod_cast this
    push_cast at h2
    constructor <;> omega
  · rename_i h
    have := key (-v - 1).toNat
    have h2 : ((2 * ((-v - 1).toNat + 1) : Nat) : Int) ≤ ((256 ^ (numBits (-v - 1).toNat / 8 + 1) : Nat) : Int) := by
      exact_mod_cast this
    push_cast at h2
    constructor <;> omega

theorem decInt_encInt (v : Int) : decInt (encInt v) = v := by
  obtain ⟨h1, h2⟩ := intBytes_bound v
  unfold decInt encInt
  rw [bytesBE_length, beValue_bytesBE]
  have hP : (0 : Int) < 256 ^ intBytes v := by positivity
  generalize hk : intBytes v = k at *
  have hcast : ((256 ^ k : Nat) : Int) = (256 : Int) ^ k := by push_cast; rfl
  have hm0 := Int.emod_nonneg v (ne_of_gt hP)
  have hm1 := Int.emod_lt_of_pos v hP
  have hlt : (v % (256 : Int) ^ k).toNat < 256 ^ k := by
    have : ((v % (256 : Int) ^ k).toNat : Int) < ((256 ^ k : Nat) : Int) := by
      rw [Int.toNat_of_nonneg hm0, hcast]; exact hm1
    exact_mod_cast this
  rw [Nat.mod_eq_of_lt hlt]
  by_cases hv : 0 ≤ v
  · have hmod : v % (256 : Int) ^ k = v := Int.emod_eq_of_lt hv (by omega)
    rw [hmod]
    rw [if_pos]
    · omega
    · have : ((2 * v.toNat : Nat) : Int) < ((256 ^ k : Nat) : Int) := by rw [hcast]; push_cast; omega
      exact_mod_cast this
  · have hmod : v % (256 : Int) ^ k = v + 256 ^ k := by
      rw [← Int.add_emod_right]
      exact Int.emod_eq_of_lt (by omega) (by omega)
    rw [hmod]
    rw [if_neg]
    · omega
    · intro hc
      have : ((2 * (v + 256 ^ k).toNat : Nat) : Int) < ((256 ^ k : Nat) : Int) := by exact_mod_cast hc
      rw [hcast] at this
      push_cast at this
      omega

theorem numBits_mono {a b : Nat} (h : a ≤ b) : numBits a ≤ numBits b :=
  (numBits_le a _).mpr (lt_of_le_of_lt h (lt_two_pow_numBits b))

theorem encInt_length (v : Int) (k : Nat) (h : v.natAbs < 256 ^ k) : (encInt v).length ≤ k + 1 := by
  rw [encInt, bytesBE_length, intBytes]
  have : numBits (if 0 ≤ v then v.toNat else (-v - 1).toNat) ≤ 8 * k := by
    rw [numBits_le, pow_mul]
    refine lt_of_le_of_lt ?_ h
    split <;> omega
  omega

/-- INTEGER. -/
def derInt (v : Int) : List Byte := tlv 0x02 (encInt v)

/-- INTEGER. -/
def parseInt (l : List Byte) : Option (Int × List Byte) := (parseTlv 0x02 l).map fun (c, r) => (decInt c, r)

theorem parseInt_derInt (v : Int) (rest : List Byte) (h : (encInt v).length < 2 ^ 28) :
    parseInt (derInt v ++ rest) = some (v, rest) := by
  simp only [parseInt, derInt, parseTlv_tlv _ _ _ h, Option.map_some, decInt_encInt]

/-- dstulib/asn1.c:9-25, polynomial. -/
def derPoly : PolySpec → List Byte
  | .trinomial k => derInt k
  | .pentanomial k j l => tlv 0x30 (derInt k ++ derInt j ++ derInt l)

/-- A polynomial; the two alternatives are told apart by their tags. -/
def parsePoly (l : List Byte) : Option (PolySpec × List Byte) :=
  match parseInt l with
  | some (k, r) => some (.trinomial k, r)
  | none => do
    let (c, r) ← parseTlv 0x30 l
    let (k, c) ← parseInt c
    let (j, c) ← parseInt c
    let (l, c) ← parseInt c
    if c = [] then some (.pentanomial k j l, r) else none

/-- dstulib/asn1.c:27-44, field and curve. -/
def derCustom (s : CustomCurveSpec) : List Byte :=
  tlv 0x30 (tlv 0x30 (derInt s.m ++ derPoly s.poly) ++ derInt s.a ++ tlv 0x04 s.b ++ derInt s.n ++ tlv 0x04 s.bp)

/-- Field and curve. -/
def parseCustom (l : List Byte) : Option (CustomCurveSpec × List Byte) := do
  let (c, r) ← parseTlv 0x30 l
  let (f, c) ← parseTlv 0x30 c
  let (m, f) ← parseInt f
  let (poly, f) ← parsePoly f
  if f ≠ [] then none
  else
    let (a, c) ← parseInt c
    let (b, c) ← parseTlv 0x04 c
    let (n, c) ← parseInt c
    let (bp, c) ← parseTlv 0x04 c
    if c = [] then some (⟨m, poly, a, b, n, bp⟩, r) else none

/-- dstulib/asn1.c:46-52, curve. -/
def derCurve : CurveSpec → List Byte
  | .named oid => tlv 0x06 oid
  | .custom s => derCustom s

/-- Curve. -/
def parseCurve (l : List Byte) : Option (CurveSpec × List Byte) :=
  match parseTlv 0x06 l with
  | some (oid, r) => some (.named oid, r)
  | none => (parseCustom l).map fun (s, r) => (.custom s, r)

/-- dstulib/asn1.c:54-60, parameters with the optional S-box. -/
def derParams (p : AlgorithmParameters) : List Byte :=
  tlv 0x30 (derCurve p.curve ++ (match p.sbox with | none => [] | some s => tlv 0x04 s))

/-- Parameters. -/
def parseParams (l : List Byte) : Option AlgorithmParameters := do
  let (c, _) ← parseTlv 0x30 l
  let (curve, c) ← parseCurve c
  if c = [] then some ⟨curve, none⟩
  else
    let (s, c) ← parseTlv 0x04 c
    if c = [] then some ⟨curve, some s⟩ else none

theorem derInt_small (v : Int) (k : Nat) (h : v.natAbs < 256 ^ k) (hk : k < 2 ^ 28 - 1) :
    (∀ rest, parseInt (derInt v ++ rest) = some (v, rest)) ∧ (derInt v).length ≤ 7 + k := by
  have hl := encInt_length v k h
  refine ⟨fun rest => parseInt_derInt v rest (by omega), ?_⟩
  have := tlv_length 0x02 (encInt v) (by omega)
  unfold derInt
  omega

theorem poly_round_trip (poly : PolySpec) (h : match poly with
    | .trinomial k => k.natAbs < 2 ^ 64
    | .pentanomial k j l => k.natAbs < 2 ^ 64 ∧ j.natAbs < 2 ^ 64 ∧ l.natAbs < 2 ^ 64) :
    (∀ rest, parsePoly (derPoly poly ++ rest) = some (poly, rest)) ∧ (derPoly poly).length ≤ 100 := by
  have small : ∀ v : Int, v.natAbs < 2 ^ 64 → v.natAbs < 256 ^ 8 := fun v hv => lt_of_lt_of_eq hv (by norm_num)
  cases poly with
  | trinomial k =>
    obtain ⟨h1, h2⟩ := derInt_small k 8 (small k h) (by norm_num)
    refine ⟨fun rest => ?_, by simp only [derPoly]; omega⟩
    simp only [derPoly, parsePoly, h1]
  | pentanomial k j l =>
    obtain ⟨hk1, hk2⟩ := derInt_small k 8 (small k h.1) (by norm_num)
    obtain ⟨hj1, hj2⟩ := derInt_small j 8 (small j h.2.1) (by norm_num)
    obtain ⟨hl1, hl2⟩ := derInt_small l 8 (small l h.2.2) (by norm_num)
    have hlen : (derInt k ++ derInt j ++ derInt l).length < 2 ^ 28 := by simp; omega
    refine ⟨fun rest => ?_, ?_⟩
    · simp only [derPoly, parsePoly]
      have : parseInt (tlv 0x30 (derInt k ++ derInt j ++ derInt l) ++ rest) = none := by
        rw [parseInt, parseTlv_other _ _ _ _ (by decide)]
        rfl
      rw [this]
      simp only [parseTlv_tlv _ _ _ hlen, Option.bind_eq_bind, Option.bind_some]
      simp only [List.append_assoc, hk1, hj1, Option.bind_some]
      have hl0 := hl1 []
      rw [List.append_nil] at hl0
      simp only [hl0, Option.bind_some, if_true]
    · have := tlv_length 0x30 _ hlen
      simp only [derPoly]
      simp at this ⊢
      omega

theorem custom_round_trip (s : CustomCurveSpec) (rest : List Byte)
    (h : (⟨.custom s, none⟩ : AlgorithmParameters).Small) :
    parseCustom (derCustom s ++ rest) = some (s, rest) ∧ (derCustom s).length ≤ 2 ^ 23 := by
  obtain ⟨⟨hm, hp, ha, hb, hn, hbp⟩, _⟩ := h
  have small : ∀ v : Int, v.natAbs < 2 ^ 64 → v.natAbs < 256 ^ 8 := fun v hv => lt_of_lt_of_eq hv (by norm_num)
  obtain ⟨m1, m2⟩ := derInt_small s.m 8 (small _ hm) (by norm_num)
  obtain ⟨a1, a2⟩ := derInt_small s.a 8 (small _ ha) (by norm_num)
  obtain ⟨n1, n2⟩ := derInt_small s.n (2 ^ 20) hn (by norm_num)
  obtain ⟨p1, p2⟩ := poly_round_trip s.poly hp
  have b2 := tlv_length 0x04 s.b (by omega)
  have bp2 := tlv_length 0x04 s.bp (by omega)
  have f2 : (derInt s.m ++ derPoly s.poly).length ≤ 200 := by simp; omega
  have f3 := tlv_length 0x30 (derInt s.m ++ derPoly s.poly) (by omega)
  have c2 : (tlv 0x30 (derInt s.m ++ derPoly s.poly) ++ derInt s.a ++ tlv 0x04 s.b ++ derInt s.n ++ tlv 0x04 s.bp).length ≤
      2 ^ 23 - 6 := by
    simp only [List.length_append] at f2 f3 ⊢
    omega
  have c3 := tlv_length 0x30 _ (show (tlv 0x30 (derInt s.m ++ derPoly s.poly) ++ derInt s.a ++ tlv 0x04 s.b ++ derInt s.n ++
      tlv 0x04 s.bp).length < 2 ^ 28 by omega)
  refine ⟨?_, by unfold derCustom; omega⟩
  have bp0 := parseTlv_tlv 0x04 s.bp [] (by omega)
  have p0 := p1 []
  rw [List.append_nil] at bp0 p0
  simp only [derCustom, parseCustom, parseTlv_tlv 0x30 _ _ (lt_of_le_of_lt c2 (by norm_num)), Option.bind_eq_bind,
    Option.bind_some]
  simp only [List.append_assoc, parseTlv_tlv 0x30 _ _ (lt_of_le_of_lt f2 (by norm_num)), Option.bind_some, m1, p0]
  simp only [ne_eq, not_true, if_false, a1, Option.bind_some, parseTlv_tlv 0x04 s.b _ (by omega), n1, bp0, if_true]

/-- DER is a codec as required. -/
def derCodec : ParamCodec where
  i2d := derParams
  d2i := parseParams
  inv p rest hp := by
    obtain ⟨curve, sbox⟩ := p
    have hcurve : (∀ r, parseCurve (derCurve curve ++ r) = some (curve, r)) ∧ (derCurve curve).length ≤ 2 ^ 23 := by
      cases curve with
      | named oid =>
        have ho : ValidOid oid := hp.1
        have hl := ho.2.1
        have := tlv_length 0x06 oid (by omega)
        refine ⟨fun r => ?_, by simp only [derCurve]; omega⟩
        simp only [derCurve, parseCurve, parseTlv_tlv 0x06 oid r (by omega)]
      | custom s =>
        have hs : (⟨.custom s, none⟩ : AlgorithmParameters).Small := ⟨hp.1, fun _ h => by cases h⟩
        refine ⟨fun r => ?_, (custom_round_trip s [] hs).2⟩
        have hn : parseTlv 0x06 (derCustom s ++ r) = none := by
          rw [derCustom, parseTlv_other _ _ _ _ (by decide)]
        simp only [derCurve, parseCurve, hn, (custom_round_trip s r hs).1, Option.map_some]
    obtain ⟨h1, h2⟩ := hcurve
    cases sbox with
    | none =>
      have h0 := h1 []
      rw [List.append_nil] at h0
      simp only [derParams, parseParams, List.append_nil, parseTlv_tlv 0x30 _ _ (lt_of_le_of_lt h2 (by norm_num)),
        Option.bind_eq_bind, Option.bind_some, h0, if_true]
    | some s =>
      have hs := hp.2 s rfl
      have h3 := tlv_length 0x04 s (by omega)
      have hlen : (derCurve curve ++ tlv 0x04 s).length < 2 ^ 28 := by rw [List.length_append]; omega
      have h0 := parseTlv_tlv 0x04 s [] (by omega)
      rw [List.append_nil] at h0
      have hne : tlv 0x04 s ≠ [] := by simp [tlv]
      simp only [derParams, parseParams, parseTlv_tlv 0x30 _ _ hlen, Option.bind_eq_bind, Option.bind_some, h1, hne, if_false,
        h0, if_true]

end Dstu
