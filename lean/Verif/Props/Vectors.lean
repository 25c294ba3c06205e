import Verif.Props.Sign
import Verif.Lemmas.Vector
import Verif.Lemmas.CurveData2
import Verif.Props.Compress
import Verif.Props.Cipher

/-! The repository's own test vectors, evaluated in the model by the kernel.

These are tests, not properties: they compare the model with outputs that the authors of the code
recorded (/repo/tests/test.cpp and /repo/tests/dstu.cpp); the digests are in `VectorsHash.lean`. -/

namespace Dstu.Props

open Spec WeierstrassCurve

/-! ### Cipher: /repo/tests/test.cpp:264-269 -/

/-- One encryption or decryption with the key and the initialization vector of the test. -/
def cipherOnce (enc : Bool) (data : List Byte) : Option (List Byte) :=
  (Spec.feed (dstu_cipher_init (blankCtx enc) demoMask (some demoKey) (some demoIv)) [data]).map (·.1)

example : cipherOnce true
    [0x31, 0x32, 0x33, 0x34, 0x35, 0x36] = some
    [0x23, 0xa8, 0x38, 0x29, 0x32, 0xae] := by
  decide +kernel

example : cipherOnce false
    [0x23, 0xa8, 0x38, 0x29, 0x32, 0xae] = some
    [0x31, 0x32, 0x33, 0x34, 0x35, 0x36] := by
  decide +kernel

example : cipherOnce true
    [0x61, 0x62, 0x63, 0x64, 0x65, 0x66, 0x67, 0x68] = some
    [0x73, 0xf8, 0x68, 0x79, 0x62, 0xfe, 0x53, 0xc9] := by
  decide +kernel

example : cipherOnce false
    [0x73, 0xf8, 0x68, 0x79, 0x62, 0xfe, 0x53, 0xc9] = some
    [0x61, 0x62, 0x63, 0x64, 0x65, 0x66, 0x67, 0x68] := by
  decide +kernel

example : cipherOnce true
    [0x5a, 0x58, 0x43, 0x56, 0x42, 0x4e, 0x4d, 0x3c, 0x3e, 0x3f, 0x41, 0x53, 0x44, 0x46, 0x47, 0x48, 0x4a, 0x4b,
      0x4c, 0x3a, 0x22, 0x7c] = some
    [0x48, 0xc2, 0x48, 0x4b, 0x45, 0xd6, 0x79, 0x9d, 0x0d, 0xa0, 0x11, 0xcd, 0xd2, 0x2b, 0x1b, 0x28, 0x81, 0xae,
      0xa4, 0xf4, 0x12, 0x4f] := by
  decide +kernel

example : cipherOnce false
    [0x48, 0xc2, 0x48, 0x4b, 0x45, 0xd6, 0x79, 0x9d, 0x0d, 0xa0, 0x11, 0xcd, 0xd2, 0x2b, 0x1b, 0x28, 0x81, 0xae,
      0xa4, 0xf4, 0x12, 0x4f] = some
    [0x5a, 0x58, 0x43, 0x56, 0x42, 0x4e, 0x4d, 0x3c, 0x3e, 0x3f, 0x41, 0x53, 0x44, 0x46, 0x47, 0x48, 0x4a, 0x4b,
      0x4c, 0x3a, 0x22, 0x7c] := by
  decide +kernel

/-! ### Signatures: /repo/tests/dstu.cpp -/

/-- The digest  /repo/tests/dstu.cpp:18-23 -/
def vecHash : List Byte :=
  [0x10, 0xe6, 0x5a, 0x11, 0xac, 0xcc, 0x36, 0x5e, 0x18, 0x46, 0x67, 0x02, 0xb0, 0x64, 0x6d, 0x74, 0x92, 0x41,
    0x9a, 0x9d, 0xa6, 0x57, 0xcf, 0x03, 0x64, 0x52, 0x7c, 0x33, 0x65, 0x55, 0x5b, 0xa7]

/-- `s163`  /repo/tests/dstu.cpp -/
def vecSig163 : List Byte :=
  [0x04, 0x2a, 0x66, 0xa7, 0x40, 0x07, 0x84, 0xa7, 0x4a, 0x72, 0xcc, 0xa7, 0x5b, 0x0c, 0x35, 0x8b, 0x4c, 0xdd,
    0x6c, 0x2a, 0xa6, 0x36, 0x00, 0x00, 0xc4, 0x74, 0x66, 0xda, 0xd4, 0xe1, 0x01, 0x1b, 0x3e, 0x18, 0x95, 0x27,
    0x72, 0xc0, 0x80, 0xa9, 0xa3, 0x1b, 0x31, 0x01]
/-- The private key `d163`, as a number -/
def vec_d163 : Nat := 0x3e0748d629eb54a1d8f9a87ebde12ca0eed4854a5
/-- The nonce `e163`, as a number -/
def vec_e163 : Nat := 0x1025e40bd97db012b7a1d79de8e12932d247f61c6
/-- The abscissa of the nonce point, as a number -/
def vec_xe163 : Nat := 0x695c17590e266eaaea0a51fc12bd0b3272897c3df
/-- Its ordinate, as a number -/
def vec_ye163 : Nat := 0x3b68eec413a3482d412f30057e2152b01a82c7fa9
/-- Its product with the digest, as a number -/
def vec_hv163 : Nat := 0x436a62a6cdd4c8b350c5ba7cc724aa7840740a766

/-- `s257`  /repo/tests/dstu.cpp -/
def vecSig257 : List Byte :=
  [0x04, 0x40, 0x6f, 0x77, 0x37, 0xe8, 0x65, 0xd2, 0x50, 0xd7, 0x0a, 0x29, 0xea, 0xdf, 0xe3, 0xc2, 0x3d, 0x37,
    0x0c, 0x3f, 0xa7, 0xb5, 0xc9, 0x43, 0xcd, 0xed, 0x1b, 0x72, 0xf3, 0xe1, 0x53, 0x2d, 0x2c, 0x09, 0xe1, 0x8b,
    0x17, 0x72, 0x1d, 0xab, 0xeb, 0xec, 0x39, 0xbd, 0x4a, 0x87, 0x9a, 0xb0, 0x50, 0x7d, 0x80, 0xe9, 0x99, 0xe1,
    0xea, 0x5d, 0x65, 0xb5, 0x56, 0xd6, 0xf1, 0x66, 0x44, 0x8b, 0xee, 0x26]
/-- The private key `d257`, as a number -/
def vec_d257 : Nat := 0x6f31c4445914fb347ba9bd272bb5b7f513422fe116dfa4f0df34b1ceb11a645c
/-- The nonce `e257`, as a number -/
def vec_e257 : Nat := 0x4394e19dcc1def57ddbe6fb70565c749f22144626f050a6daab4af0071e6feb9
/-- The abscissa of the nonce point, as a number -/
def vec_xe257 : Nat := 0x2bb4388a63c91b747e8e6b515ac86907b869636e9c876d54d5b63281e990f4b9
/-- Its ordinate, as a number -/
def vec_ye257 : Nat := 0x107163eb98d2a60926989c17374b186b2370303cbb33178349f6e61b833d0d88e
/-- Its product with the digest, as a number -/
def vec_hv257 : Nat := 0x892c2d53e1f3721bedcd43c9b5a73f0c373dc2e3dfea290ad750d265e837776f

/-- `s431`  /repo/tests/dstu.cpp -/
def vecSig431 : List Byte :=
  [0x04, 0x6c, 0xc4, 0xe4, 0xf0, 0xb5, 0xea, 0xb8, 0xe7, 0xaa, 0xf4, 0x17, 0xa6, 0xb5, 0xd1, 0xd7, 0x4f, 0xe5,
    0x34, 0x81, 0x64, 0x50, 0xdf, 0x6d, 0xff, 0xd9, 0x37, 0x7d, 0xfc, 0xac, 0x5f, 0x25, 0x67, 0x6a, 0x11, 0x9e,
    0x5f, 0x70, 0x0f, 0x92, 0xc2, 0x7c, 0x80, 0x17, 0xb6, 0xb3, 0xe3, 0xc2, 0x05, 0xf2, 0x74, 0xd5, 0x4c, 0xd3,
    0x33, 0x00, 0xdd, 0x1e, 0xe8, 0x43, 0x63, 0x85, 0x69, 0xe1, 0x10, 0xe4, 0x15, 0xc4, 0x46, 0x0e, 0x4e, 0xb3,
    0x25, 0x8f, 0xcf, 0xa7, 0x50, 0x98, 0xa5, 0xce, 0xb5, 0xad, 0x35, 0xb8, 0xfd, 0x28, 0xd1, 0x21, 0x06, 0xb5,
    0x51, 0x14, 0x87, 0x43, 0x45, 0xef, 0x7d, 0xc1, 0xa1, 0x45, 0xa5, 0xbb, 0x1c, 0xcf, 0x27, 0x4b, 0x5d, 0x64,
    0x80, 0x11]
/-- The private key `d431`, as a number -/
def vec_d431 : Nat := 0x31131bec948dacbbafadbf9bb150b0b792df3224792a80f6761a0b03b3b82d118bc3c2271c04a04c2d9b3876c233860b190dccea0177
/-- The nonce `e431`, as a number -/
def vec_e431 : Nat := 0x457ce620e2b71100d87f7e1c23238aa3629ba52c6bab42c6a22db437815ccfeb9a447b02a8298e5260a7fa94a13c1822d885e8c5c69
/-- The abscissa of the nonce point, as a number -/
def vec_xe431 : Nat := 0x5d0343d090ef7981026c9fe35b312d6dcde4cfca67d359955fd6acdbf4546c1afda94bc184e966f40c45ec85d0b508fad9c652f85e45
/-- Its ordinate, as a number -/
def vec_ye431 : Nat := 0x50526b70e09aea4703833eea7727a70eabc9ffa20732220c195e66db9c8c6c378fa4b5fcac6fb98582ccb8cc153ae9fa223ed8d25fa0
/-- Its product with the digest, as a number -/
def vec_hv431 : Nat := 0x6033d34cd574f205c2e3b3b617807cc2920f705f9e116a67255facfc7d37d9ff6ddf50648134e54fd7d1b5a617f4aae7b8eab5f0e4c4

/-- What is evaluated for a vector: `k G = (x', y')`, `h x' = v`, and the numbers of the signature. -/
structure SignVector (g : EcGroup) (m : Nat) (ks : List Nat) (d e x' y' v : Nat) (tbs sig : List Byte) : Prop where
  mul : mulCheck m ks g.a g.b g.gx g.gy e x' y' (leValue tbs % 2 ^ m) v = true
  deg : fieldDegree g.p = m
  x_lt : x' < 2 ^ m
  y_lt : y' < 2 ^ m
  v_lt : v < 2 ^ m
  x_ne : x' ≠ 0
  e_ne : e ≠ 0
  e_lt : e < g.n
  digest : leValue tbs % 2 ^ m ≠ 0
  r_ne : v % 2 ^ g.n.log2 ≠ 0
  s_ne : (e + d * (v % 2 ^ g.n.log2)) % g.n ≠ 0
  fits : pkey_size g ≤ 256
  sig_eq : i2d_octet (bytesBE (numBytes g.n) ((e + d * (v % 2 ^ g.n.log2)) % g.n) ++
    bytesBE (numBytes g.n) (v % 2 ^ g.n.log2)).reverse = sig

theorem sign_vector {c : NamedCurve} {m : Nat} {ks : List Nat} (hc : EntryCheck c m ks) [hg : GoodGroup (entryGroup c m)]
    {d e x' y' v : Nat} {tbs sig : List Byte} (hv : SignVector (entryGroup c m) m ks d e x' y' v tbs sig)
    (pub : Option (entryGroup c m).Point) :
    dstu_pkey_sign .le (entryGroup c m) ⟨some d, pub⟩ true 256 tbs [some e] = .done ⟨true, sig.length, sig⟩ := by
  have hval := hg.valid
  have hp := goodGroup_p (entryGroup c m)
  have hpow : 0 < 2 ^ m := Nat.two_pow_pos m
  obtain ⟨⟨hns, hmul⟩, hprod⟩ := mulCheck_sound m ks hc.prime.pos hc.small hc.exps (entryGroup c m).p hc.poly
    (by have := hval.a_lt; rwa [hv.deg] at this) (by have := hval.b_lt; rwa [hv.deg] at this)
    (by have := hval.x_lt; rwa [hv.deg] at this) (by have := hval.y_lt; rwa [hv.deg] at this)
    hv.x_lt hv.y_lt (Nat.mod_lt _ hpow) hv.v_lt hv.e_ne hv.mul
    (binCurve_nonsingular (goodGroup_b (entryGroup c m)) hval.onCurve)
  have hh : digestElem (fieldDegree (entryGroup c m).p) tbs = leValue tbs % 2 ^ m := by
    rw [hv.deg, digestElem, if_neg hv.digest]
  have hr : elemToInt (entryGroup c m).n (GF.ofNat (entryGroup c m).p v) = v % 2 ^ (entryGroup c m).n.log2 := by
    rw [elemToInt, GF.toNat_ofNat _ (by omega) v (by rw [hv.deg]; exact hv.v_lt)]
  have hsg : Signs (entryGroup c m).gen (entryGroup c m).n d (digestElem (fieldDegree (entryGroup c m).p) tbs) e
      (v % 2 ^ (entryGroup c m).n.log2) ((e + d * (v % 2 ^ (entryGroup c m).n.log2)) % (entryGroup c m).n) := by
    refine ⟨⟨_, _, hns, hmul, ?_, ?_⟩, rfl, hv.r_ne, hv.s_ne⟩
    · intro h0
      have := GF.toNat_ofNat (entryGroup c m).p (by omega) x' (by rw [hv.deg]; exact hv.x_lt)
      rw [h0, GF.toNat_zero _ (by omega)] at this
      exact hv.x_ne this.symm
    · rw [hh, hprod, hr]
  have hne : tbs ≠ [] := by
    rintro rfl
    exact hv.digest (by simp [leValue])
  obtain ⟨h, _⟩ := C26_first_usable_nonce (⟨some d, pub⟩ : EcKey (entryGroup c m)) d rfl tbs
    ⟨hne, .inl (by rw [hv.deg]; exact hv.digest)⟩ [] e _ _ [] (by simp) hv.e_lt hsg
  have h' : dstu_do_sign (entryGroup c m) ⟨some d, pub⟩ tbs [some e] = _ := h
  have hl : (bytesBE (numBytes (entryGroup c m).n) ((e + d * (v % 2 ^ (entryGroup c m).n.log2)) % (entryGroup c m).n) ++
      bytesBE (numBytes (entryGroup c m).n) (v % 2 ^ (entryGroup c m).n.log2)).length = 2 * numBytes (entryGroup c m).n := by
    simp only [List.length_append, bytesBE_length]; omega
  unfold dstu_pkey_sign
  simp only [true_and, if_true, h']
  rw [← hl, reverse_bytes_eq]
  simp only [hv.sig_eq]
  rw [if_neg (by have := hv.fits; omega)]

/-- The table entry of the curve of degree 431. -/
def entry431x : NamedCurve := ⟨1158, [431, 5, 3, 1, 0, -1], data431⟩

theorem entry431x_check : EntryCheck entry431x 431 [5, 3, 1, 0] := entry431 1158

/-- Its group. -/
def g431 : EcGroup := entryGroup entry431x 431

instance instGoodGroup431 : GoodGroup g431 := ⟨by
  have := entry_valid entry431x_check
  unfold g431 entryGroup
  simpa only using this⟩

set_option maxRecDepth 20000 in
theorem vector163 : SignVector g163 163 [7, 6, 3, 0] vec_d163 vec_e163 vec_xe163 vec_ye163 vec_hv163 vecHash vecSig163 where
  mul := by decide +kernel
  deg := by decide +kernel
  x_lt := by decide +kernel
  y_lt := by decide +kernel
  v_lt := by decide +kernel
  x_ne := by decide +kernel
  e_ne := by decide +kernel
  e_lt := by decide +kernel
  digest := by decide +kernel
  r_ne := by decide +kernel
  s_ne := by decide +kernel
  fits := by decide +kernel
  sig_eq := by decide +kernel

/-- The signature of the test on the curve of degree 163, with the recorded private key and nonce. -/
example (pub : Option g163.Point) : dstu_pkey_sign .le g163 ⟨some vec_d163, pub⟩ true 256 vecHash [some vec_e163] =
    .done ⟨true, vecSig163.length, vecSig163⟩ :=
  @sign_vector entry163x 163 [7, 6, 3, 0] entry163x_check instGoodGroup163 _ _ _ _ _ _ _ vector163 pub

set_option maxRecDepth 20000 in
theorem vector257 : SignVector gEx 257 [12, 0] vec_d257 vec_e257 vec_xe257 vec_ye257 vec_hv257 vecHash vecSig257 where
  mul := by decide +kernel
  deg := by decide +kernel
  x_lt := by decide +kernel
  y_lt := by decide +kernel
  v_lt := by decide +kernel
  x_ne := by decide +kernel
  e_ne := by decide +kernel
  e_lt := by decide +kernel
  digest := by decide +kernel
  r_ne := by decide +kernel
  s_ne := by decide +kernel
  fits := by decide +kernel
  sig_eq := by decide +kernel

/-- The signature of the test on the curve of degree 257, with the recorded private key and nonce. -/
example (pub : Option gEx.Point) : dstu_pkey_sign .le gEx ⟨some vec_d257, pub⟩ true 256 vecHash [some vec_e257] =
    .done ⟨true, vecSig257.length, vecSig257⟩ :=
  @sign_vector entryEx 257 [12, 0] entryEx_check instGoodGroupEx _ _ _ _ _ _ _ vector257 pub

set_option maxRecDepth 20000 in
theorem vector431 : SignVector g431 431 [5, 3, 1, 0] vec_d431 vec_e431 vec_xe431 vec_ye431 vec_hv431 vecHash vecSig431 where
  mul := by decide +kernel
  deg := by decide +kernel
  x_lt := by decide +kernel
  y_lt := by decide +kernel
  v_lt := by decide +kernel
  x_ne := by decide +kernel
  e_ne := by decide +kernel
  e_lt := by decide +kernel
  digest := by decide +kernel
  r_ne := by decide +kernel
  s_ne := by decide +kernel
  fits := by decide +kernel
  sig_eq := by decide +kernel

/-- The signature of the test on the curve of degree 431, with the recorded private key and nonce. -/
example (pub : Option g431.Point) : dstu_pkey_sign .le g431 ⟨some vec_d431, pub⟩ true 256 vecHash [some vec_e431] =
    .done ⟨true, vecSig431.length, vecSig431⟩ :=
  @sign_vector entry431x 431 [5, 3, 1, 0] entry431x_check instGoodGroup431 _ _ _ _ _ _ _ vector431 pub

/-! ### Verification: /repo/tests/test.cpp:279-280 -/

theorem verify_vector {c : NamedCurve} {m : Nat} {ks : List Nat} (hc : EntryCheck c m ks) [hg : GoodGroup (entryGroup c m)]
    {d e x' y' v : Nat} {tbs sig : List Byte} (hv : SignVector (entryGroup c m) m ks d e x' y' v tbs sig) (dec : OctetDecoder)
    (hn : numBytes (entryGroup c m).n < 2 ^ 27) :
    dstu_pkey_verify dec .le (entryGroup c m) ⟨none, some (-(d • (entryGroup c m).gen))⟩ sig tbs = true :=
  C23_signature_verifies dec .le ⟨some d, none⟩ _ d rfl rfl hn tbs 256 [some e] (by simpa using hv.e_lt) _ (sign_vector hc hv none) rfl

/-- What is evaluated for a public key: `d G = (x', y')`, `z x' = y'`, and `z + 1 = w² + w + t`. -/
structure PubVector (g : EcGroup) (m : Nat) (ks : List Nat) (d x' y' z w : Nat) (t : Bool) (pub : List Byte) : Prop where
  mul : mulCheck m ks g.a g.b g.gx g.gy d x' y' z y' = true
  root : slotMul slotW m ks (slotMask slotW (2 * m)) (spread slotW m w) (spread slotW m w) ^^^ spread slotW m w ^^^ (if t then 1 else 0) =
    spread slotW m z ^^^ 1
  deg : fieldDegree g.p = m
  odd : m % 2 = 1
  x_lt : x' < 2 ^ m
  y_lt : y' < 2 ^ m
  z_lt : z < 2 ^ m
  w_lt : w < 2 ^ m
  x_ne : x' ≠ 0
  d_ne : d ≠ 0
  bytes_ne : (if t then setBit0 x' else clearBit0 x') ≠ 0
  bytes_eq : bytesBE g.fieldSize (if t then setBit0 x' else clearBit0 x') = pub.reverse

theorem pub_vector {c : NamedCurve} {m : Nat} {ks : List Nat} (hc : EntryCheck c m ks) [hg : GoodGroup (entryGroup c m)]
    {d x' y' z w : Nat} {t : Bool} {pub : List Byte} (hv : PubVector (entryGroup c m) m ks d x' y' z w t pub) (L : Nat)
    (hL : (entryGroup c m).fieldSize ≤ L) :
    dstu_point_compress (entryGroup c m) (affine (-(d • (entryGroup c m).gen))) L = (true, some pub.reverse) := by
  have hval := hg.valid
  have hp := goodGroup_p (entryGroup c m)
  have hone : trace (1 : GF (entryGroup c m).p) = 1 := trSum_one_odd _ (by rw [hv.deg]; exact hv.odd)
  obtain ⟨⟨hns, hmul⟩, hprod⟩ := mulCheck_sound m ks hc.prime.pos hc.small hc.exps (entryGroup c m).p hc.poly
    (by have := hval.a_lt; rwa [hv.deg] at this) (by have := hval.b_lt; rwa [hv.deg] at this)
    (by have := hval.x_lt; rwa [hv.deg] at this) (by have := hval.y_lt; rwa [hv.deg] at this)
    hv.x_lt hv.y_lt hv.z_lt hv.y_lt hv.d_ne hv.mul
    (binCurve_nonsingular (goodGroup_b (entryGroup c m)) hval.onCurve)
  have hmul' : d • (entryGroup c m).gen = Affine.Point.some _ _ hns := hmul
  have hroot : ∀ q, q = bitsOf (m :: ks) → GF.ofNat q w * GF.ofNat q w + GF.ofNat q w + (if t then 1 else 0) = GF.ofNat q z + 1 := by
    rintro q rfl
    have rm := slotRel_mul m ks hc.prime.pos hc.small hc.exps
    have ra := slotRel_add m ks
    have rw' := slotRel_spread m ks w hv.w_lt
    have rz := slotRel_spread m ks z hv.z_lt
    have r1 := slotRel_one m ks hc.prime.pos
    have r0 : SlotRel m ks (if t then 1 else 0) (if t then 1 else 0) := by
      cases t
      · exact ⟨SlotsLt.zero _ _, by simp [slotGF, slotPoly_zero]⟩
      · exact r1
    have r := ra _ _ _ _ (ra _ _ _ _ (rm _ _ _ _ rw' rw') rw') r0
    rw [hv.root] at r
    exact r.2.symm.trans (ra _ _ _ _ rz r1).2
  have hroot := hroot (entryGroup c m).p hc.poly
  have hX : GF.ofNat (entryGroup c m).p x' ≠ 0 := by
    intro h0
    have := GF.toNat_ofNat (entryGroup c m).p (by omega) x' (by rw [hv.deg]; exact hv.x_lt)
    rw [h0, GF.toNat_zero _ (by omega)] at this
    exact hv.x_ne this.symm
  have hneg : affine (-(d • (entryGroup c m).gen)) = some (x', GF.toNat (GF.ofNat (entryGroup c m).p x' + GF.ofNat (entryGroup c m).p y')) := by
    rw [hmul', Affine.Point.neg_some, affine, GF.toNat_ofNat _ (by omega) x' (by rw [hv.deg]; exact hv.x_lt), binCurve_negY]
  have htr : trace ((GF.ofNat (entryGroup c m).p x' + GF.ofNat (entryGroup c m).p y') * (GF.ofNat (entryGroup c m).p x')⁻¹) = if t then 1 else 0 := by
    have e : (GF.ofNat (entryGroup c m).p x' + GF.ofNat (entryGroup c m).p y') * (GF.ofNat (entryGroup c m).p x')⁻¹ =
        (GF.ofNat (entryGroup c m).p w ^ 2 + GF.ofNat (entryGroup c m).p w) + (if t then 1 else 0) := by
      rw [← hprod, sq, hroot]
      field_simp
      ring
    rw [e]
    have h1 := trSum_add (fieldDegree (entryGroup c m).p) (GF.ofNat (entryGroup c m).p w ^ 2 + GF.ofNat (entryGroup c m).p w) (if t then 1 else 0)
    have h2 := trSum_sq_add _ (GF.frobenius (entryGroup c m).p) (GF.ofNat (entryGroup c m).p w)
    refine h1.trans ?_
    rw [h2, zero_add]
    cases t
    · exact trSum_zero _
    · exact hone
  rw [hneg, compress_spec _ _ _ L hL (by rw [hv.deg]; exact hv.x_lt) hv.x_ne]
  have hcn : compressedNum (p := (entryGroup c m).p) x' (GF.toNat (GF.ofNat (entryGroup c m).p x' + GF.ofNat (entryGroup c m).p y')) =
      if t then setBit0 x' else clearBit0 x' := by
    rw [compressedNum, GF.ofNat_toNat _ (by omega), htr]
    cases t <;> simp
  rw [hcn, hv.bytes_eq, decide_eq_true hv.bytes_ne]

/-- The digest of `123456`, the message of the test (`VectorsHash.lean`) -/
def verDigest : List Byte :=
  [0x96, 0x48, 0xe3, 0x65, 0x0b, 0x97, 0x0d, 0x62, 0x39, 0xbc, 0x76, 0xcd, 0x4c, 0xa5, 0x94, 0x4c, 0x2c, 0x9c,
    0x27, 0x69, 0x24, 0x02, 0xf4, 0xd4, 0x87, 0x05, 0x88, 0x99, 0x2b, 0xe3, 0x7d, 0x5d]

/-- The signature  /repo/tests/test.cpp:279 -/
def verSig1 : List Byte :=
  [0x04, 0x40, 0x6d, 0x81, 0x5a, 0x1b, 0x1d, 0x5e, 0x82, 0x93, 0xb7, 0xca, 0xaa, 0x6f, 0x77, 0x38, 0xaa, 0xef,
    0x85, 0x3f, 0xa9, 0xa1, 0x10, 0xcf, 0x11, 0x29, 0x44, 0xee, 0x28, 0xcb, 0x0d, 0x8c, 0xf5, 0x69, 0x30, 0x10,
    0x2e, 0xe5, 0xb7, 0xbf, 0x04, 0xd7, 0xec, 0xe1, 0x1a, 0xf0, 0x0b, 0x5a, 0xe2, 0x4f, 0xce, 0xd4, 0xb3, 0xe8,
    0x5e, 0x22, 0x07, 0x2a, 0xab, 0xde, 0x91, 0xae, 0x50, 0x23, 0x92, 0x00]

/-- The compressed point in /repo/tests/public1.pem -/
def verPub1 : List Byte :=
  [0x0a, 0x9c, 0x68, 0xe5, 0xbf, 0x19, 0x31, 0x96, 0x27, 0x86, 0x28, 0xa4, 0xf6, 0x08, 0x40, 0xc9, 0x10, 0x43,
    0x73, 0xad, 0x22, 0x04, 0x5c, 0xe0, 0x56, 0xcc, 0xea, 0x52, 0x3e, 0xb5, 0xeb, 0x80, 0x01]

/-- The private key: the first one in /repo/tests/Key-6.dat -/
def ver_d1 : Nat := 0x177ff9c18963df182872093886405d0e91ec759fb1582050e44feba22f2e9277

/-- The nonce of the signature -/
def ver_e1 : Nat := 0x7b1d25dd9c427700aea420074ea3267c2caf854ab8b5b87081c0a24ac25c0e8a

def ver_xe1 : Nat := 0x100cb2c07fb10ff9f1d3dc541cb4ebb51a56dcdf362df9fbe51d68dce68723224
def ver_ye1 : Nat := 0x1dcf22da6f63f1a9d2868946ff70d6ca63edf73666756e70e8eb25d101d331d35
def ver_hv1 : Nat := 0x169f58c0dcb28ee442911cf10a1a93f85efaa38776faacab793825e1d1b5a816d
def ver_xd1 : Nat := 0x180ebb53e52eacc56e05c0422ad734310c94008f6a4288627963119bfe5689c0b
def ver_yd1 : Nat := 0xee40ee89cc0ddbd7e8c635925d93be9fa0d4ab8b4f7feb3160fea0f91384fef4
def ver_z1 : Nat := 0x677f304022ff7d185cce85e91445eb023a8187ca1985332e596250862f644f60
def ver_w1 : Nat := 0x1d8b232ef039eef23e7d293b4975a07f57b031945566f17af9063b821918365fd

set_option maxRecDepth 20000 in
theorem verVector1 : SignVector gEx 257 [12, 0] ver_d1 ver_e1 ver_xe1 ver_ye1 ver_hv1 verDigest verSig1 where
  mul := by decide +kernel
  deg := by decide +kernel
  x_lt := by decide +kernel
  y_lt := by decide +kernel
  v_lt := by decide +kernel
  x_ne := by decide +kernel
  e_ne := by decide +kernel
  e_lt := by decide +kernel
  digest := by decide +kernel
  r_ne := by decide +kernel
  s_ne := by decide +kernel
  fits := by decide +kernel
  sig_eq := by decide +kernel

set_option maxRecDepth 20000 in
theorem pubVector1 : PubVector gEx 257 [12, 0] ver_d1 ver_xd1 ver_yd1 ver_z1 ver_w1 false verPub1 where
  mul := by decide +kernel
  root := by decide +kernel
  deg := by decide +kernel
  odd := by decide +kernel
  x_lt := by decide +kernel
  y_lt := by decide +kernel
  z_lt := by decide +kernel
  w_lt := by decide +kernel
  x_ne := by decide +kernel
  d_ne := by decide +kernel
  bytes_ne := by decide +kernel
  bytes_eq := by decide +kernel

/-- The public key of the test belongs to the private key, and the recorded signature is accepted for it. -/
example (dec : OctetDecoder) : dstu_point_compress gEx (affine (-(ver_d1 • gEx.gen))) 33 = (true, some verPub1.reverse) ∧
    dstu_pkey_verify dec .le gEx ⟨none, some (-(ver_d1 • gEx.gen))⟩ verSig1 verDigest = true :=
  ⟨@pub_vector entryEx 257 [12, 0] entryEx_check instGoodGroupEx _ _ _ _ _ _ _ pubVector1 33 (by decide +kernel),
   @verify_vector entryEx 257 [12, 0] entryEx_check instGoodGroupEx _ _ _ _ _ _ _ verVector1 dec (by decide +kernel)⟩

/-- The signature  /repo/tests/test.cpp:280 -/
def verSig2 : List Byte :=
  [0x04, 0x6c, 0xd8, 0x45, 0xc0, 0x45, 0x96, 0xa4, 0x71, 0x1f, 0xd9, 0xe8, 0x34, 0xd7, 0x02, 0x22, 0x58, 0x88,
    0x58, 0xe5, 0x19, 0x68, 0x66, 0x8c, 0xa2, 0xaf, 0xc7, 0x12, 0xd6, 0x77, 0x88, 0xfc, 0xfb, 0x39, 0x73, 0xc9,
    0x28, 0xec, 0x1f, 0x78, 0xc2, 0xd0, 0xac, 0x55, 0xc0, 0x63, 0xdf, 0x14, 0x7d, 0xd1, 0x40, 0xb2, 0xdb, 0x0d,
    0x95, 0x1a, 0x31, 0x93, 0xec, 0x53, 0xb7, 0x3b, 0x9a, 0xcc, 0x88, 0x3d, 0x41, 0x9d, 0xf4, 0xd3, 0x65, 0xc2,
    0x81, 0x2f, 0x94, 0x2b, 0x1a, 0x1c, 0x2d, 0xa9, 0xda, 0x11, 0xbc, 0x22, 0x99, 0x38, 0x25, 0xa5, 0x14, 0xd6,
    0x57, 0x37, 0x00, 0x93, 0x05, 0xdc, 0xbf, 0xc2, 0xf0, 0x1f, 0x02, 0xd0, 0xad, 0x8e, 0xc9, 0xc9, 0x8f, 0x19,
    0xcf, 0x2d]

/-- The compressed point in /repo/tests/public2.pem -/
def verPub2 : List Byte :=
  [0xbf, 0xb8, 0xeb, 0xed, 0x46, 0xb8, 0x69, 0x4e, 0x59, 0x6b, 0xec, 0xb4, 0x48, 0x93, 0x17, 0xb4, 0xdc, 0xab,
    0x40, 0x28, 0x3b, 0x69, 0x4b, 0x79, 0xdd, 0x05, 0x5d, 0xdb, 0xa2, 0xff, 0x6d, 0xea, 0x11, 0x77, 0xd7, 0x50,
    0x4e, 0x7f, 0xc0, 0x15, 0x2d, 0x86, 0x58, 0x34, 0x2e, 0xb3, 0x1c, 0x0e, 0x6c, 0x9c, 0xb2, 0xec, 0xb2, 0x65]

/-- The private key: the second one in /repo/tests/Key-6.dat -/
def ver_d2 : Nat := 0x1f3acc124812fdcd8e334ff17fe912ef884d65a5daab8680f2ba0b731a89b2696235d1bf4e379a73cdcd4ea6c95450070f564d5a38b5

/-- The nonce of the signature -/
def ver_e2 : Nat := 0x5a02149f750cec5acde6a195d20000800ef9fe954bbad8a84ef8280eb9ad97c516164eb2c379a271f1300cdd3ce0364e4db2ff0ef23

def ver_xe2 : Nat := 0x34e99a42370a1244ed6cb86b04178db22dc10d9d5469148916aae33c5c7f1479264da6421b93f1e44dba6be6d1e12b21bc38fa93fcb5
def ver_ye2 : Nat := 0x46364d5640aebcddb044bcf14788429ac8a77a8b451274a7c4e7fe44d4813529069ef5e845d94e91e19724884f3e71811613e1ed6f8c
def ver_hv2 : Nat := 0x5a950ddbb240d17d14df63c055acd0c2781fec28c97339fbfc8877d612c7afa28c666819e55888582202d734e8d91f71a49645c045d8
def ver_xd2 : Nat := 0x65b2ecb29c6c0e1cb32e3458862d15c07f4e50d77711ea6dffa2db5d05dd794b693b2840abdcb4179348b4ec6b594e69b846edebb8bf
def ver_yd2 : Nat := 0x1b9b39852d7a9a384a24953cd339f8486e4130169804b184cab92733e0741918276f135f0e727cc84db801e4cebc678d8eac31da959
def ver_z2 : Nat := 0x2196071f9c42aea3472aac0744bf9f1c9cdc47e2d833889b212d81c3f358fb6002c2c2a914ca60f784edc4e9d274ea6070f11d0e79ea
def ver_w2 : Nat := 0x2c325c43bba6cead9de4742bb44612ef4a7fabc7a2529500fa08f4bbe111168e221fbc42d950d1c858b0a3e11512fb30cb6c599bd28c

set_option maxRecDepth 20000 in
theorem verVector2 : SignVector g431 431 [5, 3, 1, 0] ver_d2 ver_e2 ver_xe2 ver_ye2 ver_hv2 verDigest verSig2 where
  mul := by decide +kernel
  deg := by decide +kernel
  x_lt := by decide +kernel
  y_lt := by decide +kernel
  v_lt := by decide +kernel
  x_ne := by decide +kernel
  e_ne := by decide +kernel
  e_lt := by decide +kernel
  digest := by decide +kernel
  r_ne := by decide +kernel
  s_ne := by decide +kernel
  fits := by decide +kernel
  sig_eq := by decide +kernel

set_option maxRecDepth 20000 in
theorem pubVector2 : PubVector g431 431 [5, 3, 1, 0] ver_d2 ver_xd2 ver_yd2 ver_z2 ver_w2 true verPub2 where
  mul := by decide +kernel
  root := by decide +kernel
  deg := by decide +kernel
  odd := by decide +kernel
  x_lt := by decide +kernel
  y_lt := by decide +kernel
  z_lt := by decide +kernel
  w_lt := by decide +kernel
  x_ne := by decide +kernel
  d_ne := by decide +kernel
  bytes_ne := by decide +kernel
  bytes_eq := by decide +kernel

/-- The public key of the test belongs to the private key, and the recorded signature is accepted for it. -/
example (dec : OctetDecoder) : dstu_point_compress g431 (affine (-(ver_d2 • g431.gen))) 54 = (true, some verPub2.reverse) ∧
    dstu_pkey_verify dec .le g431 ⟨none, some (-(ver_d2 • g431.gen))⟩ verSig2 verDigest = true :=
  ⟨@pub_vector entry431x 431 [5, 3, 1, 0] entry431x_check instGoodGroup431 _ _ _ _ _ _ _ pubVector2 54 (by decide +kernel),
   @verify_vector entry431x 431 [5, 3, 1, 0] entry431x_check instGoodGroup431 _ _ _ _ _ _ _ verVector2 dec (by decide +kernel)⟩

end Dstu.Props
