import Verif.Props.Sign
import Verif.Lemmas.Draws

/-! A small curve and a seeded generator, for the examples on random numbers: the curve `y² + x y = x³ + x² + t` over the field of 32 elements, a point of order 17 on it, and a seed
with which the first number drawn is 1. -/

namespace Dstu.Props

open Spec WeierstrassCurve

/-- Degree 5, `a = 1`, `b = 2`, order 17, base point `(3, 25)`. -/
def entryTiny : NamedCurve := ⟨0, [5, 2, 0, -1, 0, 0], [1, 2, 17, 3, 25]⟩

theorem entryTiny_check : EntryCheck entryTiny 5 [2, 0] where
  prime := by norm_num
  small := by decide
  exps := by decide
  head := rfl
  poly := by decide +kernel
  log2 := by decide +kernel
  weight := by decide +kernel
  length := by decide +kernel
  eval0 := by decide +kernel
  eval1 := by decide +kernel
  frob := by decide +kernel
  b_lt := by decide +kernel
  x_lt := by decide +kernel
  y_lt := by decide +kernel
  b_ne := by decide +kernel
  n_gt := by decide +kernel
  curve := by decide +kernel

/-- Its group. -/
def gTiny : EcGroup := entryGroup entryTiny 5

instance instGoodGroupTiny : GoodGroup gTiny := ⟨by
  have := entry_valid entryTiny_check
  unfold gTiny entryGroup
  simpa only using this⟩

theorem gTiny_numbers : gTiny.n = 17 ∧ gTiny.p = 37 ∧ gTiny.gx = 3 ∧ gTiny.degree = 5 := by decide +kernel

/-- A key pair with the private key 5. -/
noncomputable def keyTiny : EcKey gTiny := ⟨some 5, some (-(5 • gTiny.gen))⟩

/-- A seed: the bytes 7, ..., 46. -/
def envTiny : RandEnv := ⟨true, some (Vector.ofFn fun i => BitVec.ofNat 8 (7 + i.val)), Vector.replicate 8 0⟩

/-- The generator seeded with it. -/
def stTiny : RbgState := ⟨(dstu_rbg_init envTiny .boot).2, .live⟩

theorem stTiny_initialized : stTiny.rbg.initialized = true := rfl

theorem stTiny_holds : stTiny.rbg.Holds (RbgSeed.ofSeed (Vector.ofFn fun i => BitVec.ofNat 8 (7 + i.val)) (Vector.replicate 8 0)) (8 * 0) := by
  obtain ⟨m, h1, h2⟩ := init_holds envTiny .boot _ rfl
  rw [ofSeed_eq] at h2
  unfold stTiny
  rw [h1]
  exact h2

/-- The first number is 1. -/
theorem drawsTiny : (draws true envTiny 17 1 stTiny).map (·.1) = some [some 1] := by decide +kernel

theorem signsTiny (h r s : Nat) (hr : GF.toNat (GF.ofNat gTiny.p h * GF.ofNat gTiny.p gTiny.gx) % 2 ^ gTiny.n.log2 = r) (hs : (1 + 5 * r) % 17 = s) (hr0 : r ≠ 0) (hs0 : s ≠ 0) :
    Signs gTiny.gen gTiny.n 5 h 1 r s := by
  obtain ⟨hn, hp, hx, _⟩ := gTiny_numbers
  refine ⟨⟨_, _, binCurve_nonsingular (goodGroup_b gTiny) instGoodGroupTiny.valid.onCurve, ?_, ?_, hr.symm⟩, by rw [hn, hs], hr0, hs0⟩
  · rw [one_nsmul]; rfl
  · intro h0
    have hx' := GF.toNat_ofNat gTiny.p (by rw [hp]; decide) gTiny.gx instGoodGroupTiny.valid.x_lt
    rw [h0, GF.toNat_zero gTiny.p (by rw [hp]; decide), hx] at hx'
    cases hx'

/-- The signatures of the digests `01` and `02` with nonce 1: `r = 3`, `s = 16` and `r = 6`, `s = 14`. -/
theorem signTiny (rs : List (Option Nat)) : dstu_do_sign gTiny keyTiny [1] (some 1 :: rs) = .done [16, 3] ∧ dstu_do_sign gTiny keyTiny [2] (some 1 :: rs) = .done [14, 6] := by
  obtain ⟨hn, hp, hx, hdeg⟩ := gTiny_numbers
  have hlog : gTiny.n.log2 = 4 := by rw [hn]; decide
  have hB : numBytes gTiny.n = 1 := by rw [hn]; decide
  have go : ∀ (tbs : List Byte) (h r s : Nat), hash_to_field tbs 5 = some h → Signs gTiny.gen gTiny.n 5 h 1 r s → r < 17 → s < 17 →
      dstu_do_sign gTiny keyTiny tbs (some 1 :: rs) = .done (bytesBE 1 s ++ bytesBE 1 r) := by
    intro tbs h r s hh hS hr hs
    have hst := (signStep_done 5 h 1 r s (by rw [hn]; decide)).mpr hS
    have := do_sign_of_loop keyTiny tbs (some 1 :: rs) 5 h r s rfl (by rw [hdeg]; exact hh) (by rw [signLoop, hst]) hS.2.2.1 (by rw [hn]; exact hr) hS.2.2.2
      (by rw [hn]; exact hs)
    rwa [hB] at this
  have h1 : GF.toNat (GF.ofNat gTiny.p 1 * GF.ofNat gTiny.p gTiny.gx) % 2 ^ gTiny.n.log2 = 3 := by
    rw [GF.ofNat_one, one_mul, GF.toNat_ofNat _ (by rw [hp]; decide) _ instGoodGroupTiny.valid.x_lt, hx, hlog]
    decide
  have h2 : GF.toNat (GF.ofNat gTiny.p 2 * GF.ofNat gTiny.p gTiny.gx) % 2 ^ gTiny.n.log2 = 6 := by
    have e2 : bitPoly 2 = Polynomial.X ^ 1 := bitPoly_two_pow 1
    have e4 : bitPoly 4 = Polynomial.X ^ 2 := bitPoly_two_pow 2
    have e : bitPoly 2 * bitPoly 3 = bitPoly 6 := by
      rw [show (3 : Nat) = 2 ^^^ 1 by decide, show (6 : Nat) = 4 ^^^ 2 by decide, bitPoly_xor, bitPoly_xor, bitPoly_one, e2, e4]
      ring
    have e6 : GF.ofNat gTiny.p 2 * GF.ofNat gTiny.p 3 = GF.ofNat gTiny.p 6 := by
      rw [GF.ofNat, GF.ofNat, GF.ofNat, ← map_mul, e]
    rw [hx, e6, GF.toNat_ofNat _ (by rw [hp]; decide) _ (by rw [hp]; decide), hlog]
    decide
  exact ⟨go [1] 1 3 16 (by decide) (signsTiny 1 3 16 h1 (by decide) (by decide) (by decide)) (by decide) (by decide),
    go [2] 2 6 14 (by decide) (signsTiny 2 6 14 h2 (by decide) (by decide) (by decide)) (by decide) (by decide)⟩

theorem gTiny_prime : gTiny.n.Prime := by rw [gTiny_numbers.1]; norm_num

theorem drawnTiny : ∃ st', draws true envTiny gTiny.n 1 stTiny = some ([some 1], st') := by
  have h := drawsTiny
  rw [gTiny_numbers.1]
  cases hd : draws true envTiny 17 1 stTiny with
  | none => rw [hd] at h; cases h
  | some p =>
    rw [hd, Option.map_some, Option.some.injEq] at h
    exact ⟨p.2, by rw [← h]⟩

/-- The seeded generator signs both digests with the first number it draws. -/
theorem drawingTiny : signDrawing true envTiny gTiny keyTiny [1] 0 stTiny = some .waiting ∧ signDrawing true envTiny gTiny keyTiny [2] 0 stTiny = some .waiting ∧
    signDrawing true envTiny gTiny keyTiny [1] 1 stTiny = some (.done [16, 3]) ∧ signDrawing true envTiny gTiny keyTiny [2] 1 stTiny = some (.done [14, 6]) := by
  obtain ⟨st', h⟩ := drawnTiny
  obtain ⟨s1, s2⟩ := signTiny []
  have hw : ∀ tbs hv, hash_to_field tbs 5 = some hv → dstu_do_sign gTiny keyTiny tbs [] = .waiting := by
    intro tbs hv hh
    unfold dstu_do_sign
    simp only [keyTiny, gTiny_numbers.2.2.2, hh, signLoop]
  have h0 : draws true envTiny gTiny.n 0 stTiny = some ([], stTiny) := rfl
  unfold signDrawing
  simp only [h, h0, Option.map_some, s1, s2, hw [1] 1 (by decide), hw [2] 2 (by decide), and_self]

/-- The seeded generator makes a key pair with the first number it draws. -/
theorem generatingTiny (key : EcKey gTiny) : generateDrawing true envTiny gTiny key 0 stTiny = some .waiting ∧
    generateDrawing true envTiny gTiny key 1 stTiny = some (.done ⟨some 1, some (-(1 • gTiny.gen))⟩) := by
  obtain ⟨st', h⟩ := drawnTiny
  have h0 : draws true envTiny gTiny.n 0 stTiny = some ([], stTiny) := rfl
  unfold generateDrawing
  simp only [h, h0, Option.map_some, dstu_generate_key, genLoop, one_ne_zero, if_false, dstu_add_public_key, Option.bind_eq_bind, Option.bind_some, Option.pure_def,
    ec_mul, add_zero, and_self]

end Dstu.Props
