import Verif.Lemmas.Dke1
import Verif.Props.Hash
import Verif.Props.Cipher
import Verif.Props.Key

/-! Property C91: what is used when no S-box is given. -/

namespace Dstu.Props

open Dstu.Spec

/-- C91: the 64 bytes with the meaning of the table DKE No. 1 are the default S-box and no others. -/
theorem C91_bytes (p : Bytes 64) : tableOf p = dke1 ↔ p = default_sbox := by
  constructor
  · intro h
    apply Vector.ext
    intro i hi
    rw [← tableOf_default] at h
    have key : ∀ (r : Fin 8) (k : Fin 8), p[8 * r.val + k.val] = default_sbox[8 * r.val + k.val] := by
      intro r k
      have e1 := congrFun (congrFun h r) (BitVec.ofNat 4 (2 * k.val))
      have e2 := congrFun (congrFun h r) (BitVec.ofNat 4 (2 * k.val + 1))
      have a1 : (BitVec.ofNat 4 (2 * k.val)).toNat = 2 * k.val := by rw [BitVec.toNat_ofNat]; omega
      have a2 : (BitVec.ofNat 4 (2 * k.val + 1)).toNat = 2 * k.val + 1 := by rw [BitVec.toNat_ofNat]; omega
      simp only [tableOf, a1, a2, show 2 * k.val % 2 = 0 by omega, show (2 * k.val + 1) % 2 = 1 by omega, show 2 * k.val / 2 = k.val by omega,
        show (2 * k.val + 1) / 2 = k.val by omega, if_true, one_ne_zero, if_false] at e1 e2
      generalize p[8 * r.val + k.val] = x at e1 e2 ⊢
      generalize default_sbox[8 * r.val + k.val] = y at e1 e2 ⊢
      apply BitVec.eq_of_toNat_eq
      have e1 := congrArg BitVec.toNat e1
      have e2 := congrArg BitVec.toNat e2
      simp only [BitVec.extractLsb'_toNat, Nat.shiftRight_eq_div_pow] at e1 e2
      have := x.isLt
      have := y.isLt
      omega
    have hk := key ⟨i / 8, by omega⟩ ⟨i % 8, by omega⟩
    have e : 8 * (i / 8) + i % 8 = i := by omega
    simp only [e] at hk
    exact hk
  · rintro rfl
    exact tableOf_default

/-- C91: every row of the table is a permutation of the sixteen nibbles. -/
theorem C91_permutations (r : Fin 8) : Function.Bijective (dke1 r) := by
  have h : ∀ (r : Fin 8) (i j : Fin 16), dke1 r (BitVec.ofFin i) = dke1 r (BitVec.ofFin j) → i = j := by decide +kernel
  have inj : Function.Injective (dke1 r) := by
    intro a b hab
    have := h r a.toFin b.toFin hab
    exact BitVec.eq_of_toFin_eq this
  refine ⟨inj, ?_⟩
  have inj' : Function.Injective fun i : Fin 16 => (dke1 r (BitVec.ofFin i)).toFin := by
    intro i j hij
    exact h r i j (BitVec.eq_of_toFin_eq hij)
  intro y
  obtain ⟨i, hi⟩ := Finite.surjective_of_injective inj' y.toFin
  exact ⟨BitVec.ofFin i, BitVec.eq_of_toFin_eq hi⟩

/-- C91: a digest started without the S-box of a key, after any history and with any cuts, is the hash with DKE No. 1. -/
theorem C91_digest (hist : List DigestOp) (h0 : MdHeap) (hr : MdHeap.empty.run hist = some h0) (i : Nat) (hi : h0 i ≠ none) (chunks : List (List Byte))
    (hl : chunks.flatten.length < 2 ^ 60) :
    ∃ h, h0.run (.init i none :: chunks.map (.update i)) = some h ∧ h.digest i = some (gost34311 dke1 chunks.flatten) := by
  have := C17_digest hist h0 hr i hi none chunks hl
  rwa [show (none : Option (Bytes 64)).getD default_sbox = default_sbox from rfl, tableOf_default] at this

/-- C91: encryption with a cipher context whose S-box was not set is CFB encryption with DKE No. 1. -/
theorem C91_cipher (ctx : CipherCtx) (he : ctx.encrypting = true) (rnd : Vector W32 8) (key : Bytes 32) (iv : Bytes 8) (m : List Byte)
    (chunks : List (List Byte)) (hc : Cuts chunks m) :
    ∃ ctx', feed (dstu_cipher_init ctx rnd (some key) (some iv)) chunks = some (cfbEncrypt (encrypt dke1 key) iv m, ctx') := by
  have := C06_cfb_encrypt ctx he rnd key iv m chunks hc
  rwa [tableOf_default] at this

/-- C91: a key without an S-box and a key with the bytes of DKE No. 1 have the same effective S-box, and no other bytes have. -/
theorem C91_key (s : Option (Bytes 64)) : tableOf (effectiveSbox s) = dke1 ↔ s = none ∨ ∃ p, s = some p ∧ tableOf p = dke1 := by
  cases s with
  | none => simp [effectiveSbox, tableOf_default]
  | some p => simp [effectiveSbox]

/-- The table is met: the second row takes 0 to 8 and 15 to 13; the zero bytes are another table. -/
example : dke1 1 0 = 8 ∧ dke1 1 15 = 13 ∧ tableOf (Vector.replicate 64 0) ≠ dke1 := by
  refine ⟨rfl, rfl, fun h => ?_⟩
  have := congrFun (congrFun h 0) 0
  revert this
  decide +kernel

example : ∃ h, (MdHeap.empty.run [.new 0]).bind (fun h0 => h0.run (.init 0 none :: [[1, 2], [3]].map (.update 0))) = some h ∧
    h.digest 0 = some (gost34311 dke1 [1, 2, 3]) := by
  obtain ⟨h, h1, h2⟩ := C91_digest [.new 0] _ rfl 0 (by simp [MdHeap.put]) [[1, 2], [3]] (by decide)
  exact ⟨h, h1, h2⟩

example := C91_cipher (blankCtx true) rfl demoMask demoKey demoIv [0x31, 0x32, 0x33] [[0x31], [0x32, 0x33]] ⟨by decide, by decide⟩

end Dstu.Props
