import Verif.Lemmas.Gost89
import Verif.Spec.ParamSets

/-!
# Properties C01-C05 and C15: the GOST 28147-89 block cipher and its S-boxes
-/

namespace Dstu.Props

open Dstu

/-- A concrete context used to show that hypotheses are satisfiable: default S-box, the key
`0, 1, ..., 31`, a non-zero mask. -/
def demoKey : Bytes 32 := Vector.ofFn fun i => BitVec.ofNat 8 i.val
def demoMask : Vector W32 8 := Vector.ofFn fun i => BitVec.ofNat 32 (0x9e3779b9 * (i.val + 1))
def emptyCtx : GostCtx := ⟨Vector.replicate 8 0, Vector.replicate 8 0, fun _ => 0, fun _ => 0,
  fun _ => 0, fun _ => 0⟩
def demoCtx : GostCtx :=
  gost_key (gost_init emptyCtx (some (unpack_sbox default_sbox))) demoMask demoKey

/-! ## C01 -/

/-- A block of text. -/
def demoBlock : Bytes 8 := Vector.ofFn fun i => BitVec.ofNat 8 (17 * i.val)

/-- C01: decryption undoes encryption and encryption undoes decryption, for every context, that is
for all tables, all key words and all mask words. -/
theorem C01_block_inverse (c : GostCtx) (blk : Bytes 8) :
    gostdecrypt c (gostcrypt c blk) = blk ∧ gostcrypt c (gostdecrypt c blk) = blk :=
  ⟨decrypt_encrypt c blk, encrypt_decrypt c blk⟩

/-- C01, injectivity form: no two blocks have the same ciphertext. -/
theorem C01_block_injective (c : GostCtx) (u v : Bytes 8) (h : gostcrypt c u = gostcrypt c v) :
    u = v := by
  rw [← decrypt_encrypt c u, h, decrypt_encrypt]

example (v : Bytes 8) (h : gostcrypt demoCtx demoBlock = gostcrypt demoCtx v) : v = demoBlock := (C01_block_injective demoCtx _ _ h).symm

/-! ## C02 -/

/-- C02: with nibble tables `S` loaded by `gost_init` and a key loaded by `gost_key`, the block
functions are GOST 28147-89 encryption and decryption under that key and those tables. -/
theorem C02_block_is_gost28147 (c : GostCtx) (b : SubstBlock) (S : Fin 8 → BitVec 4 → BitVec 4)
    (hb : b.Holds S) (rnd : Vector W32 8) (k : Bytes 32) (blk : Bytes 8) :
    gostcrypt (gost_key (gost_init c (some b)) rnd k) blk = Spec.encrypt S k blk ∧
    gostdecrypt (gost_key (gost_init c (some b)) rnd k) blk = Spec.decrypt S k blk := by
  have ht : (gost_key (gost_init c (some b)) rnd k).Tables S :=
    tables_gost_key _ _ _ _ (kboxinit_tables c b S hb)
  rw [gostcrypt_spec _ S ht, gostdecrypt_spec _ S ht, keys_gost_key]
  exact ⟨rfl, rfl⟩

example : gostcrypt demoCtx demoBlock = Spec.encrypt (Spec.tableOf default_sbox) demoKey demoBlock :=
  (C02_block_is_gost28147 emptyCtx _ _ (unpack_holds default_sbox) demoMask demoKey demoBlock).1

/-- C02 for an S-box given as 64 packed bytes: no hypothesis is left. -/
theorem C02_block_is_gost28147_packed (c : GostCtx) (p : Bytes 64) (rnd : Vector W32 8)
    (k : Bytes 32) (blk : Bytes 8) :
    gostcrypt (gost_key (gost_init c (some (unpack_sbox p))) rnd k) blk =
      Spec.encrypt (Spec.tableOf p) k blk ∧
    gostdecrypt (gost_key (gost_init c (some (unpack_sbox p))) rnd k) blk =
      Spec.decrypt (Spec.tableOf p) k blk :=
  C02_block_is_gost28147 c _ _ (unpack_holds p) rnd k blk

/-- C02: `gost_init` with a null pointer uses the table of the examples of GOST R 34.11-94. -/
theorem C02_default (c : GostCtx) (rnd : Vector W32 8) (k : Bytes 32) (blk : Bytes 8) :
    gostcrypt (gost_key (gost_init c none) rnd k) blk = Spec.encrypt (Spec.tableOfRows Spec.hashTestRows) k blk ∧
    gostdecrypt (gost_key (gost_init c none) rnd k) blk = Spec.decrypt (Spec.tableOfRows Spec.hashTestRows) k blk := by
  have h : GostR3411_94_TestParamSet.Holds (Spec.tableOfRows Spec.hashTestRows) := by
    constructor <;> decide +kernel
  exact C02_block_is_gost28147 c _ _ h rnd k blk

/-- The hypothesis of `C02_block_is_gost28147` is met by the default DSTU S-box, which is not
trivial: its first row is a permutation different from the identity. -/
example : (unpack_sbox default_sbox).Holds (Spec.tableOf default_sbox) ∧
    (unpack_sbox default_sbox).k1 0 = 0xa ∧ (unpack_sbox default_sbox).k8 15 = 0x4 :=
  ⟨unpack_holds _, by decide, by decide⟩

/-! ## C03 -/

/-- C03: whatever the random generator leaves in the mask, encryption, decryption and MAC are those
of the unmasked key; in particular they are the same for any two masks.  No hypothesis is made on
the tables of `c`, on `rnd` or on the old contents of the key and mask. -/
theorem C03_mask_unobservable (c : GostCtx) (rnd : Vector W32 8) (k : Bytes 32) :
    (∀ blk, gostcrypt (gost_key c rnd k) blk = gostcrypt (gost_key_nomask c k) blk) ∧
    (∀ blk, gostdecrypt (gost_key c rnd k) blk = gostdecrypt (gost_key_nomask c k) blk) ∧
    (∀ iv bits data, gost_mac_iv (gost_key c rnd k) bits iv data =
      gost_mac_iv (gost_key_nomask c k) bits iv data) := by
  refine ⟨fun b => congrFun (gostcrypt_mask c rnd _ k) b,
    fun b => congrFun (gostdecrypt_mask c rnd _ k) b, fun iv bits data => ?_⟩
  have hm : mac_block (gost_key c rnd k) = mac_block (gost_key_nomask c k) :=
    mac_block_mask c rnd _ k
  have hl : ∀ buf i, macLoop (gost_key c rnd k) data buf i =
      macLoop (gost_key_nomask c k) data buf i := by
    intro buf i
    induction buf, i using macLoop.induct (gost_key c rnd k) data with
    | case1 buf i h1 h2 ih =>
      rw [macLoop, macLoop]
      simp only [hm] at ih
      simp only [h1, h2, if_true, dite_true, ih, hm]
    | case2 buf i h1 h2 =>
      rw [macLoop, macLoop]; simp only [h1, h2, if_true, dite_false]
    | case3 buf i h1 =>
      rw [macLoop, macLoop]; simp only [h1, if_false]
  simp only [gost_mac_iv, hl, hm]

/-- The mask of `demoCtx` is not zero, so the stored key words differ from the key. -/
example : demoCtx.mask[0] ≠ 0 ∧ demoCtx.key[0] ≠ Spec.word 0 1 2 3 := by decide +kernel

/-! ## C04 -/

/-- C04: reading back a loaded key returns it, for both byte orders and every mask, and the Magma
loader is the GOST loader applied to the key with each 4-byte group reversed. -/
theorem C04_key_readback (c : GostCtx) (rnd : Vector W32 8) (k : Bytes 32) :
    gost_get_key (gost_key c rnd k) = k ∧
    gost_get_key (gost_key_nomask c k) = k ∧
    magma_get_key (magma_key c rnd k) = k ∧
    magma_key c rnd k =
      gost_key c rnd (Vector.ofFn fun q : Fin 32 => k[4 * (q.val / 4) + (3 - q.val % 4)]) := by
  refine ⟨get_key_gost_key c rnd k, get_key_gost_key c (Vector.replicate 8 0) k,
    get_key_magma_key c rnd k, ?_⟩
  simp only [magma_key, gost_key, gost_key_impl, GostCtx.mk.injEq, and_true]
  apply Vector.ext
  intro i hi
  simp only [Vector.getElem_ofFn, Fin.getElem_fin]
  congr 1
  · have e0 : (4 * i) / 4 = i := by omega
    have e1 : (4 * i + 1) / 4 = i := by omega
    have e2 : (4 * i + 2) / 4 = i := by omega
    have e3 : (4 * i + 3) / 4 = i := by omega
    have f0 : (4 * i) % 4 = 0 := by omega
    have f1 : (4 * i + 1) % 4 = 1 := by omega
    have f2 : (4 * i + 2) % 4 = 2 := by omega
    have f3 : (4 * i + 3) % 4 = 3 := by omega
    simp only [e0, e1, e2, e3, f0, f1, f2, f3]
    rfl

/-! ## C05 -/

/-- C05: ECB over `bs.length` blocks encrypts each block separately, in order, and does not look at
what follows; decryption of the result returns the original blocks. -/
theorem C05_ecb (c : GostCtx) (bs : List (Bytes 8)) (rest : List Byte) :
    gost_enc c (bs.flatMap Vector.toList ++ rest) bs.length =
      some ((bs.map (gostcrypt c)).flatMap Vector.toList) ∧
    gost_dec c ((bs.map (gostcrypt c)).flatMap Vector.toList ++ rest) bs.length =
      some (bs.flatMap Vector.toList) := by
  constructor
  · rw [gost_enc_blocks, List.flatMap_map]
  · have := gost_dec_blocks c (bs.map (gostcrypt c)) rest
    rw [List.length_map] at this
    rw [this, List.flatMap_map]
    simp only [decrypt_encrypt]

/-- C05: the ECB functions read past the end of the input exactly when the caller asks for more
blocks than it supplied. -/
theorem C05_ecb_bounds (c : GostCtx) (l : List Byte) (n : Nat) :
    (gost_enc c l n = none ↔ l.length < 8 * n) ∧ (gost_dec c l n = none ↔ l.length < 8 * n) := by
  induction n generalizing l with
  | zero => simp [gost_enc, gost_dec]
  | succ n ih =>
    simp only [gost_enc, gost_dec]
    by_cases h : 8 ≤ l.length
    · simp [h, ih]; omega
    · simp [h]; omega

/-! ## C15 -/

/-- C15: packing an unpacked S-box is the identity, unpacking a packed block of nibble tables is
the identity, and the S-box extracted from a context initialised with nibble tables is the one it
was initialised with — whatever key is loaded afterwards. -/
theorem C15_sbox_roundtrip :
    (∀ p : Bytes 64, pack_sbox (unpack_sbox p) = p) ∧
    (∀ (b : SubstBlock) (S), b.Holds S → unpack_sbox (pack_sbox b) = b) ∧
    (∀ (c : GostCtx) (b : SubstBlock) (S) (rnd : Vector W32 8) (k : Bytes 32), b.Holds S →
      dstu_get_sbox (gost_key (gost_init c (some b)) rnd k) = b) := by
  refine ⟨pack_unpack, fun b S h => ?_, fun c b S rnd k h => ?_⟩
  · exact holds_inj _ _ S (by rw [← tableOf_pack b S h]; exact unpack_holds _) h
  · exact holds_inj _ _ S (get_sbox_holds c b S h) h

/-- C15: the packed form determines the substitution tables: equal cipher tables come from equal
packed S-boxes. -/
theorem C15_sbox_injective (p q : Bytes 64) (h : unpack_sbox p = unpack_sbox q) : p = q := by
  rw [← pack_unpack p, h, pack_unpack]

example (q : Bytes 64) (h : unpack_sbox default_sbox = unpack_sbox q) : q = default_sbox := (C15_sbox_injective _ _ h).symm

example : pack_sbox (unpack_sbox default_sbox) = default_sbox ∧ default_sbox[0] = 0xa9 :=
  ⟨C15_sbox_roundtrip.1 _, rfl⟩

end Dstu.Props
