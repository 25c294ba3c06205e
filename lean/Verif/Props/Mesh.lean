import Verif.Props.BlockCipher
import Verif.Spec.Mesh

/-! # Property C73: key meshing -/

namespace Dstu.Props

open Dstu

/-- The effective subkeys determine what `gost_get_key` reads, and the other way round. -/
theorem keys_get_key (c : GostCtx) : c.keys = Spec.subkeys (gost_get_key c) := by
  simp only [GostCtx.keys, Spec.subkeys, gost_get_key, Vector.getElem_ofFn, byteOf_eq]
  simp only [List.cons.injEq, and_true]
  exact ⟨(word_octet _).symm, (word_octet _).symm, (word_octet _).symm, (word_octet _).symm, (word_octet _).symm,
    (word_octet _).symm, (word_octet _).symm, (word_octet _).symm⟩

theorem gostcrypt_get_key (c : GostCtx) (S) (h : c.Tables S) (b : Bytes 8) : gostcrypt c b = Spec.encrypt S (gost_get_key c) b := by
  rw [gostcrypt_spec c S h, keys_get_key]; rfl

theorem gostdecrypt_get_key (c : GostCtx) (S) (h : c.Tables S) (b : Bytes 8) : gostdecrypt c b = Spec.decrypt S (gost_get_key c) b := by
  rw [gostdecrypt_spec c S h, keys_get_key]; rfl

theorem gost_get_key_magma (c : GostCtx) : gost_get_key c = Spec.magmaToGost (magma_get_key c) := by
  apply Vector.ext
  intro q hq
  simp only [gost_get_key, Spec.magmaToGost, magma_get_key, Vector.getElem_ofFn]
  have e1 : (4 * (q / 4) + (3 - q % 4)) / 4 = q / 4 := by omega
  have e2 : 3 - (4 * (q / 4) + (3 - q % 4)) % 4 = q % 4 := by omega
  simp only [e1, e2]

theorem magma_get_key_gost (c : GostCtx) : magma_get_key c = Spec.magmaToGost (gost_get_key c) := by
  apply Vector.ext
  intro q hq
  simp only [gost_get_key, Spec.magmaToGost, magma_get_key, Vector.getElem_ofFn]
  have e1 : (4 * (q / 4) + (3 - q % 4)) / 4 = q / 4 := by omega
  have e2 : (4 * (q / 4) + (3 - q % 4)) % 4 = 3 - q % 4 := by omega
  simp only [e1, e2]

theorem meshedKey_eq (c : GostCtx) (S) (h : c.Tables S) : meshedKey c = Spec.cryptoProKey S (gost_get_key c) := by
  apply Vector.ext
  intro q hq
  simp only [meshedKey, Spec.cryptoProKey, Spec.joined, Vector.getElem_ofFn]
  rw [gostdecrypt_get_key c S h]
  rfl

theorem magmaToGost_get (k : Bytes 32) (q : Nat) (hq : q < 32) : (Spec.magmaToGost k)[q] = k[4 * (q / 4) + (3 - q % 4)] := by
  simp only [Spec.magmaToGost, Vector.getElem_ofFn]

theorem swapped_halves (b : Fin 4 → Bytes 8) :
    Spec.magmaToGost (Vector.ofFn fun q : Fin 32 => (b ⟨q.val / 8, by omega⟩)[(q.val + 4) % 8]) = Spec.joined fun i => (b i).reverse := by
  apply Vector.ext
  intro q hq
  rw [magmaToGost_get]
  simp only [Spec.joined, Vector.getElem_ofFn, Vector.getElem_reverse]
  have e1 : (4 * (q / 4) + (3 - q % 4)) / 8 = q / 8 := by omega
  have e2 : (4 * (q / 4) + (3 - q % 4) + 4) % 8 = 8 - 1 - q % 8 := by omega
  simp only [e1, e2]

theorem acpkm_const (i : Nat) (hi : i < 32) : ACPKM_D_const[i] = BitVec.ofNat 8 (0x80 + i) := by
  have : ∀ i (hi : i < 32), ACPKM_D_const[i] = BitVec.ofNat 8 (0x80 + i) := by decide +kernel
  exact this i hi

theorem acpkm_block (i : Fin 4) :
    (Vector.ofFn fun j : Fin 8 => ACPKM_D_const[8 * i.val + 7 - j.val]) = (Spec.block Spec.acpkmD i).reverse := by
  apply Vector.ext
  intro j hj
  simp only [Vector.getElem_reverse, Vector.getElem_ofFn, Spec.block, Spec.acpkmD]
  rw [acpkm_const _ (by omega)]
  have : 8 * i.val + 7 - j = 8 * i.val + (8 - 1 - j) := by omega
  rw [this]

theorem acpkmNew_eq (c : GostCtx) (S) (h : c.Tables S) (rnd : Vector W32 8) :
    magma_get_key (acpkm_magma_key_meshing c rnd) = Spec.acpkmKey S (magma_get_key c) := by
  rw [magma_get_key_gost]
  unfold acpkm_magma_key_meshing
  rw [get_key_gost_key]
  refine (swapped_halves fun i => gostcrypt c (Vector.ofFn fun j : Fin 8 => ACPKM_D_const[8 * i.val + 7 - j.val])).trans ?_
  unfold Spec.acpkmKey
  congr 1
  funext i
  rw [acpkm_block, gostcrypt_get_key c S h, gost_get_key_magma]
  rfl

theorem joined_toList (b : Fin 4 → Bytes 8) :
    (Spec.joined b).toList = [b 0, b 1, b 2, b 3].flatMap Vector.toList := by
  have e : [b 0, b 1, b 2, b 3].flatMap Vector.toList = (b 0).toList ++ ((b 1).toList ++ ((b 2).toList ++ (b 3).toList)) := by simp
  rw [e]
  apply List.ext_getElem
  · simp
  · intro i hi hi'
    have hi : i < 32 := by simpa using hi
    simp only [Spec.joined, Vector.getElem_toList, Vector.getElem_ofFn, List.getElem_append, Vector.length_toList]
    split
    · have e1 : i / 8 = 0 := by omega
      have e2 : i % 8 = i := by omega
      simp only [e1, e2]; rfl
    · split
      · have e1 : i / 8 = 1 := by omega
        have e2 : i % 8 = i - 8 := by omega
        simp only [e1, e2]; rfl
      · split
        · have e1 : i / 8 = 2 := by omega
          have e2 : i % 8 = i - 8 - 8 := by omega
          simp only [e1, e2]; rfl
        · have e1 : i / 8 = 3 := by omega
          have e2 : i % 8 = i - 8 - 8 - 8 := by omega
          simp only [e1, e2]; rfl

/-- The four blocks are what `gost_dec` writes. -/
theorem meshedKey_dec (c : GostCtx) : gost_dec c CryptoProKeyMeshingKey.toList 4 = some (meshedKey c).toList := by
  have h : CryptoProKeyMeshingKey.toList =
      ([Spec.block CryptoProKeyMeshingKey 0, Spec.block CryptoProKeyMeshingKey 1, Spec.block CryptoProKeyMeshingKey 2,
        Spec.block CryptoProKeyMeshingKey 3].flatMap Vector.toList) ++ [] := by decide +kernel
  rw [h]
  refine (gost_dec_blocks c [Spec.block CryptoProKeyMeshingKey 0, Spec.block CryptoProKeyMeshingKey 1, Spec.block CryptoProKeyMeshingKey 2,
        Spec.block CryptoProKeyMeshingKey 3] []).trans (congrArg some ?_)
  have hm : meshedKey c = Spec.joined fun i => gostdecrypt c (Spec.block CryptoProKeyMeshingKey i) := rfl
  rw [hm]
  exact (joined_toList fun i => gostdecrypt c (Spec.block CryptoProKeyMeshingKey i)).symm

/-- Key meshing, once for every element of the list of masks. -/
def meshAll (rnds : List (Vector W32 8)) (s : GostCtx × Option (Bytes 8)) : GostCtx × Option (Bytes 8) :=
  rnds.foldl (fun s rnd => cryptopro_key_meshing s.1 rnd s.2) s

/-- Meshing for Magma, once for every element of the list of masks. -/
def acpkmAll (rnds : List (Vector W32 8)) (c : GostCtx) : GostCtx := rnds.foldl acpkm_magma_key_meshing c

theorem mesh_tables (c : GostCtx) (S) (h : c.Tables S) (rnd : Vector W32 8) (iv : Option (Bytes 8)) : (cryptopro_key_meshing c rnd iv).1.Tables S :=
  tables_gost_key _ _ _ _ h

theorem acpkm_tables (c : GostCtx) (S) (h : c.Tables S) (rnd : Vector W32 8) : (acpkm_magma_key_meshing c rnd).Tables S :=
  tables_gost_key _ _ _ _ h

theorem mesh_one (c : GostCtx) (S) (h : c.Tables S) (rnd : Vector W32 8) (iv : Bytes 8) :
    gost_get_key (cryptopro_key_meshing c rnd (some iv)).1 = (Spec.cryptoProMesh S (gost_get_key c, iv)).1 ∧
    (cryptopro_key_meshing c rnd (some iv)).2 = some (Spec.cryptoProMesh S (gost_get_key c, iv)).2 := by
  have hk : gost_get_key (gost_key c rnd (meshedKey c)) = Spec.cryptoProKey S (gost_get_key c) := by
    rw [get_key_gost_key, meshedKey_eq c S h]
  refine ⟨hk, ?_⟩
  show some (gostcrypt (gost_key c rnd (meshedKey c)) iv) = _
  rw [gostcrypt_get_key _ S (tables_gost_key _ _ _ _ h), hk]
  rfl

/-- C73: after any number of CryptoPro key meshings the key and the IV are those of RFC 4357, whatever the masks, and the context
encrypts and decrypts with that key and the unchanged substitution. -/
theorem C73_cryptopro (c : GostCtx) (b : SubstBlock) (S : Fin 8 → BitVec 4 → BitVec 4) (hb : b.Holds S) (rnd : Vector W32 8) (k : Bytes 32)
    (iv : Bytes 8) (rnds : List (Vector W32 8)) :
    ∃ c' k' iv', meshAll rnds (gost_key (gost_init c (some b)) rnd k, some iv) = (c', some iv') ∧
      (k', iv') = (Spec.cryptoProMesh S)^[rnds.length] (k, iv) ∧ gost_get_key c' = k' ∧
      ∀ blk, gostcrypt c' blk = Spec.encrypt S k' blk ∧ gostdecrypt c' blk = Spec.decrypt S k' blk := by
  have key : ∀ (rnds : List (Vector W32 8)) (c : GostCtx) (iv : Bytes 8), c.Tables S →
      ∃ c' k' iv', meshAll rnds (c, some iv) = (c', some iv') ∧ (k', iv') = (Spec.cryptoProMesh S)^[rnds.length] (gost_get_key c, iv) ∧
        gost_get_key c' = k' ∧ c'.Tables S := by
    intro rnds
    induction rnds with
    | nil => exact fun c iv h => ⟨c, gost_get_key c, iv, rfl, rfl, rfl, h⟩
    | cons r rnds ih =>
      intro c iv h
      obtain ⟨h1, h2⟩ := mesh_one c S h r iv
      obtain ⟨c', k', iv', e1, e2, e3, e4⟩ := ih (cryptopro_key_meshing c r (some iv)).1 (Spec.cryptoProMesh S (gost_get_key c, iv)).2 (mesh_tables c S h r _)
      refine ⟨c', k', iv', ?_, ?_, e3, e4⟩
      · rw [← e1, ← h2]; rfl
      · rw [e2, h1]; rfl
  have ht : (gost_key (gost_init c (some b)) rnd k).Tables S := tables_gost_key _ _ _ _ (kboxinit_tables c b S hb)
  obtain ⟨c', k', iv', e1, e2, e3, e4⟩ := key rnds _ iv ht
  rw [get_key_gost_key] at e2
  refine ⟨c', k', iv', e1, e2, e3, fun blk => ?_⟩
  rw [gostcrypt_get_key c' S e4, gostdecrypt_get_key c' S e4, e3]
  exact ⟨rfl, rfl⟩

/-- C73: after any number of ACPKM meshings of a context with a Magma key, the key is that of RFC 8645, whatever the masks, and
blocks written most significant byte first are encrypted with Magma under that key. -/
theorem C73_acpkm (c : GostCtx) (b : SubstBlock) (S : Fin 8 → BitVec 4 → BitVec 4) (hb : b.Holds S) (rnd : Vector W32 8) (k : Bytes 32)
    (rnds : List (Vector W32 8)) :
    magma_get_key (acpkmAll rnds (magma_key (gost_init c (some b)) rnd k)) = (Spec.acpkmKey S)^[rnds.length] k ∧
    ∀ blk, (gostcrypt (acpkmAll rnds (magma_key (gost_init c (some b)) rnd k)) blk.reverse).reverse =
      Spec.magmaEncrypt S ((Spec.acpkmKey S)^[rnds.length] k) blk := by
  have key : ∀ (rnds : List (Vector W32 8)) (c : GostCtx), c.Tables S →
      magma_get_key (acpkmAll rnds c) = (Spec.acpkmKey S)^[rnds.length] (magma_get_key c) ∧ (acpkmAll rnds c).Tables S := by
    intro rnds
    induction rnds with
    | nil => exact fun c h => ⟨rfl, h⟩
    | cons r rnds ih =>
      intro c h
      obtain ⟨e1, e2⟩ := ih (acpkm_magma_key_meshing c r) (acpkm_tables c S h r)
      refine ⟨?_, e2⟩
      rw [acpkmNew_eq c S h] at e1
      exact e1
  have ht : (magma_key (gost_init c (some b)) rnd k).Tables S :=
    fun x => (tables_congr rfl rfl rfl rfl x).trans (kboxinit_tables c b S hb x)
  obtain ⟨e1, e2⟩ := key rnds _ ht
  rw [get_key_magma_key] at e1
  refine ⟨e1, fun blk => ?_⟩
  rw [gostcrypt_get_key _ S e2, gost_get_key_magma, e1]
  rfl

/-- Two meshings of the demonstration key change it both times. -/
example : gost_get_key (meshAll [demoMask, demoMask] (demoCtx, some (zeros 8))).1 ≠ demoKey ∧
    gost_get_key (meshAll [demoMask] (demoCtx, some (zeros 8))).1 ≠ demoKey := by decide +kernel

/-- The hypothesis holds for every S-box given as packed bytes. -/
example (p : Bytes 64) : (unpack_sbox p).Holds (Spec.tableOf p) := unpack_holds p

example (c : GostCtx) (k : Bytes 32) (iv : Bytes 8) := C73_cryptopro c _ _ (unpack_holds default_sbox) demoMask k iv [demoMask, demoMask]
example (c : GostCtx) (k : Bytes 32) := C73_acpkm c _ _ (unpack_holds default_sbox) demoMask k [demoMask, demoMask]

end Dstu.Props
