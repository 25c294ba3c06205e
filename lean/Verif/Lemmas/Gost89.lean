import Verif.Model.Sbox
import Verif.Spec.Abs
import Verif.Spec.Gost28147
import Mathlib.Tactic.IntervalCases

/-! Helper lemmas about the block cipher. -/

namespace Dstu

theorem le32_eq (a b c d : Byte) : le32 a b c d = Spec.word a b c d := by
  apply BitVec.eq_of_getLsbD_eq
  intro i hi
  simp only [le32, Spec.word, BitVec.getLsbD_or, BitVec.getLsbD_setWidth, BitVec.getLsbD_shiftLeft,
    BitVec.getLsbD_append]
  interval_cases i <;> simp

theorem byteOf_eq (x : W32) (i : Nat) : byteOf x i = Spec.octet x i := by
  apply BitVec.eq_of_getLsbD_eq
  intro j hj
  simp [byteOf, Spec.octet, hj]

theorem word_octet (x : W32) :
    Spec.word (Spec.octet x 0) (Spec.octet x 1) (Spec.octet x 2) (Spec.octet x 3) = x := by
  apply BitVec.eq_of_getLsbD_eq
  intro i hi
  simp only [Spec.octet, Spec.word, BitVec.getLsbD_append, BitVec.getLsbD_extractLsb']
  interval_cases i <;> simp

theorem octet_word0 (a b c d : Byte) : Spec.octet (Spec.word a b c d) 0 = a := by
  apply BitVec.eq_of_getLsbD_eq
  intro i hi
  simp only [Spec.octet, Spec.word, BitVec.getLsbD_append, BitVec.getLsbD_extractLsb']
  interval_cases i <;> simp
theorem octet_word1 (a b c d : Byte) : Spec.octet (Spec.word a b c d) 1 = b := by
  apply BitVec.eq_of_getLsbD_eq
  intro i hi
  simp only [Spec.octet, Spec.word, BitVec.getLsbD_append, BitVec.getLsbD_extractLsb']
  interval_cases i <;> simp
theorem octet_word2 (a b c d : Byte) : Spec.octet (Spec.word a b c d) 2 = c := by
  apply BitVec.eq_of_getLsbD_eq
  intro i hi
  simp only [Spec.octet, Spec.word, BitVec.getLsbD_append, BitVec.getLsbD_extractLsb']
  interval_cases i <;> simp
theorem octet_word3 (a b c d : Byte) : Spec.octet (Spec.word a b c d) 3 = d := by
  apply BitVec.eq_of_getLsbD_eq
  intro i hi
  simp only [Spec.octet, Spec.word, BitVec.getLsbD_append, BitVec.getLsbD_extractLsb']
  interval_cases i <;> simp

theorem loadBlock_eq (b : Bytes 8) : loadBlock b = Spec.load b := by
  simp [loadBlock, Spec.load, le32_eq]

theorem storeBlock_eq (u v : W32) : storeBlock u v = Spec.store (u, v) := by
  simp [storeBlock, Spec.store, byteOf_eq]

theorem load_store (p : W32 × W32) : Spec.load (Spec.store p) = p := by
  obtain ⟨u, v⟩ := p
  simp [Spec.load, Spec.store, word_octet]

theorem store_load (b : Bytes 8) : Spec.store (Spec.load b) = b := by
  apply Vector.ext
  intro i hi
  simp only [Spec.load, Spec.store, octet_word0, octet_word1, octet_word2, octet_word3]
  interval_cases i <;> rfl

/-! ### Rounds -/

theorem lines2_inv (c : GostCtx) (s : W32 × W32) (i j : Fin 8) :
    lines2 c (lines2 c s (i, j)).swap (j, i) = s.swap := by
  obtain ⟨n1, n2⟩ := s
  simp only [lines2, Prod.swap]
  ext1
  · simp [BitVec.xor_assoc]
  · simp [BitVec.xor_assoc]

theorem fold_inv (c : GostCtx) (l : List (Fin 8 × Fin 8)) (s : W32 × W32) :
    (l.reverse.map Prod.swap).foldl (lines2 c) (l.foldl (lines2 c) s).swap = s.swap := by
  induction l generalizing s with
  | nil => rfl
  | cons p l ih =>
    simp only [List.reverse_cons, List.map_append, List.foldl_append, List.foldl_cons, ih,
      List.map_cons, List.map_nil, List.foldl_nil]
    exact lines2_inv c s p.1 p.2

theorem decOrder_eq : decOrder = encOrder.reverse.map Prod.swap := by decide
theorem encOrder_eq : encOrder = decOrder.reverse.map Prod.swap := by decide

theorem gostcrypt_eq (c : GostCtx) (b : Bytes 8) :
    gostcrypt c b = Spec.store (encOrder.foldl (lines2 c) (Spec.load b)).swap := by
  simp only [gostcrypt, storeBlock_eq, loadBlock_eq, Prod.swap]

theorem gostdecrypt_eq (c : GostCtx) (b : Bytes 8) :
    gostdecrypt c b = Spec.store (decOrder.foldl (lines2 c) (Spec.load b)).swap := by
  simp only [gostdecrypt, storeBlock_eq, loadBlock_eq, Prod.swap]

theorem decrypt_encrypt (c : GostCtx) (b : Bytes 8) : gostdecrypt c (gostcrypt c b) = b := by
  rw [gostdecrypt_eq, gostcrypt_eq, load_store, decOrder_eq, fold_inv, Prod.swap_swap, store_load]

theorem encrypt_decrypt (c : GostCtx) (b : Bytes 8) : gostcrypt c (gostdecrypt c b) = b := by
  rw [gostdecrypt_eq, gostcrypt_eq, load_store, encOrder_eq, fold_inv, Prod.swap_swap, store_load]

/-! ### Table lookup -/

/-- The tables of a context are those `kboxinit` builds from nibble tables `S`. -/
def GostCtx.Tables (c : GostCtx) (S : Fin 8 → BitVec 4 → BitVec 4) : Prop :=
  ∀ x : W32, f c x = (Spec.substitute S x).rotateLeft 11

theorem hiNib_ext (x : W32) (o : Nat) : hiNib ((x >>> o).setWidth 8) = x.extractLsb' (o + 4) 4 := by
  apply BitVec.eq_of_getLsbD_eq
  intro j hj
  simp [hiNib, hj, show 4 + j < 8 by omega, Nat.add_assoc]

theorem loNib_ext (x : W32) (o : Nat) : loNib ((x >>> o).setWidth 8) = x.extractLsb' o 4 := by
  apply BitVec.eq_of_getLsbD_eq
  intro j hj
  simp only [loNib, BitVec.getLsbD_setWidth, BitVec.getLsbD_and, BitVec.getLsbD_extractLsb',
    BitVec.getLsbD_ushiftRight]
  interval_cases j <;> simp

theorem pair_eq (a b : BitVec 4) :
    pair (a.setWidth 8) (b.setWidth 8) = (a ++ b).setWidth 32 := by
  apply BitVec.eq_of_getLsbD_eq
  intro i hi
  simp only [pair, BitVec.getLsbD_or, BitVec.getLsbD_setWidth, BitVec.getLsbD_shiftLeft,
    BitVec.getLsbD_append]
  interval_cases i <;> simp

theorem tables_or (a7 a6 a5 a4 a3 a2 a1 a0 : BitVec 4) :
    (a7 ++ a6).setWidth 32 <<< 24 ||| (a5 ++ a4).setWidth 32 <<< 16 |||
      (a3 ++ a2).setWidth 32 <<< 8 ||| (a1 ++ a0).setWidth 32 =
    (a7 ++ a6 ++ a5 ++ a4 ++ a3 ++ a2 ++ a1 ++ a0 : BitVec 32) := by
  apply BitVec.eq_of_getLsbD_eq
  intro i hi
  simp only [BitVec.getLsbD_or, BitVec.getLsbD_setWidth, BitVec.getLsbD_shiftLeft,
    BitVec.getLsbD_append]
  interval_cases i <;> simp

theorem rotl_eq (y : W32) : y <<< 11 ||| y >>> (32 - 11) = y.rotateLeft 11 := by
  rw [BitVec.rotateLeft_def]

theorem kboxinit_tables (c : GostCtx) (b : SubstBlock) (S : Fin 8 → BitVec 4 → BitVec 4)
    (h : b.Holds S) : (kboxinit c b).Tables S := by
  intro x
  have e0 : x.setWidth 8 = (x >>> 0).setWidth 8 := by simp
  simp only [f, kboxinit, rotl_eq]
  rw [e0]
  simp only [hiNib_ext, loNib_ext, h.k1, h.k2, h.k3, h.k4, h.k5, h.k6, h.k7, h.k8, pair_eq,
    tables_or]
  rfl

/-! ### Rounds equal the specification's rounds -/

theorem lines2_spec (c : GostCtx) (S) (h : c.Tables S) (s : W32 × W32) (i j : Fin 8) :
    lines2 c s (i, j) =
      Spec.round S (Spec.round S s (c.key[i] + c.mask[i])) (c.key[j] + c.mask[j]) := by
  obtain ⟨n1, n2⟩ := s
  simp only [lines2, Spec.round, Spec.roundFn, h _, BitVec.add_assoc]

theorem fold_spec (c : GostCtx) (S) (h : c.Tables S) (l : List (Fin 8 × Fin 8)) (s : W32 × W32) :
    l.foldl (lines2 c) s =
      (l.flatMap fun ij => [c.key[ij.1] + c.mask[ij.1], c.key[ij.2] + c.mask[ij.2]]).foldl
        (Spec.round S) s := by
  induction l generalizing s with
  | nil => rfl
  | cons p l ih =>
    simp only [List.foldl_cons, List.flatMap_cons, List.foldl_append, List.foldl_nil, ih]
    rw [← lines2_spec c S h]

/-- The effective subkeys of a context. -/
def GostCtx.keys (c : GostCtx) : List W32 :=
  [c.key[0] + c.mask[0], c.key[1] + c.mask[1], c.key[2] + c.mask[2], c.key[3] + c.mask[3],
   c.key[4] + c.mask[4], c.key[5] + c.mask[5], c.key[6] + c.mask[6], c.key[7] + c.mask[7]]

theorem gostcrypt_spec (c : GostCtx) (S) (h : c.Tables S) (b : Bytes 8) :
    gostcrypt c b = Spec.cycle S (Spec.encSchedule c.keys) b := by
  rw [gostcrypt_eq, fold_spec c S h]; rfl

theorem gostdecrypt_spec (c : GostCtx) (S) (h : c.Tables S) (b : Bytes 8) :
    gostdecrypt c b = Spec.cycle S (Spec.decSchedule c.keys) b := by
  rw [gostdecrypt_eq, fold_spec c S h]; rfl

theorem mac_block_spec (c : GostCtx) (S) (h : c.Tables S) (u v : Bytes 8) :
    mac_block c u v = Spec.store ((c.keys ++ c.keys).foldl (Spec.round S) (Spec.load (xorV u v))) := by
  simp only [mac_block, loadBlock_eq, storeBlock_eq]
  rw [fold_spec c S h]; rfl

/-! ### Keys -/

theorem keys_gost_key (c : GostCtx) (rnd : Vector W32 8) (k : Bytes 32) :
    (gost_key c rnd k).keys = Spec.subkeys k := by
  simp [GostCtx.keys, gost_key, gost_key_impl, Spec.subkeys, le32_eq, BitVec.sub_add_cancel]

theorem keys_gost_key_nomask (c : GostCtx) (k : Bytes 32) :
    (gost_key_nomask c k).keys = Spec.subkeys k :=
  keys_gost_key c (Vector.replicate 8 0) k

theorem tables_congr {c d : GostCtx} (h1 : c.k87 = d.k87) (h2 : c.k65 = d.k65) (h3 : c.k43 = d.k43)
    (h4 : c.k21 = d.k21) (x : W32) : f c x = f d x := by
  simp [f, h1, h2, h3, h4]

theorem tables_gost_key (c : GostCtx) (rnd k) (S) (h : c.Tables S) : (gost_key c rnd k).Tables S :=
  fun x => (tables_congr rfl rfl rfl rfl x).trans (h x)

theorem tables_gost_key_nomask (c : GostCtx) (k) (S) (h : c.Tables S) :
    (gost_key_nomask c k).Tables S :=
  fun x => (tables_congr rfl rfl rfl rfl x).trans (h x)

/-! ### S-boxes -/

theorem and15_lo (b : Byte) : 0x0f#8 &&& b = (b.extractLsb' 0 4).setWidth 8 := by
  apply BitVec.eq_of_getLsbD_eq
  intro i hi
  simp only [BitVec.getLsbD_and, BitVec.getLsbD_setWidth, BitVec.getLsbD_extractLsb']
  interval_cases i <;> simp

theorem unpackRow_eq (p : Bytes 64) (r : Fin 8) (n : BitVec 4) :
    unpackRow p r n = (Spec.tableOf p r n).setWidth 8 := by
  simp only [unpackRow, Spec.tableOf, and15_lo, Nat.add_comm (n.toNat / 2)]
  split <;> rfl

theorem unpack_holds (p : Bytes 64) : (unpack_sbox p).Holds (Spec.tableOf p) where
  k1 := unpackRow_eq p 0
  k2 := unpackRow_eq p 1
  k3 := unpackRow_eq p 2
  k4 := unpackRow_eq p 3
  k5 := unpackRow_eq p 4
  k6 := unpackRow_eq p 5
  k7 := unpackRow_eq p 6
  k8 := unpackRow_eq p 7

/-! ### Independence of the mask -/

theorem lines2_congr (c d : GostCtx) (hf : ∀ x, f c x = f d x)
    (hk : ∀ i : Fin 8, c.key[i] + c.mask[i] = d.key[i] + d.mask[i]) : lines2 c = lines2 d := by
  funext s ij
  simp only [lines2, BitVec.add_assoc, hf, hk]

theorem gost_key_sum (c : GostCtx) (rnd : Vector W32 8) (k : Bytes 32) (i : Fin 8) :
    (gost_key c rnd k).key[i] + (gost_key c rnd k).mask[i] =
      Spec.word k[4 * i.val] k[4 * i.val + 1] k[4 * i.val + 2] k[4 * i.val + 3] := by
  simp [gost_key, gost_key_impl, le32_eq, BitVec.sub_add_cancel]

theorem gost_key_lines (c : GostCtx) (rnd rnd' : Vector W32 8) (k : Bytes 32) :
    lines2 (gost_key c rnd k) = lines2 (gost_key c rnd' k) :=
  lines2_congr _ _ (fun x => tables_congr rfl rfl rfl rfl x)
    fun i => by rw [gost_key_sum, gost_key_sum]

theorem gostcrypt_mask (c : GostCtx) (rnd rnd' : Vector W32 8) (k : Bytes 32) :
    gostcrypt (gost_key c rnd k) = gostcrypt (gost_key c rnd' k) := by
  funext b; simp only [gostcrypt, gost_key_lines c rnd rnd' k]

theorem gostdecrypt_mask (c : GostCtx) (rnd rnd' : Vector W32 8) (k : Bytes 32) :
    gostdecrypt (gost_key c rnd k) = gostdecrypt (gost_key c rnd' k) := by
  funext b; simp only [gostdecrypt, gost_key_lines c rnd rnd' k]

theorem mac_block_mask (c : GostCtx) (rnd rnd' : Vector W32 8) (k : Bytes 32) :
    mac_block (gost_key c rnd k) = mac_block (gost_key c rnd' k) := by
  funext u v; simp only [mac_block, gost_key_lines c rnd rnd' k]

/-! ### Reading keys back -/

theorem octet_cases (a b c d : Byte) (i : Nat) (hi : i < 4) :
    Spec.octet (Spec.word a b c d) i = #v[a, b, c, d][i] := by
  interval_cases i
  · exact octet_word0 a b c d
  · exact octet_word1 a b c d
  · exact octet_word2 a b c d
  · exact octet_word3 a b c d

theorem get_key_gost_key (c : GostCtx) (rnd : Vector W32 8) (k : Bytes 32) :
    gost_get_key (gost_key c rnd k) = k := by
  apply Vector.ext
  intro q hq
  obtain ⟨a, r, hr, rfl⟩ : ∃ a r, r < 4 ∧ q = 4 * a + r := ⟨q / 4, q % 4, by omega, by omega⟩
  have e1 : (4 * a + r) / 4 = a := by omega
  have e2 : (4 * a + r) % 4 = r := by omega
  have hs := gost_key_sum c rnd k ⟨a, by omega⟩
  simp only [Fin.getElem_fin] at hs
  simp only [gost_get_key, Vector.getElem_ofFn, byteOf_eq, e1, e2, hs]
  rw [octet_cases _ _ _ _ _ (hr)]
  interval_cases r <;> rfl

theorem magma_key_sum (c : GostCtx) (rnd : Vector W32 8) (k : Bytes 32) (i : Fin 8) :
    (magma_key c rnd k).key[i] + (magma_key c rnd k).mask[i] =
      Spec.word k[4 * i.val + 3] k[4 * i.val + 2] k[4 * i.val + 1] k[4 * i.val] := by
  simp [magma_key, le32_eq, BitVec.sub_add_cancel]

theorem get_key_magma_key (c : GostCtx) (rnd : Vector W32 8) (k : Bytes 32) :
    magma_get_key (magma_key c rnd k) = k := by
  apply Vector.ext
  intro q hq
  obtain ⟨a, r, hr, rfl⟩ : ∃ a r, r < 4 ∧ q = 4 * a + r := ⟨q / 4, q % 4, by omega, by omega⟩
  have e1 : (4 * a + r) / 4 = a := by omega
  have e2 : (4 * a + r) % 4 = r := by omega
  have hs := magma_key_sum c rnd k ⟨a, by omega⟩
  simp only [Fin.getElem_fin] at hs
  simp only [magma_get_key, Vector.getElem_ofFn, byteOf_eq, e1, e2, hs]
  rw [octet_cases _ _ _ _ _ (by omega)]
  interval_cases r <;> rfl

/-! ### ECB -/

theorem sub_append (b : Bytes 8) (rest : List Byte) (h) : sub (b.toList ++ rest) 0 8 h = b := by
  apply Vector.toList_inj.mp
  simp [sub, Vector.toList]

theorem gost_enc_blocks (c : GostCtx) (bs : List (Bytes 8)) (rest : List Byte) :
    gost_enc c (bs.flatMap Vector.toList ++ rest) bs.length =
      some (bs.flatMap fun b => (gostcrypt c b).toList) := by
  induction bs with
  | nil => rfl
  | cons b bs ih =>
    simp only [List.flatMap_cons, List.length_cons, gost_enc, List.append_assoc]
    rw [dif_pos (by simp), sub_append, List.drop_left' (by simp), ih]
    rfl

theorem gost_dec_blocks (c : GostCtx) (bs : List (Bytes 8)) (rest : List Byte) :
    gost_dec c (bs.flatMap Vector.toList ++ rest) bs.length =
      some (bs.flatMap fun b => (gostdecrypt c b).toList) := by
  induction bs with
  | nil => rfl
  | cons b bs ih =>
    simp only [List.flatMap_cons, List.length_cons, gost_dec, List.append_assoc]
    rw [dif_pos (by simp), sub_append, List.drop_left' (by simp), ih]
    rfl

/-! ### S-box packing -/

theorem pack_nibbles (a b : BitVec 4) :
    ((a.setWidth 8 <<< 4) &&& 0xf0#8) ||| (b.setWidth 8 &&& 0x0f#8) = a ++ b := by
  apply BitVec.eq_of_getLsbD_eq
  intro i hi
  simp only [BitVec.getLsbD_or, BitVec.getLsbD_and, BitVec.getLsbD_setWidth,
    BitVec.getLsbD_shiftLeft, BitVec.getLsbD_append]
  interval_cases i <;> simp

theorem byte_nibbles (b : Byte) : b.extractLsb' 4 4 ++ b.extractLsb' 0 4 = b := by
  apply BitVec.eq_of_getLsbD_eq
  intro i hi
  simp only [BitVec.getLsbD_extractLsb', BitVec.getLsbD_append]
  interval_cases i <;> simp

theorem row_holds (b : SubstBlock) (S) (h : b.Holds S) (r : Fin 8) (n : BitVec 4) :
    b.row r.val n = (S r n).setWidth 8 := by
  match r with
  | 0 => exact h.k1 n
  | 1 => exact h.k2 n
  | 2 => exact h.k3 n
  | 3 => exact h.k4 n
  | 4 => exact h.k5 n
  | 5 => exact h.k6 n
  | 6 => exact h.k7 n
  | 7 => exact h.k8 n

theorem holds_inj (b b' : SubstBlock) (S) (h : b.Holds S) (h' : b'.Holds S) : b = b' := by
  cases b; cases b'
  simp only [SubstBlock.mk.injEq]
  exact ⟨funext fun n => (h.k8 n).trans (h'.k8 n).symm, funext fun n => (h.k7 n).trans (h'.k7 n).symm,
    funext fun n => (h.k6 n).trans (h'.k6 n).symm, funext fun n => (h.k5 n).trans (h'.k5 n).symm,
    funext fun n => (h.k4 n).trans (h'.k4 n).symm, funext fun n => (h.k3 n).trans (h'.k3 n).symm,
    funext fun n => (h.k2 n).trans (h'.k2 n).symm, funext fun n => (h.k1 n).trans (h'.k1 n).symm⟩

theorem packByte_holds (row : BitVec 4 → Byte) (T : BitVec 4 → BitVec 4)
    (h : ∀ n, row n = (T n).setWidth 8) (i : Nat) :
    packByte row i = T (BitVec.ofNat 4 (2 * i)) ++ T (BitVec.ofNat 4 (2 * i + 1)) := by
  simp only [packByte, h, pack_nibbles]

theorem pack_getElem (b : SubstBlock) (S) (h : b.Holds S) (r : Fin 8) (i : Nat) (hi : i < 8) :
    (pack_sbox b)[8 * r.val + i] =
      S r (BitVec.ofNat 4 (2 * i)) ++ S r (BitVec.ofNat 4 (2 * i + 1)) := by
  have e1 : (8 * r.val + i) / 8 = r.val := by omega
  have e2 : (8 * r.val + i) % 8 = i := by omega
  simp only [pack_sbox, Vector.getElem_ofFn, e1, e2]
  exact packByte_holds _ _ (fun n => row_holds b S h r n) i

theorem append_hi (a b : BitVec 4) : (a ++ b).extractLsb' 4 4 = a := by
  apply BitVec.eq_of_getLsbD_eq
  intro i hi
  simp only [BitVec.getLsbD_extractLsb', BitVec.getLsbD_append]
  interval_cases i <;> simp

theorem append_lo (a b : BitVec 4) : (a ++ b).extractLsb' 0 4 = b := by
  apply BitVec.eq_of_getLsbD_eq
  intro i hi
  simp only [BitVec.getLsbD_extractLsb', BitVec.getLsbD_append]
  interval_cases i <;> simp

theorem tableOf_pack (b : SubstBlock) (S) (h : b.Holds S) : Spec.tableOf (pack_sbox b) = S := by
  funext r n
  have hn : n.toNat < 16 := n.isLt
  simp only [Spec.tableOf]
  split
  · rw [pack_getElem b S h r _ (by omega), append_hi]
    congr 1
    apply BitVec.eq_of_toNat_eq
    simp; omega
  · rw [pack_getElem b S h r _ (by omega), append_lo]
    congr 1
    apply BitVec.eq_of_toNat_eq
    simp; omega

theorem pack_unpack (p : Bytes 64) : pack_sbox (unpack_sbox p) = p := by
  apply Vector.ext
  intro q hq
  obtain ⟨r, i, hr, hi, rfl⟩ : ∃ r i, r < 8 ∧ i < 8 ∧ q = 8 * r + i :=
    ⟨q / 8, q % 8, by omega, by omega, by omega⟩
  have := pack_getElem (unpack_sbox p) _ (unpack_holds p) ⟨r, hr⟩ i hi
  simp only at this
  rw [this]
  have e1 : (2 * i) % 16 = 2 * i := by omega
  have e2 : (2 * i + 1) % 16 = 2 * i + 1 := by omega
  simp only [Spec.tableOf, BitVec.toNat_ofNat, show 2 ^ 4 = 16 from rfl, e1, e2,
    show (2 * i) % 2 = 0 by omega, show (2 * i + 1) % 2 = 1 by omega, show (2 * i) / 2 = i by omega,
    show (2 * i + 1) / 2 = i by omega]
  exact byte_nibbles _

theorem get_nib (a b : BitVec 4) (o : Nat) (ho : o ≤ 24) :
    (((pair (a.setWidth 8) (b.setWidth 8) <<< o) >>> (o + 4)) &&& 0xf#32).setWidth 8 =
      a.setWidth 8 ∧
    (((pair (a.setWidth 8) (b.setWidth 8) <<< o) >>> o) &&& 0xf#32).setWidth 8 = b.setWidth 8 := by
  have hb : ∀ i, i < 8 → (0xf#32).getLsbD i = decide (i < 4) := by
    intro i hi; interval_cases i <;> rfl
  rw [pair_eq]
  constructor
  · apply BitVec.eq_of_getLsbD_eq
    intro i hi
    simp only [BitVec.getLsbD_setWidth, BitVec.getLsbD_and, BitVec.getLsbD_ushiftRight,
      BitVec.getLsbD_shiftLeft, BitVec.getLsbD_append, hi, hb i hi]
    by_cases h4 : i < 4
    · simp [h4, show o + 4 + i < 32 by omega, show ¬ (o + 4 + i < o) by omega,
        show ¬ (o + 4 + i - o < 4) by omega, show o + 4 + i - o - 4 = i by omega,
        show o + 4 + i - o < 32 by omega]
    · simp [h4]
      exact BitVec.getLsbD_of_ge _ _ (by omega)
  · apply BitVec.eq_of_getLsbD_eq
    intro i hi
    simp only [BitVec.getLsbD_setWidth, BitVec.getLsbD_and, BitVec.getLsbD_ushiftRight,
      BitVec.getLsbD_shiftLeft, BitVec.getLsbD_append, hi, hb i hi]
    by_cases h4 : i < 4
    · simp [h4, show o + i < 32 by omega, show ¬ (o + i < o) by omega,
        show o + i - o = i by omega, show i < 32 by omega]
    · simp [h4]
      exact BitVec.getLsbD_of_ge _ _ (by omega)

theorem hiNib_append (a b : BitVec 4) : hiNib (a ++ b) = a := by
  have := hiNib_ext ((a ++ b).setWidth 32) 0
  rw [BitVec.ushiftRight_zero, BitVec.setWidth_setWidth_of_le _ (by decide), BitVec.setWidth_eq] at this
  rw [this]
  apply BitVec.eq_of_getLsbD_eq
  intro i hi
  simp only [BitVec.getLsbD_extractLsb', BitVec.getLsbD_append, BitVec.getLsbD_setWidth]
  interval_cases i <;> simp

theorem loNib_append (a b : BitVec 4) : loNib (a ++ b) = b := by
  have := loNib_ext ((a ++ b).setWidth 32) 0
  rw [BitVec.ushiftRight_zero, BitVec.setWidth_setWidth_of_le _ (by decide), BitVec.setWidth_eq] at this
  rw [this]
  apply BitVec.eq_of_getLsbD_eq
  intro i hi
  simp only [BitVec.getLsbD_extractLsb', BitVec.getLsbD_append, BitVec.getLsbD_setWidth]
  interval_cases i <;> simp

theorem get_sbox_holds (c : GostCtx) (b : SubstBlock) (S) (h : b.Holds S) :
    (dstu_get_sbox (kboxinit c b)).Holds S where
  k1 n := by
    simp only [dstu_get_sbox, kboxinit, hiNib_append, loNib_append, h.k1, h.k2]
    simpa using (get_nib (S 1 15#4) (S 0 n) 0 (by decide)).2
  k2 n := by
    simp only [dstu_get_sbox, kboxinit, hiNib_append, loNib_append, h.k1, h.k2]
    simpa using (get_nib (S 1 n) (S 0 15#4) 0 (by decide)).1
  k3 n := by
    simp only [dstu_get_sbox, kboxinit, hiNib_append, loNib_append, h.k3, h.k4]
    exact (get_nib _ _ 8 (by decide)).2
  k4 n := by
    simp only [dstu_get_sbox, kboxinit, hiNib_append, loNib_append, h.k3, h.k4]
    exact (get_nib _ _ 8 (by decide)).1
  k5 n := by
    simp only [dstu_get_sbox, kboxinit, hiNib_append, loNib_append, h.k5, h.k6]
    exact (get_nib _ _ 16 (by decide)).2
  k6 n := by
    simp only [dstu_get_sbox, kboxinit, hiNib_append, loNib_append, h.k5, h.k6]
    exact (get_nib _ _ 16 (by decide)).1
  k7 n := by
    simp only [dstu_get_sbox, kboxinit, hiNib_append, loNib_append, h.k7, h.k8]
    exact (get_nib _ _ 24 (by decide)).2
  k8 n := by
    simp only [dstu_get_sbox, kboxinit, hiNib_append, loNib_append, h.k7, h.k8]
    exact (get_nib _ _ 24 (by decide)).1

end Dstu
