import Verif.Spec.ParamSets
import Verif.Model.ParamSets
import Verif.Props.BlockCipher
import Verif.Model.HashLib
import Verif.Props.Hash

/-! Property C94: the exported substitution blocks. -/

namespace Dstu.Props

open Dstu.Spec

/-- The exported blocks with the published tables. -/
def published : List (SubstBlock × List (List Nat)) :=
  [(GostR3411_94_TestParamSet, hashTestRows), (GostR3411_94_CryptoProParamSet, hashCryptoProRows), (Gost28147_TestParamSet, cipherTestRows),
   (Gost28147_CryptoProParamSetA, cryptoProARows), (Gost28147_CryptoProParamSetB, cryptoProBRows), (Gost28147_CryptoProParamSetC, cryptoProCRows),
   (Gost28147_CryptoProParamSetD, cryptoProDRows), (Gost28147_TC26ParamSetZ, tc26ZRows)]

theorem published_holds (b : SubstBlock) (rows : List (List Nat)) (h : (b, rows) ∈ published) : b.Holds (tableOfRows rows) := by
  simp only [published, List.mem_cons, Prod.mk.injEq, List.not_mem_nil, or_false] at h
  rcases h with ⟨rfl, rfl⟩ | ⟨rfl, rfl⟩ | ⟨rfl, rfl⟩ | ⟨rfl, rfl⟩ | ⟨rfl, rfl⟩ | ⟨rfl, rfl⟩ | ⟨rfl, rfl⟩ | ⟨rfl, rfl⟩ <;> constructor <;> decide +kernel

/-- C94: with each exported block, under every key and mask, the block functions are GOST 28147-89 with the published table. -/
theorem C94_block (b : SubstBlock) (rows : List (List Nat)) (h : (b, rows) ∈ published) (c : GostCtx) (rnd : Vector W32 8) (k : Bytes 32) (blk : Bytes 8) :
    gostcrypt (gost_key (gost_init c (some b)) rnd k) blk = encrypt (tableOfRows rows) k blk ∧
    gostdecrypt (gost_key (gost_init c (some b)) rnd k) blk = decrypt (tableOfRows rows) k blk :=
  C02_block_is_gost28147 c b _ (published_holds b rows h) rnd k blk

/-- C94: each row of each table is a permutation of the sixteen nibbles. -/
theorem C94_permutations (b : SubstBlock) (rows : List (List Nat)) (h : (b, rows) ∈ published) (r : Fin 8) : Function.Bijective (tableOfRows rows r) := by
  have key : ∀ rows ∈ published.map Prod.snd, ∀ r : Fin 8, ∀ i j : Fin 16, tableOfRows rows r (BitVec.ofFin i) = tableOfRows rows r (BitVec.ofFin j) → i = j := by
    decide +kernel
  have inj : Function.Injective (tableOfRows rows r) := by
    intro x y hxy
    exact BitVec.eq_of_toFin_eq (key rows (List.mem_map.2 ⟨_, h, rfl⟩) r x.toFin y.toFin hxy)
  refine ⟨inj, fun y => ?_⟩
  have key2 : ∀ rows ∈ published.map Prod.snd, ∀ r : Fin 8, ∀ j : Fin 16, ∃ i : Fin 16, tableOfRows rows r (BitVec.ofFin i) = BitVec.ofFin j := by
    decide +kernel
  obtain ⟨i, hi⟩ := key2 rows (List.mem_map.2 ⟨_, h, rfl⟩) r y.toFin
  exact ⟨_, hi⟩

/-- Hash one message, given in pieces. -/
def libHash (x : LibHash) (pieces : List (List Byte)) : Option (Bytes 32 × LibHash) := do
  let x ← pieces.foldlM lib_block (lib_start x).2
  lib_finish x

/-- Hash several messages one after the other with the same context. -/
def libHashes (x : LibHash) : List (List (List Byte)) → Option (List (Bytes 32))
  | [] => some []
  | m :: ms => do
    let (d, x) ← libHash x m
    let ds ← libHashes x ms
    return d :: ds

theorem lib_blocks (T) (c : GostCtx) (hc : c.Tables T) (h : HashCtx) (m : List Byte) (hm : h.After T m) (pieces : List (List Byte)) (hl : (m ++ pieces.flatten).length < 2 ^ 60) :
    ∃ c' h', pieces.foldlM lib_block ⟨h, some c⟩ = some ⟨h', some c'⟩ ∧ c'.Tables T ∧ h'.After T (m ++ pieces.flatten) := by
  induction pieces generalizing c h m with
  | nil => exact ⟨c, h, rfl, hc, by simpa using hm⟩
  | cons p ps ih =>
    simp only [List.flatten_cons] at hl ⊢
    obtain ⟨c1, h1, e1, t1, a1⟩ := hash_block_after c T hc h m hm p (by simp only [List.length_append] at hl ⊢; omega)
    obtain ⟨c2, h2, e2, t2, a2⟩ := ih c1 t1 h1 (m ++ p) a1 (by rw [List.append_assoc]; exact hl)
    refine ⟨c2, h2, ?_, t2, by rwa [List.append_assoc] at a2⟩
    simp only [List.foldlM_cons, lib_block, e1, Option.map_some, Option.bind_eq_bind, Option.bind_some]
    exact e2

/-- C94: the hash of the library with any substitution block, in particular with the exported ones.  For every context memory, every sequence of messages and every way of cutting them into pieces, the
results are the hashes of the messages with the table of the block. -/
theorem C94_hash (b : SubstBlock) (S : Fin 8 → BitVec 4 → BitVec 4) (hb : b.Holds S) (mem : GostCtx) (messages : List (List (List Byte)))
    (hl : ∀ m ∈ messages, m.flatten.length < 2 ^ 60) :
    ∃ x, init_gost_hash_ctx (some mem) (some b) = (true, x) ∧ libHashes x messages = some (messages.map fun m => gost34311 S m.flatten) := by
  refine ⟨_, rfl, ?_⟩
  have ht : (gost_init mem (some b)).Tables S := kboxinit_tables mem b S hb
  generalize gost_init mem (some b) = c at ht
  generalize HashCtx.zero = h
  induction messages generalizing c h with
  | nil => rfl
  | cons m ms ih =>
    obtain ⟨c1, h1, e1, t1, a1⟩ := lib_blocks S c ht (start_hash h) [] (start_after S h) m (by simpa using hl m (by simp))
    rw [List.nil_append] at a1
    obtain ⟨c2, e2, t2⟩ := finish_after c1 S t1 h1 m.flatten a1 (hl m (by simp))
    have := ih (fun m' hm' => hl m' (by simp [hm'])) c2 t2 h1
    simp only [libHashes, libHash, lib_start, e1, lib_finish, e2, Option.map_some, Option.bind_eq_bind, Option.bind_some, this, List.map_cons]
    rfl

/-- C94: with the exported blocks the hash is the one with the published table, and without a block the one with the table of the examples of GOST R 34.11-94. -/
theorem C94_hash_published (b : SubstBlock) (rows : List (List Nat)) (h : (b, rows) ∈ published) (mem : GostCtx) (messages : List (List (List Byte)))
    (hl : ∀ m ∈ messages, m.flatten.length < 2 ^ 60) :
    ∃ x, init_gost_hash_ctx (some mem) (some b) = (true, x) ∧ libHashes x messages = some (messages.map fun m => gost34311 (tableOfRows rows) m.flatten) :=
  C94_hash b _ (published_holds b rows h) mem messages hl

theorem C94_hash_null (mem : GostCtx) (messages : List (List (List Byte))) (hl : ∀ m ∈ messages, m.flatten.length < 2 ^ 60) :
    ∃ x, init_gost_hash_ctx (some mem) none = (true, x) ∧ libHashes x messages = some (messages.map fun m => gost34311 (tableOfRows hashTestRows) m.flatten) :=
  C94_hash GostR3411_94_TestParamSet _ (published_holds _ _ (by simp [published])) mem messages hl

/-- C94: when there is no memory for the cipher context, initialisation fails and so does starting a message; nothing is left to be freed. -/
theorem C94_no_memory (b : Option SubstBlock) : ∃ x, init_gost_hash_ctx none b = (false, x) ∧ (lib_start x).1 = false ∧ done_gost_hash_ctx x = 0 :=
  ⟨_, rfl, rfl, rfl⟩

/-- The known answer of GOST R 34.12-2015, in the byte order of GOST 28147-89. -/
example : encrypt (tableOfRows tc26ZRows) #v[0xcc, 0xdd, 0xee, 0xff, 0x88, 0x99, 0xaa, 0xbb, 0x44, 0x55, 0x66, 0x77, 0x00, 0x11, 0x22, 0x33, 0xf3, 0xf2, 0xf1, 0xf0, 0xf7, 0xf6, 0xf5, 0xf4, 0xfb, 0xfa, 0xf9, 0xf8, 0xff, 0xfe, 0xfd, 0xfc]
    #v[0x10, 0x32, 0x54, 0x76, 0x98, 0xba, 0xdc, 0xfe] = #v[0x3d, 0xca, 0xd8, 0xc2, 0xe5, 0x01, 0xe9, 0x4e] := by
  decide +kernel

/-- The known answers for `abc` of the two hash parameter sets. -/
example : gost34311 (tableOfRows hashTestRows) [0x61, 0x62, 0x63] =
    #v[0xf3, 0x13, 0x43, 0x48, 0xc4, 0x4f, 0xb1, 0xb2, 0xa2, 0x77, 0x72, 0x9e, 0x22, 0x85, 0xeb, 0xb5, 0xcb, 0x5e, 0x0f, 0x29, 0xc9, 0x75, 0xbc, 0x75, 0x3b, 0x70, 0x49, 0x7c, 0x06, 0xa4, 0xd5, 0x1d] ∧
    gost34311 (tableOfRows hashCryptoProRows) [0x61, 0x62, 0x63] =
    #v[0xb2, 0x85, 0x05, 0x6d, 0xbf, 0x18, 0xd7, 0x39, 0x2d, 0x76, 0x77, 0x36, 0x95, 0x24, 0xdd, 0x14, 0x74, 0x74, 0x59, 0xed, 0x81, 0x43, 0x99, 0x7e, 0x16, 0x3b, 0x29, 0x86, 0xf9, 0x2f, 0xd4, 0x2c] := by
  decide +kernel

/-- The CryptoPro set of the hash: it is published, and its tables are permutations. -/
example (c : GostCtx) (rnd : Vector W32 8) (k : Bytes 32) (blk : Bytes 8) := C94_block GostR3411_94_CryptoProParamSet hashCryptoProRows (by simp [published]) c rnd k blk
example := C94_permutations GostR3411_94_CryptoProParamSet hashCryptoProRows (by simp [published])
example (mem : GostCtx) : ∃ x, init_gost_hash_ctx (some mem) (some GostR3411_94_CryptoProParamSet) = (true, x) ∧
    libHashes x [[[0x61], [0x62, 0x63]], []] = some [gost34311 (tableOfRows hashCryptoProRows) [0x61, 0x62, 0x63], gost34311 (tableOfRows hashCryptoProRows) []] :=
  C94_hash_published _ _ (by simp [published]) mem [[[0x61], [0x62, 0x63]], []] (by decide)
example (mem : GostCtx) (p : Bytes 64) := C94_hash _ _ (unpack_holds p) mem [[[0x61], [0x62, 0x63]], []] (by decide)
example (mem : GostCtx) := C94_hash_null mem [[[0x61], [0x62, 0x63]], []] (by decide)

end Dstu.Props
