import Verif.Lemmas.Oid
import Verif.Lemmas.Key6
import Verif.Props.KeyPair
import Verif.Props.KeyUtils
import Verif.Props.Pkcs12
import Verif.Props.Jks

/-!
# Properties C61, C62, C65, C72: Key-6 containers and reading from streams; C54 for Key-6 containers
-/

namespace Dstu.Props

open Dstu Dstu.Spec

variable {κ χ : Type}

/-! ### C61 -/

/-- C61: what is made into keys is the encrypted message followed by 8 unspecified bytes, whatever the uninitialised variables and the mask are. -/
theorem C61_contents (lib : Key6Lib κ) (g : Garbage) (file password : List Byte) (blocks : List (Bytes 8)) (mac : List Byte) (st : IITStore)
    (hf : lib.d2i_IITStore file = some st) (hc : Key6Container password blocks mac st) (hl : password.length < 2 ^ 60) (ks : Option Nat) (m : ImpMem κ χ) :
    ∃ tail, tail.length = 8 ∧ parseKey6 lib g file password ks m = keysFromPKCS8 lib.keys (blocks.flatMap Vector.toList ++ tail) ks m := by
  obtain ⟨key, data, pad, hk, rfl, he⟩ := hc
  have e := key6Plain_eq g password key hl hk blocks [] (by simp)
  rw [List.append_nil, ← he] at e
  refine ⟨_, by simp, (?_ : _ = keysFromPKCS8 lib.keys (_ ++ (List.range' (8 * blocks.length) (8 + ([] : List Byte).length)).map g.res) ks m)⟩
  unfold parseKey6
  simp only [iitStoreOID_eq]
  rw [hf]
  simp only [ne_eq, not_true_eq_false, if_false]
  cases pad with
  | none => simp only [decryptKey6]; simp only [Option.getD] at e; rw [e]; rfl
  | some pad => simp only [decryptKey6]; simp only [Option.getD] at e; rw [e]; rfl

/-- C61, with the decoder of keylib/utils.c: if the message starts with a PKCS#8 structure, which the decoder reads whatever follows it, the
import succeeds and the store holds its key and, if the attributes describe one, the second key. -/
theorem C61_import (env : P8Env) (d2i : List Byte → Option IITStore) (g : Garbage) (file password : List Byte) (blocks : List (Bytes 8)) (mac : List Byte) (st : IITStore)
    (hf : d2i file = some st) (hc : Key6Container password blocks mac st) (hl : password.length < 2 ^ 60)
    (der padding p8 : List Byte) (attrs : List (Option Attr)) (k1 : EvpPkey) (hb : blocks.flatMap Vector.toList = der ++ padding)
    (hd : ∀ more, env.d2i_PKCS8 (der ++ more) = some (p8, attrs)) (hk : env.pkcs82pkey p8 = some k1) (hs : ¬ NegativeCurve env attrs)
    (ks : Option Nat) (m : ImpMem EvpPkey χ) (R : Reachable m.ks) :
    ∃ id m' keys, parseKey6 ⟨d2i, pkcs8Keys env⟩ g file password ks m = some (true, some id, m') ∧ Reachable m'.ks ∧ Undisturbed m m' ∧ m.ks.stores id = none ∧
      HoldsExactly m' id keys [] ∧ ((∃ k2, SecondKey env attrs k2 ∧ keys = [k1, k2]) ∨ ((¬ ∃ k2, SecondKey env attrs k2) ∧ keys = [k1])) := by
  obtain ⟨tail, _, e⟩ := C61_contents (χ := χ) ⟨d2i, pkcs8Keys env⟩ g file password blocks mac st hf hc hl ks m
  rw [e, hb, List.append_assoc]
  exact C64_keys_partial env _ p8 attrs k1 ks m (hd _) hk hs R

/-- Every message has a container for every password, with any part of the ciphertext in `pad`. -/
example (password : List Byte) (blocks : List (Bytes 8)) (mac : List Byte) (n : Nat) : ∃ st, Key6Container password blocks mac st := by
  obtain ⟨key, _, hk⟩ := pkdfLoop_eq (fun _ => emptyCtx) 9999 (gost34311 dke1 password)
  refine ⟨⟨some ⟨some oidIitStore, some ⟨mac, some ((ecb dke1 key blocks).drop n)⟩⟩, some ((ecb dke1 key blocks).take n)⟩, key, _, _, ?_, rfl, ?_⟩
  · unfold Key6Key
    rw [hashTimes_succ]
    exact hk
  · exact List.take_append_drop n _

/-! ### C54 -/

/-- C54 for Key-6 containers: the import has a defined outcome if the decoder of keys has, and when it fails the caller's pointer and the memory are as before. -/
theorem C54_key6 (lib : Key6Lib κ) (hk : ∀ d, lib.keys d ≠ none) (g : Garbage) (file password : List Byte) (hl : password.length < 2 ^ 60) (ks : Option Nat)
    (m : ImpMem κ χ) (R : Reachable m.ks) :
    parseKey6 lib g file password ks m = some (false, ks, m) ∨
      ∃ id m' keys, parseKey6 lib g file password ks m = some (true, some id, m') ∧ Reachable m'.ks ∧ Undisturbed m m' ∧ m.ks.stores id = none ∧
        HoldsExactly m' id keys [] ∧ keys ≠ [] := by
  have hdec : ∀ data pad, decryptKey6 lib g data pad password ks m = some (false, ks, m) ∨
      ∃ id m' keys, decryptKey6 lib g data pad password ks m = some (true, some id, m') ∧ Reachable m'.ks ∧ Undisturbed m m' ∧ m.ks.stores id = none ∧
        HoldsExactly m' id keys [] ∧ keys ≠ [] := by
    intro data pad
    obtain ⟨res, e⟩ := key6Plain_some g (data ++ pad) password hl
    have he : decryptKey6 lib g data pad password ks m = keysFromPKCS8 lib.keys res ks m := by
      unfold decryptKey6; rw [e]; rfl
    rw [he]
    cases hr : lib.keys res with
    | none => exact absurd hr (hk res)
    | some r =>
      cases r with
      | none => left; unfold keysFromPKCS8; rw [hr]
      | some p =>
        right
        obtain ⟨k1, r⟩ := p
        obtain ⟨ops, o1, o2⟩ := R
        have R' : Reach m.ks (Shelves.boot.run ops) := ⟨ops, o1, o2, rfl⟩
        obtain ⟨m', s', e', F⟩ := keysFromPKCS8_fill (χ := χ) lib.keys res ks R' hr
        have hid : (Shelves.boot.run ops).store m.ks.nextStore = none := R'.holds.1.freshStore _ (Nat.le_of_eq R'.holds.1.next.symm)
        refine ⟨_, m', _, e', F.reach.reachable, F.undisturbed R' hid, ?_, F.full, ?_⟩
        · rw [R'.holds.1.stores, hid]; rfl
        · cases r <;> simp
  unfold parseKey6
  simp only [iitStoreOID_eq]
  split
  · split
    · exact Or.inl rfl
    · split
      · exact hdec _ _
      · exact hdec _ _
  · exact Or.inl rfl

/-- A container of another type, or one with a missing part, is refused. -/
theorem C54_key6_other_type (lib : Key6Lib κ) (g : Garbage) (file password : List Byte) (ks : Option Nat) (m : ImpMem κ χ)
    (h : ∀ params data, lib.d2i_IITStore file ≠ some ⟨some ⟨some oidIitStore, some params⟩, some data⟩) :
    parseKey6 lib g file password ks m = some (false, ks, m) := by
  unfold parseKey6
  simp only [iitStoreOID_eq]
  split
  · rename_i type params data hd
    by_cases ht : type = oidIitStore
    · subst ht
      exact absurd hd (h _ _)
    · rw [if_pos ht]
  · rfl

/-! ### C62 -/

/-- C62 fails: the MAC is not looked at.  Two files that differ only in the MAC have the same outcome. -/
theorem C62_mac_ignored (lib : Key6Lib κ) (g : Garbage) (file file' password : List Byte) (type : Option (List Byte)) (mac mac' : List Byte) (pad data : Option (List Byte))
    (h : lib.d2i_IITStore file = some ⟨some ⟨type, some ⟨mac, pad⟩⟩, data⟩) (h' : lib.d2i_IITStore file' = some ⟨some ⟨type, some ⟨mac', pad⟩⟩, data⟩)
    (ks : Option Nat) (m : ImpMem κ χ) : parseKey6 lib g file password ks m = parseKey6 lib g file' password ks m := by
  unfold parseKey6
  simp only [iitStoreOID_eq]
  rw [h, h']
  cases type <;> cases data <;> rfl

/-- A toy decoder of keys: a length, then as many bytes. -/
def toyKeys : List Byte → Option (Option (List Byte × Option (List Byte)))
  | [] => some none
  | n :: d => if n.toNat ≤ d.length then some (some (d.take n.toNat, none)) else some none

/-- C62 fails, whatever the MAC of a message is meant to be: for every password and MAC that is not the right one there is a container with this MAC that is
imported. -/
theorem C62_integrity_refuted (macOf : List Byte → List (Bytes 8) → List Byte) :
    ¬ ∀ (lib : Key6Lib (List Byte)) (g : Garbage) (file password : List Byte) (blocks : List (Bytes 8)) (mac : List Byte) (st : IITStore) (m : ImpMem (List Byte) (List Byte)),
      lib.d2i_IITStore file = some st → Key6Container password blocks mac st → mac ≠ macOf password blocks → Reachable m.ks →
      ∀ id m', parseKey6 lib g file password none m ≠ some (true, id, m') := by
  intro h
  let password : List Byte := [0x70]
  let blocks : List (Bytes 8) := [#v[3, 1, 2, 3, 0, 0, 0, 0]]
  let mac : List Byte := 1 :: macOf password blocks
  obtain ⟨key, _, hk⟩ := pkdfLoop_eq (fun _ => emptyCtx) 9999 (gost34311 dke1 password)
  let st : IITStore := ⟨some ⟨some oidIitStore, some ⟨mac, none⟩⟩, some (ecb dke1 key blocks)⟩
  have hc : Key6Container password blocks mac st := by
    refine ⟨key, _, _, ?_, rfl, ?_⟩
    · unfold Key6Key
      rw [hashTimes_succ]
      exact hk
    · exact List.append_nil _
  let g : Garbage := ⟨fun _ => emptyCtx, emptyCtx, demoMask, fun _ => 0⟩
  let lib : Key6Lib (List Byte) := ⟨fun _ => some st, toyKeys⟩
  obtain ⟨tail, ht, e⟩ := C61_contents (χ := List Byte) lib g [] password blocks mac st rfl hc (by decide) none emptyMem
  have h2 : ∃ id m', keysFromPKCS8 lib.keys (blocks.flatMap Vector.toList ++ tail) none (emptyMem : ImpMem (List Byte) (List Byte)) = some (true, id, m') := by
    obtain ⟨ops, o1, o2⟩ := boot_reachable
    have R' : Reach (emptyMem : ImpMem (List Byte) (List Byte)).ks (Shelves.boot.run ops) := ⟨ops, o1, o2, rfl⟩
    have hr : lib.keys (blocks.flatMap Vector.toList ++ tail) = some (some ([1, 2, 3], none)) := by
      show toyKeys (3 :: 1 :: 2 :: 3 :: ([0, 0, 0, 0] ++ tail)) = _
      rfl
    obtain ⟨m', s', e', F⟩ := keysFromPKCS8_fill (χ := List Byte) lib.keys _ none R' hr
    exact ⟨_, _, e'⟩
  obtain ⟨id, m', e2⟩ := h2
  exact h lib g [] password blocks mac st emptyMem rfl hc (by simp [mac]) boot_reachable id m' (e.trans e2)

/-! ### C72 -/

/-- C72, in part: the outcome does not depend on uninitialised memory and random numbers if the message starts with a structure that the decoder reads
whatever follows it.  Missing: messages with an incomplete structure (refuted below). -/
theorem C72_determined_partial (lib : Key6Lib κ) (g g' : Garbage) (file password : List Byte) (blocks : List (Bytes 8)) (mac : List Byte) (st : IITStore)
    (hf : lib.d2i_IITStore file = some st) (hc : Key6Container password blocks mac st) (hl : password.length < 2 ^ 60)
    (hd : ∀ more more', lib.keys (blocks.flatMap Vector.toList ++ more) = lib.keys (blocks.flatMap Vector.toList ++ more')) (ks : Option Nat) (m : ImpMem κ χ) :
    parseKey6 lib g file password ks m = parseKey6 lib g' file password ks m := by
  obtain ⟨t, _, e⟩ := C61_contents (χ := χ) lib g file password blocks mac st hf hc hl ks m
  obtain ⟨t', _, e'⟩ := C61_contents (χ := χ) lib g' file password blocks mac st hf hc hl ks m
  rw [e, e']
  unfold keysFromPKCS8
  rw [hd t t']

/-- C72 fails: the decoder is also given 8 bytes of uninitialised memory.  A file whose structure is longer than the message by up to 8 bytes is
imported, and the key that is found contains these bytes. -/
theorem C72_uninitialised_refuted (password : List Byte) (hl : password.length < 2 ^ 60) :
    ∃ (lib : Key6Lib (List Byte)) (file : List Byte), ∀ junk : Byte, ∃ (g : Garbage) (id : Nat) (m' : ImpMem (List Byte) (List Byte)),
      parseKey6 lib g file password none emptyMem = some (true, some id, m') ∧ HoldsExactly m' id [[1, 2, 3, 4, 5, 6, 7, junk]] [] := by
  let blocks : List (Bytes 8) := [#v[8, 1, 2, 3, 4, 5, 6, 7]]
  obtain ⟨key, _, hk⟩ := pkdfLoop_eq (fun _ => emptyCtx) 9999 (gost34311 dke1 password)
  let data := ecb dke1 key blocks
  let st : IITStore := ⟨some ⟨some oidIitStore, some ⟨[], none⟩⟩, some data⟩
  have hkey : Key6Key dke1 password key := by
    unfold Key6Key
    rw [hashTimes_succ]
    exact hk
  refine ⟨⟨fun _ => some st, toyKeys⟩, [], fun junk => ?_⟩
  let g : Garbage := ⟨fun _ => emptyCtx, emptyCtx, demoMask, fun _ => junk⟩
  have hplain : key6Plain g data password = some (blocks.flatMap Vector.toList ++ List.replicate 8 junk) := by
    have e := key6Plain_eq g password key hl hkey blocks [] (by simp)
    rw [List.append_nil] at e
    exact e
  obtain ⟨ops, o1, o2⟩ := boot_reachable
  have R' : Reach (emptyMem : ImpMem (List Byte) (List Byte)).ks (Shelves.boot.run ops) := ⟨ops, o1, o2, rfl⟩
  have hr : toyKeys (blocks.flatMap Vector.toList ++ List.replicate 8 junk) = some (some ([1, 2, 3, 4, 5, 6, 7, junk], none)) := rfl
  obtain ⟨m', s', e', F⟩ := keysFromPKCS8_fill (χ := List Byte) toyKeys _ none R' hr
  refine ⟨g, _, m', ?_, F.full⟩
  rw [← e']
  unfold parseKey6
  simp only [iitStoreOID_eq]
  simp only [st, ne_eq, not_true_eq_false, if_false, decryptKey6, List.append_nil]
  rw [hplain]
  rfl

/-! ### C65 -/

/-- C65: what is imported from a stream that ends properly is the concatenation of what was read. -/
theorem C65_concatenation {D : Type} (p12 : P12Lib D κ χ) (jks : JksLib κ χ) (k6 : Key6Lib κ) (g : Garbage) (chunks : List (List Byte)) (h : Reads chunks) (hne : chunks.flatten ≠ [])
    (pass keyPass : List Byte) (ks : Option Nat) (m : ImpMem κ χ) :
    readPKCS12_bio p12 chunks .eof pass ks m = parsePKCS12 p12 chunks.flatten pass ks m ∧
    readJKS_bio jks chunks .eof pass keyPass ks m = parseJKS jks chunks.flatten pass keyPass ks m ∧
    readKey6_bio k6 g chunks .eof pass ks m = parseKey6 k6 g chunks.flatten pass ks m := by
  refine ⟨?_, ?_, ?_⟩ <;>
  · first | unfold readPKCS12_bio | unfold readJKS_bio | unfold readKey6_bio
    rw [readBio_eq _ _ _ _ _ h, if_neg hne]

/-- C65: an empty stream, or one that cannot be read at all, makes the import fail and leaves everything as it was. -/
theorem C65_nothing_read {D : Type} (p12 : P12Lib D κ χ) (jks : JksLib κ χ) (k6 : Key6Lib κ) (g : Garbage) (e : BioEnd) (pass keyPass : List Byte) (ks : Option Nat) (m : ImpMem κ χ) :
    readPKCS12_bio p12 [] e pass ks m = some (false, ks, m) ∧ readJKS_bio jks [] e pass keyPass ks m = some (false, ks, m) ∧
    readKey6_bio k6 g [] e pass ks m = some (false, ks, m) := by
  refine ⟨?_, ?_, ?_⟩ <;>
  · first | unfold readPKCS12_bio | unfold readJKS_bio | unfold readKey6_bio
    rw [readBio_eq _ _ _ _ _ (by intro c hc; cases hc)]
    exact if_pos rfl

/-- C65: two streams with the same bytes have the same outcome. -/
theorem C65_chunking {D : Type} (p12 : P12Lib D κ χ) (jks : JksLib κ χ) (k6 : Key6Lib κ) (g : Garbage) (chunks chunks' : List (List Byte)) (h : Reads chunks) (h' : Reads chunks')
    (he : chunks.flatten = chunks'.flatten) (pass keyPass : List Byte) (ks : Option Nat) (m : ImpMem κ χ) :
    readPKCS12_bio p12 chunks .eof pass ks m = readPKCS12_bio p12 chunks' .eof pass ks m ∧
    readJKS_bio jks chunks .eof pass keyPass ks m = readJKS_bio jks chunks' .eof pass keyPass ks m ∧
    readKey6_bio k6 g chunks .eof pass ks m = readKey6_bio k6 g chunks' .eof pass ks m := by
  refine ⟨?_, ?_, ?_⟩ <;>
  · first | unfold readPKCS12_bio | unfold readJKS_bio | unfold readKey6_bio
    rw [readBio_eq _ _ _ _ _ h, readBio_eq _ _ _ _ _ h', he]

/-- The end of the stream is not looked at: an error after the first bytes, or a stream that would have to wait, is taken for the end of the file. -/
theorem C65_end_ignored {D : Type} (p12 : P12Lib D κ χ) (jks : JksLib κ χ) (k6 : Key6Lib κ) (g : Garbage) (chunks : List (List Byte)) (h : Reads chunks) (e e' : BioEnd)
    (pass keyPass : List Byte) (ks : Option Nat) (m : ImpMem κ χ) :
    readPKCS12_bio p12 chunks e pass ks m = readPKCS12_bio p12 chunks e' pass ks m ∧
    readJKS_bio jks chunks e pass keyPass ks m = readJKS_bio jks chunks e' pass keyPass ks m ∧
    readKey6_bio k6 g chunks e pass ks m = readKey6_bio k6 g chunks e' pass ks m := by
  refine ⟨?_, ?_, ?_⟩ <;>
  · first | unfold readPKCS12_bio | unfold readJKS_bio | unfold readKey6_bio
    rw [readBio_eq _ _ _ _ _ h, readBio_eq _ _ _ _ _ h]

/-- A JKS file in pieces. -/
def toyPieces : List (List Byte) := [(jksFile toyJks.sha1 .jceks ['p'] toyEntries).take 7, (jksFile toyJks.sha1 .jceks ['p'] toyEntries).drop 7]

theorem toy_pieces : toyPieces.flatten = jksFile toyJks.sha1 .jceks ['p'] toyEntries ∧ Reads toyPieces := by
  refine ⟨?_, ?_⟩
  · simp only [toyPieces, List.flatten_cons, List.flatten_nil, List.append_nil, List.take_append_drop]
  · have hl : (jksFile toyJks.sha1 .jceks ['p'] toyEntries).length = 204 := by decide +kernel
    intro c hc
    simp only [toyPieces, List.mem_cons, List.not_mem_nil, or_false] at hc
    have h7 : 7 < (jksFile toyJks.sha1 .jceks ['p'] toyEntries).length := by omega
    rcases hc with rfl | rfl
    · refine ⟨?_, by rw [List.length_take]; omega⟩
      rw [Ne, ← List.length_eq_zero_iff, List.length_take]; omega
    · refine ⟨?_, by rw [List.length_drop]; omega⟩
      rw [Ne, ← List.length_eq_zero_iff, List.length_drop]; omega

/-- C65 fails for streams with errors: a stream that fails with an error after two pieces is imported. -/
theorem C65_error_refuted : ¬ ∀ (jks : JksLib (List Byte) (List Byte)) (chunks : List (List Byte)) (pass keyPass : List Byte) (ks : Option Nat) (m : ImpMem (List Byte) (List Byte)),
    Reads chunks → Reachable m.ks → ∃ ks' m', readJKS_bio jks chunks .error pass keyPass ks m = some (false, ks', m') := by
  intro h
  obtain ⟨ks', m', e⟩ := h toyJks toyPieces (utf8 ['p']) (utf8 ['k', 'і']) none emptyMem toy_pieces.2 boot_reachable
  obtain ⟨id, m2, e2, _⟩ := C55_import_partial toyJks .jceks ['p'] ['k', 'і'] (by simp) (by simp) toyEntries [] (by decide) toy_fits.1 toy_fits.2 _ _ toy_gives none emptyMem boot_reachable
  unfold readJKS_bio at e
  rw [readBio_eq _ _ _ _ _ toy_pieces.2, toy_pieces.1] at e
  rw [List.append_nil] at e2
  split at e
  · rename_i h0
    have : (jksFile toyJks.sha1 .jceks ['p'] toyEntries).length = 204 := by decide +kernel
    rw [h0] at this
    cases this
  · rw [e2] at e
    cases e

/-- A container with the contents `[3, 1, 2, 3, 0, 0, 0, 0]`, whatever its checksum is: `C61_contents`, `C72_determined_partial`, `C54_key6` and `C62_mac_ignored`. -/
example (g g' : Garbage) (mac mac' : List Byte) (ks : Option Nat) (m : ImpMem (List Byte) (List Byte)) (R : Reachable m.ks) :
    ∃ st st' : IITStore, Key6Container [0x70] [#v[3, 1, 2, 3, 0, 0, 0, 0]] mac st ∧ Key6Container [0x70] [#v[3, 1, 2, 3, 0, 0, 0, 0]] mac' st' ∧
      ∃ id m', parseKey6 ⟨fun file => if file = [] then some st else some st', toyKeys⟩ g [] [0x70] ks m = some (true, some id, m') ∧
        parseKey6 ⟨fun file => if file = [] then some st else some st', toyKeys⟩ g' [] [0x70] ks m = some (true, some id, m') ∧
        parseKey6 ⟨fun file => if file = [] then some st else some st', toyKeys⟩ g [1] [0x70] ks m = some (true, some id, m') := by
  obtain ⟨key, _, hk⟩ := pkdfLoop_eq (fun _ => emptyCtx) 9999 (gost34311 dke1 [0x70])
  have hkey : Key6Key dke1 [0x70] key := by
    unfold Key6Key
    rw [hashTimes_succ]
    exact hk
  generalize hb : ([#v[3, 1, 2, 3, 0, 0, 0, 0]] : List (Bytes 8)) = blocks
  have hc : ∀ mac, Key6Container [0x70] blocks mac ⟨some ⟨some oidIitStore, some ⟨mac, some ((ecb dke1 key blocks).drop 3)⟩⟩, some ((ecb dke1 key blocks).take 3)⟩ :=
    fun mac => ⟨key, _, _, hkey, rfl, List.take_append_drop 3 _⟩
  refine ⟨_, _, hc mac, hc mac', ?_⟩
  generalize hlib : (⟨fun file => if file = [] then _ else _, toyKeys⟩ : Key6Lib (List Byte)) = lib
  have hd : ∀ more, lib.keys (blocks.flatMap Vector.toList ++ more) = some (some ([1, 2, 3], none)) := by
    intro more
    rw [← hlib, ← hb]
    simp [toyKeys]
  obtain ⟨tail, _, h1⟩ := C61_contents lib g [] [0x70] blocks mac _ (by rw [← hlib]; rfl) (hc mac) (by decide) ks m
  have h2 := C72_determined_partial lib g g' [] [0x70] blocks mac _ (by rw [← hlib]; rfl) (hc mac) (by decide) (fun a b => by rw [hd, hd]) ks m
  have h3 := C62_mac_ignored lib g [] [1] [0x70] _ mac mac' _ _ (by rw [← hlib]; rfl) (by rw [← hlib]; rfl) ks m
  have hk6 : ∀ d, lib.keys d ≠ none := by
    intro d
    rw [← hlib]
    show toyKeys d ≠ none
    unfold toyKeys
    repeat' split
    all_goals simp
  rw [← h2, ← h3]
  rcases C54_key6 lib hk6 g [] [0x70] (by decide) ks m R with h | ⟨id, m', _, h, _⟩
  · rw [h1] at h
    unfold keysFromPKCS8 at h
    rw [hd] at h
    simp only at h
    repeat' split at h
    all_goals cases h
  · exact ⟨id, m', h, h, h⟩

/-- A file that is something else. -/
example (g : Garbage) (ks : Option Nat) (m : ImpMem (List Byte) (List Byte)) := C54_key6_other_type ⟨fun _ => none, toyKeys⟩ g [1, 2] [] ks m (by simp)

/-- The file of `toyEntries`, read in pieces. -/
example {D : Type} (p12 : P12Lib D (List Byte) (List Byte)) (k6 : Key6Lib (List Byte)) (g : Garbage) (pass keyPass : List Byte) (ks : Option Nat) (m : ImpMem (List Byte) (List Byte)) :
    readJKS_bio toyJks toyPieces .eof pass keyPass ks m = parseJKS toyJks (jksFile toyJks.sha1 .jceks ['p'] toyEntries) pass keyPass ks m ∧
    readJKS_bio toyJks toyPieces .eof pass keyPass ks m = readJKS_bio toyJks [jksFile toyJks.sha1 .jceks ['p'] toyEntries] .eof pass keyPass ks m := by
  have hl : (jksFile toyJks.sha1 .jceks ['p'] toyEntries).length = 204 := by decide +kernel
  have hne : toyPieces.flatten ≠ [] := by
    rw [toy_pieces.1]
    intro h
    rw [h] at hl
    cases hl
  have h1 := (C65_concatenation p12 toyJks k6 g toyPieces toy_pieces.2 hne pass keyPass ks m).2.1
  rw [toy_pieces.1] at h1 hne
  refine ⟨h1, (C65_chunking p12 toyJks k6 g toyPieces [jksFile toyJks.sha1 .jceks ['p'] toyEntries] toy_pieces.2 ?_ ?_ pass keyPass ks m).2.1⟩
  · intro c hc
    rw [List.mem_singleton.1 hc]
    exact ⟨hne, by omega⟩
  · rw [toy_pieces.1, List.flatten_cons, List.flatten_nil, List.append_nil]

/-- The description of the 163-bit curve. -/
theorem spec163 (sq : QuadSolver) : ∃ spec, group_from_asn1 sq spec false = some g163 ∧ SaneField spec := by
  have hb : ¬ BadBase g163 := fun h => numbers163.2.2.2.2.2.2.2.2.2 h.1
  obtain ⟨spec, h1, hm, h2, _⟩ := custom_group_round_trip sq g163 g163_dstu hb false
  refine ⟨spec, h2, ?_⟩
  have hf : fieldSpec (poly2arr g163.p) = some (163, .pentanomial 3 6 7) := by decide +kernel
  have : spec.m = 163 ∧ spec.poly = .pentanomial 3 6 7 := by
    unfold custom_from_group at h1
    rw [hf] at h1
    simp only at h1
    repeat' split at h1
    all_goals cases h1
    exact ⟨rfl, rfl⟩
  unfold SaneField fieldExponents
  rw [this.1, this.2]
  simp

/-- The 163-bit curve in the theorems of C66, and a file with two keys on it in `C64_keys_partial`. -/
example (base : Env) : ∃ spec, makeECGROUPFromSpec base.sq spec = some (some g163) ∧
    ∃ (env : P8Env) (attrs : List (Option Attr)) (id : Nat) (m' : ImpMem EvpPkey (List Byte)) (k1 k2 : EvpPkey), SecondKey env attrs k2 ∧
      keysFromPKCS8 (pkcs8Keys env) [1] none ⟨KsMem.boot, fun _ => none, fun _ => none⟩ = some (true, some id, m') ∧ HoldsExactly m' id [k1, k2] [] := by
  obtain ⟨spec, h1, hs⟩ := spec163 base.sq
  have hc := C66_same_curve base.sq spec g163 h1
  refine ⟨spec, hc, ?_⟩
  let env : P8Env := ⟨base, fun _ => some ([], [some ⟨some oidCurveAttr, [.seq []]⟩, none, some ⟨some oidKeyAttr, [.bit [0xA0]]⟩]), fun _ => some spec,
    fun _ => some ⟨.be, some (keyEx163 g163)⟩⟩
  have h2 : SecondKey env [some ⟨some oidCurveAttr, [.seq []]⟩, none, some ⟨some oidKeyAttr, [.bit [0xA0]]⟩] ⟨.le, some ⟨some g163, none, some 5, some (affine (-(5 • g163.gen)))⟩⟩ := by
    refine ⟨_, _, [0xA0], spec, g163, 5, _, ⟨[], _, rfl, rfl, ?_⟩, ⟨[some _, none], [], rfl, rfl, by simp⟩, ⟨[], _, [], rfl, Or.inr rfl, by simp⟩, ?_,
      ⟨[], [], [], rfl, rfl, by simp⟩, hc, add_public_key_good base g163 5, rfl⟩
    · intro a ha
      simp only [List.mem_cons, reduceCtorEq, Option.some.injEq, false_or, List.not_mem_nil, or_false] at ha
      rw [ha]
      decide
    · intro i
      rw [show (5 : Nat) = bin2bn (([0xA0] : List Byte).map swapBits).reverse by decide]
      exact swapped_bit _ i
  obtain ⟨id, m', keys, h3, _, _, _, h4, h5⟩ := C64_keys_partial (χ := List Byte) env [1] [] _ ⟨.be, some (keyEx163 g163)⟩ none ⟨KsMem.boot, fun _ => none, fun _ => none⟩ rfl rfl
    (by rintro ⟨_, _, sp, _, _, ⟨_, _, _, _, hsp, _⟩, hn⟩; cases hsp; exact sane_not_negative _ hs hn) boot_reachable
  rcases h5 with ⟨k2, h6, h7⟩ | ⟨h6, _⟩
  · rw [h7] at h4
    exact ⟨env, _, id, m', _, k2, h6, h3, h4⟩
  · exact absurd ⟨_, h2⟩ h6

end Dstu.Props
