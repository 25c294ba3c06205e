import Verif.Lemmas.FailKeylib
import Verif.Props.FailLib

/-! Failures of allocations and of library calls in the import of keys: C81 and C82. -/

namespace Dstu.Props

open Res Fail

/-- A PKCS#8 structure with two keys. -/
def twoKeys : P8Shape := ⟨true, true, 2, true, 1, true, 0⟩

/-- A password for which each loop needs one round. -/
def plainPass : PassShape := ⟨false, 0, 0⟩

/-! ### C81 -/

/-- C81.  A store releases all it has. -/
theorem C81_free_store (s : StorePtr) : Safe Any (Fail.KeyStoreFree s) (storeOwn s) fun _ => 0 := safe_KeyStoreFree s

example : (Fail.KeyStoreFree ⟨0, some (1, [⟨2, none⟩, ⟨3, some (4, 5)⟩]), some (6, [7])⟩ (fun _ _ => true) ⟨{0, 1, 2, 3, 4, 5, 6, 7}, 8, 0, 0⟩).map (fun r => r.2.live) = some 0 := by
  run [Fail.KeyStoreFree, freeKeyArray, freeKeys, Fail.EVP_PKEY_free, Fail.DSTU_KEY_free, freeCertArray, freeCerts]

/-- C81, PKCS#12, where it holds: no allocation of the store fails (the calls of the kind `weak`).  For any contents, whatever else fails, all that is left is the store that is returned, with all in it.
Missing: see `C81_memory_refuted`. -/
theorem C81_pkcs12_partial (l : List (Option (List Bag))) : Safe (Never .weak) (Fail.parsePKCS12 l) 0 optStoreOwn := safe_parsePKCS12 (fun _ h => h) l

/-- A file with a key and a certificate: the store has two arrays; and the certificate cannot be decoded. -/
example : (Fail.parsePKCS12 [some [.keyBag [], .certBag []]] (fun _ _ => true) start).map (fun r => (r.1.map keyCount, r.2.next)) = some (some 1, 9) ∧
    (Fail.parsePKCS12 [some [.keyBag [], .certBag []]] (fun k t => k ≠ .object ∨ t ≠ 15) start).map (fun r => (r.1.map keyCount, r.2.live)) = some (none, 0) := by
  constructor <;> run [Fail.parsePKCS12, decode, decoded, Fail.countKeysCerts, countKeysCertsInBags, countKeysCertsInBag, Fail.KeyStoreNew, newArray, Fail.fromSafes, Fail.fromBags, Fail.fromBag, Fail.KeyStoreSetKey,
    Fail.KeyStoreSetCert, keyCount, Fail.KeyStoreFree, freeKeyArray, freeKeys, Fail.EVP_PKEY_free, freeCertArray, freeCerts]

/-- C81, PKCS#8 and Key-6, where it holds: there is no second key, or it is well formed and no call of the kind `weak` fails.  These are the
allocations without a check, the numbers from a context, and those after which something is lost; every other call may fail.
Missing: see `C81_memory_refuted` and `C81_second_key_refuted`. -/
theorem C81_pkcs8_partial (p8 : P8Shape) (h : p8.Clean) :
    Safe (Never .weak) (Fail.keysFromPKCS8 p8) 0 optStoreOwn :=
  safe_keysFromPKCS8 (fun _ h => h) p8 h

example := C81_pkcs8_partial twoKeys (Or.inr ⟨rfl, rfl⟩)

theorem C81_key6_partial (empty : Bool) (p8 : P8Shape) (h : p8.Clean) :
    Safe (Never .weak) (Fail.parseKey6 empty p8) 0 optStoreOwn :=
  Runs.safe (runs_parseKey6 (fun _ h => h) empty p8 (C81_pkcs8_partial p8 h).runs rfl)

example := C81_key6_partial false twoKeys (Or.inr ⟨rfl, rfl⟩)

/-- C81, when the second key has no private number: there is no undefined behaviour, and objects are lost only when a store with the first key alone is returned. -/
theorem C81_pkcs8_calls_partial (p8 : P8Shape) (hw : p8.wf = true) :
    SafeIf (Never .weak) (Fail.keysFromPKCS8 p8) 0 optStoreOwn (fun r => r = none ∨ ∃ s, r = some s ∧ keyCount s = 2) :=
  Runs.safeIf (runs_keysFromPKCS8 (fun _ h => h) p8 hw)

example := C81_pkcs8_calls_partial twoKeys rfl

theorem C81_key6_calls_partial (empty : Bool) (p8 : P8Shape) (hw : p8.wf = true) :
    SafeIf (Never .weak) (Fail.parseKey6 empty p8) 0 optStoreOwn (fun r => r = none ∨ ∃ s, r = some s ∧ keyCount s = 2) :=
  Runs.safeIf (runs_parseKey6 (fun _ h => h) empty p8 (runs_keysFromPKCS8 (fun _ h => h) p8 hw)
    ⟨0, rfl, fun _ => rfl⟩)

example := C81_key6_calls_partial false twoKeys rfl

/-- Two keys are found, and nothing else is left. -/
theorem two_keys_run : (Fail.keysFromPKCS8 twoKeys (fun k t => k ≠ .data ∨ t ≠ 26) start).map (fun r => (r.1.map keyCount, r.2.faults, r.2.live.card)) = some (some 2, 0, 6) := by
  run [Fail.keysFromPKCS8, twoKeys, decoded, decode, Fail.pkeyFromAttributes, findAttrs, Fail.makePKey, Fail.getPrivateKeyNum, intoNum, Fail.makeECGROUP, firstSpec, Fail.makeECGROUPFromSpec,
    Fail.makePoly, Fail.makePoint, Fail.dstu_point_expand, expandBody, expandNonzero, Fail.bn_trace, traceRounds, Fail.DSTU_KEY_new, makePKeyWith, addPublic, Fail.KeyStoreNew, newArray,
    Fail.KeyStoreSetKey, keyCount]

/-- C81, Java key stores, where it holds: all keys can be decoded and no call of the kind `weak` fails, the making of keys being of that
kind, too.  Then nothing is lost, if a store is returned.
Missing: see `C81_jks_password_refuted` and `C81_jks_key_refuted`. -/
theorem C81_jks_partial (sp kp : PassShape) (l : List EntryShape) (h : ∀ e ∈ l, e.Good) :
    SafeIf (Never .weak) (Fail.parseJKS sp kp l) 0 optStoreOwn (fun r => r ≠ none) :=
  Runs.safeIf (runs_parseJKS (fun _ h => h) sp kp l h)

example := C81_jks_partial plainPass plainPass [.key (.keyProtector 1 twoKeys) 2, .cert] (by
  intro e he
  simp only [List.mem_cons, List.not_mem_nil, or_false] at he
  rcases he with rfl | rfl
  · exact ⟨rfl, rfl, Or.inr ⟨rfl, rfl⟩⟩
  · trivial)

/-- C81, reading from a file: it adds no defects to those of the parsers. -/
theorem C81_read_file {H : Fate → Prop} (n : Nat) (f : Res (Option StorePtr)) (h : Safe H f 0 optStoreOwn) :
    Safe H (readBio n f) 0 optStoreOwn ∧ Safe H (readFile n f) 0 optStoreOwn :=
  ⟨Runs.safe (runs_readBio n h.runs rfl), Runs.safe (runs_readFile n h.runs rfl)⟩

example (l : List (Option (List Bag))) (n : Nat) := C81_read_file n _ (C81_pkcs12_partial l)

/-- C81 fails when there is no memory: there are allocations that are not checked. -/
theorem C81_memory_refuted : (∃ w, (∀ k, k ≠ .data → k ≠ .weak → Never k w) ∧ Fail.parsePKCS12 [some [.keyBag [], .certBag []]] w start = none ∧
    Fail.keysFromPKCS8 twoKeys w start = none ∧ ∀ e p8, Fail.parseKey6 e p8 w start = none) ∧
    ∃ w, (∀ k, k ≠ .data → k ≠ .weak → Never k w) ∧ Fail.parseJKS plainPass plainPass [] w start = none := by
  refine ⟨⟨fun k _ => k ≠ .weak, fun k _ h _ => by simp [h], ?_, ?_, fun e p8 => ?_⟩, fun k t => k ≠ .weak ∨ t ≠ 2, fun k _ h _ => by simp [h], ?_⟩
  · run [Fail.parsePKCS12, decode, decoded, Fail.countKeysCerts, countKeysCertsInBags, countKeysCertsInBag, Fail.KeyStoreNew]
  · run [Fail.keysFromPKCS8, twoKeys, decoded, decode, Fail.pkeyFromAttributes, findAttrs]
  · run [Fail.parseKey6, decode, decoded]
  · run [Fail.parseJKS, Fail.toUTF16BE, plainPass, convRounds]

/-- C81 fails when there is no memory for the public key of the second key: the key, already made, stays allocated. -/
theorem C81_public_refuted : ∃ w c s, (∀ k, k ≠ .data → k ≠ .weak → Never k w) ∧ Fail.keysFromPKCS8 twoKeys w start = some (some s, c) ∧ c.faults = 1 ∧
    c.live = storeOwn s + {12} := by
  refine ⟨fun k t => (k ≠ .data ∨ t ≠ 26) ∧ (k = .weak → t ≠ 47), ⟨{14, 13, 12, 1}, 15, 50, 1⟩, ⟨13, some (14, [⟨1, none⟩]), none⟩, ?_, ?_, rfl, by decide⟩
  · intro k h h' t
    simp [h, h']
  · run [Fail.keysFromPKCS8, twoKeys, decoded, decode, Fail.pkeyFromAttributes, findAttrs, Fail.makePKey, Fail.getPrivateKeyNum, intoNum, Fail.makeECGROUP, firstSpec, Fail.makeECGROUPFromSpec,
      Fail.makePoly, Fail.makePoint, Fail.dstu_point_expand, expandBody, expandNonzero, Fail.bn_trace, traceRounds, Fail.DSTU_KEY_new, makePKeyWith, addPublic, Fail.DSTU_KEY_free, Fail.KeyStoreNew, newArray,
      Fail.KeyStoreSetKey, keyCount]
    decide

/-- C81 fails for a PKCS#8 structure in which the number of the second key is missing, although nothing fails: its curve stays allocated. -/
theorem C81_second_key_refuted : ∃ w c s, Fail.keysFromPKCS8 { twoKeys with usable := false } w start = some (some s, c) ∧ c.faults = 0 ∧ c.live = storeOwn s + {6} := by
  refine ⟨fun k t => k ≠ .data ∨ t ≠ 22, ⟨{10, 9, 6, 1}, 11, 40, 0⟩, ⟨9, some (10, [⟨1, none⟩]), none⟩, ?_, rfl, ?_⟩
  · run [Fail.keysFromPKCS8, twoKeys, decoded, decode, Fail.pkeyFromAttributes, findAttrs, Fail.makePKey, Fail.getPrivateKeyNum, intoNum, Fail.makeECGROUP, firstSpec, Fail.makeECGROUPFromSpec,
      Fail.makePoly, Fail.makePoint, Fail.dstu_point_expand, expandBody, expandNonzero, Fail.bn_trace, traceRounds, Fail.KeyStoreNew, newArray, Fail.KeyStoreSetKey]
    decide
  · decide

/-- C81 fails for a PKCS#8 structure in which the curve of the second key has a negative exponent: although nothing fails, NULL is dereferenced. -/
theorem C81_exponent_refuted : ∃ w, (∀ k t, k ≠ .data → w k t = true) ∧ Fail.keysFromPKCS8 { twoKeys with wf := false } w start = none := by
  refine ⟨fun _ _ => true, fun _ _ _ => rfl, ?_⟩
  run [Fail.keysFromPKCS8, twoKeys, decoded, decode, Fail.pkeyFromAttributes, findAttrs, Fail.makePKey, Fail.getPrivateKeyNum, intoNum, Fail.makeECGROUP, firstSpec, Fail.makeECGROUPFromSpec,
    Fail.makePoly]

/-- C81 fails for a Java key store with an entry that cannot be decoded: the converted password stays allocated, although nothing fails. -/
theorem C81_jks_password_refuted : ∃ w c, Fail.parseJKS plainPass plainPass [.other] w start = some (none, c) ∧ c.faults = 0 ∧ c.live ≠ 0 := by
  refine ⟨fun k t => k ≠ .data ∨ t ≠ 10, ?_⟩
  run [Fail.parseJKS, Fail.toUTF16BE, plainPass, convRounds, convWrite, convEnd, Fail.KeyStoreNew, newArray, Fail.parseEntries, Fail.parseEntry, Fail.KeyStoreFree, freeKeyArray, freeCertArray]

/-- C81 fails for a Java key store with a key that is decrypted, with the right checksum, but is no PKCS#8 structure: although nothing fails, NULL is dereferenced. -/
theorem C81_jks_key_refuted : ∃ w, (∀ k t, k ≠ .data → w k t = true) ∧ Fail.parseJKS plainPass plainPass [.key (.keyProtector 1 { twoKeys with parses := false }) 1] w start = none := by
  refine ⟨fun k t => k ≠ .data ∨ (t ≠ 10 ∧ t ≠ 22), fun k t h => by simp [h], ?_⟩
  run [Fail.parseJKS, Fail.toUTF16BE, plainPass, convRounds, convWrite, convEnd, Fail.KeyStoreNew, newArray, Fail.parseEntries, Fail.parseEntry, Fail.decryptKey, decode, decoded, Fail.decryptWith,
    Fail.fromKeyProtector, unprotect, Fail.twoHash, storeProtected, Fail.keysFromPKCS8, twoKeys]

/-- A store with a key and its certificate. -/
theorem jks_run : (Fail.parseJKS plainPass plainPass [.key (.keyProtector 1 { twoKeys with attrs := 0 }) 1] (fun k t => k ≠ .data ∨ (t ≠ 10 ∧ t ≠ 22)) start).map
    (fun r => (r.1.map keyCount, r.2.faults, r.2.live.card)) = some (some 1, 0, 5) := by
  run [Fail.parseJKS, Fail.toUTF16BE, plainPass, convRounds, convWrite, convEnd, Fail.KeyStoreNew, newArray, Fail.parseEntries, Fail.parseEntry, Fail.decryptKey, decode, decoded, Fail.decryptWith,
    Fail.fromKeyProtector, unprotect, Fail.twoHash, storeProtected, Fail.keysFromPKCS8, twoKeys, Fail.pkeyFromAttributes, findAttrs, Fail.KeyStoreSetKey, Fail.KeyStoreAppend, appendArray,
    Fail.KeyStoreFree, freeKeyArray, freeKeys, freeCertArray, freeCerts, Fail.parseCerts, Fail.parseCert, Fail.KeyStoreSetCert, Fail.whiteHash, keyCount]

/-! ### C82 -/

/-- C82.  A store is returned for a PKCS#12 file only if nothing has failed, also when it is read from a file. -/
theorem C82_pkcs12 (l : List (Option (List Bag))) (n : Nat) :
    Reports (Fail.parsePKCS12 l) (fun r => r ≠ none) ∧ Reports (readBio n (Fail.parsePKCS12 l)) (fun r => r ≠ none) ∧ Reports (readFile n (Fail.parsePKCS12 l)) fun r => r ≠ none :=
  ⟨reports_parsePKCS12 l, reports_readBio n (reports_parsePKCS12 l), reports_readFile n (reports_parsePKCS12 l)⟩

/-- C82 fails for PKCS#8: when the second key cannot be made for lack of memory, a store with the first alone is returned, as if there were no other. -/
theorem C82_pkcs8_refuted : ∃ w c s, Never .weak w ∧ Fail.keysFromPKCS8 twoKeys w start = some (some s, c) ∧ c.faults = 1 ∧ keyCount s = 1 := by
  refine ⟨fun k t => (k ≠ .data ∨ t ≠ 26) ∧ (k = .object → t ≠ 43), ⟨{11, 12, 1}, 13, 46, 1⟩, ⟨11, some (12, [⟨1, none⟩]), none⟩, fun _ => by simp, ?_, rfl, rfl⟩
  run [Fail.keysFromPKCS8, twoKeys, decoded, decode, Fail.pkeyFromAttributes, findAttrs, Fail.makePKey, Fail.getPrivateKeyNum, intoNum, Fail.makeECGROUP, firstSpec, Fail.makeECGROUPFromSpec,
    Fail.makePoly, Fail.makePoint, Fail.dstu_point_expand, expandBody, expandNonzero, Fail.bn_trace, traceRounds, Fail.DSTU_KEY_new, makePKeyWith, addPublic, Fail.KeyStoreNew, newArray,
    Fail.KeyStoreSetKey, keyCount]

/-- C82 fails for Java key stores: when a part of the converted password cannot be stored for lack of memory, it is missing, and the import goes on with the rest. -/
theorem C82_jks_refuted : ∃ w c s, Fail.parseJKS plainPass plainPass [] w start = some (some s, c) ∧ c.faults ≠ 0 := by
  refine ⟨fun k t => (k ≠ .data ∨ t ≠ 10) ∧ t ≠ 5, ?_⟩
  run [Fail.parseJKS, Fail.toUTF16BE, plainPass, convRounds, convWrite, convEnd, Fail.KeyStoreNew, newArray, Fail.parseEntries, Fail.whiteHash]

end Dstu.Props
