import Verif.Lemmas.JksImport
import Verif.Props.Pkcs12

/-! C54 to C59, C71: import of Java key stores. -/

namespace Dstu.Props

open Dstu Dstu.Spec

variable {κ χ : Type}

/-- C55, for passwords that are not empty: a file as it is written, with any number of key entries, each protected by the key protector
with the key password and with a chain of any length, possibly with something after its end, is imported.  `*ks` is a new store
with exactly the keys and certificates of the file, in order; nothing that existed is touched.  Missing: empty
passwords, see `C55_empty_password_refuted`. -/
theorem C55_import_partial (lib : JksLib κ χ) (kind : JksKind) (pass keyPass : List Char) (hp : pass ≠ []) (hkp : keyPass ≠ []) (es : List JksEntry) (more : List Byte)
    (hn : es.length < 2 ^ 32) (hf : ∀ e ∈ es, e.Fits) (hk : ∀ e ∈ es, e.IsKey) (keys : List κ) (certs : List χ) (hg : AllGive lib keyPass es keys certs)
    (ks : Option Nat) (m : ImpMem κ χ) (R : Reachable m.ks) :
    ∃ id m', parseJKS lib (jksFile lib.sha1 kind pass es ++ more) (utf8 pass) (utf8 keyPass) ks m = some (true, some id, m') ∧
      Reachable m'.ks ∧ Undisturbed m m' ∧ m.ks.stores id = none ∧ HoldsExactly m' id keys certs := by
  have hd : (jksDigest lib.sha1 pass (jksBody kind es)).length = 20 := lib.sha1_length _
  obtain ⟨id, h⟩ := parseJKS_layout lib kind es (jksDigest lib.sha1 pass (jksBody kind es) ++ more) (utf8 keyPass) pass hp ks m R hn hf hk (by simp [hd])
  rw [readEntries_gives lib hkp hg hk] at h
  simp only at h
  rw [if_pos (by rw [← hd, List.take_left])] at h
  obtain ⟨m', e, i⟩ := h
  refine ⟨id, m', ?_, i⟩
  unfold jksFile
  rw [List.append_assoc]
  exact e

/-- C55: whatever the data and the passwords, success means that the data begins with something that is followed by its keyed digest for the
given password. -/
theorem C55_digest_checked_partial (lib : JksLib κ χ) (data storagePass keyPass : List Byte) (ks out : Option Nat) (m m' : ImpMem κ χ) (R : Reachable m.ks)
    (h : parseJKS lib data storagePass keyPass ks m = some (true, out, m')) :
    ∃ pass body more, storagePass = utf8 pass ∧ data = body ++ jksDigest lib.sha1 pass body ++ more := by
  rcases parseJKS_cases lib data storagePass keyPass ks m with e | e | ⟨t, n, ht, hs, e⟩
  · rw [e] at h
    cases h
  · rw [e] at h
    cases h
  · obtain ⟨id, g⟩ := importEntries_eq lib data (utf16 t) keyPass n R
    rw [e] at h
    rw [h] at g
    rcases h1 : pEntryLoop lib data keyPass n 12 with _ | _ | ⟨⟨k, c⟩, p⟩
    · rw [h1] at g
      cases g
    · rw [h1] at g
      obtain ⟨_, g, _⟩ := g
      cases g
    · rw [h1] at g
      simp only at g
      rcases h2 : copyAt data 0 p with _ | body
      · rw [h2] at g
        cases g
      · rw [h2] at g
        simp only at g
        rcases h3 : sameBytes (whiteHash lib (utf16 t) body) (data.drop p) 20 0 with _ | _ | _
        · rw [h3] at g
          cases g
        · rw [h3] at g
          obtain ⟨_, g, _⟩ := g
          cases g
        · have hl := sameBytes_long 20 0 (by decide) h3
          have hd : (whiteHash lib (utf16 t) body).length = 20 := lib.sha1_length _
          rw [sameBytes_eq 20 0 (by omega) hl] at h3
          have h4 := of_decide_eq_true (Option.some.inj h3)
          rw [List.drop_zero, List.drop_zero, List.take_of_length_le (Nat.le_of_eq hd)] at h4
          refine ⟨t, body, data.drop (p + 20), hs, ?_⟩
          have h5 : body = data.take p := by
            unfold copyAt at h2
            split at h2
            · cases h2
              rw [List.drop_zero]
            · cases h2
          rw [← whiteHash_eq, h4, h5, ← List.drop_drop, List.append_assoc, List.take_append_drop, List.take_append_drop]

/-- C55: a file with well laid out key entries whose digest is not that of the password is refused. -/
theorem C55_wrong_digest_refused (lib : JksLib κ χ) (kind : JksKind) (pass keyPass : List Char) (hp : pass ≠ []) (hkp : keyPass ≠ []) (es : List JksEntry) (digest more : List Byte)
    (hn : es.length < 2 ^ 32) (hf : ∀ e ∈ es, e.Fits) (hk : ∀ e ∈ es, e.IsKey) (keys : List κ) (certs : List χ) (hg : AllGive lib keyPass es keys certs)
    (hd : digest.length = 20) (hne : digest ≠ jksDigest lib.sha1 pass (jksBody kind es)) (ks : Option Nat) (m : ImpMem κ χ) (R : Reachable m.ks) :
    ∃ id m', parseJKS lib (jksBody kind es ++ digest ++ more) (utf8 pass) (utf8 keyPass) ks m = some (false, some id, m') ∧
      Undisturbed m m' ∧ NothingLeft m m' := by
  obtain ⟨id, h⟩ := parseJKS_layout lib kind es (digest ++ more) (utf8 keyPass) pass hp ks m R hn hf hk (by simp [hd])
  rw [readEntries_gives lib hkp hg hk] at h
  simp only at h
  rw [if_neg (by rw [← hd, List.take_left]; exact fun h => hne h.symm)] at h
  obtain ⟨m', e, _, i, j, _⟩ := h
  rw [List.append_assoc]
  exact ⟨id, m', e, i, j⟩

/-- The full C55 is false: files with the empty password are refused. -/
theorem C55_empty_password_refuted (lib : JksLib κ χ) (kind : JksKind) (es : List JksEntry) (hn : es.length < 2 ^ 32) (more keyPass : List Byte) (ks : Option Nat) (m : ImpMem κ χ) :
    parseJKS lib (jksFile lib.sha1 kind [] es ++ more) (utf8 []) keyPass ks m = some (false, ks, m) := by
  unfold jksFile
  rw [List.append_assoc, parseJKS_body lib kind es _ _ _ ks m hn]
  have h1 : toUTF16BE (utf8 []) = some none := by
    show toUTF16BE [] = _
    unfold toUTF16BE convLoop
    simp
  rw [h1]
  rfl

/-- C54, part: when the import of any data fails, without undefined behaviour, nothing is left behind and nothing that existed is touched;
but `*ks`, when it was changed, refers to a freed store. -/
theorem C54_jks_partial (lib : JksLib κ χ) (data storagePass keyPass : List Byte) (ks out : Option Nat) (m m' : ImpMem κ χ) (R : Reachable m.ks)
    (h : parseJKS lib data storagePass keyPass ks m = some (false, out, m')) :
    Undisturbed m m' ∧ NothingLeft m m' ∧ (out = ks ∨ ∃ id, out = some id ∧ m'.ks.stores id = none) := by
  rcases parseJKS_cases lib data storagePass keyPass ks m with e | e | ⟨t, n, ht, hs, e⟩
  · rw [e] at h
    cases h
  · rw [e] at h
    cases h
    exact ⟨⟨fun _ _ => rfl, fun _ _ => ⟨rfl, rfl, rfl⟩⟩, ⟨fun _ h => h, fun _ h => h⟩, Or.inl rfl⟩
  · obtain ⟨id, g⟩ := importEntries_eq lib data (utf16 t) keyPass n R
    rw [e] at h
    rw [h] at g
    have fin : (∃ m2, some (false, out, m') = some (false, some id, m2) ∧ FailedClean m m2 id) →
        Undisturbed m m' ∧ NothingLeft m m' ∧ (out = ks ∨ ∃ id, out = some id ∧ m'.ks.stores id = none) := by
      rintro ⟨m2, e2, _, u, nl, hf⟩
      cases e2
      exact ⟨u, nl, Or.inr ⟨id, rfl, hf⟩⟩
    rcases h1 : pEntryLoop lib data keyPass n 12 with _ | _ | ⟨⟨k, c⟩, p⟩
    · rw [h1] at g
      cases g
    · rw [h1] at g
      exact fin g
    · rw [h1] at g
      simp only at g
      rcases h2 : copyAt data 0 p with _ | body
      · rw [h2] at g
        cases g
      · rw [h2] at g
        simp only at g
        rcases h3 : sameBytes (whiteHash lib (utf16 t) body) (data.drop p) 20 0 with _ | _ | _
        · rw [h3] at g
          cases g
        · rw [h3] at g
          exact fin g
        · rw [h3] at g
          obtain ⟨_, g, _⟩ := g
          cases g

/-- C56, part: for files with well laid out key entries, followed by at least the 20 bytes of a digest, the import does not read outside its
input, whatever the passwords, the digest and the certificates are; the protected keys must have room for salt and check, and those that are decrypted must be
decodable. -/
theorem C56_inside_partial (lib : JksLib κ χ) (kind : JksKind) (storagePass keyPass : List Byte) (es : List JksEntry) (more : List Byte) (hm : 20 ≤ more.length)
    (hn : es.length < 2 ^ 32) (hf : ∀ e ∈ es, e.Fits) (hk : ∀ e ∈ es, e.IsKey)
    (hd : ∀ name time prot chain d, JksEntry.key name time prot chain ∈ es → lib.d2i_X509_SIG prot = some (oidKeyProtector, d) →
      40 ≤ d.length ∧ ∀ kp key, keyPass = utf8 kp → Protected lib.sha1 (utf16 kp) d key → ∃ k, lib.keys key = some (some k))
    (ks : Option Nat) (m : ImpMem κ χ) (R : Reachable m.ks) :
    parseJKS lib (jksBody kind es ++ more) storagePass keyPass ks m ≠ none := by
  have hdec : ∀ name time prot chain, JksEntry.key name time prot chain ∈ es → pDecrypt lib prot keyPass ≠ none := by
    intro name time prot chain hmem
    unfold pDecrypt
    rcases h1 : toUTF16BE keyPass with _ | _ | p
    · exact absurd h1 (toUTF16BE_never _)
    · simp
    · simp only [Option.bind_eq_bind, Option.bind_some]
      obtain ⟨kp, _, h2, rfl⟩ := toUTF16BE_some h1
      rcases h3 : lib.d2i_X509_SIG prot with _ | ⟨oid, d⟩
      · simp
      · simp only
        split
        · rename_i h4
          rw [h4] at h3
          obtain ⟨g1, g2⟩ := hd name time prot chain d hmem h3
          unfold pProt
          rcases unprotect_long lib (utf16 kp) g1 with ⟨key, e, hpr⟩ | ⟨e, _⟩
          · obtain ⟨⟨k1, k2⟩, hk⟩ := g2 kp key h2 hpr
            rw [e]
            simp [hk]
          · rw [e]
            simp
        · split <;> simp
  have hes : ∀ l, (∀ e ∈ l, e ∈ es) → readEntries lib keyPass l ≠ none := by
    intro l hl
    induction l with
    | nil => simp [readEntries]
    | cons e l ih =>
      have h1 : readEntry lib keyPass e ≠ none := by
        have he := hl e (by simp)
        cases e with
        | cert => exact (hk _ he).elim
        | key name time prot chain =>
          unfold readEntry readKeyEntry
          rcases h1 : pDecrypt lib prot keyPass with _ | _ | k
          · exact absurd h1 (hdec _ _ _ _ he)
          · simp [h1]
          · simp only [h1, Option.bind_eq_bind, Option.bind_some]
            cases chainCerts lib chain <;> simp
      have h2 := ih fun e he => hl e (by simp [he])
      unfold readEntries
      rcases h3 : readEntry lib keyPass e with _ | _ | ⟨a, b⟩
      · exact absurd h3 h1
      · simp
      · simp only [Option.bind_eq_bind, Option.bind_some]
        rcases h4 : readEntries lib keyPass l with _ | _ | ⟨a', b'⟩
        · exact absurd h4 h2
        · simp
        · simp
  by_cases ht : ∃ t, t ≠ [] ∧ storagePass = utf8 t
  · obtain ⟨t, h1, rfl⟩ := ht
    obtain ⟨id, h⟩ := parseJKS_layout lib kind es more keyPass t h1 ks m R hn hf hk hm
    intro hnone
    rw [hnone] at h
    rcases h2 : readEntries lib keyPass es with _ | _ | ⟨a, b⟩
    · exact hes es (fun _ h => h) h2
    · rw [h2] at h
      obtain ⟨_, h, _⟩ := h
      cases h
    · rw [h2] at h
      simp only at h
      split at h
      · obtain ⟨_, h, _⟩ := h
        cases h
      · obtain ⟨_, h, _⟩ := h
        cases h
  · rw [parseJKS_body lib kind es more storagePass keyPass ks m hn]
    rcases h1 : toUTF16BE storagePass with _ | _ | p
    · exact absurd h1 (toUTF16BE_never _)
    · simp
    · obtain ⟨t, h2, h3, _⟩ := toUTF16BE_some h1
      exact absurd ⟨t, h2, h3⟩ ht

/-- The full C56 is false: data of less than 12 bytes is read outside its bounds. -/
theorem C56_short_refuted (lib : JksLib κ χ) (data storagePass keyPass : List Byte) (h : data.length < 12) (ks : Option Nat) (m : ImpMem κ χ) :
    parseJKS lib data storagePass keyPass ks m = none := by
  have h1 : be32 data 8 = none := by
    unfold be32 read32 copyAt
    rw [if_neg (by omega)]
    rfl
  unfold parseJKS
  cases read32 data 0 with
  | none => rfl
  | some n =>
    rw [h1]
    rfl

/-- And so is a file that ends before its digest. -/
theorem C56_truncated_refuted (lib : JksLib κ χ) (kind : JksKind) (pass : List Char) (hp : pass ≠ []) (keyPass : List Byte) (ks : Option Nat) (m : ImpMem κ χ) (R : Reachable m.ks) :
    parseJKS lib (jksBody kind []) (utf8 pass) keyPass ks m = none := by
  have := parseJKS_body lib kind [] [] (utf8 pass) keyPass ks m (by simp)
  rw [List.append_nil] at this
  rw [this, C60_converted_partial pass hp, Option.bind_some]
  obtain ⟨id, h⟩ := importEntries_eq lib (jksBody kind []) (utf16 pass) keyPass 0 R
  have hlen : (jksBody kind []).length = 12 := by cases kind <;> rfl
  have h1 : copyAt (jksBody kind []) 0 12 = some (jksBody kind []) := by
    unfold copyAt
    rw [if_pos (by omega), List.drop_zero, ← hlen, List.take_length]
  have h2 : (jksBody kind []).drop 12 = [] := by
    rw [← hlen, List.drop_length]
  simp only [pEntryLoop, h1, h2] at h
  have h3 : ∀ d, sameBytes d [] 20 0 = none := by
    intro d
    unfold sameBytes
    cases d[0]? <;> rfl
  rw [h3] at h
  exact h

/-- C57, for data with room for salt and check: decryption is free of undefined behaviour, and gives a key exactly if the data is that
key, protected with the password; everything else is refused.  Missing: shorter data, see `C57_short_refuted`. -/
theorem C57_protector_partial (lib : JksLib κ χ) (d pass16 : List Byte) (h : 40 ≤ d.length) :
    unprotect lib d pass16 ≠ none ∧ ∀ key, unprotect lib d pass16 = some (some key) ↔ Protected lib.sha1 pass16 d key := by
  rcases unprotect_long lib pass16 h with ⟨key, e, hp⟩ | ⟨e, hno⟩
  · refine ⟨by rw [e]; simp, fun key' => ⟨fun h' => ?_, unprotect_protect lib⟩⟩
    rw [e] at h'
    cases h'
    exact hp
  · refine ⟨by rw [e]; simp, fun key => ⟨fun h' => ?_, fun hp => absurd hp (hno key)⟩⟩
    rw [e] at h'
    cases h'

/-- C57: the round trip, for keys of any length, all passwords and all salts. -/
theorem C57_roundtrip (lib : JksLib κ χ) (key pass16 salt : List Byte) (hs : salt.length = 20) :
    unprotect lib (protect lib.sha1 pass16 salt key) pass16 = some (some key) := unprotect_protect lib ⟨salt, hs, rfl⟩

/-- C57: with any other check than the right one the protected key is refused. -/
theorem C57_wrong_check_refused (lib : JksLib κ χ) (enc pass16 salt check : List Byte) (hs : salt.length = 20) (hc : check.length = 20)
    (h : ∀ key, protect lib.sha1 pass16 salt key ≠ salt ++ enc ++ check) : unprotect lib (salt ++ enc ++ check) pass16 = some none := by
  rcases unprotect_long lib (d := salt ++ enc ++ check) pass16 (by simp [hs, hc]; omega) with ⟨key, _, s, h1, h2⟩ | ⟨e, _⟩
  · refine absurd ?_ (h key)
    rw [h2]
    have : s = salt := by
      have := congrArg (List.take 20) h2
      unfold protect at this
      rw [List.append_assoc, List.append_assoc, List.take_append_of_le_length (by omega), List.take_append_of_le_length (by omega), List.take_of_length_le (by omega), List.take_of_length_le (by omega)] at this
      exact this.symm
    rw [this]
  · exact e

/-- The full C57 is false: shorter data makes the loops run outside of what was allocated. -/
theorem C57_short_refuted (lib : JksLib κ χ) (d pass16 : List Byte) (h : d.length < 40) : unprotect lib d pass16 = none := by
  unfold unprotect
  rw [if_pos h]

/-- Entries that can be read, then something that is refused. -/
theorem pEntryLoop_refused (lib : JksLib κ χ) {data post keyPass : List Byte} (es : List JksEntry) (pre : List Byte) (n : Nat) (h : data = pre ++ (es.flatMap JksEntry.bytes ++ post))
    (hf : ∀ e ∈ es, e.Fits) (hk : ∀ e ∈ es, e.IsKey) (x : List κ × List χ) (hr : readEntries lib keyPass es = some (some x))
    (hn : pEntryLoop lib data keyPass n (pre ++ es.flatMap JksEntry.bytes).length = some none) :
    pEntryLoop lib data keyPass (es.length + n) pre.length = some none := by
  induction es generalizing pre x with
  | nil => simpa using hn
  | cons e es ih =>
    have h1 := pEntry_at lib (data := data) (pre := pre) (e := e) (post := es.flatMap JksEntry.bytes ++ post) (keyPass := keyPass) (by rw [h]; simp) (hf e (by simp)) (hk e (by simp))
    unfold readEntries at hr
    rcases h3 : readEntry lib keyPass e with _ | _ | ⟨ks, cs⟩
    · rw [h3] at hr
      cases hr
    · rw [h3] at hr
      cases hr
    · rw [h3] at hr
      simp only [Option.bind_eq_bind, Option.bind_some] at hr
      rcases h4 : readEntries lib keyPass es with _ | _ | ⟨ks', cs'⟩
      · rw [h4] at hr
        cases hr
      · rw [h4] at hr
        cases hr
      · have h2 := ih (pre ++ e.bytes) (by rw [h]; simp) (fun c hm => hf c (by simp [hm])) (fun c hm => hk c (by simp [hm])) _ h4 (by simpa using hn)
        rw [List.length_cons, Nat.add_right_comm]
        unfold pEntryLoop
        rw [h1, h3]
        simp only [Option.bind_eq_bind, Option.map_some, Option.bind_some, h2]

/-- C58 fails, for every file with a trusted certificate after any number of readable key entries: the name of the entry is taken for the type of a certificate, and the
upper half of the entry's time for the length of one; the bytes after that, as many as this, are decoded.  If they are not a certificate the file is refused, whatever
its certificate is. -/
theorem C58_trusted_refuted (lib : JksLib κ χ) (kind : JksKind) (pass keyPass : List Char) (hp : pass ≠ []) (hkp : keyPass ≠ []) (pre post : List JksEntry) (name low : List Byte)
    (high : Nat) (c : JksCert) (more : List Byte) (hn : (pre ++ .cert name (u32 high ++ low) c :: post).length < 2 ^ 32) (hf : ∀ e ∈ pre, e.Fits) (hk : ∀ e ∈ pre, e.IsKey)
    (keys : List κ) (certs : List χ) (hg : AllGive lib keyPass pre keys certs)
    (h1 : name.length < 2 ^ 16) (h2 : high < 2 ^ 32) (fits : high ≤ (low ++ c.bytes ++ post.flatMap JksEntry.bytes ++ more).length)
    (bad : lib.d2i_X509 ((low ++ c.bytes ++ post.flatMap JksEntry.bytes ++ more).take high) = none)
    (ks : Option Nat) (m : ImpMem κ χ) (R : Reachable m.ks) :
    ∃ id m', parseJKS lib (jksBody kind (pre ++ .cert name (u32 high ++ low) c :: post) ++ more) (utf8 pass) (utf8 keyPass) ks m = some (false, some id, m') ∧
      Undisturbed m m' ∧ NothingLeft m m' := by
  rw [parseJKS_body lib kind _ _ _ _ ks m hn, C60_converted_partial pass hp, Option.bind_some]
  obtain ⟨id, h⟩ := importEntries_eq lib (jksBody kind (pre ++ .cert name (u32 high ++ low) c :: post) ++ more) (utf16 pass) (utf8 keyPass) (pre ++ .cert name (u32 high ++ low) c :: post).length R
  refine ⟨id, ?_⟩
  have hbody : jksBody kind (pre ++ .cert name (u32 high ++ low) c :: post) ++ more =
      (kind.magic ++ u32 2 ++ u32 (pre ++ .cert name (u32 high ++ low) c :: post).length) ++ (pre.flatMap JksEntry.bytes ++ (u32 2 ++ (str16 name ++ (u32 high ++ (low ++ c.bytes ++ post.flatMap JksEntry.bytes ++ more))))) := by
    simp [jksBody, JksEntry.bytes]
  have hmag : (kind.magic ++ u32 2 ++ u32 (pre ++ .cert name (u32 high ++ low) c :: post).length).length = 12 := by cases kind <;> rfl
  have hlen : (pre ++ .cert name (u32 high ++ low) c :: post).length = pre.length + (post.length + 1) := by simp
  rw [hbody] at h ⊢
  generalize low ++ c.bytes ++ post.flatMap JksEntry.bytes ++ more = tail at fits bad h ⊢
  generalize kind.magic ++ u32 2 ++ u32 (pre ++ .cert name (u32 high ++ low) c :: post).length = head at hmag h ⊢
  generalize hq : (head ++ pre.flatMap JksEntry.bytes).length = q
  have hdr : certHeader (head ++ (pre.flatMap JksEntry.bytes ++ (u32 2 ++ (str16 name ++ (u32 high ++ tail))))) (q + 4) = some (tail.take high, q + 4 + (2 + name.length + 4 + high)) := by
    unfold certHeader
    rw [be16_at (pre := head ++ pre.flatMap JksEntry.bytes ++ u32 2) (n := name.length) (post := name ++ (u32 high ++ tail)) (by simp [str16]) (by rw [List.length_append, hq]; rfl) h1]
    simp only
    rw [be32_at (pre := head ++ pre.flatMap JksEntry.bytes ++ u32 2 ++ str16 name) (n := high) (post := tail) (by simp) (by rw [List.length_append, List.length_append, hq]; simp [u32_length, str16, u16_length]) h2]
    simp only
    rw [copyAt_at (pre := head ++ pre.flatMap JksEntry.bytes ++ u32 2 ++ str16 name ++ u32 high) (x := tail.take high) (post := tail.drop high) (by simp)
      (by rw [List.length_append, List.length_append, List.length_append, hq]; simp [u32_length, str16, u16_length]; omega) (by rw [List.length_take]; omega)]
  have hentry : pEntry lib (head ++ (pre.flatMap JksEntry.bytes ++ (u32 2 ++ (str16 name ++ (u32 high ++ tail))))) q (utf8 keyPass) = some none := by
    unfold pEntry
    rw [be32_at (pre := head ++ pre.flatMap JksEntry.bytes) (n := 2) (post := str16 name ++ (u32 high ++ tail)) (by simp) hq.symm (by decide)]
    simp only [Option.bind_eq_bind, Option.bind_some]
    rw [if_neg (by decide), if_pos trivial]
    unfold pCert
    rw [hdr]
    simp only [Option.bind_eq_bind, Option.bind_some, bad]
  have hloop := pEntryLoop_refused lib (data := head ++ (pre.flatMap JksEntry.bytes ++ (u32 2 ++ (str16 name ++ (u32 high ++ tail))))) (keyPass := utf8 keyPass) pre head (post.length + 1) rfl hf hk
    _ (readEntries_gives lib hkp hg hk) (by
      rw [hq]
      unfold pEntryLoop
      rw [hentry]
      rfl)
  rw [← hlen, hmag] at hloop
  rw [hloop] at h
  obtain ⟨m', h, _, u, n, _⟩ := h
  exact ⟨m', h, u, n⟩

/-- C59, for the two known algorithms: when the import of a file with well laid out key entries succeeds, each entry was decrypted and gave
one or two keys, the store holds them all, and so there are at least as many keys as entries.  Missing: other algorithms, see `C59_unknown_refuted`, and
trusted certificates, which are misread, see `C58_trusted_refuted`. -/
theorem C59_no_key_dropped_partial (lib : JksLib κ χ) (kind : JksKind) (pass keyPass : List Char) (hp : pass ≠ []) (hkp : keyPass ≠ []) (es : List JksEntry) (more : List Byte)
    (hm : 20 ≤ more.length) (hn : es.length < 2 ^ 32) (hf : ∀ e ∈ es, e.Fits) (hk : ∀ e ∈ es, e.IsKey) (ha : ∀ e ∈ es, KnownAlg lib e)
    (ks out : Option Nat) (m m' : ImpMem κ χ) (R : Reachable m.ks)
    (h : parseJKS lib (jksBody kind es ++ more) (utf8 pass) (utf8 keyPass) ks m = some (true, out, m')) :
    ∃ id keys certs, out = some id ∧ AllGive lib keyPass es keys certs ∧ HoldsExactly m' id keys certs ∧ es.length ≤ keys.length := by
  obtain ⟨id, g⟩ := parseJKS_layout lib kind es more (utf8 keyPass) pass hp ks m R hn hf hk hm
  rw [h] at g
  rcases h2 : readEntries lib (utf8 keyPass) es with _ | _ | ⟨a, b⟩
  · rw [h2] at g
    cases g
  · rw [h2] at g
    obtain ⟨_, g, _⟩ := g
    cases g
  · rw [h2] at g
    simp only at g
    have hall := readEntries_some lib hkp ha h2
    split at g
    · obtain ⟨m2, g, _, _, _, i⟩ := g
      cases g
      exact ⟨id, a, b, rfl, hall, i, allGive_length lib hall hk⟩
    · obtain ⟨_, g, _⟩ := g
      cases g

/-- The full C59 is false: an entry with a key of any other algorithm is skipped, and the import succeeds without the key. -/
theorem C59_unknown_refuted (lib : JksLib κ χ) (kind : JksKind) (pass keyPass : List Char) (hp : pass ≠ []) (hkp : keyPass ≠ []) (name time prot oid d : List Byte)
    (hf : (JksEntry.key name time prot []).Fits) (hs : lib.d2i_X509_SIG prot = some (oid, d)) (h1 : oid ≠ oidKeyProtector) (h2 : oid ≠ oidPbes1)
    (ks : Option Nat) (m : ImpMem κ χ) (R : Reachable m.ks) :
    ∃ id m', parseJKS lib (jksFile lib.sha1 kind pass [.key name time prot []]) (utf8 pass) (utf8 keyPass) ks m = some (true, some id, m') ∧ HoldsExactly m' id [] [] := by
  have hd : (jksDigest lib.sha1 pass (jksBody kind [.key name time prot []])).length = 20 := lib.sha1_length _
  obtain ⟨id, h⟩ := parseJKS_layout lib kind [.key name time prot []] (jksDigest lib.sha1 pass (jksBody kind [.key name time prot []])) (utf8 keyPass) pass hp ks m R (by simp)
    (by simpa using hf) (by simp [JksEntry.IsKey]) (Nat.le_of_eq hd.symm)
  have hr : readEntries lib (utf8 keyPass) [.key name time prot []] = some (some ([], [])) := by
    unfold readEntries readEntry readKeyEntry pDecrypt
    simp only [C60_converted_partial keyPass hkp, Option.bind_eq_bind, Option.bind_some, hs, if_neg h1, if_neg h2, chainCerts, readEntries]
    rfl
  rw [hr] at h
  simp only at h
  rw [if_pos (List.take_of_length_le (Nat.le_of_eq hd)).symm] at h
  obtain ⟨m', e, _, _, _, i⟩ := h
  exact ⟨id, m', e, i⟩

/-- Entries that can be read, then one that cannot. -/
theorem readEntries_after (lib : JksLib κ χ) {kp : List Char} (hkp : kp ≠ []) {pre : List JksEntry} {ks : List κ} {cs : List χ} (h : AllGive lib kp pre ks cs)
    (hk : ∀ e ∈ pre, e.IsKey) (e : JksEntry) (post : List JksEntry) (he : ∀ x, readEntry lib (utf8 kp) e ≠ some (some x)) :
    readEntries lib (utf8 kp) (pre ++ e :: post) = readEntry lib (utf8 kp) e := by
  induction h with
  | nil =>
    show readEntries lib (utf8 kp) (e :: post) = _
    unfold readEntries
    rcases h : readEntry lib (utf8 kp) e with _ | _ | x
    · rfl
    · rfl
    · exact absurd h (he x)
  | cons h _ ih =>
    have h1 := readEntry_gives lib hkp (hk _ (by simp)) h
    have h2 := ih fun e he => hk e (by simp [he])
    rw [List.cons_append]
    unfold readEntries
    simp only [h1, h2, Option.bind_eq_bind, Option.bind_some]
    rcases h : readEntry lib (utf8 kp) e with _ | _ | x
    · rfl
    · rfl
    · exact absurd h (he x)

/-- C57 for files: after any number of readable entries, a key that is not protected with the given password (a wrong password or changed data) makes the import
fail, and nothing is left of it. -/
theorem C57_import_refused_partial (lib : JksLib κ χ) (kind : JksKind) (pass keyPass : List Char) (hp : pass ≠ []) (hkp : keyPass ≠ []) (pre post : List JksEntry)
    (name time prot d : List Byte) (chain : List JksCert) (more : List Byte) (hm : 20 ≤ more.length) (hn : (pre ++ .key name time prot chain :: post).length < 2 ^ 32)
    (hf : ∀ e ∈ pre ++ .key name time prot chain :: post, e.Fits) (hk : ∀ e ∈ pre ++ .key name time prot chain :: post, e.IsKey) (keys : List κ) (certs : List χ)
    (hg : AllGive lib keyPass pre keys certs) (hs : lib.d2i_X509_SIG prot = some (oidKeyProtector, d)) (hd : 40 ≤ d.length)
    (h1 : ∀ key, ¬Protected lib.sha1 (utf16 keyPass) d key) (ks : Option Nat) (m : ImpMem κ χ) (R : Reachable m.ks) :
    ∃ id m', parseJKS lib (jksBody kind (pre ++ .key name time prot chain :: post) ++ more) (utf8 pass) (utf8 keyPass) ks m = some (false, some id, m') ∧
      Undisturbed m m' ∧ NothingLeft m m' := by
  obtain ⟨id, h⟩ := parseJKS_layout lib kind _ more (utf8 keyPass) pass hp ks m R hn hf hk hm
  have he : readEntry lib (utf8 keyPass) (.key name time prot chain) = some none := by
    unfold readEntry readKeyEntry pDecrypt
    rcases unprotect_long lib (utf16 keyPass) hd with ⟨key, e, hpr⟩ | ⟨e, _⟩
    · exact absurd hpr (h1 key)
    · simp only [C60_converted_partial keyPass hkp, Option.bind_eq_bind, Option.bind_some, hs, if_true, pProt, e]
  rw [readEntries_after lib hkp hg (fun e he => hk e (by simp [he])) _ post (by rw [he]; simp), he] at h
  obtain ⟨m', e, _, u, n, _⟩ := h
  exact ⟨id, m', e, u, n⟩

/-- C71 fails, for every file: after any number of readable entries, an entry whose key is decrypted but is no key the library knows makes the program free a store
that is NULL. -/
theorem C71_undecodable_refuted (lib : JksLib κ χ) (kind : JksKind) (pass keyPass : List Char) (hp : pass ≠ []) (hkp : keyPass ≠ []) (pre post : List JksEntry)
    (name time prot d key : List Byte) (chain : List JksCert) (more : List Byte) (hm : 20 ≤ more.length) (hn : (pre ++ .key name time prot chain :: post).length < 2 ^ 32)
    (hf : ∀ e ∈ pre ++ .key name time prot chain :: post, e.Fits) (hk : ∀ e ∈ pre ++ .key name time prot chain :: post, e.IsKey) (keys : List κ) (certs : List χ)
    (hg : AllGive lib keyPass pre keys certs) (hs : lib.d2i_X509_SIG prot = some (oidKeyProtector, d)) (h1 : Protected lib.sha1 (utf16 keyPass) d key)
    (h2 : lib.keys key = some none) (ks : Option Nat) (m : ImpMem κ χ) (R : Reachable m.ks) :
    parseJKS lib (jksBody kind (pre ++ .key name time prot chain :: post) ++ more) (utf8 pass) (utf8 keyPass) ks m = none := by
  obtain ⟨id, h⟩ := parseJKS_layout lib kind _ more (utf8 keyPass) pass hp ks m R hn hf hk hm
  have he : readEntry lib (utf8 keyPass) (.key name time prot chain) = none := by
    unfold readEntry readKeyEntry pDecrypt
    simp only [C60_converted_partial keyPass hkp, Option.bind_eq_bind, Option.bind_some, hs, if_true, pProt, unprotect_protect lib h1, h2]
    rfl
  rw [readEntries_after lib hkp hg (fun e he => hk e (by simp [he])) _ post (by rw [he]; simp), he] at h
  exact h

/-! Concrete cases: a toy hash, keys and certificates that are their own encodings. -/

def toyJks : JksLib (List Byte) (List Byte) where
  sha1 := fun d => (d.drop 3 ++ List.replicate 20 0).take 20
  sha1_length := fun d => by simp
  d2i_X509 := fun d => if d.head? = some 0x30 then some d else none
  d2i_X509_SIG := fun d => match d with | 1 :: t => some (oidKeyProtector, t) | 2 :: t => some ([7], t) | _ => none
  keys := fun d => match d with | [] => some none | 5 :: t => some (some ([5], some t)) | d => some (some (d, none))

def toySalt : List Byte := List.replicate 20 9

/-- Two entries: one with two keys and two certificates, one with a key of 25 bytes. -/
def toyEntries : List JksEntry :=
  [.key [0x61] (List.replicate 8 1) (1 :: protect toyJks.sha1 (utf16 ['k', 'і']) toySalt [5, 6]) [⟨[0x58], [0x30, 1]⟩, ⟨[], [0x30, 2, 3]⟩],
   .key [] (List.replicate 8 2) (1 :: protect toyJks.sha1 (utf16 ['k', 'і']) toySalt (List.replicate 25 8)) []]

theorem toy_fits : (∀ e ∈ toyEntries, e.Fits) ∧ ∀ e ∈ toyEntries, e.IsKey := by
  refine ⟨?_, ?_⟩
  · intro e he
    simp only [toyEntries, List.mem_cons, List.not_mem_nil, or_false] at he
    rcases he with rfl | rfl
    · refine ⟨by decide, rfl, by decide, by decide, ?_⟩
      intro c hc
      simp only [List.mem_cons, List.not_mem_nil, or_false] at hc
      rcases hc with rfl | rfl <;> exact ⟨by decide, by decide⟩
    · exact ⟨by decide, rfl, by decide, by decide, by simp⟩
  · intro e he
    simp only [toyEntries, List.mem_cons, List.not_mem_nil, or_false] at he
    rcases he with rfl | rfl <;> trivial

theorem toy_gives : AllGive toyJks ['k', 'і'] toyEntries [[5], [6], List.replicate 25 8] [[0x30, 1], [0x30, 2, 3]] :=
  .cons (ks := [[5], [6]]) (cs := [[0x30, 1], [0x30, 2, 3]]) ⟨_, [5, 6], [5], some [6], rfl, ⟨toySalt, rfl, rfl⟩, rfl, rfl, rfl⟩
    (.cons (ks := [List.replicate 25 8]) (cs := []) ⟨_, List.replicate 25 8, List.replicate 25 8, none, rfl, ⟨toySalt, rfl, rfl⟩, rfl, rfl, rfl⟩ .nil)

example : ∃ id m', parseJKS toyJks (jksFile toyJks.sha1 .jceks ['p'] toyEntries ++ [1, 2]) (utf8 ['p']) (utf8 ['k', 'і']) none emptyMem = some (true, some id, m') ∧
    HoldsExactly m' id [[5], [6], List.replicate 25 8] [[0x30, 1], [0x30, 2, 3]] := by
  obtain ⟨id, m', e, _, _, _, h⟩ := C55_import_partial toyJks .jceks ['p'] ['k', 'і'] (by simp) (by simp) toyEntries [1, 2] (by decide) toy_fits.1 toy_fits.2 _ _ toy_gives none emptyMem boot_reachable
  exact ⟨id, m', e, h⟩

/-- A protected key with a wrong check. -/
example : unprotect toyJks (toySalt ++ [7] ++ List.replicate 20 1) [0, 0x6b] = some none := by
  refine C57_wrong_check_refused toyJks [7] [0, 0x6b] toySalt (List.replicate 20 1) rfl rfl fun key h => ?_
  have h1 := congrArg (List.drop 21) h
  have h2 := congrArg List.length h
  simp [protect, toySalt, toyJks] at h2
  obtain ⟨k, rfl⟩ := List.length_eq_one_iff.mp h2
  simp [protect, toySalt, toyJks, List.drop_append] at h1

/-- The digest of another password. -/
example : jksDigest toyJks.sha1 ['q', 'r'] (jksBody .jks toyEntries) ≠ jksDigest toyJks.sha1 ['p'] (jksBody .jks toyEntries) := by decide +kernel

/-- C54 fails: a file with one entry of unknown kind makes the import fail after `*ks` was set; `*ks` then refers to a store that was freed. -/
theorem C54_jks_dangling_refuted (lib : JksLib κ χ) (pass : List Char) (hp : pass ≠ []) (keyPass more : List Byte) (m : ImpMem κ χ) (R : Reachable m.ks) :
    ∃ id m', parseJKS lib (JksKind.jks.magic ++ u32 2 ++ u32 1 ++ u32 3 ++ more) (utf8 pass) keyPass none m = some (false, some id, m') ∧ m'.ks.stores id = none := by
  obtain ⟨id, h⟩ := importEntries_eq lib (JksKind.jks.magic ++ u32 2 ++ u32 1 ++ u32 3 ++ more) (utf16 pass) keyPass 1 R
  have h1 : pEntryLoop lib (JksKind.jks.magic ++ u32 2 ++ u32 1 ++ u32 3 ++ more) keyPass 1 12 = some none := by
    unfold pEntryLoop pEntry
    rw [be32_at (data := JksKind.jks.magic ++ u32 2 ++ u32 1 ++ u32 3 ++ more) (pos := 12) (pre := JksKind.jks.magic ++ u32 2 ++ u32 1) (n := 3) (post := more) (by simp) rfl (by decide)]
    rfl
  rw [h1] at h
  obtain ⟨m', e, hc⟩ := h
  refine ⟨id, m', ?_, hc.2.2.2⟩
  have h2 : parseJKS lib (JksKind.jks.magic ++ u32 2 ++ u32 1 ++ u32 3 ++ more) (utf8 pass) keyPass none m = importEntries lib (JksKind.jks.magic ++ u32 2 ++ u32 1 ++ u32 3 ++ more) (utf16 pass) keyPass 1 m := by
    have r1 : read32 (JksKind.jks.magic ++ u32 2 ++ u32 1 ++ u32 3 ++ more) 0 = some (leValue JksKind.jks.magic) := by
      unfold read32
      rw [copyAt_at (pos := 0) (n := 4) (pre := []) (x := JksKind.jks.magic) (post := u32 2 ++ u32 1 ++ u32 3 ++ more) (by simp) rfl rfl, Option.map_some]
    have r2 : be32 (JksKind.jks.magic ++ u32 2 ++ u32 1 ++ u32 3 ++ more) 8 = some 1 :=
      be32_at (pre := JksKind.jks.magic ++ u32 2) (n := 1) (post := u32 3 ++ more) (by simp) rfl (by decide)
    have r3 : read32 (JksKind.jks.magic ++ u32 2 ++ u32 1 ++ u32 3 ++ more) 4 = some (leValue (u32 2)) := by
      unfold read32
      rw [copyAt_at (pos := 4) (n := 4) (pre := JksKind.jks.magic) (x := u32 2) (post := u32 1 ++ u32 3 ++ more) (by simp) rfl rfl, Option.map_some]
    have r4 : leValue JksKind.jks.magic = 0xedfeedfe := by decide +kernel
    have r5 : leValue (u32 2) = 0x02000000 := by decide +kernel
    unfold parseJKS
    rw [r1, r2, r3, r4, r5, C60_converted_partial pass hp]
    rfl
  rw [h2]
  exact e

/-- The well laid out file, with damaged digest and a wrong key password, in reach of C56 and C59. -/
example : parseJKS toyJks (jksBody .jks toyEntries ++ List.replicate 21 0) (utf8 ['p']) [0xFF] none emptyMem ≠ none := by
  refine C56_inside_partial toyJks .jks _ _ toyEntries _ (by decide) (by decide) toy_fits.1 toy_fits.2 ?_ none emptyMem boot_reachable
  intro name time prot chain d hmem hs
  have hd : prot = 1 :: d := by
    simp only [toyJks] at hs
    split at hs
    · cases hs
      rfl
    · cases hs
    · cases hs
  refine ⟨?_, fun kp key hk => ?_⟩
  · simp only [toyEntries, List.mem_cons, List.not_mem_nil, or_false] at hmem
    rcases hmem with h | h <;>
    · cases h
      cases hd
      decide
  · exfalso
    have h1 : nextChar [0xFF] = none := by decide +kernel
    cases kp with
    | nil => cases hk
    | cons c t =>
      have h2 : nextChar (utf8 (c :: t)) = some c := nextChar_encode c _
      rw [← hk, h1] at h2
      cases h2

example : ∀ e ∈ toyEntries, KnownAlg toyJks e := by
  intro e he
  simp only [toyEntries, List.mem_cons, List.not_mem_nil, or_false] at he
  rcases he with rfl | rfl <;>
  · intro oid d h
    simp only [toyJks] at h
    cases h
    exact Or.inl rfl

/-- A trusted certificate entry with the time 0x00000002_11223344: it holds a certificate, which the import does not find. -/
example : AllGive toyJks [] [.cert [0x61] (u32 2 ++ [0x11, 0x22, 0x33, 0x44]) ⟨[], [0x30]⟩] [] [[0x30]] :=
  .cons (ks := []) (cs := [[0x30]]) ⟨rfl, [0x30], rfl, rfl⟩ .nil
example : ∃ id m', parseJKS toyJks (jksBody .jks (toyEntries ++ [.cert [0x61] (u32 2 ++ [0x11, 0x22, 0x33, 0x44]) ⟨[], [0x30]⟩]) ++ List.replicate 20 0) (utf8 ['p']) (utf8 ['k', 'і']) none emptyMem = some (false, some id, m') := by
  obtain ⟨id, m', h, _⟩ := C58_trusted_refuted toyJks .jks ['p'] ['k', 'і'] (by simp) (by simp) toyEntries [] [0x61] [0x11, 0x22, 0x33, 0x44] 2 ⟨[], [0x30]⟩ (List.replicate 20 0) (by decide)
    toy_fits.1 toy_fits.2 _ _ toy_gives (by decide) (by decide) (by simp) rfl none emptyMem boot_reachable
  exact ⟨id, m', h⟩

/-- Entries for C59 and C71. -/
example : (JksEntry.key [] (List.replicate 8 1) [2, 3] []).Fits ∧ toyJks.d2i_X509_SIG [2, 3] = some ([7], [3]) ∧ ([7] : List Byte) ≠ oidKeyProtector ∧ ([7] : List Byte) ≠ oidPbes1 :=
  ⟨⟨by decide, rfl, by decide, by decide, by simp⟩, rfl, by decide, by decide⟩
/-- Two good entries, then a key without contents. -/
example : parseJKS toyJks (jksBody .jks (toyEntries ++ [.key [] (List.replicate 8 1) (1 :: protect toyJks.sha1 (utf16 ['k', 'і']) toySalt []) []]) ++ List.replicate 20 0) (utf8 ['p']) (utf8 ['k', 'і']) none emptyMem = none := by
  refine C71_undecodable_refuted toyJks .jks ['p'] ['k', 'і'] (by simp) (by simp) toyEntries [] [] (List.replicate 8 1) _ _ [] [] _ (by decide) (by decide) ?_ ?_ _ _ toy_gives rfl ⟨toySalt, rfl, rfl⟩ rfl none emptyMem boot_reachable
  · intro e he
    rcases List.mem_append.1 he with he | he
    · exact toy_fits.1 e he
    · cases List.mem_singleton.1 he
      exact ⟨by decide, rfl, by decide, by decide, by simp⟩
  · intro e he
    rcases List.mem_append.1 he with he | he
    · exact toy_fits.2 e he
    · cases List.mem_singleton.1 he
      trivial

/-- Two good entries, then one whose check is wrong. -/
example : ∃ id m', parseJKS toyJks (jksBody .jks (toyEntries ++ [.key [] (List.replicate 8 1) (1 :: (toySalt ++ [1, 2, 3] ++ List.replicate 20 0)) []]) ++ List.replicate 20 0) (utf8 ['p']) (utf8 ['k', 'і']) none emptyMem =
    some (false, some id, m') := by
  have h : unprotect toyJks (toySalt ++ [1, 2, 3] ++ List.replicate 20 0) (utf16 ['k', 'і']) = some none := by decide +kernel
  obtain ⟨id, m', e, _⟩ := C57_import_refused_partial toyJks .jks ['p'] ['k', 'і'] (by simp) (by simp) toyEntries [] [] (List.replicate 8 1) (1 :: (toySalt ++ [1, 2, 3] ++ List.replicate 20 0))
    (toySalt ++ [1, 2, 3] ++ List.replicate 20 0) [] (List.replicate 20 0) (by decide) (by decide) (by
      intro e he
      rcases List.mem_append.1 he with he | he
      · exact toy_fits.1 e he
      · cases List.mem_singleton.1 he
        exact ⟨by decide, rfl, by decide, by decide, by simp⟩) (by
      intro e he
      rcases List.mem_append.1 he with he | he
      · exact toy_fits.2 e he
      · cases List.mem_singleton.1 he
        trivial) _ _ toy_gives rfl (by decide) (fun key hp => by
      rw [((C57_protector_partial toyJks _ (utf16 ['k', 'і']) (by decide)).2 key).2 hp] at h
      cases h) none emptyMem boot_reachable
  exact ⟨id, m', e⟩

/-- A protected key whose check is wrong. -/
example : unprotect toyJks (toySalt ++ [1, 2, 3] ++ List.replicate 20 0) [0, 1, 0, 2, 0, 3] = some none := by decide +kernel

/-- `toyEntries` in the other theorems. -/
example : (∃ pass body more, utf8 ['p'] = utf8 pass ∧ jksFile toyJks.sha1 .jceks ['p'] toyEntries ++ [1, 2] = body ++ jksDigest toyJks.sha1 pass body ++ more) ∧
    (∃ id m', parseJKS toyJks (jksBody .jks toyEntries ++ List.replicate 20 0 ++ []) (utf8 ['p']) (utf8 ['k', 'і']) none emptyMem = some (false, some id, m') ∧
      Undisturbed emptyMem m' ∧ NothingLeft emptyMem m') ∧
    parseJKS toyJks (jksFile toyJks.sha1 .jks [] toyEntries ++ []) (utf8 []) [1] none emptyMem = some (false, none, emptyMem) ∧
    parseJKS toyJks [0xFE, 0xED] [1] [1] none emptyMem = none ∧
    parseJKS toyJks (jksBody .jks []) (utf8 ['p']) [1] none emptyMem = none ∧
    unprotect toyJks (protect toyJks.sha1 [0, 1] toySalt [5, 6]) [0, 1] = some (some [5, 6]) ∧
    unprotect toyJks (List.replicate 39 1) [0, 1] = none := by
  obtain ⟨id, m', e, _⟩ := C55_import_partial toyJks .jceks ['p'] ['k', 'і'] (by simp) (by simp) toyEntries [1, 2] (by decide) toy_fits.1 toy_fits.2 _ _ toy_gives none emptyMem boot_reachable
  exact ⟨C55_digest_checked_partial toyJks _ _ _ _ _ emptyMem m' boot_reachable e,
    C55_wrong_digest_refused toyJks .jks ['p'] ['k', 'і'] (by simp) (by simp) toyEntries (List.replicate 20 0) [] (by decide) toy_fits.1 toy_fits.2 _ _ toy_gives rfl (by decide +kernel)
      none emptyMem boot_reachable,
    C55_empty_password_refuted toyJks .jks toyEntries (by decide) [] [1] none emptyMem, C56_short_refuted toyJks _ _ _ (by decide) none emptyMem,
    C56_truncated_refuted toyJks .jks ['p'] (by simp) [1] none emptyMem boot_reachable, C57_roundtrip toyJks [5, 6] [0, 1] toySalt rfl,
    C57_short_refuted toyJks _ _ (by decide)⟩

example : ∃ id m', parseJKS toyJks (JksKind.jks.magic ++ u32 2 ++ u32 1 ++ u32 3 ++ []) (utf8 ['p']) [1] none emptyMem = some (false, some id, m') ∧ m'.ks.stores id = none ∧
    Undisturbed emptyMem m' ∧ NothingLeft emptyMem m' := by
  obtain ⟨id, m', e, h⟩ := C54_jks_dangling_refuted toyJks ['p'] (by simp) [1] [] emptyMem boot_reachable
  obtain ⟨h1, h2, _⟩ := C54_jks_partial toyJks _ _ _ _ _ emptyMem m' boot_reachable e
  exact ⟨id, m', e, h, h1, h2⟩

end Dstu.Props
