import Verif.Lemmas.Oid
import Verif.Spec.Jks
import Verif.Lemmas.KeyUtils
import Verif.Lemmas.Utf16

/-! Lemmas on the import of Java key stores: memory. -/

namespace Dstu

open Dstu.Spec

variable {κ χ : Type}

theorem Reach.newCert {m : ImpMem κ χ} {s : Shelves} (R : Reach m.ks s) (k : χ) : Reach (m.newCert k).ks (s.step (.make .certs)) := by
  obtain ⟨m1, e1, r1⟩ := R.step (.make .certs) ⟨trivial, trivial⟩
  have hm1 : (m.newCert k).ks = m1 := Option.some.inj e1
  rw [hm1]
  exact r1

/-- Everything moves from store `t` to store `id`, and `t` is freed. -/
theorem moveAll {m0 : ImpMem κ χ} {s0 : Shelves} {id t : Nat} {st st1 : ImpSt κ χ} {s s1 : Shelves} {ks ks' : List κ} {cs cs' : List χ}
    (F : StoreFilling m0 s0 id st s ks cs 0 0) (G : StoreFilling st.mem s t st1 s1 ks' cs' 0 0) (ht : s.store t = none) :
    ∃ mem2 mem3 st' s', KeyStoreAppend id t st1.mem.ks = some mem2 ∧ KeyStoreFree t mem2 = some mem3 ∧ st'.mem = { st1.mem with ks := mem3 } ∧
      StoreFilling m0 s0 id st' s' (ks ++ ks') (cs ++ cs') 0 0 := by
  obtain ⟨v, A, B, hv, hA, hB, lA, lB, mA, mB⟩ := F.fill
  obtain ⟨w, A', B', hw, hA', hB', lA', lB', mA', mB'⟩ := G.fill
  simp only [List.replicate_zero, List.append_nil] at hA hB hA' hB'
  have hne : id ≠ t := by
    rintro rfl
    rw [hv] at ht
    cases ht
  have hid1 : s1.store id = some v := by rw [G.rest id hne, hv]
  obtain ⟨m2, e2, r2⟩ := G.reach.step (.append id t) ⟨⟨by rw [hid1]; rfl, by rw [hw]; rfl⟩, trivial⟩
  have hst2 : ∀ i, (s1.step (.append id t)).store i = if i = id then some (fun x => v x ++ w x) else if i = t then some (fun x => List.replicate (w x).length none) else s1.store i := by
    intro i
    show (if i = id then (s1.store i).map (fun v => fun side => (if id = t then List.replicate (v side).length none else v side) ++ s1.list t side)
      else if i = t then (s1.store i).map (fun v => fun side => List.replicate (v side).length none) else s1.store i) = _
    by_cases h1 : i = id
    · rw [if_pos h1, if_pos h1, h1, hid1]
      simp only [Option.map_some, if_neg hne, list_eq hw]
    · rw [if_neg h1, if_neg h1]
      by_cases h2 : i = t
      · rw [if_pos h2, if_pos h2, h2, hw]
        rfl
      · rw [if_neg h2, if_neg h2]
  obtain ⟨m3, e3, r3⟩ := r2.step (.free t) ⟨by show ((s1.step (.append id t)).store t).isSome; rw [hst2, if_neg hne.symm, if_pos rfl]; rfl, trivial⟩
  have hst3 : ∀ i, ((s1.step (.append id t)).step (.free t)).store i = if i = id then some (fun x => v x ++ w x) else if i = t then none else s1.store i := by
    intro i
    show (if i = t then none else (s1.step (.append id t)).store i) = _
    rw [hst2]
    by_cases h1 : i = id
    · rw [if_neg (by rw [h1]; exact hne), if_pos h1, if_pos h1]
    · rw [if_neg h1, if_neg h1]
      by_cases h2 : i = t
      · rw [if_pos h2, if_pos h2]
      · rw [if_neg h2, if_neg h2, if_neg h2]
  have hidl : ∀ x, ((s1.step (.append id t)).step (.free t)).list id x = v x ++ w x := by
    intro x
    rw [list_eq (by rw [hst3, if_pos rfl])]
  have hat : ∀ a x, (∃ p, ((s1.step (.append id t)).step (.free t)).At a x p) ↔ ∃ p, s1.At a x p := by
    intro a x
    constructor
    · rintro ⟨p, hp⟩
      cases p with
      | hand => exact ⟨.hand, hp⟩
      | cell i y pos =>
        obtain ⟨rfl, hp⟩ := hp
        by_cases h1 : i = id
        · rw [h1, hidl] at hp
          by_cases hlt : pos < (v y).length
          · rw [List.getElem?_append_left hlt] at hp
            exact ⟨.cell id y pos, rfl, by rw [list_eq hid1]; exact hp⟩
          · rw [List.getElem?_append_right (by omega)] at hp
            exact ⟨.cell t y (pos - (v y).length), rfl, by rw [list_eq hw]; exact hp⟩
        · refine ⟨.cell i y pos, rfl, ?_⟩
          simp only [Shelves.list, hst3, if_neg h1] at hp
          by_cases h2 : i = t
          · rw [if_pos h2] at hp
            simp at hp
          · rw [if_neg h2] at hp
            exact hp
    · rintro ⟨p, hp⟩
      cases p with
      | hand => exact ⟨.hand, hp⟩
      | cell i y pos =>
        obtain ⟨rfl, hp⟩ := hp
        by_cases h1 : i = id
        · rw [h1, list_eq hid1] at hp
          refine ⟨.cell id y pos, rfl, ?_⟩
          rw [hidl, List.getElem?_append_left (List.getElem?_eq_some_iff.1 hp).1]
          exact hp
        · by_cases h2 : i = t
          · rw [h2, list_eq hw] at hp
            refine ⟨.cell id y ((v y).length + pos), rfl, ?_⟩
            rw [hidl, List.getElem?_append_right (by omega), Nat.add_sub_cancel_left]
            exact hp
          · refine ⟨.cell i y pos, rfl, ?_⟩
            simp only [Shelves.list, hst3, if_neg h1, if_neg h2]
            exact hp
  have H1 := G.reach.holds
  have H3 := r3.holds
  have hobj : ∀ a, m3.objs a = st1.mem.ks.objs a := by
    intro a
    cases h : st1.mem.ks.objs a with
    | some x =>
      obtain ⟨p, hp⟩ := (hat a x).2 (H1.2 a x h)
      exact H3.1.own _ _ _ hp
    | none =>
      cases h' : m3.objs a with
      | none => rfl
      | some x =>
        obtain ⟨p, hp⟩ := (hat a x).1 (H3.2 a x h')
        rw [H1.1.own _ _ _ hp] at h
        cases h
  have hnext : m3.nextObj = st1.mem.ks.nextObj := by
    rw [H3.1.nextObj, H1.1.nextObj]
    rfl
  have H := F.reach.holds.1
  have hlt : ∀ (x : Side) (L : List Nat), v x = L.map some → ∀ b ∈ L, b < st.mem.ks.nextObj := by
    intro x L hL b hb
    apply F.reach.lt
    obtain ⟨i, hi, he⟩ := List.mem_iff_getElem.1 hb
    rw [H.own b x (.cell id x i) ⟨rfl, by rw [list_eq hv, hL]; simp [hi, he]⟩]
    simp
  refine ⟨m2, m3, ⟨{ st1.mem with ks := m3 }, (A ++ A').length, (B ++ B').length⟩, _, e2, e3, rfl, ⟨r3, ?_, ?_, ?_, ?_, ?_⟩⟩
  · refine ⟨_, A ++ A', B ++ B', by rw [hst3, if_pos rfl], by simp [hA, hA'], by simp [hB, hB'], rfl, rfl, ?_, ?_⟩
    · rw [List.map_append, List.map_append, ← mA, ← mA']
      congr 1
      apply List.map_congr_left
      intro b hb
      exact (G.old b (hlt .keys A hA b hb)).2.1
    · rw [List.map_append, List.map_append, ← mB, ← mB']
      congr 1
      apply List.map_congr_left
      intro b hb
      exact (G.old b (hlt .certs B hB b hb)).2.2
  · show s1.hand = _
    rw [G.hand, F.hand]
  · intro i hi
    rw [hst3, if_neg hi, ← F.rest i hi]
    by_cases h2 : i = t
    · rw [if_pos h2, h2, ht]
    · rw [if_neg h2, G.rest i h2]
  · intro a ha
    obtain ⟨f1, f2, f3⟩ := F.old a ha
    obtain ⟨g1, g2, g3⟩ := G.old a (Nat.lt_of_lt_of_le ha F.next)
    exact ⟨by rw [hobj, g1, f1], by rw [g2, f2], by rw [g3, f3]⟩
  · show m0.ks.nextObj ≤ m3.nextObj
    rw [hnext]
    exact Nat.le_trans F.next G.next

/-- The store that is made for one certificate. -/
theorem oneCert_fill {m : ImpMem κ χ} {s : Shelves} (R : Reach m.ks s) (c : χ) :
    ∃ mem2 mem3 s', KeyStoreNew 0 1 (m.newCert c).ks = some (m.ks.nextStore, mem2) ∧
      KeyStoreSet .certs m.ks.nextStore 0 (.ptr m.ks.nextObj) mem2 = some mem3 ∧
      StoreFilling m s m.ks.nextStore ⟨{ m.newCert c with ks := mem3 }, 0, 1⟩ s' [] [c] 0 0 := by
  have H := R.holds.1
  have hfresh : ∀ a, m.ks.nextObj ≤ a → s.hand a = none := by
    intro a ha
    cases hh : s.hand a with
    | none => rfl
    | some x =>
      have := H.own a x .hand hh
      rw [H.freshObj _ (by rw [← H.nextObj]; exact ha)] at this
      cases this
  have R1 := R.newCert c
  obtain ⟨m2, e2, R2, o2, n2⟩ := R1.newStore 0 1
  have hst2 : ((s.step (.make .certs)).step (.new 0 1)).store m.ks.nextStore = some fun side => match side with | .keys => [] | .certs => [none] := by
    show (if m.ks.nextStore = s.next then _ else _) = _
    rw [if_pos H.next]
    rfl
  obtain ⟨m3, e3, R3, o3, n3⟩ := R2.set .certs m.ks.nextStore 0 m.ks.nextObj (by rw [list_eq hst2]; rfl) (by
    show (if m.ks.nextObj = s.nextObj then _ else _) = _
    rw [if_pos H.nextObj])
  refine ⟨m2, m3, _, e2, e3, ⟨R3, ?_, ?_, ?_, ?_, ?_⟩⟩
  · refine ⟨fun x => match x with | .keys => [] | .certs => [some m.ks.nextObj], [], [m.ks.nextObj], ?_, rfl, rfl, rfl, rfl, rfl, ?_⟩
    · show (if m.ks.nextStore = m.ks.nextStore then _ else _) = _
      rw [if_pos rfl, hst2]
      simp only [Option.map_some]
      congr 1
      funext x
      cases x <;> rfl
    · simp [ImpMem.newCert]
  · funext a
    show (if some a = some m.ks.nextObj then none else if a = s.nextObj then some .certs else s.hand a) = s.hand a
    rw [← H.nextObj]
    by_cases ha : a = m.ks.nextObj
    · rw [if_pos (by rw [ha]), hfresh a (Nat.le_of_eq ha.symm)]
    · rw [if_neg (by simpa using ha), if_neg ha]
  · intro i hi
    show (if i = m.ks.nextStore then _ else if i = s.next then _ else s.store i) = _
    rw [if_neg hi, if_neg (by rw [← H.next]; exact hi)]
  · intro a ha
    refine ⟨?_, rfl, if_neg (Nat.ne_of_lt ha)⟩
    show m3.objs a = _
    rw [o3, o2]
    exact if_neg (Nat.ne_of_lt ha)
  · show m.ks.nextObj ≤ m3.nextObj
    rw [n3, n2]
    exact Nat.le_succ _

/-- Store `id` holds exactly `ks` and `cs`; the rest is as in `m0`. -/
def Fill (m0 : ImpMem κ χ) (s0 : Shelves) (id : Nat) (m : ImpMem κ χ) (ks : List κ) (cs : List χ) : Prop :=
  ∃ st s, st.mem = m ∧ StoreFilling m0 s0 id st s ks cs 0 0

theorem Fill.nextStore {m0 : ImpMem κ χ} {s0 : Shelves} {id : Nat} {st : ImpSt κ χ} {s : Shelves} {ks : List κ} {cs : List χ}
    (F : StoreFilling m0 s0 id st s ks cs 0 0) : s.store st.mem.ks.nextStore = none :=
  F.reach.holds.1.freshStore _ (Nat.le_of_eq F.reach.holds.1.next.symm)

/-- What a reader that works with the memory does, in terms of one that does not. -/
def Corr (m0 : ImpMem κ χ) (s0 : Shelves) (id : Nat) (ks : List κ) (cs : List χ) (r : Option (Option ((List κ × List χ) × Nat)))
    (x : Option (Option Nat × ImpMem κ χ)) : Prop :=
  match r with
  | none => x = none
  | some none => ∃ m' ks' cs', x = some (none, m') ∧ Fill m0 s0 id m' ks' cs'
  | some (some ((ks', cs'), p)) => ∃ m', x = some (some p, m') ∧ Fill m0 s0 id m' (ks ++ ks') (cs ++ cs')

variable (lib : JksLib κ χ)

/-- `parseCert` without memory. -/
def pCert (data : List Byte) (pos : Nat) : Option (Option ((List κ × List χ) × Nat)) := do
  let (der, next) ← certHeader data pos
  match lib.d2i_X509 der with
  | none => some none
  | some c => some (some (([], [c]), next))

/-- `fromKeyProtector` without memory. -/
def pProt (data pwd16 : List Byte) : Option (Option (List κ)) := do
  match ← unprotect lib data pwd16 with
  | none => some none
  | some decrypted =>
    match ← lib.keys decrypted with
    | some (k1, k2) => some (some (k1 :: k2.toList))
    | none => none

/-- `decryptKey` without memory. -/
def pDecrypt (data password : List Byte) : Option (Option (List κ)) := do
  match ← toUTF16BE password with
  | none => some none
  | some pwd16 =>
    match lib.d2i_X509_SIG data with
    | none => some none
    | some (oid, keyData) =>
      if oid = oidKeyProtector then pProt lib keyData pwd16
      else if oid = oidPbes1 then some none
      else some (some [])

/-- `certLoop` without memory. -/
def pCertLoop (data : List Byte) : (n : Nat) → (certPtr : Nat) → Option (Option ((List κ × List χ) × Nat))
  | 0, certPtr => some (some (([], []), certPtr))
  | n + 1, certPtr => do
    match ← pCert lib data certPtr with
    | none => some none
    | some ((ks, cs), certPtr) =>
      match ← pCertLoop data n certPtr with
      | none => some none
      | some ((ks', cs'), certPtr) => some (some ((ks ++ ks', cs ++ cs'), certPtr))

/-- `parseKey` without memory. -/
def pKey (data : List Byte) (pos : Nat) (keyPass : List Byte) : Option (Option ((List κ × List χ) × Nat)) := do
  let (der, certNum, certPtr) ← keyHeader data pos
  match ← pDecrypt lib der keyPass with
  | none => some none
  | some ks =>
    match ← pCertLoop lib data certNum certPtr with
    | none => some none
    | some ((ks', cs'), p) => some (some ((ks ++ ks', cs'), p))

/-- `parseEntry` without memory. -/
def pEntry (data : List Byte) (pos : Nat) (keyPass : List Byte) : Option (Option ((List κ × List χ) × Nat)) := do
  let tag ← be32 data pos
  if tag = 1 then pKey lib data (pos + 4) keyPass
  else if tag = 2 then pCert lib data (pos + 4)
  else some none

/-- `entryLoop` without memory. -/
def pEntryLoop (data keyPass : List Byte) : (n : Nat) → (entryPtr : Nat) → Option (Option ((List κ × List χ) × Nat))
  | 0, entryPtr => some (some (([], []), entryPtr))
  | n + 1, entryPtr => do
    match ← pEntry lib data entryPtr keyPass with
    | none => some none
    | some ((ks, cs), entryPtr) =>
      match ← pEntryLoop data keyPass n entryPtr with
      | none => some none
      | some ((ks', cs'), entryPtr) => some (some ((ks ++ ks', cs ++ cs'), entryPtr))

variable {lib} {m0 : ImpMem κ χ} {s0 : Shelves} {id : Nat}

theorem parseCert_corr (data : List Byte) (pos : Nat) {m : ImpMem κ χ} {ks : List κ} {cs : List χ} (F : Fill m0 s0 id m ks cs) :
    Corr m0 s0 id ks cs (pCert lib data pos) (parseCert lib data pos id m) := by
  unfold pCert parseCert
  rcases h1 : certHeader data pos with _ | ⟨der, next⟩
  · rfl
  · simp only [Option.bind_eq_bind, Option.bind_some]
    cases h4 : lib.d2i_X509 der with
    | none => exact ⟨m, ks, cs, rfl, F⟩
    | some c =>
      obtain ⟨st, s, rfl, F⟩ := F
      obtain ⟨mem2, mem3, s', e2, e3, G⟩ := oneCert_fill F.reach c
      obtain ⟨mem4, mem5, st', s5, e4, e5, hm, F'⟩ := moveAll F G (Fill.nextStore F)
      refine ⟨st'.mem, ?_, st', s5, rfl, F'⟩
      simp only [e2, Option.bind_some, e3]
      simp only at e4
      simp only [e4, Option.bind_some, e5, hm]

theorem certLoop_corr (data : List Byte) (n pos : Nat) {m : ImpMem κ χ} {ks : List κ} {cs : List χ} (F : Fill m0 s0 id m ks cs) :
    Corr m0 s0 id ks cs (pCertLoop lib data n pos) (certLoop lib data id n pos m) := by
  induction n generalizing pos m ks cs with
  | zero => exact ⟨m, rfl, by simpa using F⟩
  | succ n ih =>
    have h := parseCert_corr (lib := lib) data pos F
    unfold pCertLoop certLoop
    rcases hp : pCert lib data pos with _ | _ | ⟨⟨ks', cs'⟩, p⟩
    · rw [hp] at h
      have h : parseCert lib data pos id m = none := h
      rw [h]
      rfl
    · rw [hp] at h
      obtain ⟨m', ks', cs', e, F'⟩ := h
      rw [e]
      exact ⟨m', ks', cs', rfl, F'⟩
    · rw [hp] at h
      obtain ⟨m', e, F'⟩ := h
      rw [e]
      have := ih p F'
      simp only [Option.bind_eq_bind, Option.bind_some]
      rcases hq : pCertLoop lib data n p with _ | _ | ⟨⟨ks2, cs2⟩, p2⟩
      · rw [hq] at this
        exact this
      · rw [hq] at this
        exact this
      · rw [hq] at this
        obtain ⟨m2, e2, F2⟩ := this
        refine ⟨m2, e2, ?_⟩
        rw [← List.append_assoc, ← List.append_assoc]
        exact F2

/-- The same for the parts that return a truth value. -/
def CorrB (m0 : ImpMem κ χ) (s0 : Shelves) (id : Nat) (ks : List κ) (cs : List χ) (r : Option (Option (List κ)))
    (x : Option (Bool × ImpMem κ χ)) : Prop :=
  match r with
  | none => x = none
  | some none => ∃ m' ks' cs', x = some (false, m') ∧ Fill m0 s0 id m' ks' cs'
  | some (some ks') => ∃ m', x = some (true, m') ∧ Fill m0 s0 id m' (ks ++ ks') cs

theorem prot_corr (data pwd16 : List Byte) {m : ImpMem κ χ} {ks : List κ} {cs : List χ} (F : Fill m0 s0 id m ks cs) :
    CorrB m0 s0 id ks cs (pProt lib data pwd16) (fromKeyProtector lib data pwd16 id m) := by
  unfold pProt fromKeyProtector
  rcases h1 : unprotect lib data pwd16 with _ | _ | dec
  · rfl
  · exact ⟨m, ks, cs, rfl, F⟩
  · simp only [Option.bind_eq_bind, Option.bind_some]
    rcases h2 : lib.keys dec with _ | _ | ⟨k1, k2⟩
    · show _ = _
      unfold keysFromPKCS8
      rw [h2]
      rfl
    · show _ = _
      unfold keysFromPKCS8
      rw [h2]
      rfl
    · obtain ⟨st, s, rfl, F⟩ := F
      obtain ⟨m1, s1, e1, G⟩ := keysFromPKCS8_fill (χ := χ) lib.keys dec none F.reach h2
      obtain ⟨mem4, mem5, st', s5, e4, e5, hm, F'⟩ := moveAll F G (Fill.nextStore F)
      refine ⟨st'.mem, ?_, st', s5, rfl, by simpa using F'⟩
      rw [e1]
      simp only at e4
      simp only [Option.bind_some, e4, e5, hm]

theorem decrypt_corr (data password : List Byte) {m : ImpMem κ χ} {ks : List κ} {cs : List χ} (F : Fill m0 s0 id m ks cs) :
    CorrB m0 s0 id ks cs (pDecrypt lib data password) (decryptKey lib data password id m) := by
  unfold pDecrypt decryptKey
  simp only [keyProtectorOID_eq, pbes1OID_eq]
  rcases h1 : toUTF16BE password with _ | _ | pwd16
  · rfl
  · exact ⟨m, ks, cs, rfl, F⟩
  · simp only [Option.bind_eq_bind, Option.bind_some]
    rcases h2 : lib.d2i_X509_SIG data with _ | ⟨oid, keyData⟩
    · exact ⟨m, ks, cs, rfl, F⟩
    · simp only
      by_cases h3 : oid = oidKeyProtector
      · rw [if_pos h3, if_pos h3]
        exact prot_corr keyData pwd16 F
      · rw [if_neg h3, if_neg h3]
        by_cases h4 : oid = oidPbes1
        · rw [if_pos h4, if_pos h4]
          exact ⟨m, ks, cs, rfl, F⟩
        · rw [if_neg h4, if_neg h4]
          exact ⟨m, rfl, by simpa using F⟩

theorem parseKey_corr (data : List Byte) (pos : Nat) (keyPass : List Byte) {m : ImpMem κ χ} {ks : List κ} {cs : List χ} (F : Fill m0 s0 id m ks cs) :
    Corr m0 s0 id ks cs (pKey lib data pos keyPass) (parseKey lib data pos keyPass id m) := by
  unfold pKey parseKey
  rcases h1 : keyHeader data pos with _ | ⟨der, certNum, certPtr⟩
  · rfl
  · simp only [Option.bind_eq_bind, Option.bind_some]
    have h := decrypt_corr (lib := lib) der keyPass F
    rcases hd : pDecrypt lib der keyPass with _ | _ | ks'
    · rw [hd] at h
      have h : decryptKey lib der keyPass id m = none := h
      rw [h]
      rfl
    · rw [hd] at h
      obtain ⟨m', ks', cs', e, F'⟩ := h
      rw [e]
      exact ⟨m', ks', cs', rfl, F'⟩
    · rw [hd] at h
      obtain ⟨m', e, F'⟩ := h
      rw [e]
      have := certLoop_corr (lib := lib) data certNum certPtr F'
      simp only [Option.bind_some]
      rcases hq : pCertLoop lib data certNum certPtr with _ | _ | ⟨⟨ks2, cs2⟩, p2⟩
      · rw [hq] at this
        exact this
      · rw [hq] at this
        exact this
      · rw [hq] at this
        obtain ⟨m2, e2, F2⟩ := this
        refine ⟨m2, e2, ?_⟩
        rw [← List.append_assoc]
        exact F2

theorem parseEntry_corr (data : List Byte) (pos : Nat) (keyPass : List Byte) {m : ImpMem κ χ} {ks : List κ} {cs : List χ} (F : Fill m0 s0 id m ks cs) :
    Corr m0 s0 id ks cs (pEntry lib data pos keyPass) (parseEntry lib data pos keyPass id m) := by
  unfold pEntry parseEntry
  cases h1 : be32 data pos with
  | none => rfl
  | some n =>
    simp only [Option.bind_eq_bind, Option.bind_some]
    by_cases h3 : n = 1
    · rw [if_pos h3, if_pos h3]
      exact parseKey_corr data (pos + 4) keyPass F
    · rw [if_neg h3, if_neg h3]
      by_cases h4 : n = 2
      · rw [if_pos h4, if_pos h4]
        exact parseCert_corr data (pos + 4) F
      · rw [if_neg h4, if_neg h4]
        exact ⟨m, ks, cs, rfl, F⟩

theorem entryLoop_corr (data keyPass : List Byte) (n pos : Nat) {m : ImpMem κ χ} {ks : List κ} {cs : List χ} (F : Fill m0 s0 id m ks cs) :
    Corr m0 s0 id ks cs (pEntryLoop lib data keyPass n pos) (entryLoop lib data keyPass id n pos m) := by
  induction n generalizing pos m ks cs with
  | zero => exact ⟨m, rfl, by simpa using F⟩
  | succ n ih =>
    have h := parseEntry_corr (lib := lib) data pos keyPass F
    unfold pEntryLoop entryLoop
    rcases hp : pEntry lib data pos keyPass with _ | _ | ⟨⟨ks', cs'⟩, p⟩
    · rw [hp] at h
      have h : parseEntry lib data pos keyPass id m = none := h
      rw [h]
      rfl
    · rw [hp] at h
      obtain ⟨m', ks', cs', e, F'⟩ := h
      rw [e]
      exact ⟨m', ks', cs', rfl, F'⟩
    · rw [hp] at h
      obtain ⟨m', e, F'⟩ := h
      rw [e]
      have := ih p F'
      simp only [Option.bind_eq_bind, Option.bind_some]
      rcases hq : pEntryLoop lib data keyPass n p with _ | _ | ⟨⟨ks2, cs2⟩, p2⟩
      · rw [hq] at this
        exact this
      · rw [hq] at this
        exact this
      · rw [hq] at this
        obtain ⟨m2, e2, F2⟩ := this
        refine ⟨m2, e2, ?_⟩
        rw [← List.append_assoc, ← List.append_assoc]
        exact F2

end Dstu
