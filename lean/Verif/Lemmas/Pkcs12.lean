import Verif.Spec.Pkcs12
import Verif.Lemmas.KeyStore

/-! Lemmas on the import of PKCS#12 files. -/

namespace Dstu

open Dstu.Spec

/-- Reachable memory with its contents. -/
def Reach (m : KsMem) (s : Shelves) : Prop := ∃ ops, AllAlong Tidy .boot ops ∧ KsMem.boot.run ops = some m ∧ Shelves.boot.run ops = s

theorem allAlong_append (P : Shelves → KsOp → Prop) (s : Shelves) (l l' : List KsOp) :
    AllAlong P s (l ++ l') ↔ AllAlong P s l ∧ AllAlong P (s.run l) l' := by
  induction l generalizing s with
  | nil => simp [AllAlong, Shelves.run]
  | cons op l ih =>
    show (P s op ∧ AllAlong P (s.step op) (l ++ l')) ↔ (P s op ∧ AllAlong P (s.step op) l) ∧ AllAlong P ((s.step op).run l) l'
    rw [ih, and_assoc]

theorem ks_run_append (m : KsMem) (l l' : List KsOp) : m.run (l ++ l') = (m.run l).bind fun m => m.run l' := by
  induction l generalizing m with
  | nil => rfl
  | cons op l ih =>
    show (match m.step op with | none => none | some m => m.run (l ++ l')) = ((match m.step op with | none => none | some m => m.run l) : Option KsMem).bind _
    cases m.step op with
    | none => rfl
    | some m => exact ih m

theorem allAlong_mono {P Q : Shelves → KsOp → Prop} (h : ∀ s op, P s op → Q s op) (s : Shelves) (l : List KsOp) :
    AllAlong P s l → AllAlong Q s l := by
  induction l generalizing s with
  | nil => exact id
  | cons op l ih => exact fun ⟨h1, h2⟩ => ⟨h _ _ h1, ih _ h2⟩

theorem Reach.holds {m : KsMem} {s : Shelves} (h : Reach m s) : Holds m s ∧ NoLeak m s := by
  obtain ⟨ops, h1, h2, h3⟩ := h
  obtain ⟨m', e, H, L⟩ := run_holds boot_holds ops (allAlong_mono (fun _ _ h => h.1) _ _ h1)
  rw [h2] at e
  cases e
  rw [← h3]
  exact ⟨H, L h1 (fun a side h => by cases h)⟩

theorem Reach.step {m : KsMem} {s : Shelves} (h : Reach m s) (op : KsOp) (ht : Tidy s op) :
    ∃ m', m.step op = some m' ∧ Reach m' (s.step op) := by
  obtain ⟨m', e, _⟩ := step_holds h.holds.1 op ht.1
  obtain ⟨ops, h1, h2, h3⟩ := h
  refine ⟨m', e, ops ++ [op], ?_, ?_, ?_⟩
  · rw [allAlong_append, h3]
    exact ⟨h1, ht, trivial⟩
  · rw [ks_run_append, h2]
    simp [KsMem.run, e]
  · simp [Shelves.run, ← h3]

theorem Reach.lt {m : KsMem} {s : Shelves} (h : Reach m s) {a : Nat} (ha : m.objs a ≠ none) : a < m.nextObj := by
  have H := h.holds.1
  apply Nat.lt_of_not_le
  intro hc
  exact ha (H.freshObj a (by rw [← H.nextObj]; exact hc))

theorem Reach.storeLt {m : KsMem} {s : Shelves} (h : Reach m s) {i : Nat} (ha : m.stores i ≠ none) : i < m.nextStore := by
  have H := h.holds.1
  apply Nat.lt_of_not_le
  intro hc
  rw [H.stores, H.freshStore i (by rw [← H.next]; exact hc)] at ha
  exact ha rfl

variable {D κ χ : Type}

/-- An item is put into the store. -/
def takeItem (id : Nat) (st : ImpSt κ χ) : Item κ χ → Option (Bool × ImpSt κ χ)
  | .key k => st.takeKey id k
  | .cert c => st.takeCert id c

/-- Items are put into the store until one is not readable. -/
def takeItems (id : Nat) : List (Item κ χ) → ImpSt κ χ → Option (Bool × ImpSt κ χ)
  | [], st => some (true, st)
  | i :: l, st =>
    match takeItem id st i with
    | none => none
    | some (false, st) => some (false, st)
    | some (true, st) => takeItems id l st

theorem takeItems_append (id : Nat) (l l' : List (Item κ χ)) (st : ImpSt κ χ) :
    takeItems id (l ++ l') st = match takeItems id l st with
      | none => none
      | some (false, st) => some (false, st)
      | some (true, st) => takeItems id l' st := by
  induction l generalizing st with
  | nil => rfl
  | cons i l ih =>
    simp only [List.cons_append, takeItems]
    rcases takeItem id st i with _ | ⟨_ | _, st'⟩
    · rfl
    · rfl
    · exact ih st'

theorem takeItems_one (id : Nat) (i : Item κ χ) (st : ImpSt κ χ) : takeItems id [i] st = takeItem id st i := by
  simp only [takeItems]
  rcases takeItem id st i with _ | ⟨_ | _, st'⟩ <;> rfl

mutual
theorem fromBag_eq (lib : P12Lib D κ χ) (pass : List Byte) (id : Nat) (b : Bag) (st : ImpSt κ χ) :
    fromBag lib pass id b st = takeItems id (itemsOfBag lib pass b) st := by
  cases b with
  | keyBag p8 => rw [itemsOfBag, takeItems_one, fromBag]; rfl
  | shrouded enc =>
    rw [itemsOfBag, takeItems_one, fromBag]
    cases lib.decrypt_skey enc pass with
    | none => rfl
    | some p8 => rfl
  | certBag c => rw [itemsOfBag, takeItems_one, fromBag]; rfl
  | safes bags => rw [itemsOfBag, fromBag]; exact fromBags_eq lib pass id bags st
  | other => rw [itemsOfBag, fromBag]; rfl

theorem fromBags_eq (lib : P12Lib D κ χ) (pass : List Byte) (id : Nat) (bags : List Bag) (st : ImpSt κ χ) :
    fromBags lib pass id bags st = takeItems id (itemsOfBags lib pass bags) st := by
  cases bags with
  | nil => rw [itemsOfBags, fromBags]; rfl
  | cons b bags =>
    rw [itemsOfBags, fromBags, takeItems_append, fromBag_eq lib pass id b st]
    rcases takeItems id (itemsOfBag lib pass b) st with _ | ⟨_ | _, st'⟩
    · rfl
    · rfl
    · exact fromBags_eq lib pass id bags st'
end

/-- How many keys and certificates. -/
def numKeys (l : List (Item κ χ)) : Nat := (l.filter fun i => match i with | .key _ => true | .cert _ => false).length
def numCerts (l : List (Item κ χ)) : Nat := (l.filter fun i => match i with | .key _ => false | .cert _ => true).length

theorem numKeys_append (l l' : List (Item κ χ)) : numKeys (l ++ l') = numKeys l + numKeys l' := by simp [numKeys]
theorem numCerts_append (l l' : List (Item κ χ)) : numCerts (l ++ l') = numCerts l + numCerts l' := by simp [numCerts]

mutual
theorem countBag_eq (lib : P12Lib D κ χ) (pass : List Byte) (b : Bag) (k c : Nat) :
    countKeysCertsInBag b (k, c) = (true, (k + numKeys (itemsOfBag lib pass b), c + numCerts (itemsOfBag lib pass b))) := by
  cases b with
  | keyBag p8 => rw [itemsOfBag, countKeysCertsInBag]; rfl
  | shrouded enc => rw [itemsOfBag, countKeysCertsInBag]; rfl
  | certBag c => rw [itemsOfBag, countKeysCertsInBag]; rfl
  | safes bags => rw [itemsOfBag, countKeysCertsInBag]; exact countBags_eq lib pass bags k c
  | other => rw [itemsOfBag, countKeysCertsInBag]; rfl

theorem countBags_eq (lib : P12Lib D κ χ) (pass : List Byte) (bags : List Bag) (k c : Nat) :
    countKeysCertsInBags bags (k, c) = (true, (k + numKeys (itemsOfBags lib pass bags), c + numCerts (itemsOfBags lib pass bags))) := by
  cases bags with
  | nil => rw [itemsOfBags, countKeysCertsInBags]; rfl
  | cons b bags =>
    rw [itemsOfBags, countKeysCertsInBags, countBag_eq lib pass b k c, numKeys_append, numCerts_append]
    simp only
    rw [countBags_eq lib pass bags _ _, Nat.add_assoc, Nat.add_assoc]
end

theorem unpack_eq (lib : P12Lib D κ χ) (pass : List Byte) (p7 : Option P7) :
    (lib.unpack pass p7 = none ∧ safeBags lib pass p7 = some []) ∨ lib.unpack pass p7 = some (safeBags lib pass p7) := by
  rcases p7 with _ | ⟨_ | _ | _, c⟩
  · exact Or.inl ⟨rfl, rfl⟩
  · exact Or.inr rfl
  · exact Or.inr rfl
  · exact Or.inl ⟨rfl, rfl⟩

theorem countSafes_eq (lib : P12Lib D κ χ) (pass : List Byte) (safes : List (Option P7)) (k c : Nat)
    (h : ∀ p7 ∈ safes, (safeBags lib pass p7).isSome) :
    countKeysCerts lib pass safes (k, c) = (true, (k + numKeys (itemsOfSafes lib pass safes), c + numCerts (itemsOfSafes lib pass safes))) := by
  induction safes generalizing k c with
  | nil => rfl
  | cons p7 safes ih =>
    have ih := fun k c => ih k c (fun p hp => h p (by simp [hp]))
    have hi : itemsOfSafes lib pass (p7 :: safes) = itemsOfBags lib pass ((safeBags lib pass p7).getD []) ++ itemsOfSafes lib pass safes := rfl
    rw [countKeysCerts]
    rcases unpack_eq lib pass p7 with ⟨e, e'⟩ | e
    · rw [e, hi, e']
      simp only
      rw [ih]
      simp [itemsOfBags]
    · obtain ⟨bags, hb⟩ := Option.isSome_iff_exists.1 (h p7 (by simp))
      rw [e, hb, hi, hb]
      simp only [Option.getD_some]
      rw [countBags_eq lib pass bags k c]
      simp only
      rw [ih, numKeys_append, numCerts_append, Nat.add_assoc, Nat.add_assoc]

theorem countSafes_false (lib : P12Lib D κ χ) (pass : List Byte) (safes : List (Option P7)) (k c : Nat)
    (h : ¬ ∀ p7 ∈ safes, (safeBags lib pass p7).isSome) : (countKeysCerts lib pass safes (k, c)).1 = false := by
  induction safes generalizing k c with
  | nil => exact absurd (by simp) h
  | cons p7 safes ih =>
    rw [countKeysCerts]
    rcases unpack_eq lib pass p7 with ⟨e, e'⟩ | e
    · rw [e]
      simp only
      apply ih
      intro hc
      apply h
      intro p hp
      rcases List.mem_cons.1 hp with rfl | hp
      · simp [e']
      · exact hc p hp
    · rw [e]
      cases hb : safeBags lib pass p7 with
      | none => rfl
      | some bags =>
        simp only
        rw [countBags_eq lib pass bags k c]
        simp only
        apply ih
        intro hc
        apply h
        intro p hp
        rcases List.mem_cons.1 hp with rfl | hp
        · simp [hb]
        · exact hc p hp

theorem fromSafes_eq (lib : P12Lib D κ χ) (pass : List Byte) (id : Nat) (safes : List (Option P7)) (st : ImpSt κ χ)
    (h : ∀ p7 ∈ safes, (safeBags lib pass p7).isSome) :
    fromSafes lib pass id safes st = takeItems id (itemsOfSafes lib pass safes) st := by
  induction safes generalizing st with
  | nil => rfl
  | cons p7 safes ih =>
    have ih := fun st => ih st (fun p hp => h p (by simp [hp]))
    have hi : itemsOfSafes lib pass (p7 :: safes) = itemsOfBags lib pass ((safeBags lib pass p7).getD []) ++ itemsOfSafes lib pass safes := rfl
    rw [fromSafes]
    rcases unpack_eq lib pass p7 with ⟨e, e'⟩ | e
    · rw [e, hi, e']
      simp only
      rw [ih]
      simp [itemsOfBags]
    · obtain ⟨bags, hb⟩ := Option.isSome_iff_exists.1 (h p7 (by simp))
      rw [e, hb, hi, hb]
      simp only [Option.getD_some]
      rw [takeItems_append, fromBags_eq]
      rcases takeItems id (itemsOfBags lib pass bags) st with _ | ⟨_ | _, st'⟩
      · rfl
      · rfl
      · exact ih st'

/-- Half filled store `id`, in a memory that was `m0` (with contents `s0`) before. -/
structure StoreFilling (m0 : ImpMem κ χ) (s0 : Shelves) (id : Nat) (st : ImpSt κ χ) (s : Shelves) (ks : List κ) (cs : List χ) (nk nc : Nat) : Prop where
  reach : Reach st.mem.ks s
  fill : ∃ (v : Side → List (Option Nat)) (A B : List Nat), s.store id = some v ∧ v .keys = A.map some ++ List.replicate nk none ∧ v .certs = B.map some ++ List.replicate nc none ∧
    A.length = st.keyPos ∧ B.length = st.certPos ∧ A.map st.mem.key = ks.map some ∧ B.map st.mem.cert = cs.map some
  hand : s.hand = s0.hand
  rest : ∀ i, i ≠ id → s.store i = s0.store i
  old : ∀ a, a < m0.ks.nextObj → st.mem.ks.objs a = m0.ks.objs a ∧ st.mem.key a = m0.key a ∧ st.mem.cert a = m0.cert a
  next : m0.ks.nextObj ≤ st.mem.ks.nextObj

theorem set_next {A : List Nat} {n : Nat} (a : Nat) :
    (A.map some ++ List.replicate (n + 1) (none : Option Nat)).set A.length (some a) = (A ++ [a]).map some ++ List.replicate n none := by
  rw [List.set_append_right _ _ (by simp)]
  simp [List.replicate_succ]

theorem map_key_snoc {α : Type} {f g : Nat → Option α} {A : List Nat} {l : List α} {a : Nat} {x : α} (h : A.map f = l.map some)
    (hg : ∀ b ∈ A, g b = f b) (ha : g a = some x) : (A ++ [a]).map g = (l ++ [x]).map some := by
  simp only [List.map_append, List.map_cons, List.map_nil, ha]
  rw [← h]
  congr 1
  exact List.map_congr_left hg

theorem takeKey_fill {m0 : ImpMem κ χ} {s0 : Shelves} {id : Nat} {st : ImpSt κ χ} {s : Shelves} {ks : List κ} {cs : List χ} {nk nc : Nat}
    (F : StoreFilling m0 s0 id st s ks cs (nk + 1) nc) (k : κ) :
    ∃ st' s', st.takeKey id (some k) = some (true, st') ∧ StoreFilling m0 s0 id st' s' (ks ++ [k]) cs nk nc := by
  obtain ⟨v, A, B, hv, hA, hB, lA, lB, mA, mB⟩ := F.fill
  obtain ⟨m1, e1, r1⟩ := F.reach.step (.make .keys) ⟨trivial, trivial⟩
  have H := F.reach.holds.1
  have hv1 : (s.step (.make .keys)).store id = some v := hv
  have hAt : ∀ b ∈ A, b < st.mem.ks.nextObj := by
    intro b hb
    apply F.reach.lt
    obtain ⟨i, hi, he⟩ := List.mem_iff_getElem.1 hb
    rw [H.own b .keys (.cell id .keys i) ⟨rfl, by rw [list_eq hv, hA, List.getElem?_append_left (by simpa using hi)]; simp [hi, he]⟩]
    simp
  have hpos : (v .keys)[A.length]? = some none := by
    rw [hA, List.getElem?_append_right (by simp)]
    simp [List.replicate_succ]
  have hlen : A.length < (v .keys).length := (List.getElem?_eq_some_iff.1 hpos).1
  obtain ⟨m2, e2, r2⟩ := r1.step (.set .keys id A.length (some s.nextObj)) ⟨⟨by rw [list_eq hv1]; exact hlen, by
      intro a ha
      cases ha
      simp [Shelves.step]⟩, by
      show (Shelves.list _ id .keys)[A.length]? = some none
      rw [list_eq hv1]
      exact hpos⟩
  have hm1 : (st.mem.newKey k).ks = m1 := Option.some.inj e1
  have e2' : KeyStoreSet .keys id st.keyPos (.ptr st.mem.ks.nextObj) (st.mem.newKey k).ks = some m2 := by
    rw [hm1, ← lA, H.nextObj]
    exact e2
  have hobjs : m2.objs = m1.objs ∧ m2.nextObj = m1.nextObj := by
    have e2 : m1.write id .keys A.length (.ptr s.nextObj) = some m2 := e2
    unfold KsMem.write at e2
    cases h1 : m1.stores id with
    | none => rw [h1] at e2; cases e2
    | some x =>
      rw [h1] at e2
      change (writeCell (x .keys).cells A.length (.ptr s.nextObj) >>= _) = _ at e2
      cases h2 : writeCell (x .keys).cells A.length (.ptr s.nextObj) with
      | none => rw [h2] at e2; cases e2
      | some l => rw [h2] at e2; cases e2; exact ⟨rfl, rfl⟩
  refine ⟨⟨{ st.mem.newKey k with ks := m2 }, st.keyPos + 1, st.certPos⟩, _, by simp only [ImpSt.takeKey, e2'], ⟨r2, ?_, ?_, ?_, ?_, ?_⟩⟩
  · refine ⟨fun x => if x = .keys then (v x).set A.length (some s.nextObj) else v x, A ++ [s.nextObj], B, ?_, ?_, hB, by simp [lA], lB, ?_, mB⟩
    · simp [Shelves.step, hv]
    · show (v .keys).set A.length (some s.nextObj) = _
      rw [hA]
      exact set_next _
    · refine map_key_snoc mA ?_ ?_
      · intro b hb
        show (if b = st.mem.ks.nextObj then some k else st.mem.key b) = _
        rw [if_neg (Nat.ne_of_lt (hAt b hb))]
      · show (if s.nextObj = st.mem.ks.nextObj then some k else _) = _
        rw [if_pos H.nextObj.symm]
  · rw [← F.hand]
    funext a
    show (if some a = some s.nextObj then none else if a = s.nextObj then some .keys else s.hand a) = s.hand a
    by_cases ha : a = s.nextObj
    · subst ha
      simp only [if_true]
      cases hh : s.hand s.nextObj with
      | none => rfl
      | some x =>
        have := H.own s.nextObj x .hand hh
        rw [H.freshObj _ (Nat.le_refl _)] at this
        cases this
    · rw [if_neg (by simpa using ha), if_neg ha]
  · intro i hi
    rw [← F.rest i hi]
    simp [Shelves.step, hi]
  · intro a ha
    have ha' : a ≠ st.mem.ks.nextObj := Nat.ne_of_lt (Nat.lt_of_lt_of_le ha F.next)
    obtain ⟨h1, h2, h3⟩ := F.old a ha
    refine ⟨?_, ?_, h3⟩
    · show m2.objs a = _
      rw [hobjs.1, ← h1, ← hm1]
      exact if_neg ha'
    · rw [← h2]
      exact if_neg ha'
  · show m0.ks.nextObj ≤ m2.nextObj
    rw [hobjs.2, ← hm1]
    exact Nat.le_succ_of_le F.next

theorem takeCert_fill {m0 : ImpMem κ χ} {s0 : Shelves} {id : Nat} {st : ImpSt κ χ} {s : Shelves} {ks : List κ} {cs : List χ} {nk nc : Nat}
    (F : StoreFilling m0 s0 id st s ks cs nk (nc + 1)) (k : χ) :
    ∃ st' s', st.takeCert id (some k) = some (true, st') ∧ StoreFilling m0 s0 id st' s' ks (cs ++ [k]) nk nc := by
  obtain ⟨v, B, A, hv, hB, hA, lB, lA, mB, mA⟩ := F.fill
  obtain ⟨m1, e1, r1⟩ := F.reach.step (.make .certs) ⟨trivial, trivial⟩
  have H := F.reach.holds.1
  have hv1 : (s.step (.make .certs)).store id = some v := hv
  have hAt : ∀ b ∈ A, b < st.mem.ks.nextObj := by
    intro b hb
    apply F.reach.lt
    obtain ⟨i, hi, he⟩ := List.mem_iff_getElem.1 hb
    rw [H.own b .certs (.cell id .certs i) ⟨rfl, by rw [list_eq hv, hA, List.getElem?_append_left (by simpa using hi)]; simp [hi, he]⟩]
    simp
  have hpos : (v .certs)[A.length]? = some none := by
    rw [hA, List.getElem?_append_right (by simp)]
    simp [List.replicate_succ]
  have hlen : A.length < (v .certs).length := (List.getElem?_eq_some_iff.1 hpos).1
  obtain ⟨m2, e2, r2⟩ := r1.step (.set .certs id A.length (some s.nextObj)) ⟨⟨by rw [list_eq hv1]; exact hlen, by
      intro a ha
      cases ha
      simp [Shelves.step]⟩, by
      show (Shelves.list _ id .certs)[A.length]? = some none
      rw [list_eq hv1]
      exact hpos⟩
  have hm1 : (st.mem.newCert k).ks = m1 := Option.some.inj e1
  have e2' : KeyStoreSet .certs id st.certPos (.ptr st.mem.ks.nextObj) (st.mem.newCert k).ks = some m2 := by
    rw [hm1, ← lA, H.nextObj]
    exact e2
  have hobjs : m2.objs = m1.objs ∧ m2.nextObj = m1.nextObj := by
    have e2 : m1.write id .certs A.length (.ptr s.nextObj) = some m2 := e2
    unfold KsMem.write at e2
    cases h1 : m1.stores id with
    | none => rw [h1] at e2; cases e2
    | some x =>
      rw [h1] at e2
      change (writeCell (x .certs).cells A.length (.ptr s.nextObj) >>= _) = _ at e2
      cases h2 : writeCell (x .certs).cells A.length (.ptr s.nextObj) with
      | none => rw [h2] at e2; cases e2
      | some l => rw [h2] at e2; cases e2; exact ⟨rfl, rfl⟩
  refine ⟨⟨{ st.mem.newCert k with ks := m2 }, st.keyPos, st.certPos + 1⟩, _, by simp only [ImpSt.takeCert, e2'], ⟨r2, ?_, ?_, ?_, ?_, ?_⟩⟩
  · refine ⟨fun x => if x = .certs then (v x).set A.length (some s.nextObj) else v x, B, A ++ [s.nextObj], ?_, hB, ?_, lB, by simp [lA], mB, ?_⟩
    · simp [Shelves.step, hv]
    · show (v .certs).set A.length (some s.nextObj) = _
      rw [hA]
      exact set_next _
    · refine map_key_snoc mA ?_ ?_
      · intro b hb
        show (if b = st.mem.ks.nextObj then some k else st.mem.cert b) = _
        rw [if_neg (Nat.ne_of_lt (hAt b hb))]
      · show (if s.nextObj = st.mem.ks.nextObj then some k else _) = _
        rw [if_pos H.nextObj.symm]
  · rw [← F.hand]
    funext a
    show (if some a = some s.nextObj then none else if a = s.nextObj then some .certs else s.hand a) = s.hand a
    by_cases ha : a = s.nextObj
    · subst ha
      simp only [if_true]
      cases hh : s.hand s.nextObj with
      | none => rfl
      | some x =>
        have := H.own s.nextObj x .hand hh
        rw [H.freshObj _ (Nat.le_refl _)] at this
        cases this
    · rw [if_neg (by simpa using ha), if_neg ha]
  · intro i hi
    rw [← F.rest i hi]
    simp [Shelves.step, hi]
  · intro a ha
    have ha' : a ≠ st.mem.ks.nextObj := Nat.ne_of_lt (Nat.lt_of_lt_of_le ha F.next)
    obtain ⟨h1, h2, h3⟩ := F.old a ha
    refine ⟨?_, h2, ?_⟩
    · show m2.objs a = _
      rw [hobjs.1, ← h1, ← hm1]
      exact if_neg ha'
    · rw [← h3]
      exact if_neg ha'
  · show m0.ks.nextObj ≤ m2.nextObj
    rw [hobjs.2, ← hm1]
    exact Nat.le_succ_of_le F.next

/-- All items readable: they are all in the store.  One not readable: the import stops. -/
theorem takeItems_fill (l : List (Item κ χ)) {m0 : ImpMem κ χ} {s0 : Shelves} {id : Nat} {st : ImpSt κ χ} {s : Shelves} {ks : List κ} {cs : List χ}
    {nk nc : Nat} (F : StoreFilling m0 s0 id st s ks cs (nk + numKeys l) (nc + numCerts l)) :
    ((∀ i ∈ l, i.readable = true) → ∃ st' s', takeItems id l st = some (true, st') ∧ StoreFilling m0 s0 id st' s' (ks ++ keysOf l) (cs ++ certsOf l) nk nc) ∧
    ((¬ ∀ i ∈ l, i.readable = true) → ∃ st' s' ks' cs' nk' nc', takeItems id l st = some (false, st') ∧ StoreFilling m0 s0 id st' s' ks' cs' nk' nc') := by
  induction l generalizing st s ks cs with
  | nil => exact ⟨fun _ => ⟨st, s, rfl, by simpa [keysOf, certsOf, numKeys, numCerts] using F⟩, fun h => absurd (by simp) h⟩
  | cons i l ih =>
    have hcons : (∀ j ∈ i :: l, j.readable = true) ↔ i.readable = true ∧ ∀ j ∈ l, j.readable = true := by simp
    rw [hcons]
    rcases i with (_ | k) | (_ | c)
    · exact ⟨fun h => (by cases h.1), fun _ => ⟨st, s, _, _, _, _, rfl, F⟩⟩
    · obtain ⟨st', s', e, F'⟩ := takeKey_fill (nk := nk + numKeys l) (nc := nc + numCerts l) F k
      obtain ⟨h1, h2⟩ := ih F'
      have hr : takeItems id (.key (some k) :: l) st = takeItems id l st' := by simp only [takeItems, takeItem, e]
      rw [hr]
      refine ⟨fun h => ?_, fun h => h2 (fun hc => h ⟨rfl, hc⟩)⟩
      obtain ⟨st2, s2, e2, F2⟩ := h1 h.2
      refine ⟨st2, s2, e2, ?_⟩
      simpa [keysOf, certsOf] using F2
    · exact ⟨fun h => (by cases h.1), fun _ => ⟨st, s, _, _, _, _, rfl, F⟩⟩
    · obtain ⟨st', s', e, F'⟩ := takeCert_fill (nk := nk + numKeys l) (nc := nc + numCerts l) F c
      obtain ⟨h1, h2⟩ := ih F'
      have hr : takeItems id (.cert (some c) :: l) st = takeItems id l st' := by simp only [takeItems, takeItem, e]
      rw [hr]
      refine ⟨fun h => ?_, fun h => h2 (fun hc => h ⟨rfl, hc⟩)⟩
      obtain ⟨st2, s2, e2, F2⟩ := h1 h.2
      refine ⟨st2, s2, e2, ?_⟩
      simpa [keysOf, certsOf] using F2

/-- The new store. -/
theorem new_fill {m : ImpMem κ χ} {s : Shelves} (R : Reach m.ks s) (nk nc : Nat) :
    ∃ m' s', KeyStoreNew nk nc m.ks = some (m.ks.nextStore, m') ∧ StoreFilling m s m.ks.nextStore ⟨{ m with ks := m' }, 0, 0⟩ s' [] [] nk nc := by
  obtain ⟨m', e, r⟩ := R.step (.new nk nc) ⟨trivial, trivial⟩
  have hnew : KeyStoreNew nk nc m.ks = some (m.ks.nextStore, m') ∧ m'.objs = m.ks.objs ∧ m'.nextObj = m.ks.nextObj := by
    simp only [KsMem.step, KeyStoreNew, newBlock_eq] at e ⊢
    cases e
    exact ⟨rfl, rfl, rfl⟩
  have H := R.holds.1
  refine ⟨m', _, hnew.1, ⟨r, ?_, rfl, ?_, ?_, ?_⟩⟩
  · refine ⟨_, [], [], by show (if m.ks.nextStore = s.next then _ else _) = _; rw [if_pos H.next], rfl, rfl, rfl, rfl, rfl, rfl⟩
  · intro i hi
    show (if i = s.next then _ else s.store i) = _
    rw [if_neg (by rw [← H.next]; exact hi)]
  · intro a _
    exact ⟨congrFun hnew.2.1 a, rfl, rfl⟩
  · exact Nat.le_of_eq hnew.2.2.symm

/-- The full store. -/
theorem StoreFilling.full {m0 : ImpMem κ χ} {s0 : Shelves} {id : Nat} {st : ImpSt κ χ} {s : Shelves} {ks : List κ} {cs : List χ}
    (F : StoreFilling m0 s0 id st s ks cs 0 0) : HoldsExactly st.mem id ks cs := by
  obtain ⟨v, A, B, hv, hA, hB, lA, lB, mA, mB⟩ := F.fill
  have H := F.reach.holds.1
  have hm := holds_store H hv
  simp only [List.replicate_zero, List.append_nil] at hA hB
  have hl : A.length = ks.length := by simpa using congrArg List.length mA
  have hl' : B.length = cs.length := by simpa using congrArg List.length mB
  have hget : ∀ (side : Side) (L : List Nat), v side = L.map some → ∀ pos a, L[pos]? = some a →
      KeyStoreGet side id pos st.mem.ks = some (.ptr a) ∧ st.mem.ks.objs a = some side := by
    intro side L hL pos a ha
    have hlt : pos < L.length := (List.getElem?_eq_some_iff.1 ha).1
    have hc : cellsOf (v side) = some ((v side).map Cell.of) := cellsOf_ne (by intro hc; rw [hc] at hL; simp at hL; rw [hL] at hlt; simp at hlt)
    refine ⟨?_, H.own a side (.cell id side pos) ⟨rfl, by rw [list_eq hv, hL]; simp [ha]⟩⟩
    have hlt' : pos < (storeOf v side).num := by
      show pos < (v side).length
      rw [hL]
      simpa using hlt
    simp only [KeyStoreGet, hm]
    rw [if_pos hlt']
    show readCell (cellsOf (v side)) pos = _
    rw [hc, hL]
    simp [readCell, ha, Cell.of]
  refine ⟨by simp [KeyStoreNum, hm, storeOf, blockOf, hA, hl], by simp [KeyStoreNum, hm, storeOf, blockOf, hB, hl'], ?_, ?_⟩
  · intro pos k hk
    have hlt : pos < ks.length := (List.getElem?_eq_some_iff.1 hk).1
    have ha : A[pos]? = some A[pos] := List.getElem?_eq_getElem (by omega)
    obtain ⟨h1, h2⟩ := hget .keys A hA pos _ ha
    refine ⟨_, h1, h2, ?_⟩
    have := congrArg (·[pos]?) mA
    simpa [ha, hk] using this
  · intro pos k hk
    have hlt : pos < cs.length := (List.getElem?_eq_some_iff.1 hk).1
    have ha : B[pos]? = some B[pos] := List.getElem?_eq_getElem (by omega)
    obtain ⟨h1, h2⟩ := hget .certs B hB pos _ ha
    refine ⟨_, h1, h2, ?_⟩
    have := congrArg (·[pos]?) mB
    simpa [ha, hk] using this

theorem StoreFilling.undisturbed {m0 : ImpMem κ χ} {s0 : Shelves} {id : Nat} {st : ImpSt κ χ} {s : Shelves} {ks : List κ} {cs : List χ} {nk nc : Nat}
    (R : Reach m0.ks s0) (hid : s0.store id = none) (F : StoreFilling m0 s0 id st s ks cs nk nc) : Undisturbed m0 st.mem := by
  refine ⟨fun i hi => ?_, fun a ha => F.old a (R.lt ha)⟩
  have hne : i ≠ id := by
    rintro rfl
    rw [R.holds.1.stores, hid] at hi
    exact hi rfl
  rw [F.reach.holds.1.stores, R.holds.1.stores, F.rest i hne]

/-- After the half filled store is freed all is as before. -/
theorem StoreFilling.free {m0 : ImpMem κ χ} {s0 : Shelves} {id : Nat} {st : ImpSt κ χ} {s : Shelves} {ks : List κ} {cs : List χ} {nk nc : Nat}
    (R : Reach m0.ks s0) (hid : s0.store id = none) (F : StoreFilling m0 s0 id st s ks cs nk nc) :
    ∃ m', KeyStoreFree id st.mem.ks = some m' ∧ (∃ s', Reach m' s') ∧ Undisturbed m0 { st.mem with ks := m' } ∧
      NothingLeft m0 { st.mem with ks := m' } ∧ m'.stores id = none := by
  have R0 := R
  obtain ⟨v, _, _, hv, _⟩ := F.fill
  obtain ⟨m', e, r⟩ := F.reach.step (.free id) ⟨by show (s.store id).isSome; rw [hv]; rfl, trivial⟩
  have H0 := R.holds.1
  have H' := r.holds.1
  have hstore : ∀ i, (s.step (.free id)).store i = s0.store i := by
    intro i
    by_cases hi : i = id
    · subst hi
      rw [hid]
      simp [Shelves.step]
    · rw [← F.rest i hi]
      simp [Shelves.step, hi]
  have hst : ∀ i, m'.stores i = m0.ks.stores i := by
    intro i
    rw [H'.stores, H0.stores, hstore]
  have hat : ∀ a x p, (s.step (.free id)).At a x p ↔ s0.At a x p := by
    intro a x p
    cases p with
    | hand =>
      show s.hand a = some x ↔ s0.hand a = some x
      rw [F.hand]
    | cell i y pos =>
      show (y = x ∧ (Shelves.list _ i x)[pos]? = some (some a)) ↔ (y = x ∧ (Shelves.list s0 i x)[pos]? = some (some a))
      simp only [Shelves.list, hstore]
  have hobj : ∀ a, m'.objs a = m0.ks.objs a := by
    intro a
    cases h : m0.ks.objs a with
    | some x =>
      obtain ⟨p, hp⟩ := R.holds.2 a x h
      exact H'.own _ _ _ ((hat _ _ _).2 hp)
    | none =>
      cases h' : m'.objs a with
      | none => rfl
      | some x =>
        obtain ⟨p, hp⟩ := r.holds.2 a x h'
        rw [H0.own _ _ _ ((hat _ _ _).1 hp)] at h
        cases h
  refine ⟨m', e, ⟨_, r⟩, ⟨fun i _ => hst i, fun a ha => ⟨hobj a, ?_⟩⟩, ⟨fun i hi => by rw [hst i]; exact hi, fun a ha => by rw [hobj a]; exact ha⟩, ?_⟩
  · exact (F.old a (R.lt ha)).2
  · rw [hst, H0.stores, hid]
    rfl

theorem Reach.reachable {m : KsMem} {s : Shelves} (h : Reach m s) : Reachable m := by
  obtain ⟨ops, h1, h2, _⟩ := h
  exact ⟨ops, h1, h2⟩

theorem numKeys_numCerts (l : List (Item κ χ)) : (numKeys l = 0 ∧ numCerts l = 0) ↔ l = [] := by
  cases l with
  | nil => simp [numKeys, numCerts]
  | cons i l => cases i <;> simp [numKeys, numCerts]

/-- The whole import. -/
theorem parsePKCS12_eq (lib : P12Lib D κ χ) (data pass : List Byte) (ks : Option Nat) (m : ImpMem κ χ) (R : Reachable m.ks) :
    ∃ ok out m', parsePKCS12 lib data pass ks m = some (ok, out, m') ∧ Reachable m'.ks ∧ Undisturbed m m' ∧
      (ok = true → ∃ items id, contents lib data pass items ∧ out = some id ∧ m.ks.stores id = none ∧ HoldsExactly m' id (keysOf items) (certsOf items)) ∧
      (ok = false → (∀ items, ¬ contents lib data pass items) ∧ NothingLeft m m' ∧ (out = ks ∨ ∃ id, out = some id ∧ m'.ks.stores id = none)) := by
  have hself : Undisturbed m m ∧ NothingLeft m m := ⟨⟨fun _ _ => rfl, fun _ _ => ⟨rfl, rfl, rfl⟩⟩, fun _ h => h, fun _ h => h⟩
  have fail : (∀ items, ¬ contents lib data pass items) → ∃ ok out m', some (false, ks, m) = some (ok, out, m') ∧ Reachable m'.ks ∧ Undisturbed m m' ∧
      (ok = true → ∃ items id, contents lib data pass items ∧ out = some id ∧ m.ks.stores id = none ∧ HoldsExactly m' id (keysOf items) (certsOf items)) ∧
      (ok = false → (∀ items, ¬ contents lib data pass items) ∧ NothingLeft m m' ∧ (out = ks ∨ ∃ id, out = some id ∧ m'.ks.stores id = none)) :=
    fun h => ⟨_, _, _, rfl, R, hself.1, fun h => (by cases h), fun _ => ⟨h, hself.2, Or.inl rfl⟩⟩
  unfold parsePKCS12
  cases h1 : lib.d2i_PKCS12 data with
  | none => exact fail (by rintro items ⟨p, s, hp, _⟩; rw [h1] at hp; cases hp)
  | some p12 =>
    simp only
    by_cases h2 : lib.verify_mac p12 pass = false
    · rw [if_pos h2]
      exact fail (by rintro items ⟨p, s, hp, hm, _⟩; rw [h1] at hp; cases hp; rw [h2] at hm; cases hm)
    · rw [if_neg h2]
      cases h3 : lib.unpack_authsafes p12 with
      | none => exact fail (by rintro items ⟨p, s, hp, _, hs, _⟩; rw [h1] at hp; cases hp; rw [h3] at hs; cases hs)
      | some safes =>
        simp only
        have hsub : ∀ items, contents lib data pass items → (∀ p7 ∈ safes, (safeBags lib pass p7).isSome) ∧ items = itemsOfSafes lib pass safes ∧
            (∀ i ∈ items, i.readable = true) ∧ items ≠ [] := by
          rintro items ⟨p, s, hp, _, hs, h⟩
          rw [h1] at hp; cases hp; rw [h3] at hs; cases hs
          exact h
        unfold importSafes
        by_cases h4 : ∀ p7 ∈ safes, (safeBags lib pass p7).isSome
        · rw [countSafes_eq lib pass safes 0 0 h4]
          simp only [Nat.zero_add]
          by_cases h5 : itemsOfSafes lib pass safes = []
          · rw [if_pos ((numKeys_numCerts _).2 h5)]
            exact fail (fun items h => (hsub items h).2.2.2 (by rw [(hsub items h).2.1, h5]))
          · rw [if_neg (fun h => h5 ((numKeys_numCerts _).1 h))]
            obtain ⟨ops, o1, o2⟩ := R
            have R' : Reach m.ks (Shelves.boot.run ops) := ⟨ops, o1, o2, rfl⟩
            obtain ⟨m', s', e, F⟩ := new_fill R' (numKeys (itemsOfSafes lib pass safes)) (numCerts (itemsOfSafes lib pass safes))
            have hid : (Shelves.boot.run ops).store m.ks.nextStore = none := R'.holds.1.freshStore _ (Nat.le_of_eq R'.holds.1.next.symm)
            rw [e]
            simp only
            rw [fromSafes_eq lib pass _ safes _ h4]
            obtain ⟨g1, g2⟩ := takeItems_fill (nk := 0) (nc := 0) (itemsOfSafes lib pass safes) (by simpa using F)
            by_cases h6 : ∀ i ∈ itemsOfSafes lib pass safes, i.readable = true
            · obtain ⟨st, s2, e2, F2⟩ := g1 h6
              rw [e2]
              refine ⟨_, _, _, rfl, F2.reach.reachable, F2.undisturbed R' hid, fun _ => ?_, fun h => (by cases h)⟩
              refine ⟨itemsOfSafes lib pass safes, m.ks.nextStore, ⟨p12, safes, h1, by simpa using h2, h3, h4, rfl, h6, h5⟩, rfl, ?_, ?_⟩
              · rw [R'.holds.1.stores, hid]; rfl
              · simpa using F2.full
            · obtain ⟨st, s2, ks', cs', nk', nc', e2, F2⟩ := g2 h6
              obtain ⟨m2, e3, ⟨s3, r3⟩, u3, n3, d3⟩ := F2.free R' hid
              rw [e2]
              simp only
              rw [e3]
              refine ⟨_, _, _, rfl, r3.reachable, u3, fun h => (by cases h), fun _ => ⟨?_, n3, Or.inr ⟨_, rfl, d3⟩⟩⟩
              intro items h
              apply h6
              rw [← (hsub items h).2.1]
              exact (hsub items h).2.2.1
        · have := countSafes_false lib pass safes 0 0 h4
          rcases hc : countKeysCerts lib pass safes (0, 0) with ⟨b, n⟩
          rw [hc] at this
          cases this
          exact fail (fun items h => h4 (hsub items h).1)

end Dstu
