import Verif.Model.StoreFaults
import Verif.Props.ExportFaults
import Verif.Props.Pkcs12

/-! Property C130: failures of library calls and what is imported from PKCS#12 files. -/

namespace Dstu.Props

open Spec Flt

variable {D κ χ : Type}

theorem call_done {α : Type} {o r : Option α} {w : Nat → Bool} {t t' : Ticks} (h : Dstu.Faulty.call o w t = (.done r, t')) :
    (r = o ∧ t'.faults = t.faults) ∨ (r = none ∧ t'.faults = t.faults + 1) := by
  unfold Dstu.Faulty.call at h
  obtain ⟨ok, t1, e1, e2⟩ := bind_done h
  obtain ⟨p1, p2⟩ := pure_done (α := Option α) e2
  rcases ask_cases e1 with ⟨rfl, f⟩ | ⟨rfl, f⟩
  · exact Or.inl ⟨p1.symm, by rw [← p2, f]⟩
  · exact Or.inr ⟨p1.symm, by rw [← p2, f]⟩

theorem run_call {α : Type} (o : Option α) : Run (Dstu.Faulty.call o) o := run_bind run_ask (run_pure _)

theorem unpack_done (lib : P12Lib D κ χ) (pass : List Byte) (p7 : Option P7) (w : Nat → Bool) (t t' : Ticks) (r : Option (Option (List Bag)))
    (h : Dstu.Faulty.unpack lib pass p7 w t = (.done r, t')) : (r = lib.unpack pass p7 ∧ t'.faults = t.faults) ∨ r = some none := by
  cases p7 with
  | none =>
    obtain ⟨h1, h2⟩ := pure_done (α := Option (Option (List Bag))) h
    exact Or.inl ⟨h1.symm, by rw [h2]⟩
  | some p7 =>
    unfold Dstu.Faulty.unpack at h
    unfold P12Lib.unpack
    cases ht : p7.type with
    | data =>
      simp only [ht] at h ⊢
      obtain ⟨bags, t1, e1, e2⟩ := bind_done h
      obtain ⟨p1, p2⟩ := pure_done (α := Option (Option (List Bag))) e2
      rcases call_done e1 with ⟨rfl, f⟩ | ⟨rfl, f⟩
      · exact Or.inl ⟨p1.symm, by rw [← p2, f]⟩
      · exact Or.inr p1.symm
    | encrypted =>
      simp only [ht] at h ⊢
      obtain ⟨bags, t1, e1, e2⟩ := bind_done h
      obtain ⟨p1, p2⟩ := pure_done (α := Option (Option (List Bag))) e2
      rcases call_done e1 with ⟨rfl, f⟩ | ⟨rfl, f⟩
      · exact Or.inl ⟨p1.symm, by rw [← p2, f]⟩
      · exact Or.inr p1.symm
    | other =>
      simp only [ht] at h ⊢
      obtain ⟨h1, h2⟩ := pure_done (α := Option (Option (List Bag))) h
      exact Or.inl ⟨h1.symm, by rw [h2]⟩

theorem count_done (lib : P12Lib D κ χ) (pass : List Byte) (w : Nat → Bool) (r : Nat × Nat) : ∀ (safes : List (Option P7)) (n : Nat × Nat) (t t' : Ticks),
    Dstu.Faulty.countKeysCerts lib pass safes n w t = (.done (true, r), t') → countKeysCerts lib pass safes n = (true, r) ∧ t'.faults = t.faults
  | [], n, t, t', h => by
    obtain ⟨h1, h2⟩ := pure_done (α := Bool × (Nat × Nat)) h
    exact ⟨h1, by rw [h2]⟩
  | p7 :: safes, n, t, t', h => by
    unfold Dstu.Faulty.countKeysCerts at h
    obtain ⟨bags, t1, e1, e2⟩ := bind_done h
    rcases unpack_done lib pass p7 w t t1 bags e1 with ⟨k, f⟩ | k
    · unfold countKeysCerts
      rw [← k, ← f]
      cases bags with
      | none => exact count_done lib pass w r safes n t1 t' e2
      | some o =>
        cases o with
        | none =>
          obtain ⟨h1, _⟩ := pure_done (α := Bool × (Nat × Nat)) e2
          cases h1
        | some bags =>
          simp only at e2 ⊢
          cases hc : countKeysCertsInBags bags n with
          | mk ok n' =>
            rw [hc] at e2
            cases ok with
            | false =>
              obtain ⟨h1, _⟩ := pure_done (α := Bool × (Nat × Nat)) e2
              cases h1
            | true => exact count_done lib pass w r safes n' t1 t' e2
    · rw [k] at e2
      obtain ⟨h1, _⟩ := pure_done (α := Bool × (Nat × Nat)) e2
      cases h1

theorem takeKey_done {ks : Nat} {st st' : ImpSt κ χ} {k : Option κ} {o : Option κ} {w : Nat → Bool} {t t1 t' : Ticks}
    (e1 : Dstu.Faulty.call o w t = (.done k, t1)) (e2 : (pure (st.takeKey ks k) : Dstu.Faulty _) w t1 = (.done (some (true, st')), t')) :
    st.takeKey ks o = some (true, st') ∧ t'.faults = t.faults := by
  obtain ⟨h1, h2⟩ := pure_done (α := Option (Bool × ImpSt κ χ)) e2
  rcases call_done e1 with ⟨rfl, f⟩ | ⟨rfl, f⟩
  · exact ⟨h1, by rw [← h2, f]⟩
  · simp [ImpSt.takeKey] at h1

mutual
theorem fromBag_done (lib : P12Lib D κ χ) (pass : List Byte) (ks : Nat) (w : Nat → Bool) (st' : ImpSt κ χ) : ∀ (b : Bag) (st : ImpSt κ χ) (t t' : Ticks),
    Dstu.Faulty.fromBag lib pass ks b st w t = (.done (some (true, st')), t') → fromBag lib pass ks b st = some (true, st') ∧ t'.faults = t.faults
  | .keyBag p8, st, t, t', h => by
    unfold Dstu.Faulty.fromBag at h
    unfold fromBag
    obtain ⟨k, t1, e1, e2⟩ := bind_done h
    exact takeKey_done e1 e2
  | .shrouded enc, st, t, t', h => by
    unfold Dstu.Faulty.fromBag at h
    unfold fromBag
    obtain ⟨p8, t1, e1, e2⟩ := bind_done h
    cases p8 with
    | none =>
      obtain ⟨h1, _⟩ := pure_done (α := Option (Bool × ImpSt κ χ)) e2
      cases h1
    | some p8 =>
      rcases call_done e1 with ⟨k, f⟩ | ⟨k, f⟩
      · rw [← k, ← f]
        simp only at e2 ⊢
        obtain ⟨k, t2, e3, e4⟩ := bind_done e2
        exact takeKey_done e3 e4
      · cases k
  | .certBag cert, st, t, t', h => by
    unfold Dstu.Faulty.fromBag at h
    unfold fromBag
    obtain ⟨k, t1, e1, e2⟩ := bind_done h
    obtain ⟨h1, h2⟩ := pure_done (α := Option (Bool × ImpSt κ χ)) e2
    rcases call_done e1 with ⟨rfl, f⟩ | ⟨rfl, f⟩
    · exact ⟨h1, by rw [← h2, f]⟩
    · simp [ImpSt.takeCert] at h1
  | .safes bags, st, t, t', h => by
    unfold Dstu.Faulty.fromBag at h
    unfold fromBag
    exact fromBags_done lib pass ks w st' bags st t t' h
  | .other, st, t, t', h => by
    unfold Dstu.Faulty.fromBag at h
    unfold fromBag
    obtain ⟨h1, h2⟩ := pure_done (α := Option (Bool × ImpSt κ χ)) h
    exact ⟨h1, by rw [h2]⟩

theorem fromBags_done (lib : P12Lib D κ χ) (pass : List Byte) (ks : Nat) (w : Nat → Bool) (st' : ImpSt κ χ) : ∀ (bags : List Bag) (st : ImpSt κ χ) (t t' : Ticks),
    Dstu.Faulty.fromBags lib pass ks bags st w t = (.done (some (true, st')), t') → fromBags lib pass ks bags st = some (true, st') ∧ t'.faults = t.faults
  | [], st, t, t', h => by
    unfold Dstu.Faulty.fromBags at h
    unfold fromBags
    obtain ⟨h1, h2⟩ := pure_done (α := Option (Bool × ImpSt κ χ)) h
    exact ⟨h1, by rw [h2]⟩
  | b :: bags, st, t, t', h => by
    unfold Dstu.Faulty.fromBags at h
    unfold fromBags
    obtain ⟨r, t1, e1, e2⟩ := bind_done h
    cases r with
    | none =>
      obtain ⟨h1, _⟩ := pure_done (α := Option (Bool × ImpSt κ χ)) e2
      cases h1
    | some r =>
      obtain ⟨ok, st1⟩ := r
      cases ok with
      | false =>
        obtain ⟨h1, _⟩ := pure_done (α := Option (Bool × ImpSt κ χ)) e2
        cases h1
      | true =>
        obtain ⟨k1, k2⟩ := fromBag_done lib pass ks w st1 b st t t1 e1
        rw [k1, ← k2]
        exact fromBags_done lib pass ks w st' bags st1 t1 t' e2
end

theorem fromSafes_done (lib : P12Lib D κ χ) (pass : List Byte) (ks : Nat) (w : Nat → Bool) (st' : ImpSt κ χ) :
    ∀ (safes : List (Option P7)) (st : ImpSt κ χ) (t t' : Ticks),
    Dstu.Faulty.fromSafes lib pass ks safes st w t = (.done (some (true, st')), t') → fromSafes lib pass ks safes st = some (true, st') ∧ t'.faults = t.faults
  | [], st, t, t', h => by
    obtain ⟨h1, h2⟩ := pure_done (α := Option (Bool × ImpSt κ χ)) h
    exact ⟨h1, by rw [h2]⟩
  | p7 :: safes, st, t, t', h => by
    unfold Dstu.Faulty.fromSafes at h
    unfold fromSafes
    obtain ⟨bags, t1, e1, e2⟩ := bind_done h
    rcases unpack_done lib pass p7 w t t1 bags e1 with ⟨k, f⟩ | k
    · rw [← k, ← f]
      cases bags with
      | none => exact fromSafes_done lib pass ks w st' safes st t1 t' e2
      | some o =>
        cases o with
        | none =>
          obtain ⟨h1, _⟩ := pure_done (α := Option (Bool × ImpSt κ χ)) e2
          cases h1
        | some bags =>
          simp only at e2 ⊢
          obtain ⟨r, t2, e3, e4⟩ := bind_done e2
          cases r with
          | none =>
            obtain ⟨h1, _⟩ := pure_done (α := Option (Bool × ImpSt κ χ)) e4
            cases h1
          | some r =>
            obtain ⟨ok, st1⟩ := r
            cases ok with
            | false =>
              obtain ⟨h1, _⟩ := pure_done (α := Option (Bool × ImpSt κ χ)) e4
              cases h1
            | true =>
              obtain ⟨k1, k2⟩ := fromBags_done lib pass ks w st1 bags st t1 t2 e3
              rw [k1, ← k2]
              exact fromSafes_done lib pass ks w st' safes st1 t2 t' e4
    · rw [k] at e2
      obtain ⟨h1, _⟩ := pure_done (α := Option (Bool × ImpSt κ χ)) e2
      cases h1

theorem importSafes_done (lib : P12Lib D κ χ) (pass : List Byte) (safes : List (Option P7)) (ks out : Option Nat) (m m' : ImpMem κ χ) (w : Nat → Bool) (t t' : Ticks)
    (h : Dstu.Faulty.importSafes lib pass safes ks m w t = (.done (some (true, out, m')), t')) :
    importSafes lib pass safes ks m = some (true, out, m') ∧ t'.faults = t.faults := by
  unfold Dstu.Faulty.importSafes at h
  unfold importSafes
  obtain ⟨⟨ok, nk, nc⟩, t1, e1, e2⟩ := bind_done h
  cases ok with
  | false =>
    obtain ⟨h1, _⟩ := pure_done (α := Option (Bool × Option Nat × ImpMem κ χ)) e2
    cases h1
  | true =>
    obtain ⟨k1, k2⟩ := count_done lib pass w (nk, nc) safes (0, 0) t t1 e1
    rw [k1, ← k2]
    simp only at e2 ⊢
    by_cases h0 : nk = 0 ∧ nc = 0
    · rw [if_pos h0] at e2
      obtain ⟨h1, _⟩ := pure_done (α := Option (Bool × Option Nat × ImpMem κ χ)) e2
      cases h1
    · rw [if_neg h0] at e2 ⊢
      cases hn : KeyStoreNew nk nc m.ks with
      | none =>
        rw [hn] at e2
        obtain ⟨h1, _⟩ := pure_done (α := Option (Bool × Option Nat × ImpMem κ χ)) e2
        cases h1
      | some r =>
        obtain ⟨id, mem⟩ := r
        rw [hn] at e2
        simp only at e2 ⊢
        obtain ⟨r, t2, e3, e4⟩ := bind_done e2
        obtain ⟨h1, h2⟩ := pure_done (α := Option (Bool × Option Nat × ImpMem κ χ)) e4
        cases r with
        | none => cases h1
        | some r =>
          obtain ⟨ok, st1⟩ := r
          cases ok with
          | false =>
            unfold Dstu.Faulty.finishSafes at h1
            simp only at h1
            cases hf : KeyStoreFree id st1.mem.ks with
            | none =>
              rw [hf] at h1
              cases h1
            | some mem =>
              rw [hf] at h1
              cases h1
          | true =>
            obtain ⟨k3, k4⟩ := fromSafes_done lib pass id w st1 safes _ t1 t2 e3
            rw [k3, ← h2, k4]
            exact ⟨h1, rfl⟩

theorem parse_done (lib : P12Lib D κ χ) (data pass : List Byte) (ks out : Option Nat) (m m' : ImpMem κ χ) (w : Nat → Bool) (t t' : Ticks)
    (h : Dstu.Faulty.parsePKCS12 lib data pass ks m w t = (.done (some (true, out, m')), t')) :
    parsePKCS12 lib data pass ks m = some (true, out, m') ∧ t'.faults = t.faults := by
  unfold Dstu.Faulty.parsePKCS12 at h
  unfold parsePKCS12
  obtain ⟨p12, t1, e1, e2⟩ := bind_done h
  cases p12 with
  | none =>
    obtain ⟨h1, _⟩ := pure_done (α := Option (Bool × Option Nat × ImpMem κ χ)) e2
    cases h1
  | some p12 =>
    rcases call_done e1 with ⟨k, f1⟩ | ⟨k, _⟩
    · rw [← k]
      simp only at e2 ⊢
      obtain ⟨ok, t2, e3, e4⟩ := bind_done e2
      rcases ask_cases e3 with ⟨rfl, f2⟩ | ⟨rfl, f2⟩
      · cases hm : lib.verify_mac p12 pass with
        | false =>
          rw [hm, Bool.true_and, if_pos rfl] at e4
          obtain ⟨h1, _⟩ := pure_done (α := Option (Bool × Option Nat × ImpMem κ χ)) e4
          cases h1
        | true =>
          rw [hm, if_neg (by decide)] at e4
          rw [if_neg (by decide)]
          obtain ⟨safes, t3, e5, e6⟩ := bind_done e4
          cases safes with
          | none =>
            obtain ⟨h1, _⟩ := pure_done (α := Option (Bool × Option Nat × ImpMem κ χ)) e6
            cases h1
          | some safes =>
            rcases call_done e5 with ⟨k, f3⟩ | ⟨k, _⟩
            · rw [← k]
              obtain ⟨k1, k2⟩ := importSafes_done lib pass safes ks out m m' w t3 t' e6
              exact ⟨k1, by rw [k2, f3, f2, f1]⟩
            · cases k
      · rw [Bool.false_and, if_pos rfl] at e4
        obtain ⟨h1, _⟩ := pure_done (α := Option (Bool × Option Nat × ImpMem κ χ)) e4
        cases h1
    · cases k

/-- C130: whatever calls fail during the import of a PKCS#12 file, if success is reported, nothing failed, and the new store holds exactly the keys and certificates of
the file, in their order; everything else is as it was. -/
theorem C130_pkcs12 (lib : P12Lib D κ χ) (data pass : List Byte) (ks out : Option Nat) (m m' : ImpMem κ χ) (R : Reachable m.ks) (w : Nat → Bool) (t t' : Ticks)
    (h : Dstu.Faulty.parsePKCS12 lib data pass ks m w t = (.done (some (true, out, m')), t')) :
    t'.faults = t.faults ∧ Undisturbed m m' ∧ ∃ items id, contents lib data pass items ∧ out = some id ∧ m.ks.stores id = none ∧
      HoldsExactly m' id (keysOf items) (certsOf items) := by
  obtain ⟨h1, h2⟩ := parse_done lib data pass ks out m m' w t t' h
  obtain ⟨ok, out1, m1, e, _, u, k1, k2⟩ := C53_import lib data pass ks m R
  rw [h1] at e
  cases e
  obtain ⟨items, hi⟩ := k1.1 rfl
  obtain ⟨id, q1, q2, q3⟩ := k2 items hi
  exact ⟨h2, u, items, id, hi, q1, q2, q3⟩

/-! ### When nothing fails -/

theorem run_unpack (lib : P12Lib D κ χ) (pass : List Byte) (p7 : Option P7) : Run (Dstu.Faulty.unpack lib pass p7) (lib.unpack pass p7) := by
  unfold Dstu.Faulty.unpack P12Lib.unpack
  cases p7 with
  | none => exact run_pure _
  | some p7 =>
    cases ht : p7.type with
    | data =>
      simp only [ht]
      exact run_bind (run_call _) (run_pure _)
    | encrypted =>
      simp only [ht]
      exact run_bind (run_call _) (run_pure _)
    | other =>
      simp only [ht]
      exact run_pure _

theorem run_count (lib : P12Lib D κ χ) (pass : List Byte) : ∀ (safes : List (Option P7)) (n : Nat × Nat),
    Run (Dstu.Faulty.countKeysCerts lib pass safes n) (countKeysCerts lib pass safes n)
  | [], n => run_pure _
  | p7 :: safes, n => by
    unfold Dstu.Faulty.countKeysCerts countKeysCerts
    refine run_bind (run_unpack lib pass p7) ?_
    cases lib.unpack pass p7 with
    | none => exact run_count lib pass safes n
    | some o =>
      cases o with
      | none => exact run_pure _
      | some bags =>
        simp only
        cases countKeysCertsInBags bags n with
        | mk ok n' =>
          cases ok with
          | false => exact run_pure _
          | true => exact run_count lib pass safes n'

mutual
theorem run_fromBag (lib : P12Lib D κ χ) (pass : List Byte) (ks : Nat) : ∀ (b : Bag) (st : ImpSt κ χ),
    Run (Dstu.Faulty.fromBag lib pass ks b st) (fromBag lib pass ks b st)
  | .keyBag p8, st => by
    unfold Dstu.Faulty.fromBag fromBag
    exact run_bind (run_call _) (run_pure _)
  | .shrouded enc, st => by
    unfold Dstu.Faulty.fromBag fromBag
    refine run_bind (run_call _) ?_
    cases lib.decrypt_skey enc pass with
    | none => exact run_pure _
    | some p8 => exact run_bind (run_call _) (run_pure _)
  | .certBag cert, st => by
    unfold Dstu.Faulty.fromBag fromBag
    exact run_bind (run_call _) (run_pure _)
  | .safes bags, st => by
    unfold Dstu.Faulty.fromBag fromBag
    exact run_fromBags lib pass ks bags st
  | .other, st => by
    unfold Dstu.Faulty.fromBag fromBag
    exact run_pure _

theorem run_fromBags (lib : P12Lib D κ χ) (pass : List Byte) (ks : Nat) : ∀ (bags : List Bag) (st : ImpSt κ χ),
    Run (Dstu.Faulty.fromBags lib pass ks bags st) (fromBags lib pass ks bags st)
  | [], st => by
    unfold Dstu.Faulty.fromBags fromBags
    exact run_pure _
  | b :: bags, st => by
    unfold Dstu.Faulty.fromBags fromBags
    refine run_bind (run_fromBag lib pass ks b st) ?_
    cases fromBag lib pass ks b st with
    | none => exact run_pure _
    | some r =>
      obtain ⟨ok, st1⟩ := r
      cases ok with
      | false => exact run_pure _
      | true => exact run_fromBags lib pass ks bags st1
end

theorem run_fromSafes (lib : P12Lib D κ χ) (pass : List Byte) (ks : Nat) : ∀ (safes : List (Option P7)) (st : ImpSt κ χ),
    Run (Dstu.Faulty.fromSafes lib pass ks safes st) (fromSafes lib pass ks safes st)
  | [], st => run_pure _
  | p7 :: safes, st => by
    unfold Dstu.Faulty.fromSafes fromSafes
    refine run_bind (run_unpack lib pass p7) ?_
    cases lib.unpack pass p7 with
    | none => exact run_fromSafes lib pass ks safes st
    | some o =>
      cases o with
      | none => exact run_pure _
      | some bags =>
        refine run_bind (run_fromBags lib pass ks bags st) ?_
        simp only
        cases fromBags lib pass ks bags st with
        | none => exact run_pure _
        | some r =>
          obtain ⟨ok, st1⟩ := r
          cases ok with
          | false => exact run_pure _
          | true => exact run_fromSafes lib pass ks safes st1

theorem run_parse (lib : P12Lib D κ χ) (data pass : List Byte) (ks : Option Nat) (m : ImpMem κ χ) :
    Run (Dstu.Faulty.parsePKCS12 lib data pass ks m) (parsePKCS12 lib data pass ks m) := by
  unfold Dstu.Faulty.parsePKCS12 parsePKCS12
  refine run_bind (run_call _) ?_
  cases lib.d2i_PKCS12 data with
  | none => exact run_pure _
  | some p12 =>
    refine run_bind run_ask ?_
    simp only [Bool.true_and]
    by_cases hm : lib.verify_mac p12 pass = false
    · rw [if_pos hm, if_pos hm]
      exact run_pure _
    · rw [if_neg hm, if_neg hm]
      refine run_bind (run_call _) ?_
      cases lib.unpack_authsafes p12 with
      | none => exact run_pure _
      | some safes =>
        simp only
        unfold Dstu.Faulty.importSafes importSafes
        refine run_bind (run_count lib pass safes (0, 0)) ?_
        cases countKeysCerts lib pass safes (0, 0) with
        | mk ok n =>
          obtain ⟨nk, nc⟩ := n
          cases ok with
          | false => exact run_pure _
          | true =>
            simp only
            by_cases h0 : nk = 0 ∧ nc = 0
            · rw [if_pos h0, if_pos h0]
              exact run_pure _
            · rw [if_neg h0, if_neg h0]
              cases KeyStoreNew nk nc m.ks with
              | none => exact run_pure _
              | some r =>
                obtain ⟨id, mem⟩ := r
                refine run_bind (run_fromSafes lib pass id safes _) ?_
                simp only
                cases fromSafes lib pass id safes ⟨{ m with ks := mem }, 0, 0⟩ with
                | none => exact run_pure _
                | some r =>
                  obtain ⟨ok, st⟩ := r
                  cases ok with
                  | false => exact run_pure _
                  | true => exact run_pure _

/-- C130: when nothing fails, the result is that of the model of C53 and C54, for every file and password. -/
theorem C130_nothing_fails (lib : P12Lib D κ χ) (data pass : List Byte) (ks : Option Nat) (m : ImpMem κ χ) (t : Ticks) :
    ∃ t', Dstu.Faulty.parsePKCS12 lib data pass ks m noFault t = (.done (parsePKCS12 lib data pass ks m), t') ∧ t'.faults = t.faults :=
  (run_parse lib data pass ks m).none t

/-! ### Whatever fails -/

/-- The program returns, whatever calls fail, and its result is one of `Q`. -/
def Ends {α : Type} (x : Dstu.Faulty α) (Q : α → Prop) : Prop := ∀ w t, ∃ r t', x w t = (.done r, t') ∧ Q r

theorem ends_pure {α : Type} {a : α} {Q : α → Prop} (h : Q a) : Ends (pure a) Q := fun _ t => ⟨a, t, rfl, h⟩

theorem ends_bind {α β : Type} {x : Dstu.Faulty α} {f : α → Dstu.Faulty β} {P : α → Prop} {Q : β → Prop} (h : Ends x P) (h' : ∀ a, P a → Ends (f a) Q) :
    Ends (x >>= f) Q := by
  intro w t
  obtain ⟨a, t1, e1, p⟩ := h w t
  obtain ⟨b, t2, e2, q⟩ := h' a p w t1
  exact ⟨b, t2, by rw [bind_step e1, e2], q⟩

theorem ends_ask : Ends Dstu.Faulty.ask (fun _ => True) := by
  intro w t
  unfold Dstu.Faulty.ask
  exact ⟨_, _, rfl, trivial⟩

theorem ends_call {α : Type} (o : Option α) : Ends (Dstu.Faulty.call o) (fun r => r = o ∨ r = none) := by
  refine ends_bind ends_ask fun ok _ => ends_pure ?_
  cases ok
  · exact Or.inr rfl
  · exact Or.inl rfl

theorem ends_unpack (lib : P12Lib D κ χ) (pass : List Byte) (p7 : Option P7) :
    Ends (Dstu.Faulty.unpack lib pass p7) (fun r => r = lib.unpack pass p7 ∨ r = some none) := by
  unfold Dstu.Faulty.unpack P12Lib.unpack
  cases p7 with
  | none => exact ends_pure (Or.inl rfl)
  | some p7 =>
    cases ht : p7.type with
    | data =>
      simp only [ht]
      refine ends_bind (ends_call _) fun r h => ends_pure ?_
      rcases h with rfl | rfl
      · exact Or.inl rfl
      · exact Or.inr rfl
    | encrypted =>
      simp only [ht]
      refine ends_bind (ends_call _) fun r h => ends_pure ?_
      rcases h with rfl | rfl
      · exact Or.inl rfl
      · exact Or.inr rfl
    | other =>
      simp only [ht]
      exact ends_pure (Or.inl rfl)

theorem ends_count (lib : P12Lib D κ χ) (pass : List Byte) : ∀ (safes : List (Option P7)) (n : Nat × Nat),
    Ends (Dstu.Faulty.countKeysCerts lib pass safes n) (fun r => r.1 = true → countKeysCerts lib pass safes n = r)
  | [], n => ends_pure fun _ => rfl
  | p7 :: safes, n => by
    unfold Dstu.Faulty.countKeysCerts countKeysCerts
    refine ends_bind (ends_unpack lib pass p7) fun bags h => ?_
    rcases h with rfl | rfl
    · cases lib.unpack pass p7 with
      | none => exact ends_count lib pass safes n
      | some o =>
        cases o with
        | none => exact ends_pure fun h => by cases h
        | some bags =>
          simp only
          cases countKeysCertsInBags bags n with
          | mk ok n' =>
            cases ok with
            | false => exact ends_pure fun h => by cases h
            | true => exact ends_count lib pass safes n'
    · exact ends_pure fun h => by cases h

/-- The store `id` has room for so many keys and certificates. -/
def Room (m0 : ImpMem κ χ) (s0 : Shelves) (id : Nat) (st : ImpSt κ χ) (nk nc : Nat) : Prop := ∃ s ks cs, StoreFilling m0 s0 id st s ks cs nk nc

/-- The result after something was put into the store `id`: the memory is defined, and if it succeeded there is so much room left. -/
def Kept (m0 : ImpMem κ χ) (s0 : Shelves) (id nk nc : Nat) (r : Option (Bool × ImpSt κ χ)) : Prop :=
  ∃ ok st, r = some (ok, st) ∧ (ok = true → Room m0 s0 id st nk nc) ∧ ∃ nk' nc', Room m0 s0 id st nk' nc'

theorem kept_key {m0 : ImpMem κ χ} {s0 : Shelves} {id nk nc : Nat} {st : ImpSt κ χ} (h : Room m0 s0 id st (nk + 1) nc) (k : Option κ) :
    Kept m0 s0 id nk nc (st.takeKey id k) := by
  obtain ⟨s, ks, cs, F⟩ := h
  cases k with
  | none => exact ⟨false, st, rfl, fun h => (by cases h), _, _, s, ks, cs, F⟩
  | some k =>
    obtain ⟨st', s', e, F'⟩ := takeKey_fill F k
    exact ⟨true, st', e, fun _ => ⟨s', _, _, F'⟩, _, _, s', _, _, F'⟩

theorem kept_cert {m0 : ImpMem κ χ} {s0 : Shelves} {id nk nc : Nat} {st : ImpSt κ χ} (h : Room m0 s0 id st nk (nc + 1)) (c : Option χ) :
    Kept m0 s0 id nk nc (st.takeCert id c) := by
  obtain ⟨s, ks, cs, F⟩ := h
  cases c with
  | none => exact ⟨false, st, rfl, fun h => (by cases h), _, _, s, ks, cs, F⟩
  | some c =>
    obtain ⟨st', s', e, F'⟩ := takeCert_fill F c
    exact ⟨true, st', e, fun _ => ⟨s', _, _, F'⟩, _, _, s', _, _, F'⟩

theorem kept_stop {m0 : ImpMem κ χ} {s0 : Shelves} {id nk nc nk' nc' : Nat} {st : ImpSt κ χ} (h : Room m0 s0 id st nk' nc') :
    Kept m0 s0 id nk nc (some (false, st)) := ⟨false, st, rfl, fun h => (by cases h), _, _, h⟩

mutual
theorem ends_fromBag (lib : P12Lib D κ χ) (pass : List Byte) (m0 : ImpMem κ χ) (s0 : Shelves) (id : Nat) : ∀ (b : Bag) (st : ImpSt κ χ) (nk nc : Nat),
    Room m0 s0 id st (nk + numKeys (itemsOfBag lib pass b)) (nc + numCerts (itemsOfBag lib pass b)) →
    Ends (Dstu.Faulty.fromBag lib pass id b st) (Kept m0 s0 id nk nc)
  | .keyBag p8, st, nk, nc, h => by
    unfold Dstu.Faulty.fromBag
    exact ends_bind (ends_call _) fun k _ => ends_pure (kept_key h k)
  | .shrouded enc, st, nk, nc, h => by
    unfold Dstu.Faulty.fromBag
    refine ends_bind (ends_call _) fun p8 _ => ?_
    cases p8 with
    | none => exact ends_pure (kept_stop h)
    | some p8 => exact ends_bind (ends_call _) fun k _ => ends_pure (kept_key h k)
  | .certBag cert, st, nk, nc, h => by
    unfold Dstu.Faulty.fromBag
    exact ends_bind (ends_call _) fun c _ => ends_pure (kept_cert h c)
  | .safes bags, st, nk, nc, h => by
    unfold Dstu.Faulty.fromBag
    rw [itemsOfBag] at h
    exact ends_fromBags lib pass m0 s0 id bags st nk nc h
  | .other, st, nk, nc, h => by
    unfold Dstu.Faulty.fromBag
    exact ends_pure ⟨true, st, rfl, fun _ => h, _, _, h⟩

theorem ends_fromBags (lib : P12Lib D κ χ) (pass : List Byte) (m0 : ImpMem κ χ) (s0 : Shelves) (id : Nat) : ∀ (bags : List Bag) (st : ImpSt κ χ) (nk nc : Nat),
    Room m0 s0 id st (nk + numKeys (itemsOfBags lib pass bags)) (nc + numCerts (itemsOfBags lib pass bags)) →
    Ends (Dstu.Faulty.fromBags lib pass id bags st) (Kept m0 s0 id nk nc)
  | [], st, nk, nc, h => by
    unfold Dstu.Faulty.fromBags
    exact ends_pure ⟨true, st, rfl, fun _ => h, _, _, h⟩
  | b :: bags, st, nk, nc, h => by
    unfold Dstu.Faulty.fromBags
    rw [itemsOfBags, numKeys_append, numCerts_append, Nat.add_comm (numKeys _), Nat.add_comm (numCerts _), ← Nat.add_assoc, ← Nat.add_assoc] at h
    refine ends_bind (ends_fromBag lib pass m0 s0 id b st _ _ h) fun r hr => ?_
    obtain ⟨ok, st', rfl, h1, nk', nc', h2⟩ := hr
    cases ok with
    | false => exact ends_pure (kept_stop h2)
    | true => exact ends_fromBags lib pass m0 s0 id bags st' nk nc (h1 rfl)
end

theorem ends_fromSafes (lib : P12Lib D κ χ) (pass : List Byte) (m0 : ImpMem κ χ) (s0 : Shelves) (id : Nat) :
    ∀ (safes : List (Option P7)) (st : ImpSt κ χ), (∀ p7 ∈ safes, (safeBags lib pass p7).isSome) →
    Room m0 s0 id st (numKeys (itemsOfSafes lib pass safes)) (numCerts (itemsOfSafes lib pass safes)) →
    Ends (Dstu.Faulty.fromSafes lib pass id safes st) (Kept m0 s0 id 0 0)
  | [], st, _, h => ends_pure ⟨true, st, rfl, fun _ => h, _, _, h⟩
  | p7 :: safes, st, hs, h => by
    unfold Dstu.Faulty.fromSafes
    have hs' : ∀ p7 ∈ safes, (safeBags lib pass p7).isSome := fun p hp => hs p (by simp [hp])
    have hi : itemsOfSafes lib pass (p7 :: safes) = itemsOfBags lib pass ((safeBags lib pass p7).getD []) ++ itemsOfSafes lib pass safes := rfl
    refine ends_bind (ends_unpack lib pass p7) fun bags hb => ?_
    rcases hb with rfl | rfl
    · rcases unpack_eq lib pass p7 with ⟨e, e'⟩ | e
      · rw [e]
        rw [hi, e'] at h
        exact ends_fromSafes lib pass m0 s0 id safes st hs' (by simpa [itemsOfBags] using h)
      · obtain ⟨bags, hb⟩ := Option.isSome_iff_exists.1 (hs p7 (by simp))
        rw [e, hb]
        rw [hi, hb, Option.getD_some, numKeys_append, numCerts_append, Nat.add_comm (numKeys _), Nat.add_comm (numCerts _)] at h
        refine ends_bind (ends_fromBags lib pass m0 s0 id bags st _ _ h) fun r hr => ?_
        obtain ⟨ok, st', rfl, h1, nk', nc', h2⟩ := hr
        cases ok with
        | false => exact ends_pure (kept_stop h2)
        | true => exact ends_fromSafes lib pass m0 s0 id safes st' hs' (h1 rfl)
    · exact ends_pure (kept_stop h)

/-- What is left of an import, whatever failed. -/
def SoundImport (m : ImpMem κ χ) (ks : Option Nat) (r : Option (Bool × Option Nat × ImpMem κ χ)) : Prop :=
  ∃ ok out m', r = some (ok, out, m') ∧ Reachable m'.ks ∧ Undisturbed m m' ∧
    (ok = false → NothingLeft m m' ∧ (out = ks ∨ ∃ id, out = some id ∧ m'.ks.stores id = none))

theorem ends_parse (lib : P12Lib D κ χ) (data pass : List Byte) (ks : Option Nat) (m : ImpMem κ χ) (R : Reachable m.ks) :
    Ends (Dstu.Faulty.parsePKCS12 lib data pass ks m) (SoundImport m ks) := by
  have fail : SoundImport m ks (some (false, ks, m)) :=
    ⟨_, _, _, rfl, R, ⟨fun _ _ => rfl, fun _ _ => ⟨rfl, rfl, rfl⟩⟩, fun _ => ⟨⟨fun _ h => h, fun _ h => h⟩, Or.inl rfl⟩⟩
  unfold Dstu.Faulty.parsePKCS12
  refine ends_bind (ends_call _) fun p12 _ => ?_
  cases p12 with
  | none => exact ends_pure fail
  | some p12 =>
    refine ends_bind ends_ask fun ok _ => ?_
    split
    · exact ends_pure fail
    · refine ends_bind (ends_call _) fun safes _ => ?_
      cases safes with
      | none => exact ends_pure fail
      | some safes =>
        simp only
        unfold Dstu.Faulty.importSafes
        refine ends_bind (ends_count lib pass safes (0, 0)) fun n hn => ?_
        obtain ⟨ok, nk, nc⟩ := n
        cases ok with
        | false => exact ends_pure fail
        | true =>
          simp only
          split
          · exact ends_pure fail
          · have hc := hn rfl
            by_cases h4 : ∀ p7 ∈ safes, (safeBags lib pass p7).isSome
            · rw [countSafes_eq lib pass safes 0 0 h4, Nat.zero_add, Nat.zero_add] at hc
              cases hc
              obtain ⟨ops, o1, o2⟩ := R
              have R' : Reach m.ks (Shelves.boot.run ops) := ⟨ops, o1, o2, rfl⟩
              obtain ⟨m', s', e, F⟩ := new_fill R' (numKeys (itemsOfSafes lib pass safes)) (numCerts (itemsOfSafes lib pass safes))
              have hid : (Shelves.boot.run ops).store m.ks.nextStore = none := R'.holds.1.freshStore _ (Nat.le_of_eq R'.holds.1.next.symm)
              rw [e]
              simp only
              refine ends_bind (ends_fromSafes lib pass m _ _ safes _ h4 ⟨s', _, _, F⟩) fun r hr => ends_pure ?_
              obtain ⟨ok, st, rfl, h1, nk', nc', s2, ks2, cs2, F2⟩ := hr
              cases ok with
              | true => exact ⟨_, _, _, rfl, F2.reach.reachable, F2.undisturbed R' hid, fun h => by cases h⟩
              | false =>
                obtain ⟨m2, e3, ⟨s3, r3⟩, u3, n3, d3⟩ := F2.free R' hid
                unfold Dstu.Faulty.finishSafes
                simp only
                rw [e3]
                exact ⟨_, _, _, rfl, r3.reachable, u3, fun _ => ⟨n3, Or.inr ⟨_, rfl, d3⟩⟩⟩
            · have := countSafes_false lib pass safes 0 0 h4
              rw [hc] at this
              cases this

/-- C130: whatever calls fail, the import of any PKCS#12 file, into any memory, is free of undefined behaviour, and nothing that existed before is touched; a failed
one leaves no object and no store behind; but `*ks`, when it was changed, refers to a freed store. -/
theorem C130_failed_partial (lib : P12Lib D κ χ) (data pass : List Byte) (ks : Option Nat) (m : ImpMem κ χ) (R : Reachable m.ks) (w : Nat → Bool) (t : Ticks) :
    ∃ ok out m' t', Dstu.Faulty.parsePKCS12 lib data pass ks m w t = (.done (some (ok, out, m')), t') ∧ Reachable m'.ks ∧ Undisturbed m m' ∧
      (ok = false → NothingLeft m m' ∧ (out = ks ∨ ∃ id, out = some id ∧ m'.ks.stores id = none)) := by
  obtain ⟨r, t', e, ok, out, m', rfl, h⟩ := ends_parse lib data pass ks m R w t
  exact ⟨ok, out, m', t', e, h⟩

/-! ### Reading -/

theorem ask_tick {w : Nat → Bool} {t t1 : Ticks} {ok : Bool} (h : Dstu.Faulty.ask w t = (.done ok, t1)) : w t.tick = ok ∧ t1.tick = t.tick + 1 := by
  unfold Dstu.Faulty.ask at h
  cases h
  exact ⟨rfl, rfl⟩

theorem bioLoop_done (w : Nat → Bool) (d : List Byte) : ∀ (chunks : List (List Byte)) (mem : List Byte) (t t' : Ticks),
    Dstu.Faulty.bioLoop chunks mem w t = (.done (some d), t') → d <+: mem ++ chunks.flatten ∧
      ((∀ c ∈ chunks, c ≠ []) → (∀ k, k < chunks.length → w (t.tick + 2 * k) = true) → d = mem ++ chunks.flatten)
  | [], mem, t, t', h => by
    obtain ⟨h1, _⟩ := pure_done (α := Option (List Byte)) h
    split at h1
    · cases h1
      simp
    · cases h1
  | chunk :: chunks, mem, t, t', h => by
    unfold Dstu.Faulty.bioLoop at h
    obtain ⟨ok, t1, e1, e2⟩ := bind_done h
    obtain ⟨a1, a2⟩ := ask_tick e1
    cases ok with
    | true =>
      rw [if_neg (by decide)] at e2
      by_cases h0 : chunk.length = 0
      · rw [if_pos h0] at e2
        obtain ⟨h1, _⟩ := pure_done (α := Option (List Byte)) e2
        cases h1
        exact ⟨List.prefix_append _ _, fun hc => absurd (List.length_eq_zero_iff.1 h0) (hc chunk (by simp))⟩
      · rw [if_neg h0] at e2
        obtain ⟨ok, t2, e3, e4⟩ := bind_done e2
        obtain ⟨_, b2⟩ := ask_tick e3
        cases ok with
        | true =>
          rw [if_neg (by decide)] at e4
          obtain ⟨k1, k3⟩ := bioLoop_done w d chunks (mem ++ chunk) t2 t' e4
          rw [List.append_assoc] at k1 k3
          refine ⟨k1, fun hc hr => k3 (fun c hm => hc c (by simp [hm])) fun k hk => ?_⟩
          have := hr (k + 1) (by simpa using hk)
          rwa [show t.tick + 2 * (k + 1) = t2.tick + 2 * k by omega] at this
        | false =>
          rw [if_pos rfl] at e4
          obtain ⟨h1, _⟩ := pure_done (α := Option (List Byte)) e4
          cases h1
    | false =>
      rw [if_pos rfl] at e2
      obtain ⟨h1, _⟩ := pure_done (α := Option (List Byte)) e2
      split at h1
      · cases h1
        refine ⟨List.prefix_append _ _, fun _ hr => ?_⟩
        have := hr 0 (by simp)
        rw [Nat.mul_zero, Nat.add_zero, a1] at this
        cases this
      · cases h1

theorem readPKCS12_done (lib : P12Lib D κ χ) (chunks : List (List Byte)) (pass : List Byte) (ks out : Option Nat) (m m' : ImpMem κ χ) (w : Nat → Bool) (t t' : Ticks)
    (h : Dstu.Faulty.readPKCS12 lib chunks pass ks m w t = (.done (some (true, out, m')), t')) :
    ∃ d, d <+: chunks.flatten ∧ parsePKCS12 lib d pass ks m = some (true, out, m') ∧
      ((∀ c ∈ chunks, c ≠ []) → (∀ k, k < chunks.length → w (t.tick + 2 + 2 * k) = true) → d = chunks.flatten) := by
  unfold Dstu.Faulty.readPKCS12 at h
  obtain ⟨ok, t1, e1, e2⟩ := bind_done h
  obtain ⟨_, a2⟩ := ask_tick e1
  cases ok with
  | true =>
    rw [if_neg (by decide)] at e2
    unfold Dstu.Faulty.readPKCS12_bio at e2
    obtain ⟨ok, t2, e3, e4⟩ := bind_done e2
    obtain ⟨_, b2⟩ := ask_tick e3
    cases ok with
    | true =>
      rw [if_neg (by decide)] at e4
      obtain ⟨data, t3, e5, e6⟩ := bind_done e4
      cases data with
      | none =>
        obtain ⟨h1, _⟩ := pure_done (α := Option (Bool × Option Nat × ImpMem κ χ)) e6
        cases h1
      | some d =>
        simp only at e6
        by_cases h0 : d.length = 0
        · rw [if_pos h0] at e6
          obtain ⟨h1, _⟩ := pure_done (α := Option (Bool × Option Nat × ImpMem κ χ)) e6
          cases h1
        · rw [if_neg h0] at e6
          obtain ⟨k1, k3⟩ := bioLoop_done w d chunks [] t2 t3 e5
          obtain ⟨k4, _⟩ := parse_done lib d pass ks out m m' w t3 t' e6
          refine ⟨d, k1, k4, fun hc hr => k3 hc fun k hk => ?_⟩
          have := hr k hk
          rwa [show t.tick + 2 + 2 * k = t2.tick + 2 * k by omega] at this
    | false =>
      rw [if_pos rfl] at e4
      obtain ⟨h1, _⟩ := pure_done (α := Option (Bool × Option Nat × ImpMem κ χ)) e4
      cases h1
  | false =>
    rw [if_pos rfl] at e2
    obtain ⟨h1, _⟩ := pure_done (α := Option (Bool × Option Nat × ImpMem κ χ)) e2
    cases h1

/-- C130, reading: whatever calls fail while a PKCS#12 file is read in pieces and imported, if success is reported, the new store holds exactly the contents of the file,
if no read failed (calls 2, 4, 6, ... of the run are the reads), or if the decoder refuses what ends before the file does (as d2i functions do with files without trailing
bytes). -/
theorem C130_read_partial (lib : P12Lib D κ χ) (chunks : List (List Byte)) (hc : ∀ c ∈ chunks, c ≠ []) (pass : List Byte) (ks out : Option Nat) (m m' : ImpMem κ χ)
    (R : Reachable m.ks) (w : Nat → Bool) (t t' : Ticks)
    (h : Dstu.Faulty.readPKCS12 lib chunks pass ks m w t = (.done (some (true, out, m')), t'))
    (hd : (∀ k, k < chunks.length → w (t.tick + 2 + 2 * k) = true) ∨ ∀ d, d <+: chunks.flatten → d ≠ chunks.flatten → lib.d2i_PKCS12 d = none) :
    Undisturbed m m' ∧ ∃ items id, contents lib chunks.flatten pass items ∧ out = some id ∧ m.ks.stores id = none ∧
      HoldsExactly m' id (keysOf items) (certsOf items) := by
  obtain ⟨d, h1, h2, h3⟩ := readPKCS12_done lib chunks pass ks out m m' w t t' h
  obtain ⟨ok, out1, m1, e, _, u, k1, k2⟩ := C53_import lib d pass ks m R
  rw [h2] at e
  cases e
  obtain ⟨items, hi⟩ := k1.1 rfl
  obtain ⟨id, q1, q2, q3⟩ := k2 items hi
  have hw : d = chunks.flatten := by
    rcases hd with hd | hd
    · exact h3 hc hd
    · by_contra hne
      obtain ⟨p12, _, hp, _⟩ := hi
      rw [hd d h1 hne] at hp
      cases hp
  subst hw
  exact ⟨u, items, id, hi, q1, q2, q3⟩

/-- C130 fails for reading: a read that fails counts as the end of the file.  If the decoder takes the part before, that part is imported, with success reported; here a
file that is refused as a whole is imported. -/
theorem C130_read_refuted : ∃ id m' t', parsePKCS12 (toyLib [some ⟨.data, []⟩] [.keyBag [7]]) [1, 2] [1] none emptyMem = some (false, none, emptyMem) ∧
    Dstu.Faulty.readPKCS12 (toyLib [some ⟨.data, []⟩] [.keyBag [7]]) [[1], [2]] [1] none emptyMem (fun j => decide (j ≠ 4)) ⟨0, 0⟩ = (.done (some (true, some id, m')), t') := by
  have h1 : Dstu.Faulty.bioLoop [[1], [2]] [] (fun j => decide (j ≠ 4)) ⟨2, 0⟩ = (.done (some [1]), ⟨5, 1⟩) := rfl
  obtain ⟨id, m', t', h2⟩ : ∃ id m' t', Dstu.Faulty.parsePKCS12 (toyLib [some ⟨.data, []⟩] [.keyBag [7]]) [1] [1] none emptyMem (fun j => decide (j ≠ 4)) ⟨5, 1⟩ =
      (.done (some (true, some id, m')), t') := ⟨0, _, _, rfl⟩
  refine ⟨id, m', t', rfl, ?_⟩
  unfold Dstu.Faulty.readPKCS12
  rw [ask_pass _ _ 0 0 (by decide), if_neg (by decide)]
  unfold Dstu.Faulty.readPKCS12_bio
  rw [ask_pass _ _ 1 0 (by decide), if_neg (by decide), bind_step h1]
  exact h2

/-- A file read in one piece. -/
example : ∃ out m' t', Dstu.Faulty.readPKCS12 (toyLib [some ⟨.data, []⟩] [.keyBag [7], .certBag [8]]) [[1]] [1] none emptyMem noFault ⟨0, 0⟩ =
    (.done (some (true, out, m')), t') ∧ t'.faults = 0 := by
  have h1 : Dstu.Faulty.bioLoop [[1]] [] noFault ⟨2, 0⟩ = (.done (some [1]), ⟨4, 0⟩) := rfl
  obtain ⟨id, m', h2⟩ : ∃ id m', parsePKCS12 (toyLib [some ⟨.data, []⟩] [.keyBag [7], .certBag [8]]) [1] [1] none emptyMem = some (true, id, m') := ⟨_, _, rfl⟩
  obtain ⟨t', h3, h4⟩ := C130_nothing_fails (toyLib [some ⟨.data, []⟩] [.keyBag [7], .certBag [8]]) [1] [1] none emptyMem ⟨4, 0⟩
  refine ⟨id, m', t', ?_, h4⟩
  unfold Dstu.Faulty.readPKCS12
  rw [ask_pass _ _ 0 0 rfl, if_neg (by decide)]
  unfold Dstu.Faulty.readPKCS12_bio
  rw [ask_pass _ _ 1 0 rfl, if_neg (by decide), bind_step h1, ← h2]
  exact h3

/-- A file with four keys and four certificates. -/
example : ∃ id m' t', Dstu.Faulty.parsePKCS12 (toyLib [some ⟨.data, []⟩, none, some ⟨.other, []⟩, some ⟨.encrypted, []⟩] toyBags) [1] [1] none emptyMem noFault ⟨0, 0⟩ =
    (.done (some (true, some id, m')), t') ∧ HoldsExactly m' id [[7], [9], [7], [9]] [[8], [10], [8], [10]] := by
  obtain ⟨ok, out, m', e, _, _, h1, h2⟩ := C53_import (toyLib [some ⟨.data, []⟩, none, some ⟨.other, []⟩, some ⟨.encrypted, []⟩] toyBags) [1] [1] none emptyMem boot_reachable
  obtain ⟨id, e1, _, e2⟩ := h2 _ toy_contents
  rw [h1.2 ⟨_, toy_contents⟩, e1] at e
  obtain ⟨t', k, _⟩ := C130_nothing_fails (toyLib [some ⟨.data, []⟩, none, some ⟨.other, []⟩, some ⟨.encrypted, []⟩] toyBags) [1] [1] none emptyMem ⟨0, 0⟩
  rw [e] at k
  exact ⟨id, m', t', k, e2⟩

/-- The defect of C54 for good files: when the call that reads the certificate fails, `*ks` refers to a store that was freed. -/
theorem C130_dangling_refuted : ∃ id m' t', contents (toyLib [some ⟨.data, []⟩] [.keyBag [7], .certBag [8]]) [1] [1] [.key (some [7]), .cert (some [8])] ∧
    Dstu.Faulty.parsePKCS12 (toyLib [some ⟨.data, []⟩] [.keyBag [7], .certBag [8]]) [1] [1] none emptyMem (fun j => decide (j ≠ 6)) ⟨0, 0⟩ =
      (.done (some (false, some id, m')), t') ∧
    m'.ks.stores id = none ∧ KeyStoreFree id m'.ks = none := by
  refine ⟨0, _, _, ⟨[1], _, rfl, rfl, rfl, ?_, ?_, ?_, by simp⟩, rfl, rfl, rfl⟩
  · simp [safeBags, toyLib]
  · simp [itemsOfSafes, safeBags, toyLib, itemsOfBags, itemsOfBag]
  · simp [Item.readable]

/-- The failed import of the last theorem left nothing behind. -/
example : ∃ id m' t', Dstu.Faulty.parsePKCS12 (toyLib [some ⟨.data, []⟩] [.keyBag [7], .certBag [8]]) [1] [1] none emptyMem (fun j => decide (j ≠ 6)) ⟨0, 0⟩ =
    (.done (some (false, some id, m')), t') ∧ NothingLeft emptyMem m' := by
  obtain ⟨id, m', t', _, h, _⟩ := C130_dangling_refuted
  obtain ⟨ok, out, m2, t2, e, _, _, k⟩ := C130_failed_partial (toyLib [some ⟨.data, []⟩] [.keyBag [7], .certBag [8]]) [1] [1] none emptyMem boot_reachable
    (fun j => decide (j ≠ 6)) ⟨0, 0⟩
  rw [h] at e
  cases e
  exact ⟨id, m', t', h, (k rfl).1⟩

end Dstu.Props
