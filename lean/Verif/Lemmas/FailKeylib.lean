import Verif.Lemmas.FailLib
import Verif.Lemmas.Runs
import Verif.Spec.FailKeylib

/-! The failure paths of keylib. -/

namespace Dstu

namespace Fail

open Res

variable {H : Fate → Prop} {β : Type} {pre : Multiset Nat} {post : β → Multiset Nat → Prop}

theorem safe_decoded (b : Bool) : Safe H (decoded b) 0 own := by
  unfold decoded
  split
  · exact safe_alloc _
  · exact Safe.pure rfl

theorem safe_decode : Safe H decode 0 own := by
  unfold decode
  exact step_ask fun b => safe_decoded b

theorem runs_decode {g : Option Nat → Res β} (h0 : Runs H (g none) pre post) (h1 : ∀ p, Runs H (g (some p)) ({p} + pre) post) : Runs H (decode >>= g) pre post :=
  runs_own safe_decode h0 h1

/-! ### Stores -/

theorem runs_newArray {α : Type} (hz : ∀ w, H w → Never .weak w) (n : Nat) {g : Option (Nat × List α) → Res β} (h0 : n = 0 → Runs H (g none) pre post)
    (h1 : ∀ a, n ≠ 0 → Runs H (g (some (a, []))) ({a} + pre) post) : Runs H (newArray n >>= g) pre post := by
  unfold newArray
  refine runs_ite_bind (fun h => ?_) (fun h => ?_)
  · exact runs_pure (h0 h)
  · runs1; runs1
    exact runs_pure (h1 _ h)

theorem runs_KeyStoreNew (hz : ∀ w, H w → Never .weak w) (k c : Nat) : Runs H (KeyStoreNew k c) 0 fun s M => M = storeOwn s ∧ (s.keys = none ↔ k = 0) ∧ (s.certs = none ↔ c = 0) ∧ keyCount s = 0 := by
  unfold KeyStoreNew
  runs1
  simp only
  refine runs_newArray hz k (fun hk => ?_) (fun a hk => ?_) <;> refine runs_newArray hz c (fun hc => ?_) (fun a' hc => ?_) <;> refine Runs.pure ⟨?_, ?_, ?_, rfl⟩ <;>
    first | (simp [hk]; done) | (simp [hc]; done) | (simp only [storeOwn, keyArrOwn, certArrOwn, keysOwn, certsOwn]; balance)

theorem safe_EVP_PKEY_free (k : PKeyPtr) : Safe H (EVP_PKEY_free k) (pkeyOwn k) fun _ => 0 := by
  obtain ⟨p, key⟩ := k
  unfold EVP_PKEY_free
  cases key with
  | none =>
    simp only [pkeyOwn]
    repeat' res1
  | some x =>
    simp only [pkeyOwn]
    refine Safe.bind (safe_DSTU_KEY_free rfl) {p} (by balance) fun _ => ?_
    repeat' res1

theorem safe_freeKeys (l : List PKeyPtr) : Safe H (freeKeys l) (keysOwn l) fun _ => 0 := by
  induction l with
  | nil => exact Safe.pure rfl
  | cons k l ih =>
    rw [freeKeys]
    refine Safe.bind (safe_EVP_PKEY_free k) (keysOwn l) rfl fun _ => ?_
    rw [zero_add]
    exact ih

theorem safe_freeCerts (l : List Nat) : Safe H (freeCerts l) (certsOwn l) fun _ => 0 := by
  induction l with
  | nil => exact Safe.pure rfl
  | cons k l ih =>
    rw [freeCerts]
    exact step_free_some (certsOwn l) rfl ih

theorem safe_freeKeyArray (a : Option (Nat × List PKeyPtr)) : Safe H (freeKeyArray a) (keyArrOwn a) fun _ => 0 := by
  cases a with
  | none => exact Safe.pure rfl
  | some x =>
    obtain ⟨a, l⟩ := x
    rw [freeKeyArray]
    refine Safe.bind (safe_freeKeys l) {a} rfl fun _ => ?_
    repeat' res1

theorem safe_freeCertArray (a : Option (Nat × List Nat)) : Safe H (freeCertArray a) (certArrOwn a) fun _ => 0 := by
  cases a with
  | none => exact Safe.pure rfl
  | some x =>
    obtain ⟨a, l⟩ := x
    rw [freeCertArray]
    refine Safe.bind (safe_freeCerts l) {a} rfl fun _ => ?_
    repeat' res1

theorem safe_KeyStoreFree (s : StorePtr) : Safe H (KeyStoreFree s) (storeOwn s) fun _ => 0 := by
  unfold KeyStoreFree
  refine Safe.bind (safe_freeKeyArray _) _ rfl fun _ => ?_
  rw [zero_add]
  refine Safe.bind (safe_freeCertArray _) _ rfl fun _ => ?_
  rw [zero_add]
  res1

theorem keysOwn_append (l l' : List PKeyPtr) : keysOwn (l ++ l') = keysOwn l + keysOwn l' := by
  induction l with
  | nil => rw [List.nil_append, keysOwn, zero_add]
  | cons k l ih => rw [List.cons_append, keysOwn, keysOwn, ih, add_assoc]

theorem certsOwn_append (l l' : List Nat) : certsOwn (l ++ l') = certsOwn l + certsOwn l' := by
  induction l with
  | nil => rw [List.nil_append, certsOwn, zero_add]
  | cons k l ih => rw [List.cons_append, certsOwn, certsOwn, ih, add_assoc]

theorem safe_appendKeys (hz : ∀ w, H w → Never .weak w) (d s : Option (Nat × List PKeyPtr)) :
    Safe H (appendArray d s) (keyArrOwn d + keyArrOwn s) fun r => keyArrOwn r.1 + keyArrOwn r.2 := by
  apply Runs.safe
  rcases s with _ | ⟨b, l⟩
  · rw [appendArray]
    exact Runs.pure rfl
  · rcases d with _ | ⟨o, old⟩
    · rw [appendArray]
      runs1
      simp only
      refine Runs.pure ?_
      simp only [keyArrOwn, keysOwn]; balance
    · rw [appendArray]
      refine runs_alloc_ok hz fun p => ?_
      simp only
      refine runs_free_some ({p} + (keysOwn old + (keysOwn l + {b}))) (by simp only [keyArrOwn]; balance) ?_
      refine Runs.pure ?_
      simp only [keyArrOwn, keysOwn, keysOwn_append]; balance

theorem safe_appendCerts (hz : ∀ w, H w → Never .weak w) (d s : Option (Nat × List Nat)) :
    Safe H (appendArray d s) (certArrOwn d + certArrOwn s) fun r => certArrOwn r.1 + certArrOwn r.2 := by
  apply Runs.safe
  rcases s with _ | ⟨b, l⟩
  · rw [appendArray]
    exact Runs.pure rfl
  · rcases d with _ | ⟨o, old⟩
    · rw [appendArray]
      runs1
      simp only
      refine Runs.pure ?_
      simp only [certArrOwn, certsOwn]; balance
    · rw [appendArray]
      refine runs_alloc_ok hz fun p => ?_
      simp only
      refine runs_free_some ({p} + (certsOwn old + (certsOwn l + {b}))) (by simp only [certArrOwn]; balance) ?_
      refine Runs.pure ?_
      simp only [certArrOwn, certsOwn, certsOwn_append]; balance

theorem safe_KeyStoreAppend (hz : ∀ w, H w → Never .weak w) (d s : StorePtr) :
    Safe H (KeyStoreAppend d s) (storeOwn d + storeOwn s) fun r => storeOwn r.1 + storeOwn r.2 := by
  unfold KeyStoreAppend
  refine step_use (keyArrOwn d.keys + (certArrOwn d.certs + storeOwn s)) (by simp only [storeOwn]; balance) ?_
  refine step_use (storeOwn d + (keyArrOwn s.keys + certArrOwn s.certs)) (by simp only [storeOwn]; balance) ?_
  refine Safe.bind (safe_appendKeys hz d.keys s.keys) (certArrOwn d.certs + certArrOwn s.certs + ({d.self} + {s.self})) (by simp only [storeOwn]; balance) fun ⟨dk, sk⟩ => ?_
  refine Safe.bind (safe_appendCerts hz d.certs s.certs) (keyArrOwn dk + keyArrOwn sk + ({d.self} + {s.self})) (by balance) fun ⟨dc, sc⟩ => ?_
  refine Safe.pure ?_
  simp only [storeOwn]; balance

theorem runs_KeyStoreSetKey (s : StorePtr) (hs : s.keys ≠ none) (k : PKeyPtr) :
    Runs H (KeyStoreSetKey s k) (storeOwn s + pkeyOwn k) fun s' M => M = storeOwn s' ∧ s'.keys ≠ none ∧ s'.certs = s.certs ∧ keyCount s' = keyCount s + 1 := by
  obtain ⟨p, keys, certs⟩ := s
  rcases keys with _ | ⟨a, l⟩
  · exact absurd rfl hs
  · unfold KeyStoreSetKey
    simp only
    refine runs_use (keysOwn l + (certArrOwn certs + ({p} + pkeyOwn k))) (by simp only [storeOwn, keyArrOwn]; balance) ?_
    refine Runs.pure ⟨?_, by simp, rfl, by simp [keyCount]⟩
    simp only [storeOwn, keyArrOwn, keysOwn_append, keysOwn]; balance

theorem runs_KeyStoreSetCert (s : StorePtr) (hs : s.certs ≠ none) (k : Nat) :
    Runs H (KeyStoreSetCert s k) (storeOwn s + {k}) fun s' M => M = storeOwn s' ∧ s'.certs ≠ none ∧ s'.keys = s.keys := by
  obtain ⟨p, keys, certs⟩ := s
  rcases certs with _ | ⟨a, l⟩
  · exact absurd rfl hs
  · unfold KeyStoreSetCert
    simp only
    refine runs_use (certsOwn l + (keyArrOwn keys + ({p} + {k}))) (by simp only [storeOwn, certArrOwn]; balance) ?_
    refine Runs.pure ⟨?_, by simp, rfl⟩
    simp only [storeOwn, certArrOwn, certsOwn_append, certsOwn]; balance

/-! ### PKCS#12 -/

mutual
/-- Keys in a bag. -/
def nKeys : Bag → Nat
  | .keyBag _ => 1
  | .shrouded _ => 1
  | .certBag _ => 0
  | .safes l => nKeysL l
  | .other => 0

def nKeysL : List Bag → Nat
  | [] => 0
  | b :: l => nKeys b + nKeysL l
end

mutual
/-- Certificates in a bag. -/
def nCerts : Bag → Nat
  | .keyBag _ => 0
  | .shrouded _ => 0
  | .certBag _ => 1
  | .safes l => nCertsL l
  | .other => 0

def nCertsL : List Bag → Nat
  | [] => 0
  | b :: l => nCerts b + nCertsL l
end

mutual
theorem count_bag (b : Bag) (k c : Nat) : countKeysCertsInBag b (k, c) = (true, (k + nKeys b, c + nCerts b)) := by
  cases b with
  | keyBag p8 => rw [countKeysCertsInBag, nKeys, nCerts]; rfl
  | shrouded enc => rw [countKeysCertsInBag, nKeys, nCerts]; rfl
  | certBag x => rw [countKeysCertsInBag, nKeys, nCerts]; rfl
  | safes bags => rw [countKeysCertsInBag, nKeys, nCerts]; exact count_bags bags k c
  | other => rw [countKeysCertsInBag, nKeys, nCerts]; rfl

theorem count_bags (bags : List Bag) (k c : Nat) : countKeysCertsInBags bags (k, c) = (true, (k + nKeysL bags, c + nCertsL bags)) := by
  cases bags with
  | nil => rw [countKeysCertsInBags, nKeysL, nCertsL]; rfl
  | cons b bags =>
    rw [countKeysCertsInBags, count_bag b k c]
    simp only
    rw [count_bags bags, nKeysL, nCertsL, add_assoc, add_assoc]
end

def nKeysS : List (Option (List Bag)) → Nat
  | [] => 0
  | none :: l => nKeysS l
  | some b :: l => nKeysL b + nKeysS l

def nCertsS : List (Option (List Bag)) → Nat
  | [] => 0
  | none :: l => nCertsS l
  | some b :: l => nCertsL b + nCertsS l

theorem runs_countKeysCerts (l : List (Option (List Bag))) (k c : Nat) :
    Runs H (countKeysCerts l (k, c)) 0 fun r M => M = 0 ∧ ∀ n, r = some n → n = (k + nKeysS l, c + nCertsS l) := by
  induction l generalizing k c with
  | nil =>
    rw [countKeysCerts]
    refine Runs.pure ⟨rfl, ?_⟩
    intro n h
    rw [nKeysS, nCertsS, add_zero, add_zero]
    exact (Option.some.inj h).symm
  | cons b l ih =>
    cases b with
    | none =>
      rw [countKeysCerts, nKeysS, nCertsS]
      exact ih k c
    | some b =>
      rw [countKeysCerts, nKeysS, nCertsS]
      refine runs_decode ?_ fun p => ?_
      · runs1; runs1
        exact ⟨rfl, fun _ h => nomatch h⟩
      · runs1; runs1
        rw [count_bags]
        simp only
        refine runs_free_some 0 rfl ?_
        refine (ih _ _).mono fun r M h => ?_
        rw [add_assoc, add_assoc] at h
        exact h

/-- The store that is left by `fromBag`. -/
def Filled (s : StorePtr) (r : Bool × StorePtr) (M : Multiset Nat) : Prop :=
  M = storeOwn r.2 ∧ (s.keys ≠ none → r.2.keys ≠ none) ∧ (s.certs ≠ none → r.2.certs ≠ none)

theorem filled_same (s : StorePtr) (b : Bool) : Filled s (b, s) (storeOwn s) := ⟨rfl, id, id⟩

mutual
theorem runs_fromBag (b : Bag) (s : StorePtr) (hk : nKeys b ≠ 0 → s.keys ≠ none) (hc : nCerts b ≠ 0 → s.certs ≠ none) : Runs H (fromBag b s) (storeOwn s) (Filled s) := by
  cases b with
  | keyBag p8 =>
    rw [fromBag]
    refine runs_decode (Runs.pure (filled_same s false)) fun p => ?_
    refine Runs.bind (runs_KeyStoreSetKey s (hk (by rw [nKeys]; simp)) ⟨p, none⟩) 0 (by simp only [pkeyOwn]; balance) fun s' M h => ?_
    rw [add_zero]
    exact Runs.pure ⟨h.1, fun _ => h.2.1, fun hs => by simp only [h.2.2.1]; exact hs⟩
  | shrouded enc =>
    rw [fromBag]
    refine runs_decode ?_ fun q => ?_
    · runs1
      exact Runs.pure (filled_same s false)
    · runs1
      refine runs_decode ?_ fun p => ?_
      · simp only
        refine runs_free_some (storeOwn s) rfl ?_
        exact Runs.pure (filled_same s false)
      · simp only
        refine Runs.bind (runs_KeyStoreSetKey s (hk (by rw [nKeys]; simp)) ⟨p, none⟩) {q} (by simp only [pkeyOwn]; balance) fun s' M h => ?_
        refine runs_free_some M (by balance) ?_
        exact Runs.pure ⟨h.1, fun _ => h.2.1, fun hs => by simp only [h.2.2.1]; exact hs⟩
  | certBag x =>
    rw [fromBag]
    refine runs_decode (Runs.pure (filled_same s false)) fun p => ?_
    refine Runs.bind (runs_KeyStoreSetCert s (hc (by rw [nCerts]; simp)) p) 0 (by balance) fun s' M h => ?_
    rw [add_zero]
    exact Runs.pure ⟨h.1, fun hs => by simp only [h.2.2]; exact hs, fun _ => h.2.1⟩
  | safes bags =>
    rw [fromBag]
    rw [nKeys] at hk
    rw [nCerts] at hc
    exact runs_fromBags bags s hk hc
  | other =>
    rw [fromBag]
    exact Runs.pure (filled_same s true)

theorem runs_fromBags (l : List Bag) (s : StorePtr) (hk : nKeysL l ≠ 0 → s.keys ≠ none) (hc : nCertsL l ≠ 0 → s.certs ≠ none) : Runs H (fromBags l s) (storeOwn s) (Filled s) := by
  cases l with
  | nil =>
    rw [fromBags]
    exact Runs.pure (filled_same s true)
  | cons b l =>
    rw [fromBags]
    rw [nKeysL] at hk
    rw [nCertsL] at hc
    refine Runs.bind (runs_fromBag b s (fun h => hk (by omega)) (fun h => hc (by omega))) 0 (by balance) fun r M h => ?_
    obtain ⟨ok, s'⟩ := r
    obtain ⟨h1, h2, h3⟩ := h
    simp only at h1 h2 h3
    subst h1
    rw [add_zero]
    cases ok with
    | false => exact Runs.pure ⟨rfl, h2, h3⟩
    | true =>
      simp only
      refine (runs_fromBags l s' (fun h => h2 (hk (by omega))) (fun h => h3 (hc (by omega)))).mono fun r M h => ?_
      exact ⟨h.1, fun a => h.2.1 (h2 a), fun a => h.2.2 (h3 a)⟩
end

theorem runs_fromSafes (l : List (Option (List Bag))) (s : StorePtr) (hk : nKeysS l ≠ 0 → s.keys ≠ none) (hc : nCertsS l ≠ 0 → s.certs ≠ none) :
    Runs H (fromSafes l s) (storeOwn s) (Filled s) := by
  induction l generalizing s with
  | nil =>
    rw [fromSafes]
    exact Runs.pure (filled_same s true)
  | cons b l ih =>
    cases b with
    | none =>
      rw [fromSafes]
      rw [nKeysS] at hk
      rw [nCertsS] at hc
      exact ih s hk hc
    | some b =>
      rw [fromSafes]
      rw [nKeysS] at hk
      rw [nCertsS] at hc
      refine runs_decode ?_ fun p => ?_
      · runs1
        exact Runs.pure (filled_same s false)
      · runs1; runs1
        refine Runs.bind (runs_fromBags b s (fun h => hk (by omega)) (fun h => hc (by omega))) {p} (by balance) fun r M h => ?_
        obtain ⟨ok, s'⟩ := r
        obtain ⟨h1, h2, h3⟩ := h
        simp only at h1 h2 h3
        subst h1
        cases ok with
        | false =>
          simp only
          refine runs_free_some (storeOwn s') (by balance) ?_
          exact Runs.pure ⟨rfl, h2, h3⟩
        | true =>
          simp only
          refine runs_free_some (storeOwn s') (by balance) ?_
          refine (ih s' (fun h => h2 (hk (by omega))) (fun h => h3 (hc (by omega)))).mono fun r M h => ?_
          exact ⟨h.1, fun a => h.2.1 (h2 a), fun a => h.2.2 (h3 a)⟩

theorem safe_parsePKCS12 (hz : ∀ w, H w → Never .weak w) (l : List (Option (List Bag))) : Safe H (parsePKCS12 l) 0 optStoreOwn := by
  apply Runs.safe
  unfold parsePKCS12
  refine runs_decode ?_ fun p12 => ?_
  · runs1
    exact Runs.pure rfl
  · runs1
    refine runs_ask fun mac => ?_
    cases mac with
    | false =>
      runs1
      refine runs_free_some 0 rfl ?_
      exact Runs.pure rfl
    | true =>
      runs1
      refine runs_decode ?_ fun safes => ?_
      · runs1
        refine runs_free_some 0 rfl ?_
        exact Runs.pure rfl
      · runs1; runs1
        refine Runs.bind (runs_countKeysCerts l 0 0) ({safes} + ({p12} + 0)) (by balance) fun r M h => ?_
        obtain ⟨rfl, h⟩ := h
        rw [zero_add]
        cases r with
        | none =>
          simp only
          repeat' runs1
          rfl
        | some n =>
          obtain rfl := h n rfl
          rw [zero_add, zero_add]
          simp only
          refine runs_ite (fun h => ?_) (fun h => ?_)
          · repeat' runs1
            rfl
          · refine Runs.bind (runs_KeyStoreNew hz _ _) _ (zero_add _).symm fun s M h => ?_
            obtain ⟨rfl, hk, hc, _⟩ := h
            refine Runs.bind (runs_fromSafes l s (fun h h' => h (hk.mp h')) (fun h h' => h (hc.mp h'))) _ rfl fun r M h => ?_
            obtain ⟨ok, s'⟩ := r
            obtain ⟨h1, h2, h3⟩ := h
            simp only at h1 h2 h3
            subst h1
            cases ok with
            | false =>
              simp only
              refine Runs.bindSafe (safe_KeyStoreFree s') _ rfl fun _ => ?_
              rw [zero_add]
              repeat' runs1
              rfl
            | true =>
              simp only
              refine runs_free_some (storeOwn s' + {p12}) (by balance) ?_
              refine runs_free_some (storeOwn s') (by balance) ?_
              exact Runs.pure rfl

/-! ### Keys from PKCS#8 -/

theorem runs_intoNum (hz : ∀ w, H w → Never .weak w) {g : Bool → Res β} (h : Runs H (g true) pre post) : Runs H (intoNum true >>= g) pre post := by
  unfold intoNum
  exact runs_ask_ok hz h

theorem runs_getPrivateKeyNum (hz : ∀ w, H w → Never .weak w) (usable : Bool) {g : Bool → Res β} (h : Runs H (g usable) pre post) :
    Runs H (getPrivateKeyNum usable >>= g) pre post := by
  unfold getPrivateKeyNum
  cases usable with
  | false =>
    runs1
    exact runs_pure h
  | true =>
    runs1; runs1
    refine runs_ask fun b => ?_
    cases b with
    | false =>
      runs1; runs1
      refine runs_ask_ok hz ?_
      exact runs_intoNum hz h
    | true =>
      runs1; runs1
      refine runs_alloc_ok hz fun p => ?_
      runs1; runs1; runs1
      refine runs_ask_ok hz ?_
      runs1
      refine runs_intoNum hz ?_
      runs1; runs1; runs1
      exact h

theorem safe_makePoint (hz : ∀ w, H w → Never .weak w) (n : Nat) : Safe H (makePoint n) 0 own := by
  unfold makePoint
  refine step_alloc_ok hz fun p => ?_
  refine step_zero (safe_dstu_point_expand hz n) fun b => ?_
  repeat' res1

theorem safe_makeECGROUPFromSpec (hz : ∀ w, H w → Never .weak w) (n : Nat) :
    Safe H (makeECGROUPFromSpec true n) 0 own := by
  apply Runs.safe
  unfold makeECGROUPFromSpec makePoly
  runs1
  refine runs_ask_ok hz ?_
  runs1; runs1; runs1
  refine runs_ask_ok hz ?_
  refine runs_ask_ok hz ?_
  refine runs_ask_ok hz ?_
  refine runs_intoNum hz ?_
  refine runs_ask_ok hz ?_
  refine runs_intoNum hz ?_
  runs1; runs1; runs1
  refine runs_decode ?_ fun res => ?_
  · runs1; runs1; rfl
  · runs1
    refine runs_own (safe_makePoint hz n) ?_ fun point => ?_
    · repeat' runs1
      rfl
    · runs1
      refine runs_ask fun b => ?_
      cases b with
      | false =>
        repeat' runs1
        rfl
      | true =>
        runs1
        refine runs_intoNum hz ?_
        repeat' runs1
        all_goals rfl

theorem safe_firstSpec (n : Nat) : Safe H (firstSpec n) 0 own := by
  induction n with
  | zero => exact Safe.pure rfl
  | succ n ih =>
    rw [firstSpec]
    refine step_own safe_decode ?_ fun p => ?_
    · res1
      exact ih
    · repeat' res1

theorem safe_makeECGROUP (hz : ∀ w, H w → Never .weak w) (values n : Nat) :
    Safe H (makeECGROUP true values n) 0 own := by
  unfold makeECGROUP
  refine step_own (safe_firstSpec values) ?_ fun p => ?_
  · repeat' res1
  · res1
    refine step_own (safe_makeECGROUPFromSpec hz n) ?_ fun q => ?_
    · repeat' res1
    · repeat' res1

theorem runs_weak_calls (hz : ∀ w, H w → Never .weak w) (n : Nat) {g : Bool → Res β} (h : Runs H (g true) pre post) : Runs H (weakly (calls n) >>= g) pre post := by
  intro w c F hw hc
  obtain ⟨c1, e1, l1⟩ := calls_smooth (smooth_weakly (hz w hw)) n c
  obtain ⟨r, c', M, e, l⟩ := h w c1 F hw (by rw [l1, hc])
  refine ⟨r, c', M, ?_, l⟩
  show Res.bind (weakly (calls n)) g w c = _
  unfold Res.bind weakly
  rw [e1]
  exact e

theorem runs_calls_smooth (n : Nat) {g : Bool → Res β} (h : Runs Smooth (g true) pre post) : Runs Smooth (calls n >>= g) pre post := by
  induction n with
  | zero => exact runs_pure h
  | succ n ih =>
    rw [calls]
    runs1
    refine runs_ask_ok (Smooth.never (by decide)) ?_
    exact ih

theorem runs_addPublic_ok (hz : ∀ w, H w → Never .weak w) : Runs H (weakly addPublic) 0 fun r M => r = true ∧ M = 0 := by
  refine Runs.weakly hz ?_
  unfold addPublic
  refine runs_alloc_ok (Smooth.never (by decide)) fun p => ?_
  runs1; runs1
  refine runs_calls_smooth 3 ?_
  runs1; runs1
  exact ⟨rfl, rfl⟩

/-- What `makePKey` leaves: nothing is lost if it gives a key. -/
def KeyLeft (r : Option PKeyPtr) (M : Multiset Nat) : Prop := ∃ L, M = optPKeyOwn r + L ∧ (r ≠ none → L = 0)

theorem keyLeft_none (M : Multiset Nat) : KeyLeft none M := ⟨M, (zero_add M).symm, fun h => absurd rfl h⟩

theorem runs_makePKeyWith (ctx group a b : Nat) :
    Runs H (makePKeyWith (some ctx) (some group) (a, b)) ({a} + ({b} + ({group} + {ctx}))) KeyLeft := by
  unfold makePKeyWith
  refine runs_alloc ?_ fun p => ?_
  · runs1; runs1; runs1; runs1; runs1
    refine Runs.bindSafe (safe_DSTU_KEY_free rfl) ({group} + {ctx}) (by balance) fun _ => ?_
    rw [zero_add]
    refine runs_free_some {ctx} rfl ?_
    refine runs_free_some 0 rfl ?_
    exact Runs.pure (keyLeft_none 0)
  · runs1
    refine runs_zero (Safe.weakly_any (safe_calls 2)) fun ok => ?_
    have hfail : Runs H ((do
        DSTU_KEY_free (some ⟨some a, some b, none⟩)
        free (some group)
        free (some ctx)
        Pure.pure none) : Res (Option PKeyPtr)) ({p} + ({a} + ({b} + ({group} + {ctx})))) KeyLeft := by
      refine Runs.bindSafe (safe_DSTU_KEY_free rfl) ({p} + ({group} + {ctx})) (by balance) fun _ => ?_
      rw [zero_add]
      refine runs_free_some ({p} + {ctx}) (by balance) ?_
      refine runs_free_some {p} (by balance) ?_
      exact Runs.pure (keyLeft_none _)
    cases ok with
    | false =>
      runs1; runs1; runs1
      exact hfail
    | true =>
      runs1
      refine runs_zero (Safe.weakly_any safe_addPublic) fun ok => ?_
      cases ok with
      | false =>
        runs1
        exact hfail
      | true =>
        runs1
        refine runs_zero (safe_calls 2) fun ok => ?_
        cases ok with
        | false =>
          runs1
          refine Runs.bindSafe (safe_DSTU_KEY_free rfl) ({p} + ({group} + {ctx})) (by balance) fun _ => ?_
          rw [zero_add]
          refine runs_free_some ({group} + {ctx}) rfl ?_
          refine runs_free_some {ctx} rfl ?_
          refine runs_free_some 0 rfl ?_
          exact Runs.pure (keyLeft_none 0)
        | true =>
          runs1
          refine runs_free_some ({p} + ({a} + ({b} + {ctx}))) (by balance) ?_
          refine runs_free_some ({p} + ({a} + {b})) (by balance) ?_
          refine Runs.pure ⟨0, ?_, fun _ => rfl⟩
          simp only [optPKeyOwn, pkeyOwn]; balance

theorem safe_makePKeyWith (hz : ∀ w, H w → Never .weak w) (ctx group a b : Nat) :
    Safe H (makePKeyWith (some ctx) (some group) (a, b)) ({a} + ({b} + ({group} + {ctx}))) optPKeyOwn := by
  apply Runs.safe
  unfold makePKeyWith
  refine runs_alloc ?_ fun p => ?_
  · runs1; runs1; runs1; runs1; runs1
    refine Runs.bindSafe (safe_DSTU_KEY_free rfl) ({group} + {ctx}) (by balance) fun _ => ?_
    rw [zero_add]
    refine runs_free_some {ctx} rfl ?_
    refine runs_free_some 0 rfl ?_
    exact Runs.pure rfl
  · runs1
    refine runs_weak_calls hz 2 ?_
    runs1
    refine Runs.bind (runs_addPublic_ok hz) _ (zero_add _).symm fun r M h => ?_
    obtain ⟨rfl, rfl⟩ := h
    runs1
    rw [zero_add]
    refine runs_zero (safe_calls 2) fun ok => ?_
    cases ok with
    | false =>
      runs1
      refine Runs.bindSafe (safe_DSTU_KEY_free rfl) ({p} + ({group} + {ctx})) (by balance) fun _ => ?_
      rw [zero_add]
      refine runs_free_some ({group} + {ctx}) rfl ?_
      refine runs_free_some {ctx} rfl ?_
      refine runs_free_some 0 rfl ?_
      exact Runs.pure rfl
    | true =>
      runs1
      refine runs_free_some ({p} + ({a} + ({b} + {ctx}))) (by balance) ?_
      refine runs_free_some ({p} + ({a} + {b})) (by balance) ?_
      refine Runs.pure ?_
      simp only [optPKeyOwn, pkeyOwn]; balance

theorem runs_DSTU_KEY_new {g : Option KeyPtr → Res β} (h0 : Runs H (g none) pre post) (h1 : ∀ p q, Runs H (g (some ⟨some p, some q, none⟩)) ({p} + ({q} + pre)) post) :
    Runs H (DSTU_KEY_new >>= g) pre post := by
  unfold DSTU_KEY_new
  runs1
  refine runs_alloc ?_ fun p => ?_
  · runs1; runs1
    exact h0
  · runs1; runs1; runs1; runs1
    refine runs_alloc ?_ fun q => ?_
    · runs1; runs1; runs1; runs1
      exact h0
    · runs1; runs1
      refine runs_conv ?_ (h1 p q)
      balance

theorem runs_makePKey (hz : ∀ w, H w → Never .weak w) (p8 : P8Shape) (hw : p8.wf = true) :
    Runs H (makePKey p8) 0 KeyLeft := by
  unfold makePKey
  refine runs_alloc_ok hz fun ctx => ?_
  runs1
  refine runs_getPrivateKeyNum hz _ ?_
  rw [hw]
  refine Runs.bindSafe (safe_makeECGROUP hz _ _) _ (zero_add _).symm fun group => ?_
  refine runs_ite (fun h => ?_) (fun h => ?_)
  · refine runs_free_some (own group) (by balance) ?_
    exact Runs.pure (keyLeft_none _)
  · cases group with
    | none => exact absurd (Or.inr rfl) h
    | some group =>
      refine runs_DSTU_KEY_new ?_ fun p q => ?_
      · simp only
        refine runs_free_some {ctx} (by balance) ?_
        refine runs_free_some 0 (by balance) ?_
        exact Runs.pure (keyLeft_none 0)
      · simp only
        refine runs_conv ?_ (runs_makePKeyWith ctx group p q)
        balance

theorem safe_makePKey (hz : ∀ w, H w → Never .weak w) (p8 : P8Shape)
    (hw : p8.wf = true) (hu : p8.usable = true) : Safe H (makePKey p8) 0 optPKeyOwn := by
  apply Runs.safe
  unfold makePKey
  refine runs_alloc_ok hz fun ctx => ?_
  runs1
  refine runs_getPrivateKeyNum hz _ ?_
  rw [hw, hu]
  refine Runs.bindSafe (safe_makeECGROUP hz _ _) _ (zero_add _).symm fun group => ?_
  cases group with
  | none =>
    rw [if_pos (Or.inr rfl)]
    refine runs_free_some 0 (by balance) ?_
    exact Runs.pure rfl
  | some group =>
    rw [if_neg (by simp)]
    refine runs_DSTU_KEY_new ?_ fun p q => ?_
    · simp only
      refine runs_free_some {ctx} (by balance) ?_
      refine runs_free_some 0 (by balance) ?_
      exact Runs.pure rfl
    · simp only
      refine runs_conv ?_ (safe_makePKeyWith hz ctx group p q).runs
      balance

theorem runs_findAttrs (p q n : Nat) {g : Unit → Res β} (R : Multiset Nat) (e : pre = {p} + ({q} + R)) (h : Runs H (g ()) pre post) : Runs H (findAttrs (some p) (some q) n >>= g) pre post := by
  induction n with
  | zero => exact h
  | succ n ih =>
    rw [findAttrs]
    refine runs_assoc ?_
    refine runs_ask fun b => ?_
    cases b with
    | false =>
      runs1
      exact ih
    | true =>
      runs1; runs1
      refine runs_use _ e ?_
      runs1
      refine runs_ask fun b => ?_
      cases b with
      | false =>
        runs1
        refine runs_assoc ?_
        refine runs_use (p := q) (pre := pre) ({p} + R) (by rw [e]; balance) ?_
        exact ih
      | true =>
        runs1
        exact ih

theorem runs_pkeyFromAttributes (hz : ∀ w, H w → Never .weak w) (p8 : P8Shape) (hw : p8.wf = true) :
    Runs H (pkeyFromAttributes p8) 0 KeyLeft := by
  unfold pkeyFromAttributes
  refine runs_alloc_ok hz fun p => ?_
  refine runs_alloc_ok hz fun q => ?_
  refine runs_findAttrs p q _ 0 (by balance) ?_
  repeat' runs1
  · exact keyLeft_none 0
  · exact runs_makePKey hz p8 hw
  · exact keyLeft_none 0

theorem safe_pkeyFromAttributes (hz : ∀ w, H w → Never .weak w) (p8 : P8Shape)
    (hw : p8.wf = true) (hu : p8.usable = true) : Safe H (pkeyFromAttributes p8) 0 optPKeyOwn := by
  apply Runs.safe
  unfold pkeyFromAttributes
  refine runs_alloc_ok hz fun p => ?_
  refine runs_alloc_ok hz fun q => ?_
  refine runs_findAttrs p q _ 0 (by balance) ?_
  repeat' runs1
  · rfl
  · exact (safe_makePKey hz p8 hw hu).runs
  · rfl

theorem safe_pkeyFromAttributes_none (p8 : P8Shape) (ha : p8.attrs = 0) : Safe H (pkeyFromAttributes p8) 0 fun r => optPKeyOwn r := by
  apply Runs.safe
  unfold pkeyFromAttributes
  rw [ha]
  unfold findAttrs
  repeat' runs1
  all_goals first | rfl | exact absurd rfl ‹_›

/-- The two ways to end `keysFromPKCS8`. -/
theorem runs_oneKey (hz : ∀ w, H w → Never .weak w) (k : Nat) :
    Runs H (KeyStoreNew 1 0 >>= fun ks => KeyStoreSetKey ks ⟨k, none⟩ >>= fun ks => Pure.pure (some ks)) {k} fun r M => M = optStoreOwn r ∧ ∃ s, r = some s ∧ keyCount s = 1 := by
  refine Runs.bind (runs_KeyStoreNew hz 1 0) {k} (by balance) fun s M h => ?_
  obtain ⟨rfl, hk, hc, h0⟩ := h
  refine Runs.bind (runs_KeyStoreSetKey s (fun e => absurd (hk.mp e) (by simp)) ⟨k, none⟩) 0 (by simp only [pkeyOwn]; balance) fun s' M h => ?_
  obtain ⟨rfl, _, _, h1⟩ := h
  refine Runs.pure ⟨?_, _, rfl, by rw [h1, h0]⟩
  simp only [optStoreOwn]; balance

theorem runs_twoKeys (hz : ∀ w, H w → Never .weak w) (k : Nat) (k2 : PKeyPtr) :
    Runs H (KeyStoreNew 2 0 >>= fun ks => KeyStoreSetKey ks ⟨k, none⟩ >>= fun ks => KeyStoreSetKey ks k2 >>= fun ks => Pure.pure (some ks)) ({k} + pkeyOwn k2)
      fun r M => M = optStoreOwn r ∧ ∃ s, r = some s ∧ keyCount s = 2 := by
  refine Runs.bind (runs_KeyStoreNew hz 2 0) ({k} + pkeyOwn k2) (by balance) fun s M h => ?_
  obtain ⟨rfl, hk, hc, h0⟩ := h
  refine Runs.bind (runs_KeyStoreSetKey s (fun e => absurd (hk.mp e) (by simp)) ⟨k, none⟩) (pkeyOwn k2) (by simp only [pkeyOwn]; balance) fun s' M h => ?_
  obtain ⟨rfl, hk, _, h1⟩ := h
  refine Runs.bind (runs_KeyStoreSetKey s' hk k2) 0 (by balance) fun s' M h => ?_
  obtain ⟨rfl, _, _, h2⟩ := h
  refine Runs.pure ⟨?_, _, rfl, by rw [h2, h1, h0]⟩
  simp only [optStoreOwn]; balance

/-- What `keysFromPKCS8` leaves: if something is lost there is exactly one key. -/
def StoreLeft (r : Option StorePtr) (M : Multiset Nat) : Prop := ∃ L, M = optStoreOwn r + L ∧ (r = none ∨ (∃ s, r = some s ∧ keyCount s = 2) → L = 0)

theorem runs_keysFromPKCS8 (hz : ∀ w, H w → Never .weak w) (p8 : P8Shape) (hw : p8.wf = true) :
    Runs H (keysFromPKCS8 p8) 0 StoreLeft := by
  unfold keysFromPKCS8
  refine runs_own (safe_decoded _) ?_ fun p => ?_
  · runs1; runs1
    exact ⟨0, rfl, fun _ => rfl⟩
  · runs1
    refine runs_own (safe_decoded _) ?_ fun q => ?_
    · simp only
      runs1; runs1
      exact ⟨0, rfl, fun _ => rfl⟩
    · simp only
      refine Runs.bind (runs_pkeyFromAttributes hz p8 hw) ({q} + ({p} + 0)) (by balance) fun r M h => ?_
      obtain ⟨L, rfl, h⟩ := h
      refine runs_free_some (optPKeyOwn r + L + {q}) (by balance) ?_
      cases r with
      | none =>
        simp only
        refine Runs.last (runs_oneKey hz q) L (by simp only [optPKeyOwn]; balance) fun r M h => ?_
        obtain ⟨rfl, s, rfl, hs⟩ := h
        refine ⟨L, rfl, ?_⟩
        rintro (h | ⟨s', h, hs'⟩)
        · exact nomatch h
        · cases h
          omega
      | some k2 =>
        obtain rfl := h (by simp)
        simp only
        refine Runs.last (runs_twoKeys hz q k2) 0 (by simp only [optPKeyOwn]; balance) fun r M h => ?_
        obtain ⟨rfl, s, rfl, hs⟩ := h
        exact ⟨0, rfl, fun _ => rfl⟩

/-- The same when nothing is lost by the second key. -/
theorem safe_keysFromPKCS8_of (hz : ∀ w, H w → Never .weak w) (p8 : P8Shape) (h2 : Safe H (pkeyFromAttributes p8) 0 optPKeyOwn) : Safe H (keysFromPKCS8 p8) 0 optStoreOwn := by
  apply Runs.safe
  unfold keysFromPKCS8
  refine runs_own (safe_decoded _) ?_ fun p => ?_
  · runs1; runs1
    rfl
  · runs1
    refine runs_own (safe_decoded _) ?_ fun q => ?_
    · simp only
      runs1; runs1
      rfl
    · simp only
      refine Runs.bindSafe h2 ({q} + ({p} + 0)) (by balance) fun r => ?_
      refine runs_free_some (optPKeyOwn r + {q}) (by balance) ?_
      cases r with
      | none =>
        simp only
        refine Runs.last (runs_oneKey hz q) 0 (by simp only [optPKeyOwn]; balance) fun r M h => ?_
        rw [h.1, add_zero]
      | some k2 =>
        simp only
        refine Runs.last (runs_twoKeys hz q k2) 0 (by simp only [optPKeyOwn]; balance) fun r M h => ?_
        rw [h.1, add_zero]

theorem safe_keysFromPKCS8 (hz : ∀ w, H w → Never .weak w) (p8 : P8Shape)
    (h : p8.Clean) : Safe H (keysFromPKCS8 p8) 0 optStoreOwn := by
  rcases h with h | h
  · exact safe_keysFromPKCS8_of hz p8 (safe_pkeyFromAttributes_none p8 h)
  · exact safe_keysFromPKCS8_of hz p8 (safe_pkeyFromAttributes hz p8 h.1 h.2)

/-! ### Key-6 -/

theorem runs_decryptKey6 (hz : ∀ w, H w → Never .weak w) (empty : Bool) (p8 : P8Shape) {p : Option StorePtr → Multiset Nat → Prop} (h : Runs H (keysFromPKCS8 p8) 0 p) :
    Runs H (decryptKey6 empty p8) 0 p := by
  have last : ∀ a : Nat, Runs H (keysFromPKCS8 p8 >>= fun r => free (some a) >>= fun _ => Pure.pure r) ({a} + 0) p := by
    intro a
    refine Runs.bind h ({a} + 0) (by balance) fun r M h => ?_
    refine runs_free_some M (by balance) ?_
    exact Runs.pure h
  unfold decryptKey6
  cases empty with
  | true =>
    runs1; runs1
    refine runs_alloc_ok hz fun a => ?_
    runs1; runs1; runs1
    exact last a
  | false =>
    runs1
    refine runs_alloc_ok hz fun b => ?_
    refine runs_alloc_ok hz fun a => ?_
    runs1; runs1; runs1; runs1
    exact last a

theorem runs_parseKey6 (hz : ∀ w, H w → Never .weak w) (empty : Bool) (p8 : P8Shape) {p : Option StorePtr → Multiset Nat → Prop}
    (h : Runs H (keysFromPKCS8 p8) 0 p) (h0 : p none 0) : Runs H (parseKey6 empty p8) 0 p := by
  unfold parseKey6
  refine runs_decode ?_ fun s => ?_
  · runs1; runs1; exact h0
  · runs1
    refine runs_ask fun b => ?_
    cases b with
    | false =>
      repeat' runs1
      exact h0
    | true =>
      runs1
      refine runs_alloc_ok hz fun t => ?_
      runs1
      refine runs_ask fun b => ?_
      cases b with
      | false =>
        repeat' runs1
        exact h0
      | true =>
        runs1; runs1
        refine Runs.bind (runs_decryptKey6 hz empty p8 h) _ (zero_add _).symm fun r M h => ?_
        refine runs_free_some M (by balance) ?_
        exact Runs.pure h

/-! ### Java key stores -/

theorem runs_convWrite {g : Unit → Res β} (h : Runs H (g ()) pre post) : Runs H (convWrite >>= g) pre post := by
  unfold convWrite
  runs1
  refine runs_ask fun b => ?_
  cases b with
  | false => exact h
  | true =>
    runs1; runs1
    refine runs_ask fun b => ?_
    exact h

/-- After the loops the buffer exists. -/
theorem runs_convRounds (hz : ∀ w, H w → Never .weak w) (n p : Nat) : Runs H (convRounds n (some p)) {p} fun r M => ∃ q, r.2 = some q ∧ M = {q} := by
  induction n generalizing p with
  | zero =>
    rw [convRounds]
    refine runs_use 0 rfl ?_
    refine runs_convWrite ?_
    refine runs_ask fun b => ?_
    exact Runs.pure ⟨p, rfl, rfl⟩
  | succ n ih =>
    rw [convRounds]
    refine runs_use 0 rfl ?_
    refine runs_convWrite ?_
    refine runs_alloc_ok hz fun q => ?_
    runs1
    refine runs_free_some {q} (by balance) ?_
    exact ih q

theorem safe_convEnd (hz : ∀ w, H w → Never .weak w) (res : Option Nat) (cd buf m : Nat) : Safe H (convEnd res (some cd) (some buf) m) ({buf} + ({cd} + own res)) own := by
  apply Runs.safe
  unfold convEnd
  refine Runs.bind (runs_convRounds hz m buf) _ rfl fun r M h => ?_
  obtain ⟨ok, b⟩ := r
  obtain ⟨q, hq, rfl⟩ := h
  simp only at hq
  subst hq
  cases ok with
  | false =>
    simp only
    runs1; runs1; runs1
    refine runs_free 0 (by balance) ?_
    exact Runs.pure rfl
  | true =>
    simp only
    refine runs_ite (fun _ => ?_) (fun h => absurd trivial h)
    runs1; runs1
    refine runs_ask fun b => ?_
    refine runs_ite (fun h => ?_) (fun h => ?_)
    · refine runs_free 0 (by balance) ?_
      exact Runs.pure rfl
    · refine runs_alloc_ok hz fun d => ?_
      runs1
      refine runs_free {d} (by balance) ?_
      exact Runs.pure rfl

theorem safe_toUTF16BE (hz : ∀ w, H w → Never .weak w) (p : PassShape) : Safe H (toUTF16BE p) 0 own := by
  apply Runs.safe
  unfold toUTF16BE
  refine Runs.bindSafe (safe_alloc _) 0 (add_zero _).symm fun res => ?_
  dsimp only
  refine runs_ite (fun h => ?_) (fun h => ?_)
  · runs1
    refine runs_alloc_ok hz fun cd => ?_
    runs1
    rw [if_pos h]
    refine runs_free_some (own res) (by balance) ?_
    refine runs_free 0 (by balance) ?_
    exact Runs.pure rfl
  · refine runs_alloc_ok hz fun buf => ?_
    refine runs_alloc_ok hz fun cd => ?_
    runs1
    rw [if_neg h]
    refine Runs.bind (runs_convRounds hz p.n buf) ({cd} + own res) (by balance) fun r M h => ?_
    obtain ⟨ok, b⟩ := r
    obtain ⟨q, hq, rfl⟩ := h
    simp only at hq
    subst hq
    cases ok with
    | false =>
      simp only
      refine runs_free_some ({q} + own res) (by balance) ?_
      refine runs_free_some (own res) rfl ?_
      refine runs_free 0 (by balance) ?_
      exact Runs.pure rfl
    | true =>
      simp only
      refine runs_ite (fun _ => ?_) (fun h => absurd trivial h)
      exact (safe_convEnd hz res cd q p.m).runs

theorem safe_twoHash (hz : ∀ w, H w → Never .weak w) : Safe H twoHash 0 fun _ => 0 := by
  unfold twoHash
  refine step_alloc_ok hz fun p => ?_
  repeat' res1

theorem safe_whiteHash (hz : ∀ w, H w → Never .weak w) : Safe H whiteHash 0 fun _ => 0 := by
  unfold whiteHash
  refine step_alloc_ok hz fun p => ?_
  repeat' res1

theorem safe_parseCert (hz : ∀ w, H w → Never .weak w) (s : StorePtr) : Safe H (parseCert s) (storeOwn s) fun r => storeOwn r.2 := by
  apply Runs.safe
  unfold parseCert
  refine runs_decode (Runs.pure rfl) fun x => ?_
  simp only
  refine Runs.bind (runs_KeyStoreNew hz 0 1) _ (zero_add _).symm fun t M h => ?_
  obtain ⟨rfl, _, hc, _⟩ := h
  refine Runs.bind (runs_KeyStoreSetCert t (fun e => absurd (hc.mp e) (by simp)) x) (storeOwn s) (by balance) fun t' M h => ?_
  obtain ⟨rfl, _⟩ := h
  refine Runs.bindSafe (safe_KeyStoreAppend hz s t') 0 (by balance) fun ⟨s', t''⟩ => ?_
  simp only
  refine Runs.bindSafe (safe_KeyStoreFree t'') (storeOwn s') (by balance) fun _ => ?_
  exact Runs.pure (zero_add _)

theorem safe_parseCerts (hz : ∀ w, H w → Never .weak w) (n : Nat) (s : StorePtr) : Safe H (parseCerts n s) (storeOwn s) fun r => storeOwn r.2 := by
  induction n generalizing s with
  | zero => exact Safe.pure rfl
  | succ n ih =>
    rw [parseCerts]
    refine Safe.bind (safe_parseCert hz s) 0 (add_zero _).symm fun ⟨ok, s'⟩ => ?_
    rw [add_zero]
    cases ok with
    | false => exact Safe.pure rfl
    | true => exact ih s'

theorem safe_unprotect (hz : ∀ w, H w → Never .weak w) (p n : Nat) : Safe H (unprotect (some p) n) {p} fun _ => {p} := by
  induction n with
  | zero => exact Safe.pure rfl
  | succ n ih =>
    rw [unprotect]
    refine step_zero (safe_twoHash hz) fun b => ?_
    cases b with
    | false => exact Safe.pure rfl
    | true =>
      refine if_tt ?_
      exact step_use 0 rfl ih

theorem runs_keysFromPKCS8_good (p8 : P8Shape) (h : p8.Good) : Runs Smooth (keysFromPKCS8 p8) 0 fun r M => ∃ s, r = some s ∧ M = storeOwn s := by
  obtain ⟨h1, h2, h3⟩ := h
  have hs : Safe Smooth (pkeyFromAttributes p8) 0 optPKeyOwn := by
    rcases h3 with h | h
    · exact safe_pkeyFromAttributes_none p8 h
    · exact safe_pkeyFromAttributes (Smooth.never (by decide)) p8 h.1 h.2
  unfold keysFromPKCS8 decoded
  rw [h1, h2]
  runs1
  refine runs_alloc_ok (Smooth.never (by decide)) fun p => ?_
  runs1; runs1
  refine runs_alloc_ok (Smooth.never (by decide)) fun q => ?_
  simp only
  refine Runs.bindSafe hs ({q} + ({p} + 0)) (by balance) fun r => ?_
  refine runs_free_some (optPKeyOwn r + {q}) (by balance) ?_
  cases r with
  | none =>
    simp only
    refine Runs.last (runs_oneKey (Smooth.never (by decide)) q) 0 (by simp only [optPKeyOwn]; balance) fun r M h => ?_
    obtain ⟨rfl, s, rfl, _⟩ := h
    exact ⟨s, rfl, add_zero _⟩
  | some k2 =>
    simp only
    refine Runs.last (runs_twoKeys (Smooth.never (by decide)) q k2) 0 (by simp only [optPKeyOwn]; balance) fun r M h => ?_
    obtain ⟨rfl, s, rfl, _⟩ := h
    exact ⟨s, rfl, add_zero _⟩

section
variable (hz : ∀ w, H w → Never .weak w)
include hz

theorem safe_storeProtected (d : Option Nat) (p8 : P8Shape) (h : p8.Good) (s : StorePtr) : Safe H (storeProtected d p8 s) (own d + storeOwn s) fun r => storeOwn r.2 := by
  apply Runs.safe
  unfold storeProtected
  refine Runs.bind (Runs.weakly hz (runs_keysFromPKCS8_good p8 h)) _ (zero_add _).symm fun r M h => ?_
  obtain ⟨t, rfl, rfl⟩ := h
  simp only
  refine Runs.bindSafe (safe_KeyStoreAppend hz s t) (own d) (by balance) fun ⟨s', t'⟩ => ?_
  simp only
  refine Runs.bindSafe (safe_KeyStoreFree t') (storeOwn s' + own d) (by balance) fun _ => ?_
  refine runs_free (storeOwn s') (by balance) ?_
  exact Runs.pure rfl

theorem safe_fromKeyProtector (rounds : Nat) (p8 : P8Shape) (h : p8.Good) (s : StorePtr) : Safe H (fromKeyProtector rounds p8 s) (storeOwn s) fun r => storeOwn r.2 := by
  have rest : ∀ d, Safe H (do
      if ← twoHash then
        if ← ask .data then storeProtected d p8 s
        else
          free d
          Pure.pure (false, s)
      else
        free d
        Pure.pure (false, s)) (own d + storeOwn s) fun r : Bool × StorePtr => storeOwn r.2 := by
    intro d
    refine step_zero (safe_twoHash hz) fun b => ?_
    cases b with
    | false =>
      refine if_ff ?_
      refine step_free (storeOwn s) rfl ?_
      exact Safe.pure rfl
    | true =>
      refine if_tt ?_
      refine step_ask fun b => ?_
      cases b with
      | false =>
        refine if_ff ?_
        refine step_free (storeOwn s) rfl ?_
        exact Safe.pure rfl
      | true =>
        refine if_tt ?_
        exact safe_storeProtected hz d p8 h s
  unfold fromKeyProtector
  dsimp only
  refine safe_ite (fun h => ?_) (fun h => ?_)
  · refine step_pure ?_
    subst h
    rw [unprotect]
    refine step_pure ?_
    refine if_tt ?_
    have := rest none
    rw [own_none, zero_add] at this
    exact this
  · refine step_alloc_ok hz fun p => ?_
    refine Safe.bind (safe_unprotect hz p rounds) (storeOwn s) rfl fun b => ?_
    cases b with
    | false =>
      refine if_ff ?_
      refine step_free (storeOwn s) rfl ?_
      exact Safe.pure rfl
    | true =>
      refine if_tt ?_
      exact rest (some p)

theorem safe_decryptWith (a b : Nat) (p : Protection) (h : p.Good) (s : StorePtr) :
    Safe H (decryptWith (some a) (some b) p s) ({b} + ({a} + storeOwn s)) fun r => {b} + ({a} + storeOwn r.2) := by
  unfold decryptWith
  refine step_use _ in1 ?_
  cases p with
  | keyProtector rounds p8 =>
    simp only
    exact Safe.framed (safe_fromKeyProtector hz rounds p8 h s) ({b} + {a}) (by balance) fun r => by balance
  | pbes1 =>
    simp only
    refine step_use _ rfl ?_
    exact Safe.pure rfl
  | other =>
    simp only
    refine step_use _ rfl ?_
    exact Safe.pure rfl

theorem safe_decryptKey (pass : PassShape) (p : Protection) (h : p.Good) (s : StorePtr) : Safe H (decryptKey pass p s) (storeOwn s) fun r => storeOwn r.2 := by
  apply Runs.safe
  unfold decryptKey
  refine runs_own (safe_toUTF16BE hz pass) ?_ fun pwd => ?_
  · runs1
    exact Runs.pure rfl
  · runs1
    refine runs_decode ?_ fun epk => ?_
    · runs1
      refine runs_free_some (storeOwn s) rfl ?_
      exact Runs.pure rfl
    · runs1
      refine runs_alloc_ok hz fun a => ?_
      refine runs_alloc_ok hz fun b => ?_
      refine Runs.bindSafe (safe_decryptWith hz a b p h s) ({epk} + {pwd}) (by balance) fun r => ?_
      refine runs_free_some ({a} + (storeOwn r.2 + ({epk} + {pwd}))) (by balance) ?_
      refine runs_free_some (storeOwn r.2 + ({epk} + {pwd})) rfl ?_
      refine runs_free_some (storeOwn r.2 + {pwd}) (by balance) ?_
      refine runs_free_some (storeOwn r.2) (by balance) ?_
      exact Runs.pure rfl

theorem safe_parseEntry (pass : PassShape) (e : EntryShape) (h : e.Good) (s : StorePtr) : Safe H (parseEntry pass e s) (storeOwn s) fun r => storeOwn r.2 := by
  cases e with
  | key p n =>
    rw [parseEntry]
    refine Safe.bind (safe_decryptKey hz pass p h s) 0 (add_zero _).symm fun ⟨ok, s'⟩ => ?_
    rw [add_zero]
    cases ok with
    | false => exact Safe.pure rfl
    | true => exact safe_parseCerts hz n s'
  | cert => exact safe_parseCert hz s
  | other => exact Safe.pure rfl

theorem safe_parseEntries (pass : PassShape) (l : List EntryShape) (h : ∀ e ∈ l, e.Good) (s : StorePtr) : Safe H (parseEntries pass l s) (storeOwn s) fun r => storeOwn r.2 := by
  induction l generalizing s with
  | nil => exact Safe.pure rfl
  | cons e l ih =>
    rw [parseEntries]
    refine Safe.bind (safe_parseEntry hz pass e (h e (by simp)) s) 0 (add_zero _).symm fun ⟨ok, s'⟩ => ?_
    rw [add_zero]
    cases ok with
    | false => exact Safe.pure rfl
    | true => exact ih (fun e he => h e (by simp [he])) s'

/-- What `parseJKS` leaves: nothing is lost if it gives a store. -/
def JksLeft (r : Option StorePtr) (M : Multiset Nat) : Prop := ∃ L, M = optStoreOwn r + L ∧ (r ≠ none → L = 0)

theorem runs_parseJKS (sp kp : PassShape) (l : List EntryShape) (h : ∀ e ∈ l, e.Good) : Runs H (parseJKS sp kp l) 0 JksLeft := by
  have fail : ∀ M, JksLeft none M := fun M => ⟨M, (zero_add M).symm, fun h => absurd rfl h⟩
  unfold parseJKS
  refine runs_ask fun b => ?_
  cases b with
  | false =>
    runs1
    exact Runs.pure (fail 0)
  | true =>
    runs1
    refine runs_own (safe_toUTF16BE hz sp) ?_ fun pwd => ?_
    · runs1
      exact Runs.pure (fail 0)
    · runs1
      refine Runs.bind (runs_KeyStoreNew hz 0 0) _ (zero_add _).symm fun s M h' => ?_
      obtain ⟨rfl, _⟩ := h'
      refine Runs.bindSafe (safe_parseEntries hz kp l h s) _ rfl fun ⟨ok, s'⟩ => ?_
      cases ok with
      | false =>
        simp only
        refine Runs.bindSafe (safe_KeyStoreFree s') _ rfl fun _ => ?_
        exact Runs.pure (fail _)
      | true =>
        simp only
        refine runs_zero (safe_whiteHash hz) fun b => ?_
        cases b with
        | false =>
          runs1
          refine Runs.bindSafe (safe_KeyStoreFree s') _ rfl fun _ => ?_
          rw [zero_add]
          refine runs_free_some 0 rfl ?_
          exact Runs.pure (fail 0)
        | true =>
          runs1
          refine runs_free_some (storeOwn s') (by balance) ?_
          refine runs_ask fun b => ?_
          cases b with
          | false =>
            runs1
            refine Runs.bindSafe (safe_KeyStoreFree s') 0 (by balance) fun _ => ?_
            exact Runs.pure (fail _)
          | true =>
            runs1
            exact Runs.pure ⟨0, (add_zero _).symm, fun _ => rfl⟩

end

/-! ### Reading -/

theorem runs_readRounds (mem : Option Nat) (n : Nat) (total : Bool) : Safe H (readRounds mem n total) 0 fun _ => 0 := by
  induction n generalizing total with
  | zero => exact Safe.pure rfl
  | succ n ih =>
    rw [readRounds]
    refine safe_ite (fun h => Safe.pure rfl) fun h => ?_
    refine step_ask fun b => ?_
    cases b with
    | false => exact Safe.pure rfl
    | true => exact ih true

theorem runs_readBio (n : Nat) {f : Res (Option StorePtr)} {p : Option StorePtr → Multiset Nat → Prop} (h : Runs H f 0 p) (h0 : p none 0) : Runs H (readBio n f) 0 p := by
  unfold readBio
  have fin : ∀ mem, Runs H (do
      if ← readRounds mem n false then
        let res ← f
        free mem
        Pure.pure res
      else
        free mem
        Pure.pure none) (own mem) p := by
    intro mem
    refine runs_zero (runs_readRounds mem n false) fun b => ?_
    cases b with
    | false =>
      runs1
      refine runs_free 0 (by balance) ?_
      exact Runs.pure h0
    | true =>
      runs1
      refine Runs.bind h (own mem) (by balance) fun r M h => ?_
      refine runs_free M (by balance) ?_
      exact Runs.pure h
  refine runs_alloc ?_ fun mem => ?_
  · exact fin none
  · refine runs_conv ?_ (fin (some mem))
    balance

theorem runs_readFile (n : Nat) {f : Res (Option StorePtr)} {p : Option StorePtr → Multiset Nat → Prop} (h : Runs H f 0 p) (h0 : p none 0) : Runs H (readFile n f) 0 p := by
  unfold readFile
  refine runs_alloc ?_ fun bio => ?_
  · runs1
    exact Runs.pure h0
  · runs1
    refine Runs.bind (runs_readBio n h h0) _ (zero_add _).symm fun r M h => ?_
    refine runs_free_some M (by balance) ?_
    exact Runs.pure h

/-! ### What is reported -/

section
variable {success : β → Prop} {bad : Bool}

/-- Decoding: without an object something may have failed, or not. -/
theorem rep_decode {g : Option Nat → Res β} (h0 : Rep true (g none) success) (h0' : Rep bad (g none) success) (h1 : ∀ p, Rep bad (g (some p)) success) : Rep bad (decode >>= g) success := by
  unfold decode
  refine rep_assoc ?_
  refine rep_data fun b => ?_
  unfold decoded
  cases b with
  | false => exact h0'
  | true => exact rep_alloc h0 h1

theorem reports_newArray {α : Type} (n : Nat) : Reports (newArray (α := α) n) fun _ => True := by
  apply Rep.reports
  unfold newArray
  refine rep_ite (fun _ => Rep.pure fun _ => rfl) fun _ => ?_
  refine rep_alloc ?_ fun p => Rep.pure fun _ => rfl
  intro w c r c' e
  exact absurd e (by simp [ub])

theorem reports_KeyStoreNew (k c : Nat) : Reports (KeyStoreNew k c) fun _ => True := by
  apply Rep.reports
  unfold KeyStoreNew
  refine rep_alloc ?_ fun p => ?_
  · intro w c r c' e
    exact absurd e (by simp [ub])
  · refine rep_unit (reports_newArray k) fun _ => ?_
    refine rep_unit (reports_newArray c) fun _ => ?_
    exact Rep.pure fun _ => rfl

theorem reports_KeyStoreSetKey (s : StorePtr) (k : PKeyPtr) : Reports (KeyStoreSetKey s k) fun _ => True := by
  apply Rep.reports
  unfold KeyStoreSetKey
  split
  · intro w c r c' e
    exact absurd e (by simp [ub])
  · refine rep_unit (reports_use _) fun _ => ?_
    exact Rep.pure fun _ => rfl

theorem reports_KeyStoreSetCert (s : StorePtr) (k : Nat) : Reports (KeyStoreSetCert s k) fun _ => True := by
  apply Rep.reports
  unfold KeyStoreSetCert
  split
  · intro w c r c' e
    exact absurd e (by simp [ub])
  · refine rep_unit (reports_use _) fun _ => ?_
    exact Rep.pure fun _ => rfl

theorem reports_countKeysCerts (l : List (Option (List Bag))) (n : Nat × Nat) : Reports (countKeysCerts l n) fun r => r ≠ none := by
  induction l generalizing n with
  | nil => exact (Rep.pure fun _ => rfl).reports
  | cons s l ih =>
    cases s with
    | none => exact ih n
    | some b =>
      apply Rep.reports
      rw [countKeysCerts]
      refine rep_decode ?_ ?_ fun p => ?_
      · exact rep_ite_none (Rep.fail (by simp))
      · exact rep_ite_none (Rep.fail (by simp))
      · refine rep_ite_some ?_
        refine rep_unit (reports_use _) fun _ => ?_
        split
        · refine rep_unit (reports_free _) fun _ => ?_
          exact Rep.fail (by simp)
        · refine rep_unit (reports_free _) fun _ => ?_
          exact Rep.of (ih _) fun _ h => h

end

mutual
theorem reports_fromBag (b : Bag) (s : StorePtr) : Reports (fromBag b s) fun r => r.1 = true := by
  cases b with
  | keyBag i =>
    apply Rep.reports
    rw [fromBag]
    refine rep_decode (Rep.fail (by simp)) (Rep.fail (by simp)) fun p => ?_
    refine rep_unit (reports_KeyStoreSetKey _ _) fun _ => ?_
    exact Rep.pure fun _ => rfl
  | shrouded i =>
    apply Rep.reports
    rw [fromBag]
    refine rep_decode (rep_ite_none (Rep.fail (by simp))) (rep_ite_none (Rep.fail (by simp))) fun p => ?_
    refine rep_ite_some ?_
    have none : ∀ bad, Rep bad (free (some p) >>= fun _ => Pure.pure (false, s)) fun r : Bool × StorePtr => r.1 = true := fun bad =>
      rep_unit (reports_free _) fun _ => Rep.fail (by simp)
    refine rep_decode (none true) (none false) fun q => ?_
    refine rep_unit (reports_KeyStoreSetKey _ _) fun _ => ?_
    refine rep_unit (reports_free _) fun _ => ?_
    exact Rep.pure fun _ => rfl
  | certBag i =>
    apply Rep.reports
    rw [fromBag]
    refine rep_decode (Rep.fail (by simp)) (Rep.fail (by simp)) fun p => ?_
    refine rep_unit (reports_KeyStoreSetCert _ _) fun _ => ?_
    exact Rep.pure fun _ => rfl
  | safes l =>
    rw [fromBag]
    exact reports_fromBags l s
  | other =>
    rw [fromBag]
    exact (Rep.pure fun _ => rfl).reports

theorem reports_fromBags (l : List Bag) (s : StorePtr) : Reports (fromBags l s) fun r => r.1 = true := by
  cases l with
  | nil =>
    rw [fromBags]
    exact (Rep.pure fun _ => rfl).reports
  | cons b l =>
    apply Rep.reports
    rw [fromBags]
    refine Rep.bind (reports_fromBag b s) ?_ ?_
    · rintro ⟨b, s⟩ rfl
      exact Rep.of (reports_fromBags l s) fun _ h => h
    · rintro ⟨b, s⟩ h
      obtain rfl : b = false := by simpa using h
      exact Rep.fail (by simp)
end

theorem reports_fromSafes (l : List (Option (List Bag))) (s : StorePtr) : Reports (fromSafes l s) fun r => r.1 = true := by
  induction l generalizing s with
  | nil => exact (Rep.pure fun _ => rfl).reports
  | cons b l ih =>
    cases b with
    | none => exact ih s
    | some b =>
      apply Rep.reports
      rw [fromSafes]
      refine rep_decode (rep_ite_none (Rep.fail (by simp))) (rep_ite_none (Rep.fail (by simp))) fun p => ?_
      refine rep_ite_some ?_
      refine rep_unit (reports_use _) fun _ => ?_
      refine Rep.bind (reports_fromBags b s) ?_ ?_
      · rintro ⟨b, s⟩ rfl
        refine rep_unit (reports_free _) fun _ => ?_
        exact Rep.of (ih s) fun _ h => h
      · rintro ⟨b, s⟩ h
        obtain rfl : b = false := by simpa using h
        refine rep_unit (reports_free _) fun _ => ?_
        exact Rep.fail (by simp)

/-- A program whose result is not a success, whatever it does. -/
theorem rep_never {f : Res α} {g : α → Res β} {success : β → Prop} {bad : Bool} (h : ∀ a, Rep true (g a) success) : Rep bad (f >>= g) success := by
  intro w c r c' e s
  obtain ⟨a, c1, _, e2⟩ := bind_some e
  exact absurd (h a w c1 r c' e2 s).1 (by simp)

theorem reports_parsePKCS12 (l : List (Option (List Bag))) : Reports (parsePKCS12 l) fun r => r ≠ none := by
  apply Rep.reports
  unfold parsePKCS12
  have fail : ∀ bad p, Rep bad (free p >>= fun _ => Pure.pure none) fun r : Option StorePtr => r ≠ none := fun bad p =>
    rep_unit (reports_free _) fun _ => Rep.fail (by simp)
  have fail2 : ∀ bad q p, Rep bad (free q >>= fun _ => free p >>= fun _ => Pure.pure none) fun r : Option StorePtr => r ≠ none := fun bad q p =>
    rep_unit (reports_free _) fun _ => fail bad p
  refine rep_decode (rep_ite_none (Rep.fail (by simp))) (rep_ite_none (Rep.fail (by simp))) fun p => ?_
  refine rep_ite_some ?_
  refine rep_data fun b => ?_
  cases b with
  | false => exact rep_if_ff (fail _ _)
  | true =>
    refine rep_if_tt ?_
    refine rep_decode (rep_ite_none (fail _ _)) (rep_ite_none (fail _ _)) fun q => ?_
    refine rep_ite_some ?_
    refine rep_unit (reports_use _) fun _ => ?_
    refine Rep.bind (reports_countKeysCerts l (0, 0)) ?_ ?_
    · intro r hr
      obtain ⟨⟨k, c⟩, rfl⟩ := Option.ne_none_iff_exists'.mp hr
      simp only
      refine rep_ite (fun _ => fail2 _ _ _) fun _ => ?_
      refine rep_unit (reports_KeyStoreNew k c) fun s => ?_
      refine Rep.bind (reports_fromSafes l s) ?_ ?_
      · rintro ⟨b, s⟩ rfl
        simp only
        refine rep_unit (reports_free _) fun _ => ?_
        refine rep_unit (reports_free _) fun _ => ?_
        exact Rep.pure fun _ => rfl
      · rintro ⟨b, s⟩ h
        obtain rfl : b = false := by simpa using h
        simp only
        exact rep_never fun _ => fail2 _ _ _
    · intro r hr
      obtain rfl : r = none := by simpa using hr
      exact fail2 _ _ _

theorem reports_readRounds (mem : Option Nat) (n : Nat) (total : Bool) : Reports (readRounds mem n total) fun b => b = true := by
  induction n generalizing total with
  | zero => exact (Rep.pure fun _ => rfl).reports
  | succ n ih =>
    apply Rep.reports
    rw [readRounds]
    refine rep_ite (fun _ => Rep.fail (by simp)) fun _ => ?_
    refine rep_call ?_ ?_
    · exact rep_if_tt (Rep.of (ih true) fun _ h => h)
    · exact rep_if_ff (Rep.fail (by simp))

/-- Without a buffer nothing is read. -/
theorem rep_readRounds_none (n : Nat) : Rep true (readRounds none n false) fun b => b = true := by
  cases n with
  | zero => exact Rep.fail (by simp)
  | succ n =>
    rw [readRounds]
    exact rep_ite_none (Rep.fail (by simp))

theorem reports_readBio (n : Nat) {f : Res (Option StorePtr)} (h : Reports f fun r => r ≠ none) : Reports (readBio n f) fun r => r ≠ none := by
  apply Rep.reports
  unfold readBio
  have fail : ∀ bad p, Rep bad (free p >>= fun _ => Pure.pure none) fun r : Option StorePtr => r ≠ none := fun bad p =>
    rep_unit (reports_free _) fun _ => Rep.fail (by simp)
  refine rep_alloc ?_ fun p => ?_
  · intro w c r c' e s
    obtain ⟨b, c1, e1, e2⟩ := bind_some e
    cases b with
    | false => exact absurd (fail true none w c1 r c' e2 s).1 (by simp)
    | true => exact absurd (rep_readRounds_none n w c true c1 e1 rfl).1 (by simp)
  · refine rep_bool (reports_readRounds _ n false) ?_ ?_
    · refine rep_if_tt ?_
      refine Rep.bind h ?_ ?_
      · intro r hr
        refine rep_unit (reports_free _) fun _ => ?_
        exact Rep.pure fun _ => rfl
      · intro r hr
        refine rep_unit (reports_free _) fun _ => ?_
        exact Rep.fail hr
    · exact rep_if_ff (fail _ _)

theorem reports_readFile (n : Nat) {f : Res (Option StorePtr)} (h : Reports f fun r => r ≠ none) : Reports (readFile n f) fun r => r ≠ none := by
  apply Rep.reports
  unfold readFile
  refine rep_alloc (rep_ite_none (Rep.fail (by simp))) fun p => ?_
  refine rep_ite_some ?_
  refine Rep.bind (reports_readBio n h) ?_ ?_
  · intro r hr
    refine rep_unit (reports_free _) fun _ => ?_
    exact Rep.pure fun _ => rfl
  · intro r hr
    refine rep_unit (reports_free _) fun _ => ?_
    exact Rep.fail hr

end Fail

end Dstu
