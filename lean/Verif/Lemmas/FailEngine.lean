import Verif.Lemmas.FailLib
import Verif.Model.FailEngine

/-! The failure paths of the engine. -/

namespace Dstu

namespace Fail

open Res

variable {H : Fate → Prop}

theorem safe_hash_to_field (zero : Bool) (k : Nat) : Safe H (hash_to_field zero k) 0 fun _ => 0 := by
  unfold hash_to_field
  repeat' res1

theorem safe_signBody (zero : Bool) (k n : Nat) : Safe H (signBody zero k n) 0 fun r => own r.2 := by
  unfold signBody
  repeat' res1
  refine step_zero (safe_hash_to_field zero k) fun b => ?_
  repeat' res1

theorem safe_dstu_do_sign (zero : Bool) (k n : Nat) : Safe H (dstu_do_sign zero k n) 0 fun _ => 0 := by
  unfold dstu_do_sign
  repeat' res1
  refine step_any (safe_signBody zero k n) fun ⟨r, e⟩ => ?_
  repeat' res1

theorem safe_verifyBody (zero : Bool) (k k' : Nat) : Safe H (verifyBody zero k k') 0 fun r => own r.2 := by
  unfold verifyBody
  repeat' res1
  refine step_zero (safe_hash_to_field zero k) fun b => ?_
  repeat' res1

theorem safe_dstu_do_verify (zero : Bool) (k k' : Nat) : Safe H (dstu_do_verify zero k k') 0 fun _ => 0 := by
  unfold dstu_do_verify
  repeat' res1
  refine step_any (safe_verifyBody zero k k') fun ⟨r, e⟩ => ?_
  repeat' res1

/-- A key from outside has its parts. -/
theorem step_key_from_asn1 {β : Type} {pre : Multiset Nat} {post : β → Multiset Nat} {g : Option KeyPtr → Res β} (hn : ∀ w, H w → Never .weak w) (little : Bool) (n : Nat)
    (h0 : Safe H (g none) pre post) (h1 : ∀ p q s, Safe H (g (some ⟨some p, some q, s⟩)) ({p} + ({q} + (own s + pre))) post) : Safe H (key_from_asn1 little n >>= g) pre post := by
  unfold key_from_asn1
  refine step_assoc ?_
  refine step_key_new h0 fun p q => ?_
  simp only
  refine step_assoc ?_
  refine Safe.bind (safe_keyBody hn p q little n) pre (by balance) fun ⟨ok, s, g⟩ => ?_
  simp only [add_assoc]
  res1; res1; res1
  · res1
    exact h1 p q s
  · res1
    refine Safe.bind (safe_DSTU_KEY_free rfl) pre (by balance) fun _ => ?_
    rw [zero_add]
    exact h0

theorem step_param_decode {β : Type} {pre : Multiset Nat} {post : β → Multiset Nat} {g : Option KeyPtr → Res β} (hn : ∀ w, H w → Never .weak w) (little : Bool) (n : Nat)
    (h0 : Safe H (g none) pre post) (h1 : ∀ p q s, Safe H (g (some ⟨some p, some q, s⟩)) ({p} + ({q} + (own s + pre))) post) :
    Safe H (dstu_asn1_param_decode little n >>= g) pre post := by
  unfold dstu_asn1_param_decode
  res1; res1
  · res1; res1
    exact h0
  · res1; res1
    refine step_key_from_asn1 hn little n ?_ fun p q s => ?_
    · repeat' res1
      exact h0
    · simp only
      res1; res1; res1
      · repeat' res1
        exact h1 p q s
      · repeat' res1
        refine Safe.bind (safe_DSTU_KEY_free rfl) pre (by balance) fun _ => ?_
        rw [zero_add]
        exact h0

theorem safe_dstu_asn1_param_decode (hn : ∀ w, H w → Never .weak w) (little : Bool) (n : Nat) : Safe H (dstu_asn1_param_decode little n) 0 keyOwn := by
  have := step_param_decode (H := H) (g := Pure.pure) (pre := 0) (post := keyOwn) hn little n (Safe.pure rfl) fun p q s => Safe.pure (by simp only [keyOwn]; balance)
  intro w c F hw hc
  obtain ⟨r, c', h1, h2⟩ := this w c F hw hc
  refine ⟨r, c', ?_, h2⟩
  obtain ⟨a, c1, e1, e2⟩ := bind_some h1
  rw [e1]
  exact e2

theorem safe_dstu_asn1_param_encode (hn : ∀ w, H w → Never .weak w) (m n : Nat) :
    Safe H (dstu_asn1_param_encode m n) 0 fun r => own r.2 := by
  unfold dstu_asn1_param_encode
  res1; res1
  · repeat' res1
  · refine step_own (safe_asn1_from_key hn m n) ?_ fun p => ?_
    all_goals repeat' res1

theorem safe_copyInto (p q : Nat) : Safe H (copyInto ⟨some p, some q, none⟩) ({p} + {q}) fun r => keyOwn r.2 := by
  unfold copyInto copy_sbox
  repeat' res1
  all_goals simp only [keyOwn]; balance

theorem safe_dstu_asn1_param_copy (to_key : Option KeyPtr) (h : ∀ k, to_key = some k → k.self ≠ none ∧ k.ec ≠ none ∧ k.sbox = none) :
    Safe H (dstu_asn1_param_copy to_key) (keyOwn to_key) fun r => keyOwn r.2 := by
  unfold dstu_asn1_param_copy
  res1; res1
  · exact Safe.pure rfl
  · cases to_key with
    | some k =>
      obtain ⟨h1, h2, h3⟩ := h k rfl
      obtain ⟨s, e, b⟩ := k
      obtain ⟨p, rfl⟩ := Option.ne_none_iff_exists'.mp h1
      obtain ⟨q, rfl⟩ := Option.ne_none_iff_exists'.mp h2
      simp only at h3
      subst h3
      simp only
      exact Safe.framed (safe_copyInto p q) 0 (by simp only [keyOwn]; balance) fun _ => add_zero _
    | none =>
      simp only
      refine step_key_new (Safe.pure rfl) fun p q => ?_
      simp only
      res1; res1
      · exact Safe.framed (safe_copyInto p q) 0 (by simp only [keyOwn]; balance) fun _ => add_zero _
      · refine Safe.bind (safe_DSTU_KEY_free rfl) 0 (by simp only [keyOwn]; balance) fun _ => ?_
        exact Safe.pure rfl

theorem safe_privBody (p q : Nat) (s : Option Nat) : Safe H (privBody ⟨some p, some q, s⟩) ({p} + {q}) fun _ => {p} + {q} := by
  unfold privBody
  repeat' res1
  refine step_zero safe_dstu_add_public_key fun b => ?_
  repeat' res1

theorem safe_dstu_asn1_priv_decode (hn : ∀ w, H w → Never .weak w) (little : Bool) (n : Nat) : Safe H (dstu_asn1_priv_decode little n) 0 fun r => keyOwn r.2 := by
  unfold dstu_asn1_priv_decode
  repeat' res1
  refine step_param_decode hn little n ?_ fun p q s => ?_
  · repeat' res1
  · simp only
    refine Safe.bind (safe_privBody p q s) (own s) (by balance) fun b => ?_
    repeat' res1
    simp only [keyOwn]; balance

theorem safe_privEncodeBody (hn : ∀ w, H w → Never .weak w) (m n : Nat) :
    Safe H (privEncodeBody true false m n) 0 fun r => own r.2.1 + own r.2.2 := by
  unfold privEncodeBody dstu_asn1_param_encode
  repeat' res1
  refine step_own (safe_asn1_from_key hn m n) ?_ fun p => ?_
  · repeat' res1
  · res1
    refine step_assoc ?_
    refine step_alloc ?_ fun q => ?_
    · res1; res1; res1; res1
      refine safe_ite (fun h => absurd h (by decide)) fun _ => ?_
      res1
      refine step_alloc_ok hn fun r => ?_
      repeat' res1
    · res1; res1; res1; res1
      refine safe_ite (fun h => absurd h (by decide)) fun _ => ?_
      res1
      refine step_alloc_ok hn fun r => ?_
      repeat' res1

theorem safe_dstu_asn1_priv_encode (hn : ∀ w, H w → Never .weak w) (m n : Nat) :
    Safe H (dstu_asn1_priv_encode true false m n) 0 fun r => match r with | none => 0 | some (a, b, c) => own a + (own b + own c) := by
  unfold dstu_asn1_priv_encode
  repeat' res1
  refine step_any (safe_privEncodeBody hn m n) fun ⟨r, k, d⟩ => ?_
  simp only [add_assoc]
  repeat' res1

theorem safe_dstu_asn1_pkey_size (group : Bool) : Safe H (dstu_asn1_pkey_size group) 0 fun _ => 0 := by
  unfold dstu_asn1_pkey_size
  repeat' res1
  refine step_zero (Safe.weakly_any (safe_calls 1)) fun b => ?_
  repeat' res1

theorem safe_pubBody (hn : ∀ w, H w → Never .weak w) (p q r : Nat) (s : Option Nat) (little : Bool) (n : Nat) :
    Safe H (pubBody ⟨some p, some q, s⟩ (some r) little n) ({r} + {q}) fun x => {r} + ({q} + own x.2) := by
  unfold pubBody
  repeat' res1
  all_goals refine step_zero (safe_dstu_point_expand hn n) fun b => ?_
  all_goals repeat' res1

theorem safe_dstu_asn1_pub_decode (hn : ∀ w, H w → Never .weak w) (little : Bool) (n : Nat) : Safe H (dstu_asn1_pub_decode little n) 0 fun r => keyOwn r.2 := by
  unfold dstu_asn1_pub_decode
  repeat' res1
  refine step_param_decode hn little n ?_ fun p q s => ?_
  · repeat' res1
  · simp only
    res1; res1; res1
    · repeat' res1
      simp only [keyOwn]; balance
    · res1
      refine Safe.bind (safe_pubBody hn p q _ s little n) ({p} + own s) (by balance) fun ⟨b, k⟩ => ?_
      simp only [add_assoc]
      repeat' res1
      simp only [keyOwn]; balance

theorem safe_pubEncodeBody (hn : ∀ w, H w → Never .weak w) (m n : Nat) :
    Safe H (pubEncodeBody m n) 0 fun r => own r.2.1 + (own r.2.2.1 + (own r.2.2.2.1 + own r.2.2.2.2)) := by
  unfold pubEncodeBody
  refine step_any (safe_dstu_asn1_param_encode hn m n) fun ⟨l, d⟩ => ?_
  repeat' res1
  refine step_zero (safe_dstu_point_compress hn n) fun b => ?_
  repeat' res1

theorem safe_dstu_asn1_pub_encode (hn : ∀ w, H w → Never .weak w) (m n : Nat) :
    Safe H (dstu_asn1_pub_encode m n) 0 fun r => match r with | none => 0 | some (a, b, c) => own a + (own b + own c) := by
  unfold dstu_asn1_pub_encode
  repeat' res1
  refine step_any (safe_pubEncodeBody hn m n) fun ⟨r, k, e, f, d⟩ => ?_
  simp only [add_assoc]
  repeat' res1

theorem safe_keygenBody (c p q g : Nat) (b : Option Nat) (n : Nat) :
    Safe H (keygenBody ⟨some c, some g, b⟩ ⟨some p, some q, none⟩ n) ({p} + ({q} + {g})) fun r => {p} + ({q} + ({g} + own r.2)) := by
  unfold keygenBody copy_sbox
  repeat' res1
  refine step_zero (safe_dstu_generate_key n) fun b => ?_
  repeat' res1

theorem safe_keygenKey (c g : Nat) (b : Option Nat) (n : Nat) : Safe H (keygenKey ⟨some c, some g, b⟩ n) {g} fun r => {g} + keyOwn r := by
  unfold keygenKey
  refine step_key_new (Safe.pure rfl) fun p q => ?_
  simp only
  refine Safe.bind (safe_keygenBody c p q g b n) 0 (by balance) fun ⟨ok, s⟩ => ?_
  simp only [add_zero]
  res1
  · exact Safe.pure (by simp only [keyOwn]; balance)
  · refine Safe.bind (safe_DSTU_KEY_free rfl) {g} (by balance) fun _ => ?_
    exact Safe.pure (by simp only [keyOwn]; balance)

theorem safe_dstu_pkey_keygen (c : Nat) (g b : Option Nat) (n : Nat) :
    Safe H (dstu_pkey_keygen ⟨some c, g, b⟩ n) (ctxOwn (some ⟨some c, g, b⟩)) fun r => ctxOwn (some r.1) + keyOwn r.2 := by
  unfold dstu_pkey_keygen
  simp only [ctxOwn, own_some]
  res1
  cases g with
  | none =>
    res1
    refine step_own safe_group_from_named_curve ?_ fun g => ?_
    · res1
      exact Safe.pure (by simp only [keyOwn, ctxOwn]; balance)
    · res1
      refine Safe.bind (safe_keygenKey c g b n) ({c} + own b) (by balance) fun k => ?_
      exact Safe.pure (by balance)
  | some g =>
    res1
    refine Safe.bind (safe_keygenKey c g b n) ({c} + own b) (by balance) fun k => ?_
    exact Safe.pure (by balance)

theorem safe_ctrlSbox (c : Nat) (g b : Option Nat) : Safe H (ctrlSbox ⟨some c, g, b⟩) (ctxOwn (some ⟨some c, g, b⟩)) fun r => ctxOwn (some r.2) := by
  unfold ctrlSbox copy_sbox
  repeat' res1
  refine Safe.bind (safe_DSTU_KEY_CTX_set c g b none _) 0 (by balance) fun x => ?_
  exact Safe.pure (by balance)

theorem safe_ctrlCurve (c : Nat) (g b : Option Nat) : Safe H (ctrlCurve ⟨some c, g, b⟩) (ctxOwn (some ⟨some c, g, b⟩)) fun r => ctxOwn (some r.2) := by
  unfold ctrlCurve
  repeat' res1
  refine Safe.bind (safe_DSTU_KEY_CTX_set c g b _ none) 0 (by balance) fun x => ?_
  exact Safe.pure (by balance)

theorem safe_ctrlStrCurve (c : Nat) (g b : Option Nat) : Safe H (ctrlStrCurve ⟨some c, g, b⟩) (ctxOwn (some ⟨some c, g, b⟩)) fun r => ctxOwn (some r.2) := by
  unfold ctrlStrCurve
  repeat' res1
  refine step_own safe_group_from_nid ?_ fun p => ?_
  · repeat' res1
  · res1; res1
    refine Safe.bind (safe_ctrlCurve c g b) {p} (by balance) fun x => ?_
    repeat' res1

theorem safe_ctrlStrSbox (c : Nat) (g b : Option Nat) : Safe H (ctrlStrSbox ⟨some c, g, b⟩) (ctxOwn (some ⟨some c, g, b⟩)) fun r => ctxOwn (some r.2) := by
  unfold ctrlStrSbox
  repeat' res1
  rename_i p _ _ _ _ _ _
  refine Safe.bind (safe_ctrlSbox c g b) {p} (by balance) fun x => ?_
  repeat' res1

theorem safe_signInto (zero : Bool) (k n : Nat) : Safe H (signInto true zero k n) 0 fun r => own r.2.1 + own r.2.2 := by
  unfold signInto
  repeat' res1
  refine step_zero (safe_dstu_do_sign zero k n) fun b => ?_
  repeat' res1
  simp_all

/-- The size of a signature is known when nothing fails. -/
theorem step_pkey_size {β : Type} {pre : Multiset Nat} {post : β → Multiset Nat} {g : Bool → Res β} (hn : ∀ w, H w → Never .weak w) (h : Safe H (g true) pre post) :
    Safe H (dstu_asn1_pkey_size true >>= g) pre post := by
  unfold dstu_asn1_pkey_size
  refine step_assoc ?_
  refine step_alloc_ok hn fun p => ?_
  res1; res1; res1
  refine step_ite (fun _ => ?_) (fun h => absurd rfl h)
  refine step_assoc ?_
  refine step_weak_calls hn ?_
  repeat' res1
  exact h

/-- With no buffer nothing is written. -/
theorem safe_dstu_pkey_sign_none (zero : Bool) (k n : Nat) : Safe H (dstu_pkey_sign false zero k n) 0 fun _ => 0 := by
  unfold dstu_pkey_sign
  repeat' res1
  refine step_zero (safe_dstu_asn1_pkey_size true) fun b => ?_
  repeat' res1

theorem safe_dstu_pkey_sign (hn : ∀ w, H w → Never .weak w) (sig zero : Bool) (k n : Nat) :
    Safe H (dstu_pkey_sign sig zero k n) 0 fun _ => 0 := by
  unfold dstu_pkey_sign
  repeat' res1
  refine step_pkey_size hn ?_
  repeat' res1
  refine step_any (safe_signInto zero k n) fun ⟨r, s, d⟩ => ?_
  simp only [add_assoc]
  repeat' res1

theorem safe_verifyBytes (little zero : Bool) (k k' : Nat) : Safe H (verifyBytes little zero k k') 0 fun _ => 0 := by
  unfold verifyBytes
  repeat' res1
  · refine step_zero (safe_dstu_do_verify zero k k') fun b => ?_
    repeat' res1
  · exact safe_dstu_do_verify zero k k'

theorem safe_dstu_pkey_verify (little zero : Bool) (k k' : Nat) : Safe H (dstu_pkey_verify little zero k k') 0 fun _ => 0 := by
  unfold dstu_pkey_verify
  repeat' res1
  all_goals refine step_zero (safe_verifyBytes little zero k k') fun b => ?_
  all_goals repeat' res1

/-! Success is only reported when nothing failed. -/

theorem reports_hash_to_field (k : Nat) : Reports (hash_to_field false k) fun b => b = true := by
  apply Rep.reports
  unfold hash_to_field
  repeat' rep1

theorem reports_signBody (k n : Nat) : Reports (signBody false k n) fun r => r.1 = true := by
  apply Rep.reports
  unfold signBody
  repeat' rep1
  refine rep_bool (reports_hash_to_field k) ?_ ?_
  all_goals repeat' rep1

theorem rep_fst {α β : Type} {success : β → Prop} {bad : Bool} {f : Res (Bool × α)} {g : Bool × α → Res β} (hf : Reports f fun r => r.1 = true) (h1 : ∀ x, Rep bad (g (true, x)) success)
    (h0 : ∀ x, Rep true (g (false, x)) success) : Rep bad (f >>= g) success := by
  refine Rep.bind hf ?_ ?_
  · rintro ⟨a, x⟩ h
    obtain rfl : a = true := h
    exact h1 x
  · rintro ⟨a, x⟩ h
    cases a with
    | true => exact absurd rfl h
    | false => exact h0 x

theorem reports_dstu_do_sign (k n : Nat) : Reports (dstu_do_sign false k n) fun b => b = true := by
  apply Rep.reports
  unfold dstu_do_sign
  repeat' rep1
  refine rep_fst (reports_signBody k n) (fun x => ?_) (fun x => ?_)
  all_goals simp only
  all_goals repeat' rep1

theorem reports_verifyBody (k k' : Nat) : Reports (verifyBody false k k') fun r => r.1 = true := by
  apply Rep.reports
  unfold verifyBody
  repeat' rep1
  refine rep_bool (reports_hash_to_field k) ?_ ?_
  all_goals repeat' rep1

theorem reports_dstu_do_verify (k k' : Nat) : Reports (dstu_do_verify false k k') fun b => b = true := by
  apply Rep.reports
  unfold dstu_do_verify
  repeat' rep1
  refine rep_fst (reports_verifyBody k k') (fun x => ?_) (fun x => ?_)
  all_goals simp only
  all_goals repeat' rep1

theorem rep_own {β α : Type} {success : β → Prop} {bad : Bool} {f : Res (Option α)} {g : Option α → Res β} (hf : Reports f fun r => r ≠ none) (h1 : ∀ x, Rep bad (g (some x)) success)
    (h0 : Rep true (g none) success) : Rep bad (f >>= g) success := by
  refine Rep.bind hf ?_ ?_
  · rintro (_ | x) h
    · exact absurd rfl h
    · exact h1 x
  · rintro (_ | x) h
    · exact h0
    · exact absurd (by simp) h

theorem reports_copy_sbox : Reports copy_sbox fun r => r ≠ none := by
  apply Rep.reports
  unfold copy_sbox
  rw [← bind_pure' (alloc .malloc)]
  repeat' rep1

theorem reports_DSTU_KEY_free (k : Option KeyPtr) : Reports (DSTU_KEY_free k) fun _ => True := by
  apply Rep.reports
  cases k with
  | none => exact Rep.pure fun _ => rfl
  | some k =>
    unfold DSTU_KEY_free
    repeat' rep1
    exact Rep.of (reports_free _) fun _ h => h

theorem reports_DSTU_KEY_CTX_set (k : CtxPtr) (g b : Option Nat) : Reports (DSTU_KEY_CTX_set k g b) fun _ => True := by
  apply Rep.reports
  unfold DSTU_KEY_CTX_set
  repeat' rep1

theorem reports_keygenBody (c : CtxPtr) (k : KeyPtr) (n : Nat) : Reports (keygenBody c k n) fun r => r.1 = true := by
  apply Rep.reports
  unfold keygenBody
  repeat' rep1
  all_goals refine rep_bool (reports_dstu_generate_key n) ?_ ?_
  all_goals repeat' rep1
  all_goals refine rep_own reports_copy_sbox (fun x => ?_) ?_
  all_goals repeat' rep1

theorem reports_keygenKey (c : CtxPtr) (n : Nat) : Reports (keygenKey c n) fun r => r ≠ none := by
  apply Rep.reports
  unfold keygenKey
  refine rep_own reports_DSTU_KEY_new (fun x => ?_) ?_
  · simp only
    refine rep_fst (reports_keygenBody c x n) (fun x => ?_) (fun x => ?_)
    · repeat' rep1
    · repeat' rep1
      refine rep_unit (reports_DSTU_KEY_free _) fun _ => ?_
      repeat' rep1
  · repeat' rep1

theorem reports_dstu_pkey_keygen (c : CtxPtr) (n : Nat) : Reports (dstu_pkey_keygen c n) fun r => r.2 ≠ none := by
  apply Rep.reports
  unfold dstu_pkey_keygen
  repeat' rep1
  · refine rep_own reports_group_from_named_curve (fun x => ?_) ?_
    · repeat' rep1
      refine rep_own (reports_keygenKey _ n) (fun x => ?_) ?_
      all_goals repeat' rep1
    · repeat' rep1
  · refine rep_own (reports_keygenKey _ n) (fun x => ?_) ?_
    all_goals repeat' rep1

theorem reports_ctrlSbox (c : CtxPtr) : Reports (ctrlSbox c) fun r => r.1 = true := by
  apply Rep.reports
  unfold ctrlSbox
  repeat' rep1
  refine rep_own reports_copy_sbox (fun x => ?_) ?_
  · repeat' rep1
    refine rep_unit (reports_DSTU_KEY_CTX_set _ _ _) fun _ => ?_
    repeat' rep1
  · repeat' rep1

theorem reports_ctrlCurve (c : CtxPtr) : Reports (ctrlCurve c) fun r => r.1 = true := by
  apply Rep.reports
  unfold ctrlCurve
  repeat' rep1
  refine rep_unit (reports_DSTU_KEY_CTX_set _ _ _) fun _ => ?_
  repeat' rep1

theorem reports_ctrlStrCurve (c : CtxPtr) : Reports (ctrlStrCurve c) fun r => r.1 = true := by
  apply Rep.reports
  unfold ctrlStrCurve
  repeat' rep1
  refine rep_own reports_group_from_nid (fun x => ?_) ?_
  · repeat' rep1
    refine rep_fst (reports_ctrlCurve c) (fun x => ?_) (fun x => ?_)
    all_goals repeat' rep1
  · repeat' rep1

theorem reports_ctrlStrSbox (c : CtxPtr) : Reports (ctrlStrSbox c) fun r => r.1 = true := by
  apply Rep.reports
  unfold ctrlStrSbox
  repeat' rep1
  refine rep_fst (reports_ctrlSbox c) (fun x => ?_) (fun x => ?_)
  all_goals repeat' rep1

theorem reports_privBody (k : KeyPtr) : Reports (privBody k) fun b => b = true := by
  apply Rep.reports
  unfold privBody
  repeat' rep1
  refine rep_bool reports_dstu_add_public_key ?_ ?_
  all_goals repeat' rep1

theorem reports_dstu_asn1_param_encode (m n : Nat) (h : Reports (asn1_from_key m n) fun r => r ≠ none) : Reports (dstu_asn1_param_encode m n) fun r => 0 < r.1 := by
  apply Rep.reports
  unfold dstu_asn1_param_encode
  repeat' rep1
  refine rep_own h (fun x => ?_) ?_
  all_goals repeat' rep1

end Fail
end Dstu
