import Verif.Lemmas.Res
import Verif.Spec.FailLib

/-! The failure paths of dstulib. -/

namespace Dstu

namespace Fail

open Res

variable {H : Fate → Prop}

theorem safe_copy_sbox : Safe H copy_sbox 0 own := safe_alloc _

theorem safe_namedBody : Safe H namedBody 0 (fun r => own r.1 + (own r.2.1 + own r.2.2)) := by
  unfold namedBody
  repeat' res1

theorem safe_group_from_named_curve : Safe H group_from_named_curve 0 own := by
  unfold group_from_named_curve
  res1
  · repeat' res1
  · res1
    refine step_any safe_namedBody fun ⟨ret, P, group⟩ => ?_
    simp only [add_assoc]
    repeat' res1

theorem safe_curve_nid_from_group : Safe H curve_nid_from_group 0 fun _ => 0 := by
  unfold curve_nid_from_group
  res1; res1
  · refine step_own safe_group_from_named_curve ?_ fun p => ?_
    · repeat' res1
    · repeat' res1
  · repeat' res1

theorem safe_group_from_nid : Safe H group_from_nid 0 own := by
  unfold group_from_nid
  res1; res1
  · exact safe_group_from_named_curve
  · repeat' res1

theorem safe_addPublic : Safe H addPublic 0 fun _ => 0 := by
  unfold addPublic
  repeat' res1

theorem safe_dstu_add_public_key : Safe H dstu_add_public_key 0 fun _ => 0 := by
  unfold dstu_add_public_key addPublic
  repeat' res1

theorem safe_generateBody (n : Nat) : Safe H (generateBody n) 0 fun _ => 0 := by
  unfold generateBody randRounds
  repeat' res1
  exact safe_dstu_add_public_key

theorem safe_dstu_generate_key (n : Nat) : Safe H (dstu_generate_key n) 0 fun _ => 0 := by
  unfold dstu_generate_key
  res1; res1
  · repeat' res1
  · res1
    · repeat' res1
    · res1
      refine step_zero (safe_generateBody n) fun b => ?_
      repeat' res1

theorem safe_traceRounds (n : Nat) : Safe H (traceRounds n) 0 fun _ => 0 := by
  induction n with
  | zero => exact Safe.pure rfl
  | succ n ih =>
    unfold traceRounds
    res1; res1
    · exact ih
    · repeat' res1

theorem safe_bn_trace (hn : ∀ w, H w → Never .weak w) (n : Nat) {b : Bool} (hb : b = true) : Safe H (bn_trace b n) 0 fun _ => 0 := by
  subst hb
  unfold bn_trace getTrace
  refine step_ask_ok hn ?_
  res1; res1; res1
  · refine step_zero (safe_traceRounds n) fun b => ?_
    repeat' res1
  · repeat' res1

theorem safe_compressBody (hn : ∀ w, H w → Never .weak w) (n : Nat) : Safe H (compressBody n) 0 fun _ => 0 := by
  unfold compressBody
  repeat' res1
  refine step_zero (safe_bn_trace hn n (by simp_all)) fun t => ?_
  repeat' res1

theorem safe_dstu_point_compress (hn : ∀ w, H w → Never .weak w) (n : Nat) : Safe H (dstu_point_compress n) 0 fun _ => 0 := by
  unfold dstu_point_compress
  repeat' res1
  refine step_zero (safe_compressBody hn n) fun b => ?_
  repeat' res1

theorem safe_expandNonzero (hn : ∀ w, H w → Never .weak w) (n : Nat) {y x2 : Bool} (hy : y = true) (hx : x2 = true) : Safe H (expandNonzero y x2 n) 0 fun _ => 0 := by
  subst hy hx
  unfold expandNonzero
  repeat' res1
  refine step_zero (safe_bn_trace hn n (by simp_all)) fun t => ?_
  repeat' res1
  refine step_zero (safe_bn_trace hn n (by simp_all)) fun t => ?_
  repeat' res1

theorem safe_expandBody (hn : ∀ w, H w → Never .weak w) (n : Nat) : Safe H (expandBody n) 0 fun _ => 0 := by
  unfold expandBody
  repeat' res1
  exact safe_expandNonzero hn n (by simp_all) (by simp_all)

theorem safe_dstu_point_expand (hn : ∀ w, H w → Never .weak w) (n : Nat) : Safe H (dstu_point_expand n) 0 fun _ => 0 := by
  unfold dstu_point_expand
  repeat' res1
  refine step_zero (safe_expandBody hn n) fun b => ?_
  repeat' res1

theorem safe_DSTU_KEY_new : Safe H DSTU_KEY_new 0 keyOwn := by
  unfold DSTU_KEY_new
  repeat' res1
  all_goals simp only [keyOwn, own_some, own_none, add_zero]
  abel

theorem step_key_new {β : Type} {pre : Multiset Nat} {post : β → Multiset Nat} {g : Option KeyPtr → Res β} (h0 : Safe H (g none) pre post)
    (h1 : ∀ p q, Safe H (g (some ⟨some p, some q, none⟩)) ({p} + ({q} + pre)) post) : Safe H (DSTU_KEY_new >>= g) pre post := by
  unfold DSTU_KEY_new
  repeat' res1
  all_goals try exact h0
  rw [add_left_comm]
  exact h1 _ _

theorem safe_DSTU_KEY_free {self ec sbox : Option Nat} {p : Nat} (hp : self = some p) : Safe H (DSTU_KEY_free (some ⟨self, ec, sbox⟩)) (own self + (own ec + own sbox)) fun _ => 0 := by
  unfold DSTU_KEY_free
  subst hp
  rw [own_some]
  repeat' res1

theorem safe_keySetSbox (p : Nat) (e0 s0 sbox : Option Nat) :
    Safe H (keySetSbox ⟨some p, e0, s0⟩ sbox) (keyOwn (some ⟨some p, e0, s0⟩) + own sbox) fun r => keyOwn (some r) := by
  unfold keySetSbox
  split
  · rename_i h
    subst h
    exact Safe.pure (add_zero _)
  · simp only [keyOwn]
    have : own (some p) + (own e0 + own s0) + own sbox = own s0 + (own (some p) + (own e0 + own sbox)) := by abel
    rw [this]
    repeat' res1

theorem safe_DSTU_KEY_set (p : Nat) (e0 s0 ec sbox : Option Nat) :
    Safe H (DSTU_KEY_set ⟨some p, e0, s0⟩ ec sbox) (keyOwn (some ⟨some p, e0, s0⟩) + (own ec + own sbox)) fun r => keyOwn (some r) := by
  unfold DSTU_KEY_set
  simp only [keyOwn, own_some, add_assoc]
  res1
  split
  · rename_i h
    subst h
    have := safe_keySetSbox (H := H) p e0 s0 sbox
    simpa only [keyOwn, own_some, own_none, add_zero, zero_add, add_assoc] using this
  · have h := safe_keySetSbox (H := H) p ec s0 sbox
    have e : ({p} : Multiset Nat) + (own e0 + (own s0 + (own ec + own sbox))) = own e0 + ({p} + (own ec + own s0) + own sbox) := by abel
    rw [e]
    simp only [keyOwn, own_some] at h
    res1
    exact h

theorem safe_customBody (hn : ∀ w, H w → Never .weak w) (m n : Nat) : Safe H (customBody m n) 0 fun r => own r.2 := by
  unfold customBody
  repeat' res1
  refine step_zero (safe_dstu_point_compress hn n) fun b => ?_
  repeat' res1

theorem safe_asn1Body (hn : ∀ w, H w → Never .weak w) (p m n : Nat) :
    Safe H (asn1Body (some p) m n) {p} fun r => {p} + (own r.2.1 + own r.2.2) := by
  unfold asn1Body
  repeat' res1
  all_goals refine step_zero safe_curve_nid_from_group fun b => ?_
  all_goals res1
  all_goals res1; res1; res1
  all_goals try (repeat' res1; done)
  all_goals refine step_alloc_ok hn fun q => ?_
  all_goals res1
  all_goals refine step_any (safe_customBody hn m n) fun ⟨ok, c⟩ => ?_
  all_goals repeat' res1

theorem safe_asn1_from_key (hn : ∀ w, H w → Never .weak w) (m n : Nat) : Safe H (asn1_from_key m n) 0 own := by
  unfold asn1_from_key
  res1; res1
  · repeat' res1
  · refine step_alloc_ok hn fun q => ?_
    rw [add_zero]
    refine Safe.bind (safe_asn1Body hn q m n) 0 (add_zero _).symm fun ⟨ok, c, x⟩ => ?_
    simp only [add_zero]
    repeat' res1

theorem safe_decodeBytes {f : Res Bool} (little : Bool) (hf : Safe H f 0 fun _ => 0) : Safe H (decodeBytes little f) 0 fun _ => 0 := by
  unfold decodeBytes
  res1
  · res1
    · repeat' res1
    · res1; res1
      refine step_zero hf fun b => ?_
      repeat' res1
  · exact hf

theorem safe_groupBody (hn : ∀ w, H w → Never .weak w) (little : Bool) (n : Nat) : Safe H (groupBody little n) 0 fun r => own r.1 + (own r.2.1 + own r.2.2) := by
  unfold groupBody
  repeat' res1
  refine step_zero (safe_decodeBytes little (safe_calls 1)) fun b => ?_
  repeat' res1
  refine step_zero (safe_decodeBytes little (safe_dstu_point_expand hn n)) fun b => ?_
  repeat' res1

theorem safe_group_from_asn1 (hn : ∀ w, H w → Never .weak w) (little : Bool) (n : Nat) : Safe H (group_from_asn1 little n) 0 own := by
  unfold group_from_asn1
  repeat' res1
  refine step_any (safe_groupBody hn little n) fun ⟨ret, g, group⟩ => ?_
  simp only [add_assoc]
  repeat' res1

theorem safe_keyBody (hn : ∀ w, H w → Never .weak w) (p q : Nat) (little : Bool) (n : Nat) :
    Safe H (keyBody ⟨some p, some q, none⟩ little n) ({p} + {q}) fun r => own r.2.2 + ({p} + ({q} + own r.2.1)) := by
  unfold keyBody copy_sbox
  repeat' res1
  all_goals try (exfalso; simp_all; done)
  all_goals first | refine step_own safe_group_from_nid ?_ fun r => ?_ | refine step_own (safe_group_from_asn1 hn little n) ?_ fun r => ?_
  all_goals repeat' res1

theorem safe_key_from_asn1 (hn : ∀ w, H w → Never .weak w) (little : Bool) (n : Nat) : Safe H (key_from_asn1 little n) 0 keyOwn := by
  unfold key_from_asn1
  refine step_key_new (Safe.pure rfl) fun p q => ?_
  simp only [add_zero]
  refine Safe.bind (safe_keyBody hn p q little n) 0 (add_zero _).symm fun ⟨ok, s, g⟩ => ?_
  simp only [add_zero]
  res1; res1
  · exact Safe.pure rfl
  · refine Safe.bind (safe_DSTU_KEY_free rfl) 0 (add_zero _).symm fun _ => ?_
    exact Safe.pure rfl

theorem step_ctx_new {β : Type} {pre : Multiset Nat} {post : β → Multiset Nat} {g : Option CtxPtr → Res β} (h0 : Safe H (g none) pre post)
    (h1 : ∀ p, Safe H (g (some ⟨some p, none, none⟩)) ({p} + pre) post) : Safe H (DSTU_KEY_CTX_new >>= g) pre post := by
  unfold DSTU_KEY_CTX_new
  repeat' res1
  · exact h0
  · exact h1 _

theorem safe_DSTU_KEY_CTX_free {self group sbox : Option Nat} {p : Nat} (hp : self = some p) :
    Safe H (DSTU_KEY_CTX_free (some ⟨self, group, sbox⟩)) (own self + (own group + own sbox)) fun _ => 0 := by
  unfold DSTU_KEY_CTX_free
  subst hp
  rw [own_some]
  repeat' res1

theorem safe_DSTU_KEY_CTX_set (p : Nat) (g0 s0 group sbox : Option Nat) :
    Safe H (DSTU_KEY_CTX_set ⟨some p, g0, s0⟩ group sbox) (ctxOwn (some ⟨some p, g0, s0⟩) + (own group + own sbox)) fun r => ctxOwn (some r) := by
  unfold DSTU_KEY_CTX_set
  simp only [ctxOwn, own_some, add_assoc]
  cases group <;> cases sbox <;> repeat' res1
  all_goals simp only [if_pos, reduceCtorEq, if_false]
  all_goals balance

theorem safe_DSTU_KEY_CTX_copy (p : Nat) (g0 s0 : Option Nat) : Safe H (DSTU_KEY_CTX_copy ⟨some p, g0, s0⟩) {p} fun r => {p} + ctxOwn r := by
  unfold DSTU_KEY_CTX_copy copy_sbox
  refine step_ctx_new (Safe.pure rfl) fun q => ?_
  cases g0 <;> cases s0 <;> repeat' res1
  all_goals try (exfalso; simp_all; done)
  all_goals try (simp only [ctxOwn]; balance)
  all_goals refine Safe.bind (safe_DSTU_KEY_CTX_free rfl) {p} (by balance) fun _ => ?_
  all_goals exact Safe.pure (by simp only [ctxOwn]; balance)

/-! Reports of success. -/

theorem reports_namedBody : Reports namedBody fun r => r.1 ≠ none := by
  apply Rep.reports
  unfold namedBody
  repeat' rep1

theorem reports_group_from_named_curve : Reports group_from_named_curve fun r => r ≠ none := by
  apply Rep.reports
  unfold group_from_named_curve
  repeat' rep1
  refine Rep.bind reports_namedBody (fun ⟨r, P, g⟩ h => ?_) (fun ⟨r, P, g⟩ h => ?_)
  all_goals repeat' rep1

theorem reports_group_from_nid : Reports group_from_nid fun r => r ≠ none := by
  apply Rep.reports
  unfold group_from_nid
  repeat' rep1
  exact Rep.of reports_group_from_named_curve fun _ h => h

theorem reports_dstu_add_public_key : Reports dstu_add_public_key fun b => b = true := by
  apply Rep.reports
  unfold dstu_add_public_key addPublic
  repeat' rep1

theorem reports_generateBody (n : Nat) : Reports (generateBody n) fun b => b = true := by
  apply Rep.reports
  unfold generateBody randRounds
  repeat' rep1
  exact Rep.of reports_dstu_add_public_key fun _ h => h

theorem reports_dstu_generate_key (n : Nat) : Reports (dstu_generate_key n) fun b => b = true := by
  apply Rep.reports
  unfold dstu_generate_key
  repeat' rep1
  refine rep_bool (reports_generateBody n) ?_ ?_
  all_goals repeat' rep1

theorem reports_traceRounds (n : Nat) : Reports (traceRounds n) fun b => b = true := by
  induction n with
  | zero => exact (Rep.pure fun _ => rfl).reports
  | succ n ih =>
    apply Rep.reports
    unfold traceRounds
    repeat' rep1
    exact Rep.of ih fun _ h => h

theorem reports_getTrace : Reports (getTrace true) fun b => b = true := by
  intro w c r c' e s
  have e : ask .weak w c = some (r, c') := e
  unfold ask at e
  simp only [Option.some.injEq, Prod.mk.injEq] at e
  obtain ⟨rfl, rfl⟩ := e
  simp [s]

theorem reports_bn_trace (n : Nat) : Reports (bn_trace true n) fun t => t ≠ -1 := by
  apply Rep.reports
  unfold bn_trace
  refine rep_bool reports_getTrace ?_ ?_
  all_goals repeat' rep1
  refine rep_bool (reports_traceRounds n) ?_ ?_
  all_goals repeat' rep1

theorem reports_compressBody (n : Nat) : Reports (compressBody n) fun b => b = true := by
  apply Rep.reports
  unfold compressBody
  repeat' rep1
  refine Rep.bind (reports_bn_trace n) (fun t h => ?_) (fun t h => ?_)
  · repeat' rep1
  · rw [if_pos (by simpa using h)]
    repeat' rep1

theorem reports_dstu_point_compress (n : Nat) : Reports (dstu_point_compress n) fun b => b = true := by
  apply Rep.reports
  unfold dstu_point_compress
  repeat' rep1
  refine rep_bool (reports_compressBody n) ?_ ?_
  all_goals repeat' rep1

theorem reports_DSTU_KEY_new : Reports DSTU_KEY_new fun k => k ≠ none := by
  apply Rep.reports
  unfold DSTU_KEY_new
  repeat' rep1

theorem reports_DSTU_KEY_CTX_new : Reports DSTU_KEY_CTX_new fun k => k ≠ none := by
  apply Rep.reports
  unfold DSTU_KEY_CTX_new
  repeat' rep1

theorem reports_DSTU_KEY_CTX_free (k : Option CtxPtr) : Reports (DSTU_KEY_CTX_free k) fun _ => True := by
  apply Rep.reports
  cases k with
  | none => exact Rep.pure fun _ => rfl
  | some k =>
    unfold DSTU_KEY_CTX_free
    repeat' rep1
    exact Rep.of (reports_free _) fun _ h => h

theorem reports_DSTU_KEY_CTX_copy (k : CtxPtr) : Reports (DSTU_KEY_CTX_copy k) fun k => k ≠ none := by
  apply Rep.reports
  unfold DSTU_KEY_CTX_copy copy_sbox
  refine Rep.bind reports_DSTU_KEY_CTX_new (fun c h => ?_) (fun c h => ?_)
  · cases c with
    | none => exact absurd rfl h
    | some c =>
      simp only
      repeat' rep1
      all_goals refine rep_unit (reports_DSTU_KEY_CTX_free _) fun _ => Rep.fail ?_
      all_goals simp
  · cases c with
    | none => exact Rep.fail (by simp)
    | some c => exact absurd (by simp) h

end Fail
end Dstu
