import Verif.Lemmas.FailEngine
import Verif.Props.FailLib

/-! Failures of allocations and of library calls in the engine: C77 and C78. -/

namespace Dstu.Props

open Res Fail

/-! ### C77 -/

/-- C77.  Whatever fails while a signature is made or checked, however many rounds are needed: nothing is left. -/
theorem C77_sign_raw (zero : Bool) (k n : Nat) : Safe Any (Fail.dstu_do_sign zero k n) 0 fun _ => 0 := safe_dstu_do_sign zero k n

theorem C77_verify_raw (zero : Bool) (k k' : Nat) : Safe Any (Fail.dstu_do_verify zero k k') 0 fun _ => 0 := safe_dstu_do_verify zero k k'

/-- C77, verification through the interface of keys, for both kinds of key. -/
theorem C77_verify (little zero : Bool) (k k' : Nat) : Safe Any (Fail.dstu_pkey_verify little zero k k') 0 fun _ => 0 := safe_dstu_pkey_verify little zero k k'

/-- A verification that succeeds, and one in which the third object is refused. -/
example : (Fail.dstu_pkey_verify true false 0 0 (fun k t => k ≠ .data ∨ t = 26) start).map (fun r => (r.1, r.2.live, r.2.faults)) = some (true, 0, 0) ∧
    (Fail.dstu_pkey_verify true false 0 0 (fun k t => k ≠ .data ∧ t ≠ 7) start).map (fun r => (r.1, r.2.live, r.2.faults)) = some (false, 0, 1) := by
  constructor <;> run [Fail.dstu_pkey_verify, verifyBytes, Fail.dstu_do_verify, verifyBody, Fail.hash_to_field]

/-- C77, generation of keys: the context keeps what it has, with the group it got if it had none, and the new key is all else that is left. -/
theorem C77_generate (ctx : CtxPtr) (hc : ctx.self ≠ none) (n : Nat) :
    Safe Any (Fail.dstu_pkey_keygen ctx n) (ctxOwn (some ctx)) fun r => ctxOwn (some r.1) + keyOwn r.2 := by
  obtain ⟨s, g, b⟩ := ctx
  obtain ⟨p, rfl⟩ := Option.ne_none_iff_exists'.mp hc
  exact safe_dstu_pkey_keygen p g b n

example (n : Nat) := C77_generate ⟨some 0, some 1, some 2⟩ (by simp) n

/-- A key is made from a context with a group and an S-box; and memory runs out for the S-box of the key. -/
example : (Fail.dstu_pkey_keygen ⟨some 0, some 1, some 2⟩ 0 (fun k _ => k ≠ .data) ⟨{0, 1, 2}, 3, 0, 0⟩).map (fun r => (r.1.2.map (·.sbox), r.2.faults)) = some (some (some 7), 0) ∧
    (Fail.dstu_pkey_keygen ⟨some 0, some 1, some 2⟩ 0 (fun k t => k ≠ .data ∧ t ≠ 14) ⟨{0, 1, 2}, 3, 0, 0⟩).map (fun r => (r.1.2.map (·.sbox), r.2.faults)) = some (none, 1) := by
  constructor <;> run [Fail.dstu_pkey_keygen, keygenKey, Fail.DSTU_KEY_new, keygenBody, Fail.dstu_generate_key, generateBody, randRounds, Fail.dstu_add_public_key, addPublic,
    Fail.copy_sbox, Fail.DSTU_KEY_free]

/-- C77, the data of a context: made, copied and released. -/
theorem C77_context : Safe Any Fail.dstu_pkey_init 0 ctxOwn := by
  unfold Fail.dstu_pkey_init Fail.DSTU_KEY_CTX_new
  repeat' res1
  all_goals simp only [ctxOwn]; balance

theorem C77_context_copy (src : CtxPtr) (hs : src.self ≠ none) :
    Safe Any (Fail.dstu_pkey_copy src) (ctxOwn (some src)) fun r => ctxOwn (some src) + ctxOwn r := C75_copy_context src hs

example := C77_context_copy ⟨some 0, some 1, some 2⟩ (by simp)

theorem C77_context_free (ctx : CtxPtr) (hc : ctx.self ≠ none) : Safe Any (Fail.dstu_pkey_cleanup (some ctx)) (ctxOwn (some ctx)) fun _ => 0 := C75_free_context ctx hc

example := C77_context_free ⟨some 0, some 1, some 2⟩ (by simp)

/-- C77, the parameters of a context, as values and as strings: the context has all that is left, so what is replaced is released. -/
theorem C77_control (ctx : CtxPtr) (hc : ctx.self ≠ none) :
    Safe Any (Fail.ctrlSbox ctx) (ctxOwn (some ctx)) (fun r => ctxOwn (some r.2)) ∧ Safe Any (Fail.ctrlCurve ctx) (ctxOwn (some ctx)) (fun r => ctxOwn (some r.2)) ∧
      Safe Any (Fail.ctrlStrSbox ctx) (ctxOwn (some ctx)) (fun r => ctxOwn (some r.2)) ∧ Safe Any (Fail.ctrlStrCurve ctx) (ctxOwn (some ctx)) fun r => ctxOwn (some r.2) := by
  obtain ⟨s, g, b⟩ := ctx
  obtain ⟨p, rfl⟩ := Option.ne_none_iff_exists'.mp hc
  exact ⟨safe_ctrlSbox p g b, safe_ctrlCurve p g b, safe_ctrlStrSbox p g b, safe_ctrlStrCurve p g b⟩

example := C77_control ⟨some 0, none, some 1⟩ (by simp)

/-- The S-box of a context is replaced. -/
example : (Fail.ctrlStrSbox ⟨some 0, none, some 1⟩ (fun k _ => k ≠ .data) ⟨{0, 1}, 2, 0, 0⟩).map (fun r => (r.1.1, r.1.2.sbox, r.2.live)) = some (true, some 3, {0, 3}) := by
  run [Fail.ctrlStrSbox, Fail.ctrlSbox, Fail.copy_sbox, Fail.DSTU_KEY_CTX_set]

/-- C77, the size of a signature. -/
theorem C77_size (group : Bool) : Safe Any (Fail.dstu_asn1_pkey_size group) 0 fun _ => 0 := safe_dstu_asn1_pkey_size group

/-- C77, the decoding of parameters and keys, where it holds: when the number for a trace is not refused, the only call there of the kind `weak`.  Missing: see `C77_decode_refuted`. -/
theorem C77_decode_partial (little : Bool) (n : Nat) :
    Safe (Never .weak) (Fail.dstu_asn1_param_decode little n) 0 keyOwn ∧ Safe (Never .weak) (Fail.dstu_asn1_priv_decode little n) 0 (fun r => keyOwn r.2) ∧
      Safe (Never .weak) (Fail.dstu_asn1_pub_decode little n) 0 fun r => keyOwn r.2 :=
  ⟨safe_dstu_asn1_param_decode (fun _ h => h) little n, safe_dstu_asn1_priv_decode (fun _ h => h) little n, safe_dstu_asn1_pub_decode (fun _ h => h) little n⟩

/-- A public key with a built-in curve is decoded. -/
example : (Fail.dstu_asn1_pub_decode false 0 (fun k t => k ≠ .data ∨ t = 9 ∨ t = 10 ∨ t = 46) start).map (fun r => r.1.1) = some true := by
  run [Fail.dstu_asn1_pub_decode, Fail.dstu_asn1_param_decode, Fail.key_from_asn1, Fail.DSTU_KEY_new, keyBody, Fail.group_from_nid, Fail.group_from_named_curve, namedBody, pubBody,
    Fail.dstu_point_expand, expandBody, expandNonzero, Fail.bn_trace, traceRounds]

/-- C77, the encoding of parameters and public keys, where it holds: when in addition the structure for the parameters and the context, of the same kind,
are not refused.  Missing: see `C75_encode_refuted`. -/
theorem C77_encode_partial (m n : Nat) :
    Safe (Never .weak) (Fail.dstu_asn1_param_encode m n) 0 (fun r => own r.2) ∧
      Safe (Never .weak) (Fail.dstu_asn1_pub_encode m n) 0 fun r => match r with | none => 0 | some (a, b, c) => own a + (own b + own c) :=
  ⟨safe_dstu_asn1_param_encode (fun _ h => h) m n, safe_dstu_asn1_pub_encode (fun _ h => h) m n⟩

/-- C77, the encoding of private keys, where it holds: there is a private key, not zero, and in addition the allocation for it, also of the
kind `weak`, is not refused.  Missing: see `C77_encode_private_refuted`. -/
theorem C77_encode_private_partial (m n : Nat) :
    Safe (Never .weak) (Fail.dstu_asn1_priv_encode true false m n) 0
      fun r => match r with | none => 0 | some (a, b, c) => own a + (own b + own c) :=
  safe_dstu_asn1_priv_encode (fun _ h => h) m n

/-- C77, signatures, where it holds: when the size of a signature is only asked for, or its calculation, in which calls are of the kind `weak`, does not fail.
Missing: see `C77_sign_refuted`. -/
theorem C77_sign_partial (zero : Bool) (k n : Nat) :
    Safe Any (Fail.dstu_pkey_sign false zero k n) 0 (fun _ => 0) ∧
      ∀ sig, Safe (Never .weak) (Fail.dstu_pkey_sign sig zero k n) 0 fun _ => 0 :=
  ⟨safe_dstu_pkey_sign_none zero k n, fun sig => safe_dstu_pkey_sign (fun _ h => h) sig zero k n⟩

/-- C77, the copy of parameters, where it holds: the target has no S-box.  Missing: see `C77_copy_refuted`. -/
theorem C77_copy_partial (to_key : Option KeyPtr) (h : ∀ k, to_key = some k → k.self ≠ none ∧ k.ec ≠ none ∧ k.sbox = none) :
    Safe Any (Fail.dstu_asn1_param_copy to_key) (keyOwn to_key) fun r => keyOwn r.2 := safe_dstu_asn1_param_copy to_key h

example := C77_copy_partial (some ⟨some 0, some 1, none⟩) (by rintro k ⟨rfl⟩; simp)

example : (Fail.dstu_asn1_param_copy none (fun k t => k ≠ .data ∨ t = 5) start).map (fun r => (r.1.1, r.1.2.map (·.sbox))) = some (true, some (some 2)) := by
  run [Fail.dstu_asn1_param_copy, Fail.DSTU_KEY_new, copyInto, Fail.copy_sbox]

/-- C77 fails when a buffer for the signature is too short and the size of a signature cannot be computed because there is no memory: 0 is taken for the size, and
the signature written over the end of the buffer. -/
theorem C77_sign_refuted : ∃ w, (∀ k, k ≠ .data → k ≠ .weak → Never k w) ∧ Fail.dstu_pkey_sign true false 0 0 w start = none := by
  refine ⟨fun k _ => k ≠ .data ∧ k ≠ .weak, fun k h h' _ => by simp [h, h'], ?_⟩
  run [Fail.dstu_pkey_sign, Fail.dstu_asn1_pkey_size, signInto, Fail.dstu_do_sign, signBody, Fail.hash_to_field]

/-- C77 fails when a key without private part is encoded: the encoded parameters stay allocated, although nothing failed. -/
theorem C77_encode_private_refuted (m n : Nat) : ∃ w c, Fail.dstu_asn1_priv_encode false false m n w start = some (none, c) ∧ c.faults = 0 ∧ c.live ≠ 0 := by
  refine ⟨fun k t => k ≠ .data ∨ t = 6 ∨ t = 23, ?_⟩
  run [Fail.dstu_asn1_priv_encode, privEncodeBody, Fail.dstu_asn1_param_encode, Fail.asn1_from_key, asn1Body, Fail.curve_nid_from_group, Fail.group_from_named_curve, namedBody]

/-- C77 fails when parameters are copied to a key that has an S-box: the old one stays allocated, although nothing failed. -/
theorem C77_copy_refuted : ∃ w c k, Fail.dstu_asn1_param_copy (some ⟨some 0, some 1, some 2⟩) w ⟨{0, 1, 2}, 3, 0, 0⟩ = some ((true, some k), c) ∧ c.faults = 0 ∧
    c.live = keyOwn (some k) + {2} := by
  refine ⟨fun k t => k ≠ .data ∨ 0 < t, ⟨{3, 0, 1, 2}, 4, 4, 0⟩, ⟨some 0, some 1, some 3⟩, ?_, rfl, ?_⟩
  · run [Fail.dstu_asn1_param_copy, copyInto, Fail.copy_sbox]
    decide
  · decide

/-- C77 fails when a key is printed: NULL is dereferenced for a key without parameters, and the temporary key stays allocated when it cannot be filled. -/
theorem C77_print_refuted : (∃ w, Fail.dstu_asn1_print none w start = none) ∧
    ∃ w c, Fail.dstu_asn1_print (some ⟨some 0, some 1, none⟩) w ⟨{0, 1}, 2, 0, 0⟩ = some (false, c) ∧ c.live = {2} + {0, 1} := by
  refine ⟨⟨fun _ _ => true, ?_⟩, ⟨fun k _ => k ≠ .call, ⟨{2, 0, 1}, 3, 2, 1⟩, ?_, by decide⟩⟩
  · run [Fail.dstu_asn1_print]
  · run [Fail.dstu_asn1_print]
    exact Multiset.cons_swap _ _ _

/-- C77 fails when a key with parameters of its own is decoded: when there is no memory for the number needed for a trace, NULL is dereferenced. -/
theorem C77_decode_refuted (n : Nat) : ∃ w, Fail.dstu_asn1_pub_decode false n w start = none := by
  refine ⟨fun k t => if k = .data then t = 9 ∨ t = 10 else k ≠ .weak, ?_⟩
  run [Fail.dstu_asn1_pub_decode, Fail.dstu_asn1_param_decode, Fail.key_from_asn1, Fail.DSTU_KEY_new, keyBody, Fail.group_from_nid, Fail.group_from_named_curve, namedBody, pubBody,
    Fail.dstu_point_expand, expandBody, expandNonzero, Fail.bn_trace, traceRounds]

/-! ### C78 -/

/-- C78.  A signature is only made, or accepted, when no call has failed, if the hash is not zero. -/
theorem C78_sign_raw_partial (k n : Nat) : Reports (Fail.dstu_do_sign false k n) fun b => b = true := reports_dstu_do_sign k n

theorem C78_verify_raw_partial (k k' : Nat) : Reports (Fail.dstu_do_verify false k k') fun b => b = true := reports_dstu_do_verify k k'

/-- C78, generation of keys. -/
theorem C78_generate (ctx : CtxPtr) (n : Nat) : Reports (Fail.dstu_pkey_keygen ctx n) fun r => r.2 ≠ none := reports_dstu_pkey_keygen ctx n

/-- C78, the parameters of a context. -/
theorem C78_control (ctx : CtxPtr) :
    Reports (Fail.ctrlSbox ctx) (fun r => r.1 = true) ∧ Reports (Fail.ctrlCurve ctx) (fun r => r.1 = true) ∧
      Reports (Fail.ctrlStrSbox ctx) (fun r => r.1 = true) ∧ Reports (Fail.ctrlStrCurve ctx) fun r => r.1 = true :=
  ⟨reports_ctrlSbox ctx, reports_ctrlCurve ctx, reports_ctrlStrSbox ctx, reports_ctrlStrCurve ctx⟩

theorem C78_context_copy (src : CtxPtr) : Reports (Fail.dstu_pkey_copy src) fun r => r ≠ none := reports_DSTU_KEY_CTX_copy src

/-- C78 fails for the size of a signature: with no buffer, success is reported, although the size is not known, being given as 0. -/
theorem C78_size_refuted : ∃ w c, Fail.dstu_pkey_sign false false 0 0 w start = some (true, c) ∧ c.faults ≠ 0 := by
  refine ⟨fun k _ => k ≠ .data ∧ k ≠ .weak, ?_⟩
  run [Fail.dstu_pkey_sign, Fail.dstu_asn1_pkey_size]

/-- C78 fails for the encoding of private keys: with no memory for the encoded parameters, success is reported and there are none. -/
theorem C78_encode_private_refuted (m n : Nat) :
    ∃ w c p q, Fail.dstu_asn1_priv_encode true false m n w start = some (some (p, none, q), c) ∧ c.faults ≠ 0 := by
  refine ⟨fun k t => (k ≠ .data ∨ t = 6 ∨ t = 23) ∧ t ≠ 25, ?_⟩
  run [Fail.dstu_asn1_priv_encode, privEncodeBody, Fail.dstu_asn1_param_encode, Fail.asn1_from_key, asn1Body, Fail.curve_nid_from_group, Fail.group_from_named_curve, namedBody]

/-- C78 fails for the verification of signatures: it goes on when the signature cannot be decoded for lack of memory, taking the encoded signature for the signature. -/
theorem C78_verify_refuted : ∃ w c, Fail.dstu_pkey_verify false false 0 0 w start = some (true, c) ∧ c.faults ≠ 0 := by
  refine ⟨fun k t => (k ≠ .data ∨ t = 25) ∧ t ≠ 3, ?_⟩
  run [Fail.dstu_pkey_verify, verifyBytes, Fail.dstu_do_verify, verifyBody, Fail.hash_to_field]

end Dstu.Props
