import Verif.Lemmas.StepsAttack
import Verif.Lemmas.CipherApi
import Verif.Lemmas.Md
import Verif.Props.Cipher

/-!
# Property C117: what the running time and the caches show
-/

namespace Dstu

open Tr

theorem updates_result (ctx : CipherCtx) (hi : ctx.Inv) (ps : List (List Byte)) (hp : ∀ p ∈ ps, p ≠ []) : result (updates_steps ctx ps) = Spec.feed ctx ps := by
  induction ps generalizing ctx with
  | nil => rfl
  | cons p ps ih =>
    obtain ⟨c, h1, h2, _, _⟩ := do_cipher_brun ctx hi p (hp p (by simp))
    have hl : (brun (gostcrypt ctx.g) ctx.encrypting ctx.bs p).2.length = p.length := brun_length _ _ _ _
    simp only [updates_steps, result_bind, do_cipher_result, h1, bind_some', ih c h2 fun q hq => hp q (by simp [hq]), Spec.feed, hl, and_self, if_true]
    cases Spec.feed c ps <;> rfl

theorem some_of_result {α : Type} {x : Tr α} {a : α} (h : result x = some a) : ∃ t, x = some (a, t) := by
  rcases x with _ | ⟨b, t⟩
  · simp [result] at h
  · simp only [result, Option.map_some, Option.some.injEq] at h
    exact ⟨t, by rw [h]⟩

theorem blocks_result (T) (c : GostCtx) (hc : c.Tables T) (h : HashCtx) (m : List Byte) (hm : h.After T m) (ps : List (List Byte)) (hl : (m ++ ps.flatten).length < 2 ^ 60) :
    result (blocks_steps c h ps) = some (Spec.gost34311 T (m ++ ps.flatten)) := by
  induction ps generalizing c h m with
  | nil =>
    simp only [List.flatten_nil, List.append_nil] at hl ⊢
    obtain ⟨c', e, _⟩ := finish_after c T hc h m hm hl
    simp only [blocks_steps, result_bind, finish_hash_result, e, bind_some']
    rfl
  | cons p ps ih =>
    simp only [List.flatten_cons, ← List.append_assoc] at hl ⊢
    obtain ⟨c', h', e, hc', hm'⟩ := hash_block_after c T hc h m hm p (by simp only [List.length_append] at hl ⊢; omega)
    simp only [blocks_steps, result_bind, hash_block_result, e, bind_some']
    exact ih c' hc' h' _ hm' hl

theorem init_trace (ctx : CipherCtx) (rnd : Vector W32 8) (key : Bytes 32) (iv : Bytes 8) :
    ∃ c, dstu_cipher_init_steps ctx rnd (some key) (some iv) =
      some (c, .test true :: .test true :: (gostcrypt_steps (gost_key (gost_init ctx.g (some (unpack_sbox default_sbox))) rnd key) iv).2) := by
  rw [← List.append_nil (gostcrypt_steps (gost_key (gost_init ctx.g (some (unpack_sbox default_sbox))) rnd key) iv).2]
  exact ⟨_, rfl⟩

end Dstu

namespace Dstu.Props

open Dstu

/-! ## What does not depend on secrets -/

/-- C117, the cipher: messages cut into pieces of the same lengths, encrypted or decrypted under any two keys and initialisation vectors in contexts with any history: both
runs succeed and to the observer of the running time they are the same.  Missing in this part: the observer of the caches, see `C117_key_refuted`. -/
theorem C117_cipher_partial (ctx ctx' : CipherCtx) (hd : ctx.encrypting = ctx'.encrypting) (rnd rnd' : Vector W32 8) (key key' : Bytes 32) (iv iv' : Bytes 8)
    (pieces pieces' : List (List Byte)) (hp : ∀ p ∈ pieces, p ≠ []) (hl : pieces.map List.length = pieces'.map List.length) :
    ∃ out t out' t', cipher_session_steps ctx rnd key iv pieces = some (out, t) ∧ cipher_session_steps ctx' rnd' key' iv' pieces' = some (out', t') ∧
      Spec.timing t = Spec.timing t' ∧
      (ctx.encrypting = true → out = Spec.cfbEncrypt (Spec.encrypt (Spec.tableOf default_sbox) key) iv pieces.flatten) ∧
      (ctx.encrypting = false → out = Spec.cfbDecrypt (Spec.encrypt (Spec.tableOf default_sbox) key) iv pieces.flatten) := by
  have hp' : ∀ p ∈ pieces', p ≠ [] := by
    intro p h0 hn
    have : (0 : Nat) ∈ pieces'.map List.length := List.mem_map.2 ⟨p, h0, by rw [hn]; rfl⟩
    rw [← hl] at this
    obtain ⟨q, hq, h⟩ := List.mem_map.1 this
    exact hp q hq (List.length_eq_zero_iff.1 h)
  have key_run : ∀ (c : CipherCtx) (r : Vector W32 8) (k : Bytes 32) (v : Bytes 8) (ps : List (List Byte)), (∀ p ∈ ps, p ≠ []) →
      ∃ out t, cipher_session_steps c r k v ps = some (out, t) ∧
        (c.encrypting = true → out = Spec.cfbEncrypt (Spec.encrypt (Spec.tableOf default_sbox) k) v ps.flatten) ∧
        (c.encrypting = false → out = Spec.cfbDecrypt (Spec.encrypt (Spec.tableOf default_sbox) k) v ps.flatten) := by
    intro c r k v ps hps
    have hs := init_start c r (some k) v
    obtain ⟨c1, hf, _⟩ := feed_brun _ hs.inv ps hps
    have hres : Tr.result (cipher_session_steps c r k v ps) = some (brun (gostcrypt (dstu_cipher_init c r (some k) (some v)).g) (dstu_cipher_init c r (some k) (some v)).encrypting
        (dstu_cipher_init c r (some k) (some v)).bs ps.flatten).2 := by
      simp only [cipher_session_steps, Tr.result_bind, init_result, bind_some', updates_result _ hs.inv ps hps, hf]
      rfl
    obtain ⟨t, ht⟩ := some_of_result hres
    refine ⟨_, t, ht, fun he => ?_, fun he => ?_⟩
    · rw [hs.bs, init_encrypting, he, brun_cfbEncrypt, init_encrypt]
    · rw [hs.bs, init_encrypting, he, brun_cfbDecrypt, init_encrypt]
  obtain ⟨out, t, h1, h2⟩ := key_run ctx rnd key iv pieces hp
  obtain ⟨out', t', h1', _⟩ := key_run ctx' rnd' key' iv' pieces' hp'
  refine ⟨out, t, out', t', h1, h1', ?_, h2⟩
  have ha : Alike (fun _ _ => True) (cipher_session_steps ctx rnd key iv pieces) (cipher_session_steps ctx' rnd' key' iv' pieces') := by
    have h0 : Alike CipherCtx.Alike (dstu_cipher_init_steps ctx rnd (some key) (some iv)) (dstu_cipher_init_steps ctx' rnd' (some key') (some iv')) :=
      .bind (.test _) fun _ _ _ => .bind (.test _) fun _ _ _ => .bind (R := fun _ _ => True) (.steps trivial (gostcrypt_hidden _ _ _ _)) fun a b _ => .pure ⟨rfl, hd⟩
    exact .bind h0 fun c c' hc => .bind (updates_alike _ _ _ _ hc hl) fun _ _ _ => .pure trivial
  rw [h1, h1'] at ha
  exact ha.2

example := C117_cipher_partial (blankCtx true) (blankCtx true) rfl demoMask (Vector.replicate 8 0) demoKey (zeros 32) demoIv (zeros 8)
  [[0x31], [0x32, 0x33, 0x34, 0x35, 0x36, 0x37, 0x38, 0x39, 0x30]] [[0], [1, 2, 3, 4, 5, 6, 7, 8, 9]] (by decide) rfl

/-- What is observed is not trivial: other lengths take other times. -/
example : (cipher_session_steps (blankCtx true) demoMask demoKey demoIv [[1]]).map (fun r => Spec.timing r.2) ≠
    (cipher_session_steps (blankCtx true) demoMask demoKey demoIv [[1, 2]]).map (fun r => Spec.timing r.2) := by
  intro h
  have := congrArg (Option.map List.length) h
  revert this
  decide +kernel

/-- C117, the digest: messages cut into pieces of the same lengths, with any S-boxes, take the same time.  Missing in this part: the observer of the caches. -/
theorem C117_digest_partial (sbox sbox' : Bytes 64) (pieces pieces' : List (List Byte)) (hl : pieces.map List.length = pieces'.map List.length)
    (hlen : pieces.flatten.length < 2 ^ 60) :
    ∃ t t', digest_steps sbox pieces = some (Spec.gost34311 (Spec.tableOf sbox) pieces.flatten, t) ∧
      digest_steps sbox' pieces' = some (Spec.gost34311 (Spec.tableOf sbox') pieces'.flatten, t') ∧ Spec.timing t = Spec.timing t' := by
  have run : ∀ (sb : Bytes 64) (ps : List (List Byte)), ps.flatten.length < 2 ^ 60 → ∃ t, digest_steps sb ps = some (Spec.gost34311 (Spec.tableOf sb) ps.flatten, t) := by
    intro sb ps h
    refine some_of_result ?_
    have := blocks_result (Spec.tableOf sb) _ (kboxinit_tables MdData.zero.cctx _ _ (unpack_holds sb)) HashCtx.zero [] (zero_after _) ps (by simpa using h)
    rw [List.nil_append] at this
    exact this
  have hlen' : pieces'.flatten.length < 2 ^ 60 := by
    rw [List.length_flatten, ← hl, ← List.length_flatten]
    exact hlen
  obtain ⟨t, h1⟩ := run sbox pieces hlen
  obtain ⟨t', h1'⟩ := run sbox' pieces' hlen'
  refine ⟨t, t', h1, h1', ?_⟩
  have ha : Alike (fun _ _ => True) (digest_steps sbox pieces) (digest_steps sbox' pieces') := blocks_alike _ _ _ _ _ _ ⟨rfl, rfl⟩ hl
  rw [h1, h1'] at ha
  exact ha.2

example := C117_digest_partial default_sbox demoSbox [[1, 2, 3], List.replicate 40 7] [[4, 5, 6], List.replicate 40 0] (by decide) (by decide)

/-- C117, the generator: whatever the seed, drawing bits takes the same time.  Missing in this part: the observer of the caches, see `C117_generator_refuted`. -/
theorem C117_generator_partial (n : Nat) (seed seed' : Bytes 40) (date date' : Bytes 8) :
    Spec.timing ((rbg_init_steps seed date .boot).2 ++ (rbg_bits_steps n (rbg_init_steps seed date .boot).1).2) =
      Spec.timing ((rbg_init_steps seed' date' .boot).2 ++ (rbg_bits_steps n (rbg_init_steps seed' date' .boot).1).2) :=
  hidden_append (gostcrypt_hidden _ _ _ _) (rbg_bits_hidden _ _ _)

example := C117_generator_partial 8 (zeros 40) (Vector.ofFn fun i => BitVec.ofNat 8 i.val) (zeros 8) (zeros 8)

/-! ## What the caches show -/

/-- C117 fails for the observer of the table entries: for every key, every random mask, every earlier state of the context and every initialisation vector, the entries that are
read when the key is set and the first block is computed determine the key, by one fixed calculation.  The random mask of the key makes no difference. -/
theorem C117_key_refuted : ∃ recover : Bytes 8 → List CpuStep → Bytes 32, ∀ (ctx : CipherCtx) (rnd : Vector W32 8) (key : Bytes 32) (iv : Bytes 8),
    ∃ ctx' t, dstu_cipher_init_steps ctx rnd (some key) (some iv) = some (ctx', t) ∧ recover iv t = key := by
  refine ⟨fun iv t => keyFrom defaultF t iv, fun ctx rnd key iv => ⟨_, _, rfl, ?_⟩⟩
  have := keyFrom_crypt (gost_key (gost_init ctx.g (some (unpack_sbox default_sbox))) rnd key) iv []
  rw [f_default, get_key_gost_key] at this
  exact this

example : ∃ ctx' t, dstu_cipher_init_steps (blankCtx true) demoMask (some demoKey) (some demoIv) = some (ctx', t) ∧ C117_key_refuted.choose demoIv t = demoKey :=
  C117_key_refuted.choose_spec _ _ _ _

/-- Nor is it enough to hide the entry within a cache line: any two different keys, under any masks, show different lines for some initialisation vector. -/
theorem C117_lines_refuted (ctx ctx' : CipherCtx) (rnd rnd' : Bytes 8 → Vector W32 8) (key key' : Bytes 32) (h : key ≠ key') :
    ∃ iv c t c' t', dstu_cipher_init_steps ctx (rnd iv) (some key) (some iv) = some (c, t) ∧ dstu_cipher_init_steps ctx' (rnd' iv) (some key') (some iv) = some (c', t') ∧
      Spec.lines t ≠ Spec.lines t' := by
  by_contra hn
  apply h
  have hl : ∀ iv, Spec.lines (gostcrypt_steps (gost_key (gost_init ctx.g (some (unpack_sbox default_sbox))) (rnd iv) key) iv).2 =
      Spec.lines (gostcrypt_steps (gost_key (gost_init ctx'.g (some (unpack_sbox default_sbox))) (rnd' iv) key') iv).2 := by
    intro iv
    by_contra hd
    obtain ⟨c, hc⟩ := init_trace ctx (rnd iv) key iv
    obtain ⟨c', hc'⟩ := init_trace ctx' (rnd' iv) key' iv
    refine hn ⟨iv, c, _, c', _, hc, hc', fun he => hd ?_⟩
    exact (List.cons.inj (List.cons.inj he).2).2
  have hK := crypt_lines_inj (gost_key (gost_init ctx.g (some (unpack_sbox default_sbox))) (rnd demoIv) key)
    (gost_key (gost_init ctx'.g (some (unpack_sbox default_sbox))) (rnd' demoIv) key') rfl fun iv => by
      have := hl iv
      rwa [crypt_congr (gost_key (gost_init ctx.g (some (unpack_sbox default_sbox))) (rnd iv) key) (gost_key (gost_init ctx.g (some (unpack_sbox default_sbox))) (rnd demoIv) key) rfl (K_gost_key _ _ _ _ key),
        crypt_congr (gost_key (gost_init ctx'.g (some (unpack_sbox default_sbox))) (rnd' iv) key') (gost_key (gost_init ctx'.g (some (unpack_sbox default_sbox))) (rnd' demoIv) key') rfl (K_gost_key _ _ _ _ key')] at this
  have := get_key_of_K _ _ hK
  rwa [get_key_gost_key, get_key_gost_key] at this

example := C117_lines_refuted (blankCtx true) (blankCtx false) (fun _ => demoMask) (fun _ => Vector.replicate 8 0) demoKey (zeros 32) (by decide)

/-- C117 fails for the generator: from the date, which is the time of day, and the entries that are read while it is seeded and gives its first bit, one fixed calculation gives
the whole seed, and so everything the generator will ever give. -/
theorem C117_generator_refuted : ∃ recover : Bytes 8 → List CpuStep → Bytes 40, ∀ (m : Rbg) (status : Bool) (seed : Bytes 40) (date : Bytes 8),
    ∃ m' t b m'' t', dstu_rbg_init ⟨status, some seed, date⟩ m = (true, m') ∧ rbg_init_steps seed date m = (m', t) ∧
      dstu_rbg_get_bit m' = (b, m'') ∧ rbg_get_bit_steps m' = ((b, m''), t') ∧ recover date (t ++ t') = seed := by
  refine ⟨seedFrom, fun m status seed date => ⟨_, _, _, _, _, ?_, rfl, ?_, rfl, seedFrom_steps m seed date⟩⟩
  · exact rbg_init_result ⟨status, some seed, date⟩ seed rfl m
  · exact (rbg_get_bit_result _).symm

example : ∃ m' t b m'' t', dstu_rbg_init ⟨true, some (Vector.ofFn fun i => BitVec.ofNat 8 i.val), zeros 8⟩ .boot = (true, m') ∧
    rbg_init_steps (Vector.ofFn fun i => BitVec.ofNat 8 i.val) (zeros 8) .boot = (m', t) ∧ dstu_rbg_get_bit m' = (b, m'') ∧ rbg_get_bit_steps m' = ((b, m''), t') ∧
    C117_generator_refuted.choose (zeros 8) (t ++ t') = Vector.ofFn fun i => BitVec.ofNat 8 i.val :=
  C117_generator_refuted.choose_spec _ _ _ _

end Dstu.Props
