import Verif.Model.Erase
import Verif.Lemmas.Key6
import Verif.Props.Hash
import Verif.Props.KeyPair
import Verif.Props.Mesh
import Verif.Props.Rbg

/-! Property C92: what remains of secrets in memory. -/

namespace Dstu.Props

open Dstu.Spec

/-- All bytes of the data of a digest context are zero. -/
structure AllZero (d : MdData) : Prop where
  len : d.dctx.len = 0
  left : d.dctx.left = 0
  H : ∀ i (_ : i < 32), d.dctx.H[i] = 0
  S : ∀ i (_ : i < 32), d.dctx.S[i] = 0
  remainder : ∀ i (_ : i < 32), d.dctx.remainder[i] = 0
  pointer : d.cipher_ctx = none
  key : ∀ i (_ : i < 8), d.cctx.key[i] = 0
  mask : ∀ i (_ : i < 8), d.cctx.mask[i] = 0
  tables : ∀ n, d.cctx.k87 n = 0 ∧ d.cctx.k65 n = 0 ∧ d.cctx.k43 n = 0 ∧ d.cctx.k21 n = 0

/-- C92, digests: after any history, cleaning up a context overwrites all its data with zeros, and changes no other context. -/
theorem C92_digest_partial (hist : List DigestOp) (h : MdHeap) (hr : MdHeap.empty.run hist = some h) (i : Nat) (hi : h i ≠ none) :
    ∃ h', MdHeap.empty.run (hist ++ [.cleanup i]) = some h' ∧ (∃ d, h' i = some d ∧ AllZero d) ∧ ∀ j, j ≠ i → h' j = h j := by
  obtain ⟨c, hc⟩ := Option.ne_none_iff_exists'.1 hi
  refine ⟨dstu_md_cleanup h i, ?_, ?_, ?_⟩
  · have : ∀ (ops : List DigestOp) (a b : MdHeap), a.run ops = some b → a.run (ops ++ [.cleanup i]) = some (dstu_md_cleanup b i) := by
      intro ops
      induction ops with
      | nil =>
        intro a b hab
        cases hab
        rfl
      | cons o os ih =>
        intro a b hab
        simp only [MdHeap.run, List.cons_append] at hab ⊢
        cases ho : a.step o with
        | none => rw [ho] at hab; cases hab
        | some a' =>
          rw [ho] at hab
          exact ih a' b hab
    exact this hist _ h hr
  · refine ⟨MdData.zero, by simp [dstu_md_cleanup, hc, MdHeap.put], ⟨rfl, rfl, ?_, ?_, ?_, rfl, ?_, ?_, fun _ => ⟨rfl, rfl, rfl, rfl⟩⟩⟩ <;>
      intro i hi <;> simp [MdData.zero, HashCtx.zero, zeros]
  · intro j hj
    simp [dstu_md_cleanup, hc, MdHeap.put, hj]

/-- C92, generator: what cleaning up leaves of the state, in any state, does not depend on the seed, on the time or on the requests: all is zero. -/
theorem C92_generator_partial (st st' : RbgState) (hc : dstu_rbg_cleanup true st = some st') :
    st'.rbg.I = (0, 0) ∧ st'.rbg.s = (0, 0) ∧ st'.rbg.initialized = false ∧ (∀ i (_ : i < 8), st'.rbg.cryptor.key[i] = 0 ∧ st'.rbg.cryptor.mask[i] = 0) ∧
      ∀ n, st'.rbg.cryptor.k87 n = 0 ∧ st'.rbg.cryptor.k65 n = 0 ∧ st'.rbg.cryptor.k43 n = 0 ∧ st'.rbg.cryptor.k21 n = 0 := by
  unfold dstu_rbg_cleanup at hc
  simp only [Option.bind_eq_bind, Option.bind_eq_some_iff, pure, Option.some.injEq] at hc
  obtain ⟨_, _, _, _, rfl⟩ := hc
  refine ⟨rfl, rfl, rfl, ?_, fun _ => ⟨rfl, rfl, rfl, rfl⟩⟩
  intro i hi
  simp [Rbg.boot]

/-- C92, generator: the seed does not stay on the stack. -/
theorem C92_seed_partial (garbage : Bytes 40) (e : RandEnv) (m m' : Rbg) (h : dstu_rbg_init e m = (true, m')) :
    ∀ i (_ : i < 40), (rbgInitFrame garbage e)[i] = 0 := by
  intro i hi
  unfold dstu_rbg_init at h
  unfold rbgInitFrame
  cases hs : e.seed with
  | none => rw [hs] at h; cases h
  | some seed => simp

/-- C92 is false for the key of a Key-6 container: for every password of fewer than `2^60` bytes and whatever the memory held before, when the import is over
the dead stack holds the key made of the password, in the clear and again as the key of the cipher context. -/
theorem C92_password_key_refuted (g : Garbage) (password : List Byte) (hl : password.length < 2 ^ 60) :
    ∃ key ctx, key6Frame g password = some (key, ctx) ∧ Key6Key dke1 password key ∧ gost_get_key ctx = key := by
  obtain ⟨key, e, hk⟩ := pkdf_eq g.hashCtx password hl
  refine ⟨key, gost_key (gost_init g.ctx (some (unpack_sbox default_sbox))) g.mask key, ?_, hk, get_key_gost_key _ _ _⟩
  unfold key6Frame
  rw [e]
  rfl

/-- C92 is false for imported private keys: whenever a private key is decoded, the block returned to the allocator holds the bytes of its value. -/
theorem C92_private_key_refuted (env : Env) (pk pk' : EvpPkey) (p8 : Pkcs8) (h : dstu_asn1_priv_decode env pk p8 = (true, pk')) :
    ∃ key d block, pk'.key = some key ∧ key.priv = some d ∧ privDecodeBuffer env p8 = some block ∧ beValue block = d := by
  obtain ⟨key, g, h1, _, h3, _⟩ := C42_imported env pk pk' p8 h
  refine ⟨key, _, p8.prk.reverse, h1, h3, ?_, by rw [beValue, List.reverse_reverse]⟩
  unfold dstu_asn1_priv_decode at h
  unfold privDecodeBuffer
  split at h
  · cases h
  rename_i t ht
  simp only at h
  split at h
  · cases h
  rename_i params hp
  simp only [ht, hp]
  split at h
  · cases h
  rename_i pk1 hd
  simp only [hd]
  split at h
  · cases h
  rename_i hn
  rw [if_neg hn, reverse_bytes_copy_eq]

/-- A private key written and read again. -/
example : ∃ p8 pk key d block, dstu_asn1_priv_decode envEx ⟨.le, none⟩ p8 = (true, pk) ∧ pk.key = some key ∧ key.priv = some d ∧
    privDecodeBuffer envEx p8 = some block ∧ beValue block = d := by
  obtain ⟨p8, s, Q, _, _, h, _⟩ := C40_private_round_trip_partial envEx g163 (Or.inl ⟨0, g163_named _⟩) .be (keyEx163 g163) 5 rfl rfl (by omega) ⟨.le, none⟩
  obtain ⟨key, d, block, h1, h2, h3, h4⟩ := C92_private_key_refuted envEx _ _ p8 h
  exact ⟨p8, _, key, d, block, h, h1, h2, h3, h4⟩

/-- The digest case is met: a context with a message in it, and one byte of it is still there before the cleanup. -/
example : ∃ h, MdHeap.empty.run [.new 0, .init 0 none, .update 0 [0x41]] = some h ∧ h 0 ≠ none ∧ expected [.new 0, .init 0 none, .update 0 [0x41]] 0 ≠ some .fresh ∧
    ∃ h', MdHeap.empty.run ([.new 0, .init 0 none, .update 0 [0x41]] ++ [.cleanup 0]) = some h' ∧ ∃ d, h' 0 = some d ∧ AllZero d := by
  obtain ⟨h, e⟩ := C17_defined [.new 0, .init 0 none, .update 0 [0x41]] ⟨trivial, by simp [Digests.Legal, Digests.step, Digests.put],
    ⟨default_sbox, [], rfl, by decide⟩, trivial⟩
  have hs := run_sim _ _ empty_sim _ h e 0
  have h0 : h 0 ≠ none := by
    intro h0
    rw [h0] at hs
    exact hs.elim
  obtain ⟨h', e', hd, _⟩ := C92_digest_partial _ h e 0 h0
  exact ⟨h, e, h0, by simp [expected, Digests.run, Digests.step, Digests.put], h', e', hd⟩

/-- The generator case is met: seeded and used, then cleaned up. -/
example (seed : Bytes 40) (curr : Bytes 8) : ∃ as st st', RbgState.boot.run true [.bytes ⟨true, some seed, curr⟩ [1, 2, 3] 3] = some (as, st) ∧
    st.rbg.initialized = true ∧ dstu_rbg_cleanup true st = some st' := by
  refine ⟨_, _, _, rfl, ?_, rfl⟩
  rfl

/-- `C92_generator_partial` applies to a generator that has been used. -/
example (seed : Bytes 40) (curr : Bytes 8) : ∃ as st st', RbgState.boot.run true [.bytes ⟨true, some seed, curr⟩ [1, 2, 3] 3] = some (as, st) ∧
    dstu_rbg_cleanup true st = some st' ∧ st'.rbg.s = (0, 0) := by
  obtain ⟨as, st, st', h1, h2⟩ : ∃ as st st', RbgState.boot.run true [.bytes ⟨true, some seed, curr⟩ [1, 2, 3] 3] = some (as, st) ∧ dstu_rbg_cleanup true st = some st' :=
    ⟨_, _, _, rfl, rfl⟩
  exact ⟨as, st, st', h1, h2, (C92_generator_partial st st' h2).2.1⟩

example (garbage seed : Bytes 40) (curr : Bytes 8) (m : Rbg) := C92_seed_partial garbage ⟨true, some seed, curr⟩ m _ rfl
example (g : Garbage) := C92_password_key_refuted g [0x31, 0x32] (by decide)

end Dstu.Props
