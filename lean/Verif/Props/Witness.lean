import Verif.Props.CurveDesc
import Verif.Props.KeyFile
import Verif.Props.PrivRange
import Verif.Props.Envelope
import Verif.Props.Jks
import Verif.Props.MdKey
import Verif.Props.Engine
import Verif.Props.RbgThreads

/-! Further cases that meet the hypotheses of theorems whose own files show them only in part. -/

namespace Dstu.Props

open Spec

/-! ### C97, C101, C103, C104: the 163-bit curve -/

/-- `C104_engine`, `C104_library`, `C104_library_any` and `C104_unique` for a description of the 163-bit curve. -/
example (sq : QuadSolver) : ∃ s, (∀ g, group_from_asn1 sq s false = some g ↔ g = g163) ∧ ∃ r, makeECGROUPFromSpec sq s = some r ∧ ∀ g, r = some g ↔ g = g163 := by
  obtain ⟨s, h1, h2, h3, h4, h5, h6, h7, h8, h9⟩ := described163 sq
  have hr : ∀ e ∈ fieldExponents s, -2 ^ 31 ≤ e ∧ e < 2 ^ 31 := fun e he => ⟨by have := (h2 e he).1; omega, (h2 e he).2⟩
  have hirr := instGoodGroup163.valid.irreducible
  have hodd : fieldDegree g163.p % 2 = 1 := by rw [show fieldDegree g163.p = 163 from numbers163.2.2.2.2.1]
  refine ⟨s, fun g => ?_, ?_⟩
  · have h := C104_engine sq .be s _ hr h3 hirr hodd g
    rw [show (KeyType.be = KeyType.le : Bool) = false from rfl] at h
    rw [h]
    exact ⟨fun h => C104_unique .be s _ h3 hirr hodd h4 sq g g163 h.1 h5, fun h => by subst h; exact ⟨h5, h6, h7⟩⟩
  · obtain ⟨r, e1, e2⟩ := C104_library sq s _ h2 h4 h3 hirr hodd
    obtain ⟨r', e1', _⟩ := C104_library_any sq s _ h2 h3 hirr hodd
    rw [e1] at e1'
    cases e1'
    exact ⟨r, e1, fun g => by rw [e2]; exact ⟨fun h => C104_unique .be s _ h3 hirr hodd h4 sq g g163 h.1 h5, fun h => by subst h; exact ⟨h5, h6⟩⟩⟩

/-- `C97_second_key` for the number 5 on this curve, in an octet string or a bit string. -/
example (base : Env) (bits : Bool) : ∃ (env : P8Env) (e : List Byte), SecondKey env [some ⟨some oidCurveAttr, [.seq e]⟩, none, some ⟨some oidKeyAttr, [if bits then .bit [0xA0] else .octet [0xA0]]⟩]
    ⟨.le, some ⟨some g163, none, some 5, some (affine (-(5 • g163.gen)))⟩⟩ := by
  obtain ⟨s, h1, h2, h3⟩ := spec163_small base.sq
  refine ⟨⟨base, fun _ => none, unpack_AttrCurveSpec, fun _ => none⟩, i2d_AttrCurveSpec s [] [],
    C97_second_key ⟨base, fun _ => none, unpack_AttrCurveSpec, fun _ => none⟩ rfl s [] [] _ [0xA0] h3 ((C97_attr s [] [] _ h3).1.mpr rfl) bits _ ⟨[], _, rfl, rfl, ?_⟩
      ⟨[some _, none], [], rfl, rfl, by simp⟩ g163 (C66_same_curve base.sq s g163 h1) 5 (fun i => ?_) _ (add_public_key_good base g163 5)⟩
  · intro a ha
    simp at ha
    rw [ha]
    exact fun h => absurd (Option.some.inj h) (by decide)
  · rw [show (5 : Nat) = bin2bn (([0xA0] : List Byte).map swapBits).reverse by decide]
    exact swapped_bit _ i

/-- `C101_undefined_iff` for the file of a key without attributes: the import is defined. -/
example : ∃ e, exportPrivate envDer ⟨.be, some (keyEx163 g163)⟩ = some e ∧ ∀ (ks : Option Nat) (m : ImpMem EvpPkey Unit), Reachable m.ks →
    keysFromPKCS8 (pkcs8Keys (fileEnv envDer fun _ _ => true)) (e ++ [1]) ks m ≠ none := by
  obtain ⟨e, s, h1, h2, h3⟩ := file163
  refine ⟨e, h1, fun ks m R h => ?_⟩
  obtain ⟨c, _, _, _, _, _, ⟨pre, post, h, _⟩, _⟩ := (C101_undefined_iff envDer envDer_codecs (fun _ _ => true) (e ++ [1]) _ [] (h3 _ [1]) ks m R).1 h
  cases pre <;> cases h

/-! ### C106: a number larger than the order -/

example (env : Env) (hnids : env.nids = nidsEx) : ∃ p8 pk key, dstu_asn1_priv_decode env ⟨.le, none⟩ p8 = (true, pk) ∧ pk.key = some key ∧
    ∃ (d : Nat) (P : gEx.Point), key.priv = some d ∧ key.pub = some (affine P) ∧ (P = 0 ↔ gEx.n ∣ d) := by
  have hg : group_from_named_curve env.nids 6 = some gEx := by rw [hnids]; exact gEx_default
  obtain ⟨p8, s, h⟩ := C106_large_refuted env 6 gEx hg .le (gEx.n + 1) (by omega)
  obtain ⟨d, P, h1, h2, h3, _⟩ := C106_public_partial env 6 gEx hg ⟨.le, none⟩ _ p8 (h _) _ rfl rfl
  exact ⟨p8, _, _, h _, rfl, d, P, h1, h2, h3⟩

example (t : KeyType) (tbs : List Byte) (draws : List (Option Nat)) :
    dstu_pkey_sign t gEx (⟨some (gEx.n + 1), none⟩ : EcKey gEx) true 100 tbs draws = dstu_pkey_sign t gEx ⟨some 1, none⟩ true 100 tbs draws :=
  C106_signs_partial gEx t _ _ (gEx.n + 1) rfl (by rw [Nat.add_mod_left, Nat.mod_eq_of_lt gEx_numbers.2.2.1]) true 100 tbs draws

/-! ### C83: a message in two pieces -/

example := C83_seal demoMask demoKey demoIv [1, 2, 3] [[1, 2], [3]] ⟨by decide, rfl⟩
example := C83_roundtrip_partial demoMask demoMask demoKey demoIv [1, 2, 3] [[1, 2], [3]] ⟨by decide, rfl⟩

/-! ### C59: a file with two keys, three of them in all -/

example : ∃ id m' keys certs, parseJKS toyJks (jksFile toyJks.sha1 .jceks ['p'] toyEntries) (utf8 ['p']) (utf8 ['k', 'і']) none emptyMem = some (true, some id, m') ∧
    HoldsExactly m' id keys certs ∧ 2 ≤ keys.length := by
  obtain ⟨id, m', e, _⟩ := C55_import_partial toyJks .jceks ['p'] ['k', 'і'] (by simp) (by simp) toyEntries [] (by decide) toy_fits.1 toy_fits.2 _ _ toy_gives none emptyMem boot_reachable
  rw [List.append_nil] at e
  have ha : ∀ e ∈ toyEntries, KnownAlg toyJks e := by
    intro e he
    simp only [toyEntries, List.mem_cons, List.not_mem_nil, or_false] at he
    rcases he with rfl | rfl <;>
    · intro oid d h
      simp only [toyJks] at h
      cases h
      exact Or.inl rfl
  obtain ⟨id', keys, certs, h1, _, h2, h3⟩ := C59_no_key_dropped_partial toyJks .jceks ['p'] ['k', 'і'] (by simp) (by simp) toyEntries (jksDigest toyJks.sha1 ['p'] (jksBody .jceks toyEntries))
    (by decide +kernel) (by decide) toy_fits.1 toy_fits.2 ha none _ emptyMem _ boot_reachable e
  cases h1
  exact ⟨id, m', keys, certs, e, h2, h3⟩

/-! ### C102: a fresh context, and a key with an S-box at address 4096 -/

example (mem : Memory) (p : Nat) (hp : Spec.DstuKeyAt mem p (some demoSbox)) : ∃ h, MdHeap.empty.run [.new 0] = some h ∧
    keyDigest mem h 0 (some p) [1, 2] = some (Spec.gost34311 (Spec.tableOf demoSbox) [1, 2]) := by
  obtain ⟨h, h1, h2⟩ := emptyContext
  exact ⟨h, h1, (C102_dstu_key mem [.new 0] h h1 0 h2 [1, 2] (by decide)).2 p (some demoSbox) hp⟩

/-! ### C38, C48, C09 -/

example : ParamEq ⟨.le, some ⟨some g163, none, some 5, none⟩⟩ ⟨.be, some ⟨some g163, none, none, none⟩⟩ →
    ParamEq ⟨.be, some ⟨some g163, none, none, none⟩⟩ ⟨.le, some ⟨some g163, none, some 5, none⟩⟩ :=
  (C38_equivalence _ _ ⟨.le, some ⟨some g163, none, none, none⟩⟩ ⟨_, _, rfl, rfl⟩ ⟨_, _, rfl, rfl⟩ ⟨_, _, rfl, rfl⟩).2.1

example (g : ErrRegistry) := C48_loaded g [.byName .digest, .get .cipher 1154] (by decide) 20

example := C09_return_value (dstu_cipher_init (blankCtx true) demoMask (some demoKey) (some demoIv)) (init_start _ _ _ _).inv

end Dstu.Props
