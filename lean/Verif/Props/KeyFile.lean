import Verif.Model.KeyFile
import Verif.Spec.KeyFile
import Verif.Props.KeyDer
import Verif.Props.KeyUtils
import Verif.Props.Jks
import Verif.Props.Key6

/-! Property C101: key files in containers, from the bytes to the key store. -/

namespace Dstu.Props

open Dstu Dstu.Spec WeierstrassCurve

/-- C101: a byte string is read as a set of attributes exactly if it starts with a BER encoding of the set of these attributes. -/
theorem C101_attributes (ok : Nat → List Byte → Bool) (l : List Byte) (as : List Attr) (r : List Byte) :
    setBer 0x80 0 (d2i_attribute ok) l = some (as, r) ↔ ∃ e, BerSetOf 0x80 0 (BerAttribute ok) as e ∧ l = e ++ r :=
  setBer_iff (fun l v r _ => attribute_iff ok l v r) (attribute_solid ok) 0x80 0 l as r

theorem file_read (env : Env) (hc : TemplateCodecs env) (ok : Nat → List Byte → Bool) (l : List Byte) (pk : EvpPkey) (as : List Attr) (h : PrivateFile env ok l pk as) :
    (fileEnv env ok).d2i_PKCS8 l = some (l, as.map some) ∧ (fileEnv env ok).pkcs82pkey l = some pk := by
  obtain ⟨t, a, p, ep, kb, e, rest, key, g, Q, h1, rfl, rfl, h4, h5, h6, h7, h8, h9⟩ := h
  refine ⟨?_, (C100_private_accepts env hc _ _ _).mpr ⟨t, a, p, ep, kb, e, rest, key, g, Q, h1, rfl, h4, h5, h6, h7, h8, h9⟩⟩
  simp only [fileEnv]
  rw [(pkcs8Ber_iff ok (e ++ rest) ((keyOid t, some (.seq ep)), kb, a) rest).mpr ⟨e, ⟨ep, ⟨rfl, params_element p ep h4⟩, h1⟩, rfl⟩]

theorem file_not_read (env : Env) (hc : TemplateCodecs env) (ok : Nat → List Byte → Bool) (l : List Byte) (h : ∀ pk as, ¬ PrivateFile env ok l pk as) :
    (fileEnv env ok).pkcs82pkey l = none := by
  cases hE : (fileEnv env ok).pkcs82pkey l with
  | none => rfl
  | some pk =>
    exfalso
    obtain ⟨t, a, p, ep, kb, e, rest, key, g, Q, h1, h2⟩ := (C100_private_accepts env hc _ _ _).mp hE
    exact h pk (a.getD []) ⟨t, a, p, ep, kb, e, rest, key, g, Q, h1, h2.1, rfl, h2.2⟩

theorem secondKey_iff (env : Env) (ok : Nat → List Byte → Bool) (as : List Attr) (k : EvpPkey) : SecondKey (fileEnv env ok) (as.map some) k ↔ SecondKeyIn env as k := by
  have hu : ∀ x s', (fileEnv env ok).unpack_spec x = some s' ↔ ∃ dke dke1 e, BerCurveAttr s' dke dke1 e ∧ e <+: x := fun x s' => C103_attr_accepts x s'
  constructor
  · rintro ⟨c, k', s, spec, g, d, Q, h1, h2, h3, h4, ⟨pre, der, post, h5, h6, h7⟩, h8, h9, h10⟩
    refine ⟨c, k', s, pre, der, post, spec, g, d, Q, h1, h2, h3, h4, h5, (hu _ _).mp h6, ?_, h8, h9, h10⟩
    intro x hx s' dke dke1 e he hp
    have := h7 x hx
    rw [(hu x s').mpr ⟨dke, dke1, e, he, hp⟩] at this
    cases this
  · rintro ⟨c, k', s, pre, der, post, spec, g, d, Q, h1, h2, h3, h4, h5, h6, h7, h8, h9, h10⟩
    refine ⟨c, k', s, spec, g, d, Q, h1, h2, h3, h4, ⟨pre, der, post, h5, (hu _ _).mpr h6, ?_⟩, h8, h9, h10⟩
    intro x hx
    cases e : (fileEnv env ok).unpack_spec x with
    | none => rfl
    | some s' =>
      obtain ⟨dke, dke1, e', he, hp⟩ := (hu x s').mp e
      exact absurd hp (h7 x hx s' dke dke1 e' he)

theorem negative_iff (env : Env) (ok : Nat → List Byte → Bool) (as : List Attr) : NegativeCurve (fileEnv env ok) (as.map some) ↔ NegativeCurveIn as := by
  have hu : ∀ x s', (fileEnv env ok).unpack_spec x = some s' ↔ ∃ dke dke1 e, BerCurveAttr s' dke dke1 e ∧ e <+: x := fun x s' => C103_attr_accepts x s'
  constructor
  · rintro ⟨c, k, spec, h1, h2, ⟨pre, der, post, h5, h6, h7⟩, h8⟩
    refine ⟨c, k, pre, der, post, spec, h1, h2, h5, (hu _ _).mp h6, ?_, h8⟩
    intro x hx s' dke dke1 e he hp
    have := h7 x hx
    rw [(hu x s').mpr ⟨dke, dke1, e, he, hp⟩] at this
    cases this
  · rintro ⟨c, k, pre, der, post, spec, h1, h2, h5, h6, h7, h8⟩
    refine ⟨c, k, spec, h1, h2, ⟨pre, der, post, h5, (hu _ _).mpr h6, ?_⟩, h8⟩
    intro x hx
    cases e : (fileEnv env ok).unpack_spec x with
    | none => rfl
    | some s' =>
      obtain ⟨dke, dke1, e', he, hp⟩ := (hu x s').mp e
      exact absurd hp (h7 x hx s' dke dke1 e' he)

/-- C101: a file of private keys gives a new key store with exactly these keys: the private key, and the second key among its attributes if there is one.  Missing: attributes that
describe a curve with a negative exponent, see `C101_undefined_iff`. -/
theorem C101_keys_partial {χ : Type} (env : Env) (hc : TemplateCodecs env) (ok : Nat → List Byte → Bool) (l : List Byte) (keys : List EvpPkey) (h : FileKeys env ok l keys)
    (ks : Option Nat) (m : ImpMem EvpPkey χ) (R : Reachable m.ks) :
    ∃ id m', keysFromPKCS8 (pkcs8Keys (fileEnv env ok)) l ks m = some (true, some id, m') ∧ Reachable m'.ks ∧ Undisturbed m m' ∧ m.ks.stores id = none ∧
      HoldsExactly m' id keys [] := by
  obtain ⟨pk, as, hp, hs, hk⟩ := h
  obtain ⟨h1, h2⟩ := file_read env hc ok l pk as hp
  obtain ⟨id, m', keys', k1, k2, k3, k4, k5, k6⟩ := C64_keys_partial (fileEnv env ok) l l (as.map some) pk ks m h1 h2 (mt (negative_iff env ok as).mp hs) R
  have hu : ∀ a b, SecondKeyIn env as a → SecondKeyIn env as b → a = b := by
    intro a b ha hb
    obtain ⟨r, _, hr⟩ := attributes_eq (fileEnv env ok) (as.map some) (mt (negative_iff env ok as).mp hs)
    have h1 := (hr a).mpr ((secondKey_iff env ok as a).mpr ha)
    rw [(hr b).mpr ((secondKey_iff env ok as b).mpr hb)] at h1
    exact (Option.some.inj h1).symm
  simp only [secondKey_iff] at k6
  have : keys' = keys := by
    rcases k6 with ⟨a, ha, rfl⟩ | ⟨ha, rfl⟩ <;> rcases hk with ⟨b, hb, rfl⟩ | ⟨hb, rfl⟩
    · rw [hu a b ha hb]
    · exact absurd ⟨a, ha⟩ hb
    · exact absurd ⟨b, hb⟩ ha
    · rfl
  subst this
  exact ⟨id, m', k1, k2, k3, k4, k5⟩

/-- C101, exactly where it fails: the import of a file with a private key is undefined behaviour if and only if the curve for a second key has a negative exponent. -/
theorem C101_undefined_iff {χ : Type} (env : Env) (hc : TemplateCodecs env) (ok : Nat → List Byte → Bool) (l : List Byte) (pk : EvpPkey) (as : List Attr)
    (h : PrivateFile env ok l pk as) (ks : Option Nat) (m : ImpMem EvpPkey χ) (R : Reachable m.ks) :
    keysFromPKCS8 (pkcs8Keys (fileEnv env ok)) l ks m = none ↔ NegativeCurveIn as := by
  obtain ⟨h1, h2⟩ := file_read env hc ok l pk as h
  rw [C64_undefined_iff (fileEnv env ok) l l (as.map some) pk ks m h1 h2 R, negative_iff]

/-- C101: anything else is refused, and nothing changes. -/
theorem C101_refused {χ : Type} (env : Env) (hc : TemplateCodecs env) (ok : Nat → List Byte → Bool) (l : List Byte) (h : ∀ pk as, ¬ PrivateFile env ok l pk as)
    (ks : Option Nat) (m : ImpMem EvpPkey χ) : keysFromPKCS8 (pkcs8Keys (fileEnv env ok)) l ks m = some (false, ks, m) := by
  refine C64_failure (fileEnv env ok) l ks m ?_
  cases e : (fileEnv env ok).d2i_PKCS8 l with
  | none => exact Or.inl rfl
  | some x =>
    obtain ⟨p8, attrs⟩ := x
    right
    refine ⟨p8, attrs, rfl, ?_⟩
    have : p8 = l := by
      simp only [fileEnv] at e
      split at e
      · cases e
      · cases e
        rfl
    rw [this]
    exact file_not_read env hc ok l h

theorem file_more (env : Env) (ok : Nat → List Byte → Bool) (l more : List Byte) (pk : EvpPkey) (as : List Attr) (h : PrivateFile env ok l pk as) :
    PrivateFile env ok (l ++ more) pk as := by
  obtain ⟨t, a, p, ep, kb, e, rest, key, g, Q, h1, rfl, h3⟩ := h
  exact ⟨t, a, p, ep, kb, e, rest ++ more, key, g, Q, h1, List.append_assoc _ _ _, h3⟩

theorem no_second (env : Env) (k : EvpPkey) : ¬ SecondKeyIn env [] k := by
  rintro ⟨_, _, _, _, _, _, _, _, _, _, ⟨pre, post, h, _⟩, _⟩
  simp at h

/-- C101: a private key that can be written has a file in this sense, without attributes, whatever follows it.  Missing, as in C100: custom curves whose base point is the
exceptional one. -/
theorem C101_exported_partial (env : Env) (hc : TemplateCodecs env) (g : EcGroup) (hg : EncodableCurve env g) (t : KeyType) (key : DstuKey) (d : Nat)
    (hkey : key.group = some g) (hpriv : key.priv = some d) (hd : d ≠ 0) (hsize : numBytes d ≤ 2 ^ 20) :
    ∃ e s Q, exportPrivate env ⟨t, some key⟩ = some e ∧ effectiveSbox s = effectiveSbox key.sbox ∧ (∀ [GoodGroup g], Q = affine (-(d • g.gen))) ∧
      ∀ ok rest, PrivateFile env ok (e ++ rest) ⟨t, some ⟨some g, s, some d, some Q⟩⟩ [] := by
  obtain ⟨e, s, Q, h1, h2, h3, h4, h5⟩ := C100_private_round_trip_partial env hc g hg t key d hkey hpriv hd hsize
  refine ⟨e, s, Q, h1, h4, h5, fun ok rest => ?_⟩
  obtain ⟨t', a, p, ep, kb, e', rest', key', g', Q', k1, k2, k3, k4⟩ := (C100_private_accepts env hc _ _ _).mp (h3 ok rest)
  obtain ⟨_, q, _, epq, kbq, _, _, q3, _, _, _, _, q8⟩ := C100_private_layout env hc _ e h1 h2
  have w1 := (pkcs8Ber_iff ok (e ++ rest) ((keyOid t', some (.seq ep)), kb, a) rest').mpr ⟨e', ⟨ep, ⟨rfl, params_element _ _ k3⟩, k1⟩, k2⟩
  have w0 := (pkcs8Ber_iff ok (e ++ rest) ((keyOid t, some (.seq epq)), kbq, none) rest).mpr
    ⟨e, ⟨epq, ⟨rfl, isParams_element _ _ q3⟩, ber_private _ _ _ _ _ ((q8 e).mpr rfl)⟩, rfl⟩
  rw [w0] at w1
  have ha : a = none := by
    simp only [Option.some.injEq, Prod.mk.injEq] at w1
    exact w1.1.2.2.symm
  subst ha
  exact ⟨t', none, p, ep, kb, e', rest', key', g', Q', k1, k2, rfl, k3, k4⟩

/-- C101, Key-6: a container of this format whose encrypted blocks hold a file of private keys, and anything after it, gives with its password a new key store with exactly the
keys of the file.  Missing: as in `C101_keys_partial`. -/
theorem C101_key6_partial {χ : Type} (env : Env) (hc : TemplateCodecs env) (ok : Nat → List Byte → Bool) (gar : Garbage) (f rest password : List Byte) (blocks : List (Bytes 8))
    (mac data : List Byte) (pad : Option (List Byte)) (key : Bytes 32) (hk : Key6Key dke1 password key) (hf : BerKey6File oidIitStore mac pad data f)
    (hd : data ++ pad.getD [] = ecb dke1 key blocks) (hl : password.length < 2 ^ 60) (keys : List EvpPkey) (hp : FileKeys env ok (blocks.flatMap Vector.toList) keys)
    (ks : Option Nat) (m : ImpMem EvpPkey χ) (R : Reachable m.ks) :
    ∃ id m', parseKey6 ⟨ber_IITStore, pkcs8Keys (fileEnv env ok)⟩ gar (f ++ rest) password ks m = some (true, some id, m') ∧ Reachable m'.ks ∧ Undisturbed m m' ∧
      m.ks.stores id = none ∧ HoldsExactly m' id keys [] := by
  obtain ⟨tail, _, h⟩ := C103_key6_any_file (pkcs8Keys (fileEnv env ok)) gar f rest password blocks mac data pad key hk hf hd hl ks m
  rw [h]
  obtain ⟨pk, as, h1, h2⟩ := hp
  exact C101_keys_partial env hc ok _ keys ⟨pk, as, file_more env ok _ tail pk as h1, h2⟩ ks m R

theorem single_key (env : Env) (ok : Nat → List Byte → Bool) (l : List Byte) (pk : EvpPkey) (h : PrivateFile env ok l pk []) : FileKeys env ok l [pk] :=
  ⟨pk, [], h, fun ⟨_, _, _, _, _, _, ⟨_, _, h, _⟩, _⟩ => by simp at h, Or.inr ⟨fun ⟨k, hk⟩ => no_second env k hk, rfl⟩⟩

/-- C101: a private key that can be written, put into a Key-6 container behind a password, comes out of it: its file, filled up to whole blocks, encrypted, in a container of the
format.  Missing, as in C100: custom curves whose base point is the exceptional one. -/
theorem C101_key6_round_trip_partial (env : Env) (hc : TemplateCodecs env) (g : EcGroup) (hg : EncodableCurve env g) (t : KeyType) (key : DstuKey) (d : Nat)
    (hkey : key.group = some g) (hpriv : key.priv = some d) (hd : d ≠ 0) (hsize : numBytes d ≤ 2 ^ 20) :
    ∃ e s Q, exportPrivate env ⟨t, some key⟩ = some e ∧ effectiveSbox s = effectiveSbox key.sbox ∧ (∀ [GoodGroup g], Q = affine (-(d • g.gen))) ∧
      ∀ (χ : Type) ok gar f rest password (blocks : List (Bytes 8)) fill mac data pad k6, Key6Key dke1 password k6 → BerKey6File oidIitStore mac pad data f →
        blocks.flatMap Vector.toList = e ++ fill → data ++ pad.getD [] = ecb dke1 k6 blocks → password.length < 2 ^ 60 → ∀ ks (m : ImpMem EvpPkey χ), Reachable m.ks →
        ∃ id m', parseKey6 ⟨ber_IITStore, pkcs8Keys (fileEnv env ok)⟩ gar (f ++ rest) password ks m = some (true, some id, m') ∧ Reachable m'.ks ∧ Undisturbed m m' ∧
          m.ks.stores id = none ∧ HoldsExactly m' id [⟨t, some ⟨some g, s, some d, some Q⟩⟩] [] := by
  obtain ⟨e, s, Q, h1, h2, h3, h4⟩ := C101_exported_partial env hc g hg t key d hkey hpriv hd hsize
  refine ⟨e, s, Q, h1, h2, h3, ?_⟩
  intro χ ok gar f rest password blocks fill mac data pad k6 hk hf hb hd hl ks m R
  exact C101_key6_partial env hc ok gar f rest password blocks mac data pad k6 hk hf hd hl _ (single_key env ok _ _ (by rw [hb]; exact h4 ok fill)) ks m R

/-- C101: a byte string is read as an encrypted key exactly if it starts with a BER encoding of one. -/
theorem C101_encrypted (ok : Nat → List Byte → Bool) (l oid d : List Byte) : d2i_sig ok l = some (oid, d) ↔ ∃ f rest, BerEncryptedKey ok oid d f ∧ l = f ++ rest := by
  have hf : Fills (fun inf l => do
      let (alg, l) ← field (d2i_algor ok) l
      let (d, l) ← field (primBer .octets) l
      let l ← seqEnd inf l
      return ((alg, d), l)) (fun (x : (List Byte × Option AsnVal) × List Byte) c => ∃ ea ek, AlgorithmOf ok x.1 ea ∧ BerOctets x.2 ek ∧ c = ea ++ ek) := by
    intro inf l x r
    simp only [Option.bind_eq_bind, Option.bind_eq_some_iff, Option.pure_def, Option.some.injEq, Prod.exists]
    constructor
    · rintro ⟨o, par, l2, h2, pbk, l3, h3, l4, h4, h5⟩
      cases h5
      obtain ⟨ea, k2, rfl⟩ := (algor_field _ _ _ _).mp h2
      obtain ⟨ek, k3, rfl⟩ := (octets_field _ _ _).mp h3
      obtain ⟨rfl, k4⟩ := (seqEnd_iff _ _ _).mp h4
      exact ⟨_, ⟨ea, ek, k2, k3, rfl⟩, by simp, k4⟩
    · rintro ⟨c, ⟨ea, ek, k2, k3, rfl⟩, rfl, k5⟩
      obtain ⟨⟨o, par⟩, pbk⟩ := x
      exact ⟨o, par, _, (algor_field _ _ _ _).mpr ⟨ea, k2, by simp only [List.append_assoc]⟩, pbk, _, (octets_field _ _ _).mpr ⟨ek, k3, rfl⟩, r, (seqEnd_iff _ _ _).mpr ⟨rfl, k5⟩, rfl⟩
  unfold d2i_sig BerEncryptedKey BerSequence
  simp only [Option.map_eq_some_iff, Prod.exists, Prod.mk.injEq, List.flatten_cons, List.flatten_nil, List.append_nil]
  constructor
  · rintro ⟨_, par, _, r, h, rfl, rfl⟩
    obtain ⟨f, ⟨_, ⟨ea, ek, ⟨ep, h1, eo, h2, h3⟩, h4, rfl⟩, h5⟩, rfl⟩ := (seqBer_iff hf _ _ _).mp h
    unfold BerSequence at h3
    simp only [List.flatten_cons, List.flatten_nil, List.append_nil] at h3
    refine ⟨f, r, ⟨eo, ep, ea, ek, h2, ?_, h3, h4, h5⟩, rfl⟩
    cases par with
    | none => exact Or.inl h1
    | some v => exact Or.inr ⟨v, h1⟩
  · rintro ⟨f, r, ⟨eo, ep, ea, ek, h2, h1, h3, h4, h5⟩, rfl⟩
    have : ∃ par, OrNone (BerValue ok) par ep := by
      rcases h1 with h1 | ⟨v, h1⟩
      · exact ⟨none, h1⟩
      · exact ⟨some v, h1⟩
    obtain ⟨par, h1⟩ := this
    refine ⟨oid, par, d, r, (seqBer_iff hf _ _ _).mpr ⟨f, ⟨_, ⟨ea, ek, ⟨ep, h1, eo, h2, ?_⟩, h4, rfl⟩, h5⟩, rfl⟩, rfl, rfl⟩
    unfold BerSequence
    simpa using h3

theorem file_keys (env : Env) (hc : TemplateCodecs env) (ok : Nat → List Byte → Bool) (l : List Byte) (keys : List EvpPkey) (h : FileKeys env ok l keys) :
    ∃ k1 k2, pkcs8Keys (fileEnv env ok) l = some (some (k1, k2)) ∧ keys = k1 :: k2.toList := by
  obtain ⟨pk, as, h1, h2, h3⟩ := h
  obtain ⟨hf1, hf2⟩ := file_read env hc ok l pk as h1
  obtain ⟨r, e, hr⟩ := attributes_eq (fileEnv env ok) (as.map some) (mt (negative_iff env ok as).mp h2)
  refine ⟨pk, r, ?_, ?_⟩
  · unfold pkcs8Keys
    simp only [hf1, hf2, e]
  · rcases h3 with ⟨k2, h4, rfl⟩ | ⟨h4, rfl⟩
    · rw [(hr k2).mpr ((secondKey_iff env ok as k2).mpr h4)]
      rfl
    · cases r with
      | none => rfl
      | some k => exact absurd ⟨k, (secondKey_iff env ok as k).mp ((hr k).mp rfl)⟩ h4

theorem entries_give {χ : Type} (env : Env) (hc : TemplateCodecs env) (ok : Nat → List Byte → Bool) (lib : JksLib EvpPkey χ) (hk : lib.keys = pkcs8Keys (fileEnv env ok))
    (hsig : lib.d2i_X509_SIG = d2i_sig ok) (keyPass : List Char) (es : List JksEntry) (held : List (List EvpPkey × List χ))
    (h : List.Forall₂ (KeyEntry env ok lib.sha1 lib.d2i_X509 keyPass) es held) :
    AllGive lib keyPass es (held.flatMap (·.1)) (held.flatMap (·.2)) ∧ ∀ e ∈ es, e.IsKey := by
  induction h with
  | nil => exact ⟨.nil, by simp⟩
  | @cons e x es held h1 _ ih =>
    obtain ⟨name, time, chain, d, l, f, rest, k1, rfl, k3, k4, k5⟩ := h1
    obtain ⟨q1, q2, q3, q4⟩ := file_keys env hc ok l x.1 k4
    refine ⟨?_, ?_⟩
    · have hgive : (JksEntry.key name time (f ++ rest) chain).Gives lib keyPass x.1 x.2 :=
        ⟨d, l, q1, q2, by rw [hsig]; exact (C101_encrypted ok _ _ _).mpr ⟨f, rest, k1, rfl⟩, k3, by rw [hk]; exact q3, q4, k5⟩
      rw [List.flatMap_cons, List.flatMap_cons]
      exact AllGive.cons hgive ih.1
    · intro e he
      rcases List.mem_cons.mp he with rfl | he
      · trivial
      · exact ih.2 e he

/-- C101, Java key stores: a store with any number of files of private keys, each protected by the password for keys, and their certificates, under the digest for its password,
gives a new key store with exactly these keys and certificates in order.  Missing: as in C55, empty passwords and trusted certificates; as in `C101_keys_partial`, attributes
with curves that are not sane. -/
theorem C101_jks_partial {χ : Type} (env : Env) (hc : TemplateCodecs env) (ok : Nat → List Byte → Bool) (lib : JksLib EvpPkey χ) (hk : lib.keys = pkcs8Keys (fileEnv env ok))
    (hsig : lib.d2i_X509_SIG = d2i_sig ok) (kind : JksKind) (pass keyPass : List Char) (hp : pass ≠ []) (hkp : keyPass ≠ []) (es : List JksEntry) (more : List Byte)
    (hn : es.length < 2 ^ 32) (hf : ∀ e ∈ es, e.Fits) (held : List (List EvpPkey × List χ))
    (h : List.Forall₂ (KeyEntry env ok lib.sha1 lib.d2i_X509 keyPass) es held) (ks : Option Nat) (m : ImpMem EvpPkey χ) (R : Reachable m.ks) :
    ∃ id m', parseJKS lib (jksFile lib.sha1 kind pass es ++ more) (utf8 pass) (utf8 keyPass) ks m = some (true, some id, m') ∧
      Reachable m'.ks ∧ Undisturbed m m' ∧ m.ks.stores id = none ∧ HoldsExactly m' id (held.flatMap (·.1)) (held.flatMap (·.2)) := by
  obtain ⟨h1, h2⟩ := entries_give env hc ok lib hk hsig keyPass es held h
  exact C55_import_partial lib kind pass keyPass hp hkp es more hn hf h2 _ _ h1 ks m R

theorem anyElement_ex (tag : Byte) (c : List Byte) (h : c.length < 2 ^ 64) : ∃ e, AnyElement tag c e ∧ e.length = c.length + 10 := by
  refine ⟨_, ⟨_, Or.inr ⟨bytesBE 8 c.length, ?_, ?_, ?_, rfl⟩, rfl⟩, ?_⟩
  · intro hn
    have := bytesBE_length 8 c.length
    rw [hn] at this
    cases this
  · rw [bytesBE_length]
    omega
  · rw [beValue_bytesBE]
    exact Nat.mod_eq_of_lt h
  · simp [bytesBE_length]
    omega

theorem prim_ex (k : Prim) (c : List Byte) (h : c.length < 2 ^ 64) : ∃ e, BerPrimitive 0 k.num c e ∧ e.length = c.length + 10 := by
  obtain ⟨e, h1, h2⟩ := anyElement_ex k.tag c h
  exact ⟨e, primitive_of_any k c e h1, h2⟩

theorem sequence_ex (parts : List (List Byte)) (h : parts.flatten.length < 2 ^ 64) : ∃ e, BerSequence parts e ∧ e.length = parts.flatten.length + 10 := by
  obtain ⟨e, h1, h2⟩ := anyElement_ex 0x30 parts.flatten h
  exact ⟨e, constructed_of_any _ _ h1, h2⟩

/-- A set of indefinite length. -/
theorem set_ex {α : Type} (R : α → List Byte → Prop) (vs : List α) (c : List Byte) (h : BerList R vs c) :
    (∃ e, BerSetOf 0 17 R vs e ∧ e.length = c.length + 4) ∧ ∃ e, BerSetOf 0x80 0 R vs e ∧ e.length = c.length + 4 := by
  refine ⟨⟨[0x31] ++ 0x80 :: (c ++ [0, 0]), ⟨c, h, Or.inr ⟨[0x31], ⟨0x31, by decide, by decide, Or.inl ⟨by decide, by decide, rfl⟩⟩, Or.inr rfl⟩⟩, by simp⟩,
    ⟨[0xa0] ++ 0x80 :: (c ++ [0, 0]), ⟨c, h, Or.inr ⟨[0xa0], ⟨0xa0, by decide, by decide, Or.inl ⟨by decide, by decide, rfl⟩⟩, Or.inr rfl⟩⟩, by simp⟩⟩

theorem constructed_length (cls : Byte) (n : Nat) (c e : List Byte) (h : BerConstructed cls n c e) : c.length ≤ e.length := by
  obtain ⟨i, _, ⟨l, _, rfl⟩ | rfl⟩ := h <;> simp <;> omega

/-- Attributes can be put into a file. -/
theorem file_attrs (env : Env) (ok : Nat → List Byte → Bool) (l : List Byte) (pk : EvpPkey) (as as' : List Attr) (h : PrivateFile env ok l pk as) (hl : l.length < 2 ^ 40)
    (x : List Byte) (hx : BerList (BerAttribute ok) as' x) (hxl : x.length < 2 ^ 40) : ∃ l', PrivateFile env ok l' pk as' ∧ l'.length ≤ l.length + x.length + 20 := by
  obtain ⟨t, a, p, ep, kb, e, rest, key, g, Q, ⟨v, ev, ea, ek, h1, h2, h3, h4⟩, rfl, _, h5⟩ := h
  have hlen : (ev ++ (ea ++ ek)).length ≤ e.length := by
    cases a with
    | none => simpa using constructed_length _ _ _ _ h4
    | some x =>
      obtain ⟨et, _, h4⟩ := h4
      have := constructed_length _ _ _ _ h4
      simp only [List.flatten_cons, List.flatten_nil, List.length_append, List.length_nil] at this
      simp only [List.length_append]
      omega
  rw [List.length_append] at hl
  obtain ⟨et, ht, ht'⟩ := (set_ex _ _ x hx).2
  have hw : [ev, ea, ek, et].flatten.length < 2 ^ 64 := by
    simp only [List.length_append] at hlen
    simp only [List.flatten_cons, List.flatten_nil, List.length_append, List.length_nil]
    omega
  obtain ⟨e', he, he'⟩ := sequence_ex _ hw
  refine ⟨e', ⟨t, some as', p, ep, kb, e', [], key, g, Q, ⟨v, ev, ea, ek, h1, h2, h3, et, ht, he⟩, by simp, rfl, h5⟩, ?_⟩
  rw [he']
  simp only [List.length_append] at hlen
  simp only [List.flatten_cons, List.flatten_nil, List.length_append, List.length_nil]
  omega

theorem attribute_ex (ok : Nat → List Byte → Bool) (oid : List Byte) (ho : Prim.object.dec oid = some oid) (v : AsnVal) (e : List Byte) (he : BerValue ok v e)
    (hl : oid.length < 2 ^ 20) (hel : e.length < 2 ^ 30) : ∃ e', BerAttribute ok ⟨some oid, [v]⟩ e' ∧ e'.length = oid.length + e.length + 24 := by
  obtain ⟨eo, h1, h1'⟩ := prim_ex .object oid (by omega)
  obtain ⟨⟨ev, h2, h2'⟩, -⟩ := set_ex (BerValue ok) [v] (e ++ []) (.cons he .nil)
  rw [List.append_nil] at h2'
  obtain ⟨e', h3, h3'⟩ := sequence_ex [eo, ev] (by
    simp only [List.flatten_cons, List.flatten_nil, List.length_append, List.length_nil]
    omega)
  refine ⟨e', ⟨oid, eo, ev, rfl, ⟨((dec_obj _ _).mp ho).2, h1⟩, h2, h3⟩, ?_⟩
  rw [h3']
  simp only [List.flatten_cons, List.flatten_nil, List.length_append, List.length_nil]
  omega

/-- A set of two attributes, a curve and a number. -/
theorem attributes_ex (ok : Nat → List Byte → Bool) (s : CustomCurveSpec) (dke dke1 num : List Byte) (hl : (i2d_AttrCurveSpec s dke dke1).length < 2 ^ 28) (hn : num.length < 2 ^ 20) :
    ∃ der x, (∀ s', (∃ dke dke1 e, BerCurveAttr s' dke dke1 e ∧ e <+: der) ↔ s' = s) ∧
      BerList (BerAttribute ok) [⟨some oidCurveAttr, [.seq der]⟩, ⟨some oidKeyAttr, [.octet num]⟩] x ∧ x.length < 2 ^ 30 := by
  have hu : ber_AttrCurveSpec (i2d_AttrCurveSpec s dke dke1) = some s := by
    obtain ⟨h1, h2⟩ := C97_attr s dke dke1 (i2d_AttrCurveSpec s dke dke1) hl
    exact (C103_extends _).2.2.2.2 _ (h2 (h1.mpr rfl))
  have hseq : BerElement 0 true 16 (i2d_AttrCurveSpec s dke dke1) := by
    rw [i2d_attr] at hl ⊢
    obtain ⟨l, k1, k2⟩ := any_element _ _ _ ((element_iff _ _ _ (lt_trans (tlv_ge _ _) hl)).mpr rfl)
    exact ⟨[0x30], identifier_low 0x30 (by decide), Or.inl ⟨_, l, k1, k2⟩⟩
  obtain ⟨en, hn1, hn2⟩ := prim_ex .octets num (by omega)
  obtain ⟨e1, h1, h1'⟩ := attribute_ex ok oidCurveAttr (by decide) (.seq (i2d_AttrCurveSpec s dke dke1)) _ ⟨rfl, hseq⟩ (by decide) (by omega)
  obtain ⟨e2, h2, h2'⟩ := attribute_ex ok oidKeyAttr (by decide) (.octet num) en (Or.inl hn1) (by decide) (by omega)
  have l1 : oidCurveAttr.length = 12 := rfl
  have l2 : oidKeyAttr.length = 12 := rfl
  refine ⟨_, e1 ++ (e2 ++ []), fun s' => ?_, .cons h1 (.cons h2 .nil), ?_⟩
  · rw [← C103_attr_accepts, hu, Option.some.injEq, eq_comm]
  · simp only [List.length_append, List.length_nil]
    omega

/-- C101, the second key: a file with a private key, whose attributes are a curve that can be used and a number that has a public key, is a file of exactly the two keys. -/
theorem C101_two_keys (env : Env) (ok : Nat → List Byte → Bool) (l : List Byte) (pk : EvpPkey) (s : CustomCurveSpec)
    (der num dke dke1 e : List Byte) (he : BerCurveAttr s dke dke1 e) (hp : e <+: der) (bits : Bool)
    (h : PrivateFile env ok l pk [⟨some oidCurveAttr, [.seq der]⟩, ⟨some oidKeyAttr, [if bits then .bit num else .octet num]⟩]) (g : EcGroup)
    (hg : makeECGROUPFromSpec env.sq s = some (some g)) (d : Nat) (hd : ∀ i, Nat.testBit d i = bitAt num i) (Q : Option (Nat × Nat)) (hQ : add_public_key env g d = some Q) :
    FileKeys env ok l [pk, ⟨.le, some ⟨some g, none, some d, some Q⟩⟩] := by
  refine ⟨pk, _, h, ?_, Or.inl ⟨_, ?_, rfl⟩⟩
  · rintro ⟨c, k, pre, der', post, s', ⟨pre', post', e1, e2, _⟩, _, e3, ⟨dke', dke1', e', h1, h2⟩, _, hn⟩
    have hm : AsnVal.seq der' ∈ c.values := by rw [e3]; simp
    have hcm : c ∈ [⟨some oidCurveAttr, [.seq der]⟩, ⟨some oidKeyAttr, [if bits then .bit num else .octet num]⟩] := by
      have : some c ∈ pre' ++ some c :: post' := by simp
      rw [← e1] at this
      simpa only [List.mem_map, Option.some.injEq, exists_eq_right] using this
    simp only [List.mem_cons, List.not_mem_nil, or_false] at hcm
    rcases hcm with rfl | rfl
    · simp only [List.mem_cons, List.not_mem_nil, or_false, AsnVal.seq.injEq] at hm
      subst hm
      have k1 := (C103_attr_accepts der' s').mpr ⟨_, _, _, h1, h2⟩
      have k2 := (C103_attr_accepts der' s).mpr ⟨_, _, _, he, hp⟩
      rw [k1] at k2
      rw [Option.some.inj k2] at hn
      rw [(fromSpec_none_iff env.sq s).mpr hn] at hg
      cases hg
    · cases bits <;> simp at hm
  · refine ⟨_, _, num, [], der, [], s, g, d, Q, ⟨[], _, rfl, rfl, ?_⟩, ⟨[some _], [], rfl, rfl, by simp⟩, ⟨[], _, [], rfl, by cases bits <;> simp, by simp⟩, hd, rfl,
      ⟨_, _, _, he, hp⟩, by simp, hg, hQ, rfl⟩
    intro a ha
    simp only [List.map_cons, List.map_nil, List.mem_cons, Option.some.injEq, List.not_mem_nil, or_false] at ha
    rw [ha]
    exact fun h => absurd (Option.some.inj h) (by decide)

/-- The full C101 is false: every private key that can be written has a file, with attributes, whose import is undefined behaviour. -/
theorem C101_crash_refuted (env : Env) (hc : TemplateCodecs env) (ok : Nat → List Byte → Bool) (l : List Byte) (hl : l.length < 2 ^ 40) (pk : EvpPkey) (as : List Attr)
    (h : PrivateFile env ok l pk as) :
    ∃ l' as', PrivateFile env ok l' pk as' ∧ ∀ (χ : Type) ks (m : ImpMem EvpPkey χ), keysFromPKCS8 (pkcs8Keys (fileEnv env ok)) l' ks m = none := by
  obtain ⟨der, x, h1, h2, h3⟩ := attributes_ex ok ⟨163, .trinomial (-7), 1, [1], 5, [1]⟩ [] [] [0x80] (by decide +kernel) (by simp)
  obtain ⟨l', h4, _⟩ := file_attrs env ok l pk as _ h hl x h2 (by omega)
  refine ⟨l', _, h4, fun χ ks m => ?_⟩
  obtain ⟨f1, f2⟩ := file_read env hc ok l' pk _ h4
  have hu : ber_AttrCurveSpec der = some ⟨163, .trinomial (-7), 1, [1], 5, [1]⟩ := (C103_attr_accepts _ _).mpr ((h1 _).mpr rfl)
  have g1 : getPrivateKeyNum ⟨some oidKeyAttr, [.octet [0x80]]⟩ = some (some 1) := by decide
  have g2 : makePoly 163 (.trinomial (-7)) = none := by decide
  have g3 : findAttrs [some ⟨some oidCurveAttr, [.seq der]⟩, some ⟨some oidKeyAttr, [.octet [0x80]]⟩] (none, none) =
      (some ⟨some oidCurveAttr, [.seq der]⟩, some ⟨some oidKeyAttr, [.octet [0x80]]⟩) := by
    have hne : oidKeyAttr ≠ oidCurveAttr := by decide
    simp [findAttrs, dstu4145CurveOID_eq, dstu4145KeyOID_eq, hne]
  have g4 : pkcs8Keys (fileEnv env ok) l' = none := by
    unfold pkcs8Keys
    rw [f1]
    simp only [f2, pkeyFromAttributes, List.map_cons, List.map_nil, g3, makePKey, g1, makeECGROUP, findSpec]
    rw [show (fileEnv env ok).unpack_spec der = _ from hu]
    simp only [makeECGROUPFromSpec, g2]
  unfold keysFromPKCS8
  rw [g4]

/-- The file of a key on the 163-bit curve. -/
theorem file163 : ∃ e s, exportPrivate envDer ⟨.be, some (keyEx163 g163)⟩ = some e ∧ e.length < 2 ^ 28 ∧
    ∀ ok rest, PrivateFile envDer ok (e ++ rest) ⟨.be, some ⟨some g163, s, some 5, some (affine (-(5 • g163.gen)))⟩⟩ [] := by
  have h5 : numBytes 5 ≤ 2 ^ 20 := by rw [show numBytes 5 = 1 by decide]; norm_num
  obtain ⟨e, s, Q, h1, _, h3, h4⟩ := C101_exported_partial envDer envDer_codecs g163 encodable163 .be (keyEx163 g163) 5 rfl rfl (by omega) h5
  obtain ⟨e', _, _, k1, k2, _⟩ := C100_private_round_trip_partial envDer envDer_codecs g163 encodable163 .be (keyEx163 g163) 5 rfl rfl (by omega) h5
  rw [h1] at k1
  cases k1
  rw [h3] at h4
  exact ⟨e, s, h1, k2, h4⟩

/-- Its import gives a store with exactly this key; the empty string is refused; there is a file with the key that cannot be imported. -/
example : ∃ e s, exportPrivate envDer ⟨.be, some (keyEx163 g163)⟩ = some e ∧
    (∃ id m', keysFromPKCS8 (χ := Unit) (pkcs8Keys (fileEnv envDer fun _ _ => true)) (e ++ [7]) none ⟨KsMem.boot, fun _ => none, fun _ => none⟩ = some (true, some id, m') ∧
      HoldsExactly m' id [⟨.be, some ⟨some g163, s, some 5, some (affine (-(5 • g163.gen)))⟩⟩] []) ∧
    (∃ l', ∀ ks (m : ImpMem EvpPkey Unit), keysFromPKCS8 (pkcs8Keys (fileEnv envDer fun _ _ => true)) l' ks m = none) ∧
    ∀ m : ImpMem EvpPkey Unit, keysFromPKCS8 (pkcs8Keys (fileEnv envDer fun _ _ => true)) [] none m = some (false, none, m) := by
  obtain ⟨e, s, h1, h2, h3⟩ := file163
  refine ⟨e, s, h1, ?_, ?_, fun m => C101_refused envDer envDer_codecs _ _ ?_ _ _⟩
  · obtain ⟨id, m', k1, _, _, _, k5⟩ := C101_keys_partial (χ := Unit) envDer envDer_codecs (fun _ _ => true) (e ++ [7]) _ (single_key _ _ _ _ (h3 _ [7]))
      none ⟨KsMem.boot, fun _ => none, fun _ => none⟩ boot_reachable
    exact ⟨id, m', k1, k5⟩
  · obtain ⟨l', as', _, h⟩ := C101_crash_refuted envDer envDer_codecs (fun _ _ => true) (e ++ []) (by rw [List.append_nil]; omega) _ [] (h3 _ [])
    exact ⟨l', h Unit⟩
  · rintro pk as ⟨t, a, p, ep, kb, e, rest, key, g, Q, ⟨_, _, _, _, _, _, _, h⟩, h0, _⟩
    have he : e = [] := (List.append_eq_nil_iff.mp h0.symm).1
    cases a with
    | none => exact (constructed_solid h).1 he
    | some x =>
      obtain ⟨et, _, h⟩ := h
      exact (constructed_solid h).1 he

theorem spec163_small (sq : QuadSolver) : ∃ spec, group_from_asn1 sq spec false = some g163 ∧ SaneField spec ∧ (i2d_AttrCurveSpec spec [] []).length < 2 ^ 28 := by
  have hb : ¬ BadBase g163 := fun h => numbers163.2.2.2.2.2.2.2.2.2 h.1
  obtain ⟨spec, h1, hm, h2, h4⟩ := custom_group_round_trip sq g163 g163_dstu hb false
  have hf : fieldSpec (poly2arr g163.p) = some (163, .pentanomial 3 6 7) := by decide +kernel
  have : spec.m = 163 ∧ spec.poly = .pentanomial 3 6 7 := by
    unfold custom_from_group at h1
    rw [hf] at h1
    simp only at h1
    repeat' split at h1
    all_goals cases h1
    exact ⟨rfl, rfl⟩
  have hl := (custom_round_trip spec [] ⟨h4.1, fun _ h => by cases h⟩).2
  refine ⟨spec, h2, ?_, ?_⟩
  · unfold SaneField fieldExponents
    rw [this.1, this.2]
    simp
  · rw [i2d_attr]
    have h0 : (tlv 0x04 ([] : List Byte)).length = 2 := rfl
    have := tlv_length 0x30 (derCustom spec ++ (tlv 0x04 [] ++ tlv 0x04 [])) (by simp only [List.length_append]; omega)
    simp only [List.length_append] at this
    omega

/-- A file with two keys on the 163-bit curve: the second one is in the attributes. -/
example : ∃ l pk id m', keysFromPKCS8 (χ := Unit) (pkcs8Keys (fileEnv envDer fun _ _ => false)) l none ⟨KsMem.boot, fun _ => none, fun _ => none⟩ = some (true, some id, m') ∧
    HoldsExactly m' id [pk, ⟨.le, some ⟨some g163, none, some 5, some (affine (-(5 • g163.gen)))⟩⟩] [] := by
  obtain ⟨e, s, h1, h2, h3⟩ := file163
  obtain ⟨spec, hs1, hs, hsmall⟩ := spec163_small envDer.sq
  obtain ⟨der, x, k1, k2, k3⟩ := attributes_ex (fun _ _ => false) spec [] [] [0xA0] hsmall (by simp)
  obtain ⟨l, k4, _⟩ := file_attrs envDer _ _ _ [] _ (h3 (fun _ _ => false) []) (by rw [List.append_nil]; omega) x k2 (by omega)
  obtain ⟨dke, dke1, e', he, hp⟩ := (k1 spec).mpr rfl
  have h2 := C101_two_keys envDer _ l _ spec der [0xA0] dke dke1 e' he hp false k4 g163
    (C66_same_curve envDer.sq spec g163 hs1) 5 (fun i => by
      rw [show (5 : Nat) = bin2bn (([0xA0] : List Byte).map swapBits).reverse by decide]
      exact swapped_bit _ i) _ (add_public_key_good envDer g163 5)
  obtain ⟨id, m', q1, _, _, _, q5⟩ := C101_keys_partial (χ := Unit) envDer envDer_codecs (fun _ _ => false) l _ h2 none ⟨KsMem.boot, fun _ => none, fun _ => none⟩ boot_reachable
  exact ⟨l, _, id, m', q1, q5⟩

/-- There is a container for every password and contents. -/
theorem any_key6_ex (password : List Byte) (blocks : List (Bytes 8)) (mac : List Byte) (n : Nat) (hm : mac.length < 2 ^ 40) (hb : blocks.length < 2 ^ 40) :
    ∃ key data pad f, Key6Key dke1 password key ∧ BerKey6File oidIitStore mac (some pad) data f ∧ data ++ pad = ecb dke1 key blocks := by
  obtain ⟨key, _, _, _, hk, _⟩ := key6_ex password [] [] 0 (by simp) (by simp)
  have hlen : (ecb dke1 key blocks).length = 8 * blocks.length := by
    unfold ecb
    clear hb
    induction blocks with
    | nil => rfl
    | cons b l ih => simp only [List.flatMap_cons, List.length_append, List.length_cons, ih]; simp; omega
  obtain ⟨et, h1, l1⟩ := prim_ex .object oidIitStore (by decide)
  obtain ⟨em, h2, l2⟩ := prim_ex .octets mac (by omega)
  obtain ⟨eq, h3, l3⟩ := prim_ex .octets ((ecb dke1 key blocks).drop n) (by simp; omega)
  obtain ⟨ed, h4, l4⟩ := prim_ex .octets ((ecb dke1 key blocks).take n) (by simp; omega)
  simp only [List.length_drop, List.length_take] at l3 l4
  have l0 : oidIitStore.length = 12 := rfl
  obtain ⟨ep, h5, l5⟩ := sequence_ex [em, eq] (by simp; omega)
  simp only [List.flatten_cons, List.flatten_nil, List.length_append, List.length_nil] at l5
  obtain ⟨eh, h6, l6⟩ := sequence_ex [et, ep] (by simp; omega)
  simp only [List.flatten_cons, List.flatten_nil, List.length_append, List.length_nil] at l6
  obtain ⟨f, h7, _⟩ := sequence_ex [eh, ed] (by simp; omega)
  exact ⟨key, _, _, f, hk, ⟨et, em, ep, eh, ed, ⟨((dec_obj _ _).mp oid_ok).2, h1⟩, Or.inl h2, ⟨eq, Or.inl h3, h5⟩, h6, Or.inl h4, h7⟩, List.take_append_drop n _⟩

theorem blocks_of (n : Nat) (l : List Byte) (h : l.length = 8 * n) : ∃ blocks : List (Bytes 8), blocks.flatMap Vector.toList = l ∧ blocks.length = n := by
  induction n generalizing l with
  | zero => exact ⟨[], (List.length_eq_zero_iff.mp (by omega)).symm, rfl⟩
  | succ n ih =>
    obtain ⟨bs, h1, h2⟩ := ih (l.drop 8) (by rw [List.length_drop]; omega)
    refine ⟨⟨(l.take 8).toArray, by simp; omega⟩ :: bs, ?_, by simp [h2]⟩
    rw [List.flatMap_cons, h1]
    exact List.take_append_drop 8 l

/-- The key in a Key-6 container: there is such a container, and it gives the key back. -/
example (gar : Garbage) : ∃ f s id m',
    parseKey6 (χ := Unit) ⟨ber_IITStore, pkcs8Keys (fileEnv envDer fun _ _ => true)⟩ gar f [0x31, 0x32] none ⟨KsMem.boot, fun _ => none, fun _ => none⟩ =
      some (true, some id, m') ∧ HoldsExactly m' id [⟨.be, some ⟨some g163, s, some 5, some (affine (-(5 • g163.gen)))⟩⟩] [] := by
  have h5 : numBytes 5 ≤ 2 ^ 20 := by rw [show numBytes 5 = 1 by decide]; norm_num
  obtain ⟨e, s, Q, h1, _, h3, h4⟩ := C101_key6_round_trip_partial envDer envDer_codecs g163 encodable163 .be (keyEx163 g163) 5 rfl rfl (by omega) h5
  obtain ⟨e', _, g1, g2, _⟩ := file163
  rw [h1] at g1
  cases g1
  obtain ⟨blocks, b1, b2⟩ := blocks_of (e.length / 8 + 1) (e ++ List.replicate (8 - e.length % 8) 0) (by simp; omega)
  obtain ⟨key, data, pad, f, k1, k2, k4⟩ := any_key6_ex [0x31, 0x32] blocks [1, 2, 3, 4] 17 (by simp) (by omega)
  obtain ⟨id, m', q1, _, _, _, q5⟩ := h4 Unit (fun _ _ => true) gar f [] [0x31, 0x32] blocks _ [1, 2, 3, 4] data (some pad) key k1 k2 b1 k4 (by simp)
    none ⟨KsMem.boot, fun _ => none, fun _ => none⟩ boot_reachable
  rw [List.append_nil] at q1
  rw [h3] at q5
  exact ⟨f, s, id, m', q1, q5⟩

/-- The key in a Java key store, twice, once without and once with a certificate. -/
example (sha1 : List Byte → List Byte) (hsha : ∀ d, (sha1 d).length = 20) (ok : Nat → List Byte → Bool) : ∃ es k id m',
    parseJKS ⟨sha1, hsha, some, d2i_sig ok, pkcs8Keys (fileEnv envDer ok)⟩ (jksFile sha1 .jks ['p'] es) (utf8 ['p']) (utf8 ['k']) none ⟨KsMem.boot, fun _ => none, fun _ => none⟩ =
      some (true, some id, m') ∧ HoldsExactly m' id [k, k] [[0x30]] := by
  obtain ⟨e, s, h1, h2, h3⟩ := file163
  have hd : (protect sha1 (utf16 ['k']) (List.replicate 20 7) e).length < 2 ^ 30 := by
    unfold protect
    simp only [List.length_append, List.length_replicate, List.length_mapIdx, hsha]
    omega
  obtain ⟨eo, o1, o2⟩ := prim_ex .object oidKeyProtector (by decide)
  obtain ⟨ed, d1, d2⟩ := prim_ex .octets (protect sha1 (utf16 ['k']) (List.replicate 20 7) e) (by omega)
  have l0 : oidKeyProtector.length = 10 := rfl
  obtain ⟨ea, a1, a2⟩ := sequence_ex [eo, []] (by simp; omega)
  simp only [List.flatten_cons, List.flatten_nil, List.length_append, List.length_nil] at a2
  obtain ⟨f, f1, f2⟩ := sequence_ex [ea, ed] (by simp; omega)
  simp only [List.flatten_cons, List.flatten_nil, List.length_append, List.length_nil] at f2
  have henc : BerEncryptedKey ok oidKeyProtector (protect sha1 (utf16 ['k']) (List.replicate 20 7) e) f :=
    ⟨eo, [], ea, ed, ⟨((dec_obj _ _).mp (by decide : Prim.object.dec oidKeyProtector = some oidKeyProtector)).2, o1⟩, Or.inl rfl, a1, Or.inl d1, f1⟩
  have hfile := h3 ok []
  rw [List.append_nil] at hfile
  obtain ⟨id, m', q1, _, _, _, q5⟩ := C101_jks_partial envDer envDer_codecs ok ⟨sha1, hsha, some, d2i_sig ok, pkcs8Keys (fileEnv envDer ok)⟩ rfl rfl .jks ['p'] ['k'] (by simp) (by simp)
    [.key [0x61] (List.replicate 8 1) (f ++ []) [], .key [0x62] (List.replicate 8 1) (f ++ [1]) [⟨[0x58], [0x30]⟩]] [] (by simp) (by
      intro e he
      simp only [List.mem_cons, List.not_mem_nil, or_false] at he
      rcases he with rfl | rfl <;> simp [JksEntry.Fits, JksCert.Fits] <;> omega)
    [([⟨.be, some ⟨some g163, s, some 5, some (affine (-(5 • g163.gen)))⟩⟩], []), ([⟨.be, some ⟨some g163, s, some 5, some (affine (-(5 • g163.gen)))⟩⟩], [[0x30]])]
    (.cons ⟨_, _, _, _, e, f, _, henc, rfl, ⟨_, by simp, rfl⟩, single_key _ _ _ _ hfile, rfl⟩ (.cons ⟨_, _, _, _, e, f, _, henc, rfl, ⟨_, by simp, rfl⟩, single_key _ _ _ _ hfile, rfl⟩ .nil))
    none ⟨KsMem.boot, fun _ => none, fun _ => none⟩ boot_reachable
  rw [List.append_nil] at q1
  exact ⟨_, _, id, m', q1, q5⟩

end Dstu.Props
