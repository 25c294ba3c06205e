import Verif.Props.Life
import Verif.Props.KeySpace

/-! C88 with the generator of the engine: key generation, export, import, signing and verification with random numbers drawn by the engine itself. -/

namespace Dstu.Props

open Spec WeierstrassCurve

/-- C88 with the generator of the engine, in any state, for the key pair and for the signatures: nothing is assumed about the random numbers.  Missing: the keys left out in
`C88_life_partial`. -/
theorem C88_engine_partial (env : Env) (n : Fin 10) (g : EcGroup) [GoodGroup g] (hg : group_from_named_curve env.nids n = some g)
    (t : KeyType) (empty kp : EcKey g) (lockNew : Bool) (e : RandEnv) (c : Nat) (st : RbgState) (hgen : generateDrawing lockNew e g empty c st = some (.done kp))
    (key : DstuKey) (hkey : ShownBy kp key) (hex : (n ≠ 0 ∧ n ≠ 8) ∨ ∀ y, key.pub ≠ some (some (1, y))) (old old' : EvpPkey) :
    ∃ p8 enc priv pub, dstu_asn1_priv_encode env ⟨t, some key⟩ = some p8 ∧ dstu_asn1_pub_encode env ⟨t, some key⟩ = some enc ∧
      dstu_asn1_priv_decode env old p8 = (true, ⟨t, some priv⟩) ∧ dstu_asn1_pub_decode env old' enc = (true, ⟨t, some pub⟩) ∧
      priv.priv = key.priv ∧ SamePublic priv key ∧ SamePublic pub key ∧ EVP_PKEY_cmp ⟨t, some priv⟩ ⟨t, some pub⟩ = some 1 ∧
      ∀ skey vkey : EcKey g, ShownBy skey priv → ShownBy vkey pub →
        ∀ (hist hist' : List DigestOp) (h h' : MdHeap), MdHeap.empty.run hist = some h → MdHeap.empty.run hist' = some h' →
        ∀ (i j i' j' : Nat), i ≠ j → i' ≠ j' → ∀ chunks chunks' : List (List Byte), chunks.flatten = chunks'.flatten →
        chunks.flatten.length < 2 ^ 60 → ∀ (siglen : Nat) (lockNew' : Bool) (e' : RandEnv) (c' : Nat) (st₁ st₂ : RbgState) (nonces : List (Option Nat)),
        draws lockNew' e' g.n c' st₁ = some (nonces, st₂) →
        ∀ out, digestSign t g skey priv.sbox h i j chunks siglen nonces = some (.done out) → out.ret = true →
          digestVerify env.octet t g vkey pub.sbox h' i' j' chunks' out.written = some true := by
  unfold generateDrawing at hgen
  rw [Option.map_eq_some_iff] at hgen
  obtain ⟨⟨rs, st'⟩, h1, h2⟩ := hgen
  obtain ⟨p8, enc, priv, pub, a1, a2, a3, a4, a5, a6, a7, a8, a9⟩ :=
    C88_life_partial env n g hg t empty kp rs (C110_in_range lockNew e g.n c st rs st' h1).2 h2 key hkey hex old old'
  refine ⟨p8, enc, priv, pub, a1, a2, a3, a4, a5, a6, a7, a8, ?_⟩
  intro skey vkey hs hv hist hist' h h' b1 b2 i j i' j' b3 b4 chunks chunks' b5 b6 siglen lockNew' e' c' st₁ st₂ nonces b7 out b8 b9
  exact a9 skey vkey hs hv hist hist' h h' b1 b2 i j i' j' b3 b4 chunks chunks' b5 b6 siglen nonces (C110_in_range lockNew' e' g.n c' st₁ nonces st₂ b7).2 out b8 b9

/-- A key pair generated on the curve of degree 257: whatever number other than 0 the first block of a stream makes. -/
example (env : Env) (hg : group_from_named_curve env.nids 6 = some gEx) (t : KeyType) (e : RandEnv) (seed : Bytes 40) (hst : e.status = true) (hseed : e.seed = some seed) (d : Nat)
    (hd : 1 ≤ d) (h : below gEx.n (beValue ((RbgSeed.ofSeed seed e.curr).segment 0 (drawBytes gEx.n))) = some d) :
    ∃ key p8 enc priv pub, dstu_asn1_priv_encode env ⟨t, some key⟩ = some p8 ∧ dstu_asn1_pub_encode env ⟨t, some key⟩ = some enc ∧
      dstu_asn1_priv_decode env ⟨t, none⟩ p8 = (true, ⟨t, some priv⟩) ∧ dstu_asn1_pub_decode env ⟨t, none⟩ enc = (true, ⟨t, some pub⟩) ∧ priv.priv = some d := by
  obtain ⟨h1, h2, _⟩ := named_order_size env.nids 6 gEx hg
  have hgen := C113_first_block_partial (g := gEx) (by omega) h2 e seed hst hseed ⟨none, none⟩ d hd h
  obtain ⟨p8, enc, priv, pub, a1, a2, a3, a4, a5, _⟩ := C88_engine_partial env 6 gEx hg t ⟨none, none⟩ _ true e 1 .boot hgen
    ⟨some gEx, none, some d, some (affine (-(d • gEx.gen)))⟩ ⟨rfl, rfl, rfl⟩ (Or.inl (by decide)) ⟨t, none⟩ ⟨t, none⟩
  exact ⟨_, p8, enc, priv, pub, a1, a2, a3, a4, a5⟩

end Dstu.Props
