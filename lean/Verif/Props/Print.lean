import Verif.Spec.Print
import Verif.Props.KeyPair

/-!
# Property C98: printing keys
-/

namespace Dstu.Props

open Dstu Spec

theorem numBytes_le_iff (n w : Nat) : numBytes n ≤ w ↔ n < 256 ^ w := by
  have h : (256 : Nat) ^ w = 2 ^ (8 * w) := by rw [pow_mul]; norm_num
  rw [h, ← numBits_le]
  unfold numBytes
  omega

theorem number_bytesBE {n w : Nat} (h : n < 256 ^ w) : Number w n (bytesBE w n) :=
  ⟨bytesBE_length _ _, by rw [beValue_bytesBE, Nat.mod_eq_of_lt h]⟩

/-- A point whose coordinates are reduced. -/
def ReducedPoint (g : EcGroup) (Q : Option (Nat × Nat)) : Prop := ∀ x y, Q = some (x, y) → x < 2 ^ g.degree ∧ y < 2 ^ g.degree

theorem lt_bytes {x d : Nat} (h : x < 2 ^ d) : x < 256 ^ ((d + 7) / 8) := by
  refine lt_of_lt_of_le h ?_
  have h2 : (256 : Nat) ^ ((d + 7) / 8) = 2 ^ (8 * ((d + 7) / 8)) := by rw [pow_mul]; norm_num
  rw [h2]
  exact Nat.pow_le_pow_right (by omega) (by omega)

theorem key2buf_reduced (g : EcGroup) (Q : Option (Nat × Nat)) (h : ReducedPoint g Q) :
    ∃ q, key2buf g Q = some q ∧ Uncompressed ((g.degree + 7) / 8) Q q := by
  cases Q with
  | none => exact ⟨[0], rfl, rfl⟩
  | some xy =>
    obtain ⟨x, y⟩ := xy
    obtain ⟨hx, hy⟩ := h x y rfl
    have hx := lt_bytes hx
    have hy := lt_bytes hy
    have h1 := (numBytes_le_iff x _).mpr hx
    have h2 := (numBytes_le_iff y _).mpr hy
    refine ⟨4 :: (bytesBE ((g.degree + 7) / 8) x ++ bytesBE ((g.degree + 7) / 8) y), ?_,
      ⟨_, _, number_bytesBE hx, number_bytesBE hy, rfl⟩⟩
    simp only [key2buf]
    rw [if_neg (by omega)]

/-- C98, where it holds: what is printed of the public half and of the parameters does not depend on the private key, on the S-box or on the type of the
key, and what is printed of the parameters does not depend on the public key either. -/
theorem C98_no_secret_partial (flag : Bool) (a b : EvpPkey) (ka kb : DstuKey) (ha : a.key = some ka) (hb : b.key = some kb) (hg : ka.group = kb.group) :
    dstu_asn1_param_print flag a = dstu_asn1_param_print flag b ∧ (ka.pub = kb.pub → dstu_asn1_pub_print flag a = dstu_asn1_pub_print flag b) := by
  simp only [dstu_asn1_param_print, dstu_asn1_pub_print, ha, hb, do_EC_KEY_print, hg]
  exact ⟨trivial, fun h => by rw [h]⟩

/-- C98, where it holds: for a key pair the title, the private key and the public key are printed, whatever follows. -/
theorem C98_private_partial (flag : Bool) (pk : EvpPkey) (key : DstuKey) (g : EcGroup) (d : Nat) (Q : Option (Nat × Nat)) (hk : pk.key = some key)
    (hg : key.group = some g) (hd : key.priv = some d) (hQ : key.pub = some Q) (hlt : d < g.n) (hr : ReducedPoint g Q) :
    ∃ ok l rest, dstu_asn1_priv_print flag pk = some (ok, l ++ rest) ∧ ShowsPair g d Q l := by
  obtain ⟨q, hq, hq'⟩ := key2buf_reduced g Q hr
  have hlt' : d < 256 ^ ((numBits g.n + 7) / 8) := lt_bytes (lt_trans hlt (lt_two_pow_numBits _))
  have h0 : (numBits g.n + 7) / 8 ≠ 0 := by
    have := (numBits_pos g.n).mpr (by omega)
    omega
  have hp : priv2buf g d = some (bytesBE ((numBits g.n + 7) / 8) d) := by
    have := (numBytes_le_iff d _).mpr hlt'
    simp only [priv2buf]
    rw [if_neg (by omega)]
  refine ⟨(printGroup flag g).1, _, (printGroup flag g).2, ?_, ⟨_, _, number_bytesBE hlt', hq', rfl⟩⟩
  simp only [dstu_asn1_priv_print, hk, do_EC_KEY_print, hg, hd, hQ, hq, hp, Option.map_some]
  rfl

/-- C98, where it holds: for a key with a public point the title and the point are printed, whatever follows. -/
theorem C98_public_partial (flag : Bool) (pk : EvpPkey) (key : DstuKey) (g : EcGroup) (Q : Option (Nat × Nat)) (hk : pk.key = some key)
    (hg : key.group = some g) (hQ : key.pub = some Q) (hr : ReducedPoint g Q) :
    ∃ ok l rest, dstu_asn1_pub_print flag pk = some (ok, l ++ rest) ∧ ShowsPublic g Q l := by
  obtain ⟨q, hq, hq'⟩ := key2buf_reduced g Q hr
  refine ⟨(printGroup flag g).1, _, (printGroup flag g).2, ?_, ⟨_, hq', rfl⟩⟩
  simp only [dstu_asn1_pub_print, hk, do_EC_KEY_print, hg, hQ, hq, Option.map_some]
  rfl

/-- Points of the curve have reduced coordinates. -/
theorem reduced_affine (g : EcGroup) [GoodGroup g] (P : g.Point) : ReducedPoint g (affine P) := by
  intro x y h
  have hp : 1 < g.p := by have := goodGroup_p g; omega
  cases P with
  | zero => cases h
  | some x' y' hxy =>
    simp only [affine, Option.some.injEq, Prod.mk.injEq] at h
    obtain ⟨rfl, rfl⟩ := h
    exact ⟨GF.toNat_lt _ hp _, GF.toNat_lt _ hp _⟩

/-- C98, where it holds: a generated key pair is shown in full. -/
theorem C98_generated_partial (flag : Bool) (g : EcGroup) [GoodGroup g] (key k : EcKey g) (draws : List (Option Nat)) (hr : ∀ d, some d ∈ draws → d < g.n)
    (h : dstu_generate_key g key draws = .done k) (t : KeyType) (s : Option (Bytes 64)) :
    ∃ d Q ok l rest, k.priv = some d ∧ k.pub = some Q ∧
      dstu_asn1_priv_print flag ⟨t, some ⟨some g, s, some d, some (affine Q)⟩⟩ = some (ok, l ++ rest) ∧ ShowsPair g d (affine Q) l := by
  obtain ⟨d, h1, _, h3, h4⟩ := C42_generated key k draws hr h
  obtain ⟨ok, l, rest, h5, h6⟩ := C98_private_partial flag ⟨t, some ⟨some g, s, some d, some (affine (-(d • g.gen)))⟩⟩ _ g d _ rfl rfl rfl rfl h3 (reduced_affine g _)
  exact ⟨d, _, ok, l, rest, h1, h4, h5, h6⟩

example (draws : List (Option Nat)) (k : EcKey g163) (hr : ∀ d, some d ∈ draws → d < g163.n) (h : dstu_generate_key g163 ⟨none, none⟩ draws = .done k) :=
  C98_generated_partial true g163 ⟨none, none⟩ k draws hr h .le none

theorem uncompressed_inj (w : Nat) (Q Q' : Option (Nat × Nat)) (l : List Byte) (h : Uncompressed w Q l) (h' : Uncompressed w Q' l) : Q = Q' := by
  cases Q with
  | none =>
    cases Q' with
    | none => rfl
    | some b =>
      obtain ⟨bx, bY, _, _, rfl⟩ := h'
      simp [Uncompressed] at h
  | some a =>
    cases Q' with
    | none =>
      obtain ⟨bx, bY, _, _, rfl⟩ := h
      simp [Uncompressed] at h'
    | some b =>
      obtain ⟨bx, bY, ⟨l1, v1⟩, ⟨l2, v2⟩, rfl⟩ := h
      obtain ⟨cx, cy, ⟨l3, v3⟩, ⟨l4, v4⟩, he⟩ := h'
      simp only [List.cons.injEq, true_and] at he
      obtain ⟨e1, e2⟩ := List.append_inj he (by omega)
      subst e1 e2
      obtain ⟨x, y⟩ := a
      obtain ⟨x', y'⟩ := b
      simp only at v1 v2 v3 v4
      rw [← v1, ← v2, v3, v4]

/-- What is shown determines the key pair. -/
theorem shows_inj (g : EcGroup) (d d' : Nat) (Q Q' : Option (Nat × Nat)) (l : List PrintItem) (h : ShowsPair g d Q l) (h' : ShowsPair g d' Q' l) :
    d = d' ∧ Q = Q' := by
  obtain ⟨p, q, ⟨_, v1⟩, u1, rfl⟩ := h
  obtain ⟨p', q', ⟨_, v2⟩, u2, he⟩ := h'
  simp only [List.cons.injEq, PrintItem.priv.injEq, PrintItem.pub.injEq, and_true, true_and] at he
  obtain ⟨e1, e2⟩ := he
  subst e1 e2
  exact ⟨by rw [← v1, v2], uncompressed_inj _ _ _ _ u1 u2⟩

/-- C98 is false: with OpenSSL 1.1.0 and later, every one of the three functions fails for every key, and the curve is not shown. -/
theorem C98_curve_refuted (pk : EvpPkey) (f : Bool → EvpPkey → Option (Bool × List PrintItem))
    (hf : f ∈ [dstu_asn1_param_print, dstu_asn1_priv_print, dstu_asn1_pub_print]) (ok : Bool) (l : List PrintItem) (h : f true pk = some (ok, l)) :
    ok = false ∧ ∀ g, PrintItem.curve g ∉ l := by
  have key : ∀ k t ok l, do_EC_KEY_print true k t = (ok, l) → ok = false ∧ ∀ g, PrintItem.curve g ∉ l := by
    intro k t ok l h
    unfold do_EC_KEY_print at h
    cases hg : k.group with
    | none =>
      rw [hg] at h
      simp only [Prod.mk.injEq] at h
      obtain ⟨rfl, rfl⟩ := h
      exact ⟨rfl, by simp⟩
    | some g =>
      rw [hg] at h
      simp only [printGroup, if_true] at h
      split at h
      · rename_i pub priv hp hq
        simp only [Prod.mk.injEq] at h
        obtain ⟨rfl, rfl⟩ := h
        refine ⟨rfl, fun g' hm => ?_⟩
        simp only [List.append_nil, List.mem_cons, reduceCtorEq, List.mem_append, false_or] at hm
        rcases hm with hm | hm
        · split at hq
          · rw [Option.map_eq_some_iff] at hq
            obtain ⟨_, _, rfl⟩ := hq
            simp at hm
          · cases hq; simp at hm
        · split at hp
          · cases hp; simp at hm
          · cases hp; simp at hm
          · rw [Option.map_eq_some_iff] at hp
            obtain ⟨_, _, rfl⟩ := hp
            simp at hm
      · simp only [Prod.mk.injEq] at h
        obtain ⟨rfl, rfl⟩ := h
        exact ⟨rfl, by simp⟩
  simp only [List.mem_cons, List.not_mem_nil, or_false] at hf
  have hp : ∀ t, (match pk.key with | none => none | some k => some (do_EC_KEY_print true k t)) = some (ok, l) →
      ok = false ∧ ∀ g, PrintItem.curve g ∉ l := by
    intro t h
    cases hk : pk.key with
    | none => rw [hk] at h; cases h
    | some k =>
      rw [hk] at h
      exact key k t ok l (Option.some.inj h)
  rcases hf with rfl | rfl | rfl
  · exact hp _ h
  · exact hp _ h
  · exact hp _ h

/-- C98 is false: printing a key object that has a type but no key yet (after a failed import, for one) is undefined behaviour. -/
theorem C98_missing_refuted (flag : Bool) (t : KeyType) :
    dstu_asn1_param_print flag ⟨t, none⟩ = none ∧ dstu_asn1_priv_print flag ⟨t, none⟩ = none ∧ dstu_asn1_pub_print flag ⟨t, none⟩ = none :=
  ⟨rfl, rfl, rfl⟩

/-- C98 is false: on each built-in curve, a private key with more bytes than the order is imported, and printing it then shows nothing at all. -/
theorem C98_long_private_refuted (flag : Bool) (env : Env) (i : Fin 10) (g : EcGroup) (hi : group_from_named_curve env.nids i = some g) (t : KeyType) (d : Nat)
    (hd : 256 ^ ((numBits g.n + 7) / 8) ≤ d) (old : EvpPkey) :
    ∃ p8 pk, dstu_asn1_priv_decode env old p8 = (true, pk) ∧ leValue p8.prk = d ∧ dstu_asn1_priv_print flag pk = some (false, []) := by
  have hd0 : d ≠ 0 := by
    have : 0 < 256 ^ ((numBits g.n + 7) / 8) := by positivity
    omega
  obtain ⟨p8, s, Q, _, _, h, _⟩ := C40_builtin_round_trip env i g hi t ⟨some g, none, some d, none⟩ d rfl rfl hd0 old
  obtain ⟨k, _, h1, _, h2, _⟩ := C42_imported env _ _ p8 h
  simp only [Option.some.injEq] at h1
  subst h1
  simp only [Option.some.injEq] at h2
  refine ⟨p8, _, h, h2.symm, ?_⟩
  have hp : priv2buf g d = none := by
    have : ¬ numBytes d ≤ (numBits g.n + 7) / 8 := by
      rw [numBytes_le_iff]
      omega
    simp only [priv2buf]
    rw [if_pos (by omega)]
  simp only [dstu_asn1_priv_print, do_EC_KEY_print, hp, Option.map_none]
  cases key2buf g Q <;> rfl

/-! Concrete cases. -/

theorem reduced163 : ReducedPoint g163 (some (g163.gx, g163.gy)) := by
  intro x y h
  simp only [Option.some.injEq, Prod.mk.injEq] at h
  obtain ⟨rfl, rfl⟩ := h
  exact ⟨numbers163'.2.2.2.2.2, numbers163'.2.2.2.2.1⟩

/-- A key on the curve of degree 163. -/
def printed163 (d : Option Nat) : EvpPkey := ⟨.le, some ⟨some g163, none, d, some (some (g163.gx, g163.gy))⟩⟩

example := C98_no_secret_partial true (printed163 (some 5)) (printed163 none) _ _ rfl rfl rfl
example := C98_private_partial true (printed163 (some 5)) _ g163 5 _ rfl rfl rfl rfl (by decide +kernel) reduced163
example := C98_public_partial true (printed163 (some 5)) _ g163 _ rfl rfl rfl reduced163

/-- The curve of degree 163 and key 5: the title, 21 bytes and 43 bytes, and then failure. -/
example : ∃ p q, dstu_asn1_priv_print true (printed163 (some 5)) = some (false, [.title .priv 163, .priv p, .pub q]) ∧ p.length = 21 ∧ q.length = 43 :=
  ⟨bytesBE 21 5, 4 :: (bytesBE 21 g163.gx ++ bytesBE 21 g163.gy), by decide +kernel, by decide +kernel, by decide +kernel⟩

example := C98_curve_refuted (printed163 (some 5)) dstu_asn1_pub_print (by simp) _ _ rfl
example (env : Env) := C98_long_private_refuted true env 0 g163 (g163_named env.nids) .le (256 ^ 21) (by decide +kernel) ⟨.le, none⟩

end Dstu.Props
