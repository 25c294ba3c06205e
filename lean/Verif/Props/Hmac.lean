import Verif.Lemmas.Pbkdf2
import Verif.Props.Hash
import Verif.Props.Envelope

/-!
# Property C121: HMAC and keys made of passwords are those of the standards
-/

namespace Dstu.Props

open Spec (DigestOp Digests dke1)

/-- A context of HMAC with a key is given one message after the other, each in pieces: the values of HMAC. -/
def hmacMessages (h : MdHeap) (c : HmacCtx) : List (List (List Byte)) → Option (MdHeap × List (Bytes 32))
  | [] => some (h, [])
  | x :: xs => do
    let h ← hmacUpdates h c x
    let (h, out) ← hmacFinal h c
    let (h, outs) ← hmacMessages (hmacRestart h c) c xs
    return (h, out :: outs)

theorem hmac_messages (h : MdHeap) (d : Digests) (hs : h.Sim d) (c : HmacCtx) (ha : c.Apart) (key : List Byte) (hc : c.Has d key []) (msgs : List (List (List Byte)))
    (hl : ∀ x ∈ msgs, 32 + x.flatten.length < 2 ^ 60) :
    ∃ h' d', hmacMessages h c msgs = some (h', msgs.map fun x => Spec.hmac dke1 key x.flatten) ∧ h'.Sim d' ∧ ∀ j, j ≠ c.md → d' j = d j := by
  induction msgs generalizing h d with
  | nil => exact ⟨h, d, rfl, hs, fun _ _ => rfl⟩
  | cons x xs ih =>
    have hx := hl x List.mem_cons_self
    obtain ⟨h1, d1, e1, s1, c1, f1⟩ := hmac_updates h d hs c ha key [] hc x (by simpa using hx)
    obtain ⟨h2, d2, e2, s2, i2, o2, _, f2⟩ := hmac_final h1 d1 s1 c ha key _ c1 (by simpa using hx)
    obtain ⟨d3, s3, c3, f3⟩ := hmac_restart h2 d2 s2 c ha key i2 o2
    obtain ⟨h4, d4, e4, s4, f4⟩ := ih _ d3 s3 c3 (fun y hy => hl y (List.mem_cons_of_mem _ hy))
    refine ⟨h4, d4, ?_, s4, fun j hj => by rw [f4 j hj, f3 j hj, f2 j hj, f1 j hj]⟩
    simp only [hmacMessages, e1, e2, e4, Option.bind_eq_bind, Option.bind_some]
    rfl

/-- C121 for HMAC: after any history of operations on digest contexts, with any key, the values for any number of messages, each in any pieces, are those of RFC 2104 with the hash
GOST 34.311-95 and the S-box DKE No. 1.  Every other context still stands for its message. -/
theorem C121_hmac (hist : List DigestOp) (h : MdHeap) (hr : MdHeap.empty.run hist = some h) (c : HmacCtx) (ha : c.Apart) (key : List Byte) (hk : key.length < 2 ^ 60)
    (msgs : List (List (List Byte))) (hl : ∀ x ∈ msgs, 32 + x.flatten.length < 2 ^ 60) :
    ∃ h1 h2, hmacInit h c key = some h1 ∧ hmacMessages h1 c msgs = some (h2, msgs.map fun x => Spec.hmac dke1 key x.flatten) ∧
      ∀ j sb m, j ≠ c.md → j ≠ c.i → j ≠ c.o → expected hist j = some (.active sb m) → m.length < 2 ^ 60 → h2.digest j = some (Spec.gost34311 (Spec.tableOf sb) m) := by
  obtain ⟨h1, d1, e1, s1, c1, f1⟩ := hmac_init h _ (run_sim _ _ empty_sim hist h hr) c ha key hk
  obtain ⟨h2, d2, e2, s2, f2⟩ := hmac_messages h1 d1 s1 c ha key c1 msgs hl
  refine ⟨h1, h2, e1, e2, fun j sb m j1 j2 j3 he hm => ?_⟩
  obtain ⟨h3, e3⟩ := sim_final h2 d2 s2 j sb m (by rw [f2 j j1, f1 j j1 j2 j3]; exact he) hm
  simp [MdHeap.digest, e3]

/-- A short key and two messages, while another context is in use. -/
example : ∃ h h1 h2, MdHeap.empty.run [.new 7, .init 7 none, .update 7 (ascii "123456")] = some h ∧ hmacInit h ⟨0, 1, 2⟩ (ascii "Jefe") = some h1 ∧
    hmacMessages h1 ⟨0, 1, 2⟩ [[ascii "what do ya want", ascii " for nothing?"], []] =
      some (h2, [Spec.hmac dke1 (ascii "Jefe") (ascii "what do ya want for nothing?"), Spec.hmac dke1 (ascii "Jefe") []]) ∧
    h2.digest 7 = some (Spec.gost34311 (Spec.tableOf default_sbox) (ascii "123456")) := by
  obtain ⟨h, e⟩ := C17_defined [.new 7, .init 7 none, .update 7 (ascii "123456")]
    ⟨trivial, by simp [Spec.Digests.Legal, Spec.Digests.step, Spec.Digests.put], ⟨default_sbox, [], rfl, by decide⟩, trivial⟩
  obtain ⟨h1, h2, e1, e2, e3⟩ := C121_hmac _ h e ⟨0, 1, 2⟩ ⟨by decide, by decide, by decide⟩ (ascii "Jefe") (by decide)
    [[ascii "what do ya want", ascii " for nothing?"], []] (by decide)
  exact ⟨h, h1, h2, e, e1, e2, e3 7 _ _ (by decide) (by decide) (by decide) rfl (by decide)⟩

/-- C121 for PBKDF2: after any history, for any password, salt, number of iterations and length, the key is that of RFC 8018 with this HMAC. -/
theorem C121_pbkdf2 (hist : List DigestOp) (h : MdHeap) (hr : MdHeap.empty.run hist = some h) (t w : HmacCtx) (ht : t.Apart) (hw : w.Apart) (hd : t.Disjoint w)
    (pass salt : List Byte) (hp : pass.length < 2 ^ 60) (hs : salt.length < 2 ^ 59) (iter len : Nat) :
    ∃ h', pbkdf2 h t w pass salt iter len = some (h', Spec.pbkdf2 dke1 pass salt iter len) := by
  obtain ⟨h1, d1, e1, s1, c1, _⟩ := hmac_init h _ (run_sim _ _ empty_sim hist h hr) t ht pass hp
  obtain ⟨h2, d2, e2, _⟩ := pbkdf2_loop t w hw hd pass salt hs iter len 1 h1 d1 s1 c1
  refine ⟨hmacReset (hmacReset h2 w) t, ?_⟩
  unfold pbkdf2
  simp only [e1, e2, Option.bind_eq_bind, Option.bind_some]
  rfl

example : ∃ h', pbkdf2 MdHeap.empty ⟨0, 1, 2⟩ ⟨3, 4, 5⟩ (ascii "password") (ascii "salt") 2048 40 = some (h', Spec.pbkdf2 dke1 (ascii "password") (ascii "salt") 2048 40) :=
  C121_pbkdf2 [] _ rfl ⟨0, 1, 2⟩ ⟨3, 4, 5⟩ ⟨by decide, by decide, by decide⟩ ⟨by decide, by decide, by decide⟩
    ⟨⟨by decide, by decide, by decide⟩, ⟨by decide, by decide, by decide⟩, ⟨by decide, by decide, by decide⟩⟩ _ _ (by decide) (by decide) 2048 40

/-- The key has the length asked for. -/
theorem pbkdf2_length (T) (P S : List Byte) (iter len : Nat) : (Spec.pbkdf2 T P S iter len).length = len := by
  have h : ∀ n, ((List.range n).flatMap fun k => (Spec.pbkdf2F T P S (k + 1) (iter - 1)).toList).length = 32 * n := by
    intro n
    induction n with
    | zero => rfl
    | succ n ih => rw [List.range_succ, List.flatMap_append, List.length_append, ih]; simp; omega
  rw [Spec.pbkdf2, List.length_take, h]
  omega

/-- C121, from the password to the ciphertext: data of at least 8 bytes is encrypted with GOST 28147-89 in CFB mode under the first 32 bytes of PBKDF2.  Shorter data: C84. -/
theorem C121_encrypt_partial (hist : List DigestOp) (h : MdHeap) (hr : MdHeap.empty.run hist = some h) (t w : HmacCtx) (ht : t.Apart) (hw : w.Apart) (hd : t.Disjoint w)
    (pass salt : List Byte) (hp : pass.length < 2 ^ 60) (hs : salt.length < 2 ^ 59) (iter : Nat) (r r' : Vector W32 8) (iv : Bytes 8) (m : List Byte) (h8 : 8 ≤ m.length) :
    ∃ h' key snd snd', pbkdf2 h t w pass salt iter 32 = some (h', key.toList) ∧ key.toList = Spec.pbkdf2 dke1 pass salt iter 32 ∧
      paramsThenKey true r ⟨16, pbeParams r' iv⟩ key = some (some snd) ∧ Spec.feed snd [m] = some (Spec.cfbEncrypt (Spec.encrypt dke1 key) iv m, snd') := by
  obtain ⟨h', e⟩ := C121_pbkdf2 hist h hr t w ht hw hd pass salt hp hs iter 32
  have hk : (Vector.mk (Spec.pbkdf2 dke1 pass salt iter 32).toArray (by simp [pbkdf2_length]) : Bytes 32).toList = Spec.pbkdf2 dke1 pass salt iter 32 := by simp [Vector.toList]
  obtain ⟨_, snd, snd', e1, e2⟩ := C84_standard_partial r r' ⟨(Spec.pbkdf2 dke1 pass salt iter 32).toArray, by simp [pbkdf2_length]⟩ iv m h8
  rw [tableOf_default] at e2
  exact ⟨h', _, snd, snd', by rw [hk]; exact e, hk, e1, e2⟩

example (r r' : Vector W32 8) := C121_encrypt_partial [] _ rfl ⟨0, 1, 2⟩ ⟨3, 4, 5⟩ ⟨by decide, by decide, by decide⟩ ⟨by decide, by decide, by decide⟩
    ⟨⟨by decide, by decide, by decide⟩, ⟨by decide, by decide, by decide⟩, ⟨by decide, by decide, by decide⟩⟩ (ascii "password") (ascii "salt") (by decide) (by decide) 2048 r r' (zeros 8)
    (ascii "attack at dawn") (by decide)

end Dstu.Props
