import Verif.Props.Cipher
import Verif.Props.Message
import Verif.Props.MessageBinding
import Verif.Props.HashCollision
import Verif.Props.Key

/-!
# Property C123: keys matter, and what is done under one key tells nothing about another
-/

namespace Dstu.Props

open Spec

/-! ### The highest bits of all words -/

/-- The highest bit of each word of four bytes is changed: byte `i` of what is given. -/
def flipByte (i : Nat) (b : Byte) : Byte := if i % 4 = 3 then b ^^^ 0x80 else b

/-- The highest bit of each word of a key or a block is changed. -/
def flipTop {n : Nat} (v : Bytes n) : Bytes n := Vector.ofFn fun i => flipByte i.val v[i]

/-- The same for data of any length. -/
def flipData (l : List Byte) : List Byte := l.mapIdx flipByte

theorem xor_top (x : W32) : x ^^^ 0x80000000#32 = x + 0x80000000#32 := by
  apply BitVec.eq_of_toNat_eq
  rw [BitVec.toNat_xor, BitVec.toNat_add]
  have hx := x.isLt
  generalize x.toNat = a at hx
  change a ^^^ 2 ^ 31 = (a + 2 ^ 31) % 2 ^ 32
  have h1 := Nat.xor_mod_two_pow (a := a) (b := 2 ^ 31) (n := 31)
  have h2 := Nat.xor_div_two_pow (a := a) (b := 2 ^ 31) (n := 31)
  rw [Nat.mod_self, Nat.xor_zero] at h1
  rw [Nat.div_self (Nat.two_pow_pos _)] at h2
  have h3 : a / 2 ^ 31 = 0 ∨ a / 2 ^ 31 = 1 := by omega
  generalize a ^^^ 2 ^ 31 = z at *
  rcases h3 with h3 | h3 <;> rw [h3] at h2
  · rw [Nat.zero_xor] at h2
    omega
  · rw [Nat.xor_self] at h2
    omega

theorem xor_top_add (x k : W32) : (x ^^^ 0x80000000#32) + (k ^^^ 0x80000000#32) = x + k := by
  rw [xor_top, xor_top, show x + 0x80000000#32 + (k + 0x80000000#32) = x + k + (0x80000000#32 + 0x80000000#32) by ac_rfl, show (0x80000000#32 + 0x80000000#32) = 0#32 by decide,
    BitVec.add_zero]

theorem round_top (S) (n : W32 × W32) (k : W32) :
    Spec.round S (n.1 ^^^ 0x80000000#32, n.2 ^^^ 0x80000000#32) (k ^^^ 0x80000000#32) = ((Spec.round S n k).1 ^^^ 0x80000000#32, (Spec.round S n k).2 ^^^ 0x80000000#32) := by
  simp only [Spec.round, roundFn, xor_top_add, Prod.mk.injEq, and_true]
  rw [BitVec.xor_assoc, BitVec.xor_comm (0x80000000#32), ← BitVec.xor_assoc]

theorem rounds_top (S) (ks : List W32) (n : W32 × W32) :
    (ks.map (· ^^^ 0x80000000#32)).foldl (Spec.round S) (n.1 ^^^ 0x80000000#32, n.2 ^^^ 0x80000000#32) =
      ((ks.foldl (Spec.round S) n).1 ^^^ 0x80000000#32, (ks.foldl (Spec.round S) n).2 ^^^ 0x80000000#32) := by
  induction ks generalizing n with
  | nil => rfl
  | cons k ks ih =>
    rw [List.map_cons, List.foldl_cons, round_top, ih, List.foldl_cons]

theorem word_top (a b c d : Byte) : word a b c (d ^^^ 128#8) = word a b c d ^^^ 0x80000000#32 := by
  rw [show 0x80000000#32 = (0x80#8 ++ 0#8 ++ 0#8 ++ 0#8 : W32) by decide]
  unfold word
  rw [BitVec.xor_append, BitVec.xor_append, BitVec.xor_append]
  simp

theorem subkeys_top (k : Bytes 32) : subkeys (flipTop k) = (subkeys k).map (· ^^^ 0x80000000#32) := by
  simp [subkeys, flipTop, flipByte, word_top]

theorem load_top (b : Bytes 8) : Spec.load (flipTop b) = ((Spec.load b).1 ^^^ 0x80000000#32, (Spec.load b).2 ^^^ 0x80000000#32) := by
  simp [Spec.load, flipTop, flipByte, word_top]

theorem octet_top (x : W32) (i : Nat) (h : i < 4) : octet (x ^^^ 0x80000000#32) i = flipByte i (octet x i) := by
  unfold octet
  rw [BitVec.extractLsb'_xor]
  have : i = 0 ∨ i = 1 ∨ i = 2 ∨ i = 3 := by omega
  rcases this with rfl | rfl | rfl | rfl <;> simp [flipByte]

theorem store_top (n : W32 × W32) : store (n.1 ^^^ 0x80000000#32, n.2 ^^^ 0x80000000#32) = flipTop (store n) := by
  apply Vector.ext
  intro i hi
  have : i = 0 ∨ i = 1 ∨ i = 2 ∨ i = 3 ∨ i = 4 ∨ i = 5 ∨ i = 6 ∨ i = 7 := by omega
  rcases this with rfl | rfl | rfl | rfl | rfl | rfl | rfl | rfl <;> simp [store, flipTop, octet_top] <;> rfl

/-- A key and a block with all the highest bits changed give the block encrypted with the highest bits changed, whatever the S-box. -/
theorem encrypt_top (S) (k : Bytes 32) (b : Bytes 8) : encrypt S (flipTop k) (flipTop b) = flipTop (encrypt S k b) := by
  unfold encrypt cycle
  have h : encSchedule (subkeys (flipTop k)) = (encSchedule (subkeys k)).map (· ^^^ 0x80000000#32) := by
    simp [encSchedule, subkeys_top]
  rw [h, load_top, rounds_top, ← store_top]
  rfl

theorem flipData_length (l : List Byte) : (flipData l).length = l.length := by simp [flipData]

theorem flipData_append (l m : List Byte) (h : l.length % 4 = 0) : flipData (l ++ m) = flipData l ++ flipData m := by
  unfold flipData
  rw [List.mapIdx_append]
  congr 1
  apply List.ext_getElem (by simp)
  intro i h1 h2
  simp only [List.getElem_mapIdx, flipByte]
  rw [show (i + l.length) % 4 = i % 4 by omega]

theorem flipTop_toList {n : Nat} (v : Bytes n) : (flipTop v).toList = flipData v.toList := by
  apply List.ext_getElem (by simp [flipData])
  intro i h1 h2
  simp [flipTop, flipData]

theorem flipByte_xor (i : Nat) (a b : Byte) : a ^^^ flipByte i b = flipByte i (a ^^^ b) := by
  unfold flipByte
  split
  · rw [BitVec.xor_assoc]
  · rfl

theorem zip_flip (m k : List Byte) : List.zipWith (· ^^^ ·) m (flipData k) = flipData (List.zipWith (· ^^^ ·) m k) := by
  apply List.ext_getElem (by simp [flipData])
  intro i h1 h2
  simp [flipData, flipByte_xor]

theorem cfb_top (S) (k : Bytes 32) (iv : Bytes 8) (m : List Byte) :
    cfbEncrypt (encrypt S (flipTop k)) (flipTop iv) m = flipData (cfbEncrypt (encrypt S k) iv m) := by
  induction hn : m.length using Nat.strong_induction_on generalizing m iv with
  | _ n ih =>
    subst hn
    rw [cfbEncrypt, cfbEncrypt]
    by_cases h : 8 < m.length
    · rw [dif_pos h, dif_pos h]
      simp only [encrypt_top]
      have hc : (Vector.ofFn fun i : Fin 8 => m[i.val] ^^^ (flipTop (encrypt S k iv))[i]) = flipTop (Vector.ofFn fun i : Fin 8 => m[i.val] ^^^ (encrypt S k iv)[i]) := by
        apply Vector.ext
        intro i hi
        simp [flipTop, flipByte_xor]
      rw [hc, ih (m.drop 8).length (by simp; omega) _ _ rfl, flipData_append _ _ (by simp), flipTop_toList]
    · rw [dif_neg h, dif_neg h, encrypt_top, flipTop_toList, zip_flip]

/-- C123 is false for related keys, with every S-box: what is encrypted under a key and an IV tells what is encrypted under the key and the IV with the highest bit of each word changed: the
same with the highest bit of each word changed.  So with chosen IVs a search has to try only half of the keys. -/
theorem C123_related_refuted (ctx : CipherCtx) (he : ctx.encrypting = true) (rnd rnd' : Vector W32 8) (key : Bytes 32) (iv : Bytes 8) (p : Option (Bytes 64)) (m : List Byte)
    (chunks chunks' : List (List Byte)) (hc : Cuts chunks m) (hc' : Cuts chunks' m) :
    ∃ out c₁ c₂ d₁ d₂, installSbox (dstu_cipher_init ctx rnd (some key) (some iv)) p = some (1, c₁) ∧ feed c₁ chunks = some (out, c₂) ∧
      installSbox (dstu_cipher_init ctx rnd' (some (flipTop key)) (some (flipTop iv))) p = some (1, d₁) ∧ feed d₁ chunks' = some (flipData out, d₂) := by
  obtain ⟨c₁, c₂, e₁, e₂⟩ := C06_any_sbox ctx he rnd key iv p m chunks hc
  obtain ⟨d₁, d₂, e₃, e₄⟩ := C06_any_sbox ctx he rnd' (flipTop key) (flipTop iv) p m chunks' hc'
  rw [cfb_top] at e₄
  exact ⟨_, c₁, c₂, d₁, d₂, e₁, e₂, e₃, e₄⟩

/-! ### S-boxes that are accepted -/

/-- Each of the eight rows has one value only. -/
def ConstantRows (p : Bytes 64) : Prop := ∀ r n n', tableOf p r n = tableOf p r n'

theorem encrypt_constant (p : Bytes 64) (hp : ConstantRows p) (k k' : Bytes 32) (b : Bytes 8) : encrypt (tableOf p) k b = encrypt (tableOf p) k' b := by
  have hr : ∀ n a a', Spec.round (tableOf p) n a = Spec.round (tableOf p) n a' := by
    intro n a a'
    have : substitute (tableOf p) (n.1 + a) = substitute (tableOf p) (n.1 + a') := by
      unfold substitute
      congr 1
      all_goals try exact hp _ _ _
      repeat (congr 1; all_goals try exact hp _ _ _)
    simp only [Spec.round, roundFn, this]
  have hf : ∀ (ks ks' : List W32) n, ks.length = ks'.length → ks.foldl (Spec.round (tableOf p)) n = ks'.foldl (Spec.round (tableOf p)) n := by
    intro ks
    induction ks with
    | nil => intro ks' n h; rw [List.eq_nil_of_length_eq_zero h.symm]
    | cons a ks ih =>
      intro ks' n h
      cases ks' with
      | nil => simp at h
      | cons a' ks' =>
        rw [List.foldl_cons, List.foldl_cons, hr n a a', ih ks' _ (by simpa using h)]
  unfold encrypt cycle
  rw [hf _ (encSchedule (subkeys k')) _ (by simp [encSchedule, subkeys])]

/-- C123 is false for S-boxes with constant rows, which are accepted: with one of these the ciphertext is the same under all keys, for every IV and every message. -/
theorem C123_sbox_refuted (p : Bytes 64) (hp : ConstantRows p) (ctx : CipherCtx) (he : ctx.encrypting = true) (iv : Bytes 8) (m : List Byte) (chunks : List (List Byte)) (hc : Cuts chunks m) :
    ∃ out, ∀ (key : Bytes 32) (rnd : Vector W32 8), ∃ c₁ c₂, dstu_cipher_ctrl (dstu_cipher_init ctx rnd (some key) (some iv)) (.setSbox 64 (some p.toList)) = some (1, c₁) ∧
      feed c₁ chunks = some (out, c₂) := by
  refine ⟨cfbEncrypt (encrypt (tableOf p) (zeros 32)) iv m, fun key rnd => ?_⟩
  obtain ⟨c₁, c₂, e₁, e₂⟩ := C06_any_sbox ctx he rnd key iv (some p) m chunks hc
  refine ⟨c₁, c₂, e₁, ?_⟩
  rw [e₂, show encrypt (tableOf ((some p).getD default_sbox)) key = encrypt (tableOf p) (zeros 32) from funext fun b => encrypt_constant p hp _ _ b]

theorem zeros_constant : ConstantRows (zeros 64) := by
  unfold ConstantRows
  decide +kernel

/-- C123 is false for signatures under a key whose parameters have the S-box of zeros, which are accepted: two fixed messages are exchangeable on every curve, for every key and signature. -/
theorem C123_message_refuted {g : EcGroup} [GoodGroup g] (dec : OctetDecoder) (type : KeyType) (key : EcKey g) (sig : List Byte) :
    Vouches dec type g key (some (zeros 64)) sig bumpy ↔ Vouches dec type g key (some (zeros 64)) sig (List.replicate 32 0) := by
  rw [vouches_iff _ _ _ _ _ _ (by decide), vouches_iff _ _ _ _ _ _ (by decide)]
  simp only [Option.getD_some]
  rw [bumpy_digest]

/-- C123, what is shown of it: with the default S-box the key matters.  Missing: how much. -/
theorem C123_default_partial (ctx : CipherCtx) (he : ctx.encrypting = true) (rnd : Vector W32 8) :
    ∃ (key key' : Bytes 32) (iv : Bytes 8) (m out out' : List Byte) (c c' : CipherCtx), feed (dstu_cipher_init ctx rnd (some key) (some iv)) [m] = some (out, c) ∧
      feed (dstu_cipher_init ctx rnd (some key') (some iv)) [m] = some (out', c') ∧ out ≠ out' := by
  obtain ⟨c, e⟩ := C06_cfb_encrypt ctx he rnd (zeros 32) (zeros 8) [0] [[0]] ⟨by decide, by decide⟩
  obtain ⟨c', e'⟩ := C06_cfb_encrypt ctx he rnd (Vector.replicate 32 1) (zeros 8) [0] [[0]] ⟨by decide, by decide⟩
  refine ⟨_, _, _, _, _, _, _, _, e, e', ?_⟩
  rw [cfbEncrypt, cfbEncrypt, dif_neg (by decide), dif_neg (by decide)]
  decide +kernel

/-! ### Concrete cases -/

example := C123_related_refuted (blankCtx true) rfl demoMask demoMask demoKey demoIv none (ascii "attack at dawn") [ascii "attack", ascii " at dawn"] [ascii "attack at dawn"]
  ⟨by decide, by decide⟩ ⟨by decide, by decide⟩

/-- The key and the IV are other ones, and so is the ciphertext. -/
example : flipTop demoKey ≠ demoKey ∧ flipTop demoIv ≠ demoIv ∧ flipData (ascii "attack at dawn") ≠ ascii "attack at dawn" := by decide +kernel

example := C123_sbox_refuted (zeros 64) zeros_constant (blankCtx true) rfl demoIv (ascii "attack at dawn") [ascii "attack at dawn"] ⟨by decide, by decide⟩

/-- Key parameters with the S-box of zeros are accepted, on each of the ten curves. -/
example (env : Env) (i : Fin 10) (g : EcGroup) (hg : group_from_named_curve env.nids i = some g) (t : KeyType) :
    ∃ der s, dstu_asn1_param_decode env ⟨t, none⟩ der = (true, ⟨t, some ⟨some g, s, none, none⟩⟩) ∧ effectiveSbox s = zeros 64 := by
  obtain ⟨der, s, _, h, e⟩ := C35_named_round_trip env i g hg t ⟨some g, some (zeros 64), none, none⟩ rfl none []
  exact ⟨_, s, h, e⟩

end Dstu.Props
