import Verif.Spec.Key6
import Verif.Lemmas.Md
import Verif.Lemmas.HashStream
import Verif.Lemmas.KeyUtils
import Verif.Lemmas.Jks
import Verif.Props.BlockCipher
import Verif.Lemmas.Dke1

/-! Lemmas on keylib/key6.c. -/

namespace Dstu

open Dstu.Spec

theorem key6Hash_eq (c : GostCtx) (data : List Byte) (h : data.length < 2 ^ 60) : key6Hash c data = some (gost34311 dke1 data) := by
  have ht := tables_gost_init c default_sbox
  rw [tableOf_default] at ht
  obtain ⟨c1, h1, e1, t1, a1⟩ := hash_block_after _ _ ht HashCtx.zero [] (zero_after _) data (by rw [List.nil_append]; omega)
  rw [List.nil_append] at a1
  obtain ⟨c2, e2, _⟩ := finish_after c1 _ t1 h1 data a1 h
  unfold key6Hash
  simp only [e1, e2, Option.bind_eq_bind, Option.bind_some, pure]

theorem pkdfLoop_eq (g : Nat → GostCtx) (n : Nat) (key : Bytes 32) :
    ∃ key', pkdfLoop g n key = some key' ∧ key'.toList = hashTimes dke1 n key.toList := by
  induction n generalizing key with
  | zero => exact ⟨key, rfl, rfl⟩
  | succ n ih =>
    obtain ⟨key', e, h⟩ := ih (gost34311 dke1 key.toList)
    refine ⟨key', ?_, h⟩
    unfold pkdfLoop
    rw [key6Hash_eq _ _ (by rw [Vector.length_toList]; omega)]
    exact e

theorem hashTimes_succ (T) (n m) : hashTimes T (n + 1) m = hashTimes T n (gost34311 T m).toList := rfl

theorem pkdf_eq (g : Nat → GostCtx) (password : List Byte) (h : password.length < 2 ^ 60) :
    ∃ key, pkdf g password = some key ∧ Key6Key dke1 password key := by
  obtain ⟨key, e, hk⟩ := pkdfLoop_eq g 9999 (gost34311 dke1 password)
  refine ⟨key, ?_, ?_⟩
  · unfold pkdf
    rw [key6Hash_eq _ _ h]
    exact e
  · unfold Key6Key
    rw [hashTimes_succ]
    exact hk

theorem key6Key_unique {T password k k'} (h : Key6Key T password k) (h' : Key6Key T password k') : k = k' := by
  apply Vector.toList_inj.1
  exact h.trans h'.symm

theorem ecb_length (S k bs) : (ecb S k bs).length = 8 * bs.length := by
  unfold ecb
  induction bs with
  | nil => rfl
  | cons b bs ih => rw [List.flatMap_cons, List.length_append, ih, Vector.length_toList, List.length_cons]; omega

theorem ecb_flat (S k bs) : ecb S k bs = (bs.map (encrypt S k)).flatMap Vector.toList := by
  rw [ecb, List.flatMap_map]

/-- The plain text, when the source is an encryption followed by less than a block. -/
theorem key6Plain_eq (g : Garbage) (password : List Byte) (key : Bytes 32) (hl : password.length < 2 ^ 60) (hk : Key6Key dke1 password key)
    (bs : List (Bytes 8)) (rest : List Byte) (hr : rest.length < 8) :
    key6Plain g (ecb dke1 key bs ++ rest) password =
      some (bs.flatMap Vector.toList ++ (List.range' (8 * bs.length) (8 + rest.length)).map g.res) := by
  obtain ⟨key', e, hk'⟩ := pkdf_eq g.hashCtx password hl
  obtain rfl := key6Key_unique hk hk'
  have hn : (ecb dke1 key bs ++ rest).length / 8 = bs.length := by
    rw [List.length_append, ecb_length]; omega
  have hd := gost_dec_blocks (gost_key (gost_init g.ctx (some (unpack_sbox default_sbox))) g.mask key) (bs.map (encrypt dke1 key)) rest
  rw [← ecb_flat, List.length_map, List.flatMap_map] at hd
  have hb : ∀ b, gostdecrypt (gost_key (gost_init g.ctx (some (unpack_sbox default_sbox))) g.mask key) (encrypt dke1 key b) = b := by
    intro b
    rw [← tableOf_default, ← (Props.C02_block_is_gost28147_packed g.ctx default_sbox g.mask key b).1]
    exact decrypt_encrypt _ b
  simp only [hb] at hd
  unfold key6Plain
  simp only [e, hn, hd, Option.bind_eq_bind, Option.bind_some, pure]
  have hb : (bs.flatMap fun b => b.toList).length = 8 * bs.length := by
    simp only [List.length_flatMap, Vector.length_toList, List.map_const', List.sum_replicate_nat]
    omega
  rw [List.length_append, ecb_length, hb, show 8 * bs.length + rest.length + 8 - 8 * bs.length = 8 + rest.length by omega]

theorem key6Plain_some (g : Garbage) (source password : List Byte) (hl : password.length < 2 ^ 60) : ∃ res, key6Plain g source password = some res := by
  obtain ⟨key, e, hk⟩ := pkdf_eq g.hashCtx password hl
  obtain ⟨bs, rest, hr, hs⟩ : ∃ (bs : List (Bytes 8)) (rest : List Byte), rest.length < 8 ∧ source = bs.flatMap Vector.toList ++ rest := by
    clear e hk
    induction hn : source.length using Nat.strong_induction_on generalizing source with
    | _ n ih =>
      by_cases h : source.length < 8
      · exact ⟨[], source, h, rfl⟩
      · obtain ⟨bs, rest, hr, hs⟩ := ih (source.length - 8) (by omega) (source.drop 8) (by simp)
        refine ⟨⟨(source.take 8).toArray, by simp; omega⟩ :: bs, rest, hr, ?_⟩
        rw [List.flatMap_cons, List.append_assoc, ← hs]
        exact (List.take_append_drop 8 source).symm
  have hn : source.length / 8 = bs.length := by
    have : (bs.flatMap Vector.toList).length = 8 * bs.length := by
      rw [List.length_flatMap]
      simp
      omega
    rw [hs, List.length_append, this]; omega
  unfold key6Plain
  have hd := gost_dec_blocks (gost_key (gost_init g.ctx (some (unpack_sbox default_sbox))) g.mask key) bs rest
  rw [← hs] at hd
  simp only [e, hn, hd, Option.bind_eq_bind, Option.bind_some, pure]
  exact ⟨_, rfl⟩

theorem bioLoop_eq (chunks : List (List Byte)) (e : BioEnd) (mem : List Byte) (h : Reads chunks) :
    bioLoop chunks e mem = if mem ++ chunks.flatten = [] then none else some (mem ++ chunks.flatten) := by
  induction chunks generalizing mem with
  | nil =>
    have : bioLoop [] e mem = if mem.length > 0 then some mem else none := by cases e <;> rfl
    rw [this]
    cases mem <;> simp
  | cons c chunks ih =>
    have hc : c ≠ [] := (h c (by simp)).1
    unfold bioLoop
    rw [if_neg (by simpa using hc), ih _ (fun x hx => h x (by simp [hx]))]
    simp

theorem readBio_eq {κ χ : Type} (parse : List Byte → Option (Bool × Option Nat × ImpMem κ χ)) (chunks : List (List Byte)) (e : BioEnd) (ks : Option Nat) (m : ImpMem κ χ)
    (h : Reads chunks) : readBio parse chunks e ks m = if chunks.flatten = [] then some (false, ks, m) else parse chunks.flatten := by
  unfold readBio
  rw [bioLoop_eq _ _ _ h, List.nil_append]
  by_cases hf : chunks.flatten = []
  · rw [if_pos hf, if_pos hf]
  · rw [if_neg hf, if_neg hf]
    simp only
    rw [if_neg (fun h => hf (List.eq_nil_of_length_eq_zero h))]

end Dstu
