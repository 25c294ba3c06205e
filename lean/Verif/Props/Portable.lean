import Verif.Model.Portable
import Verif.Props.JksAccept
import Verif.Props.KeyPair
import Verif.Lemmas.Rbg

/-! C116: files and parameters on machines of other byte orders and other sizes of `long`. -/

namespace Dstu.Props

open Spec

variable {κ χ : Type}

theorem copyAt_length {data : List Byte} {pos size : Nat} {l : List Byte} (h : copyAt data pos size = some l) : l.length = size := by
  unfold copyAt at h
  split at h
  · cases h
    rw [List.length_take, List.length_drop]
    omega
  · cases h

theorem ntohs_value {l : List Byte} (h : l.length = 2) : ntohs (leValue l) = beValue l := by
  match l, h with
  | [a, b], _ =>
    have ha := a.isLt
    have hb := b.isLt
    simp only [ntohs, leValue, beValue, List.foldl_cons, List.foldl_nil, List.foldr_cons, List.foldr_nil, List.reverse_cons, List.reverse_nil, List.nil_append, List.cons_append]
    omega

theorem ntohl_value {l : List Byte} (h : l.length = 4) : ntohl (leValue l) = beValue l := by
  match l, h with
  | [a, b, c, d], _ =>
    have ha := a.isLt
    have hb := b.isLt
    have hc := c.isLt
    have hd := d.isLt
    simp only [leValue, beValue, List.foldl_cons, List.foldl_nil, List.foldr_cons, List.foldr_nil, List.reverse_cons, List.reverse_nil, List.nil_append, List.cons_append]
    generalize a.toNat = a at *
    generalize b.toNat = b at *
    generalize c.toNat = c at *
    generalize d.toNat = d at *
    generalize hx : a + 256 * (b + 256 * (c + 256 * (d + 256 * 0))) = x
    have x0 : x % 256 = a := by omega
    have x1 : x / 2 ^ 8 % 256 = b := by omega
    have x2 : x / 2 ^ 16 % 256 = c := by omega
    have x3 : x / 2 ^ 24 % 256 = d := by omega
    rw [ntohl, x0, x1, x2, x3]
    omega

/-- C116, what holds for Java key stores: on both kinds of machines the numbers of 16 and 32 bits in the entries are read as the big-endian numbers that they are. -/
theorem C116_numbers_partial (o : ByteOrder) (data : List Byte) (pos : Nat) :
    (read16_on o data pos).map (ntohs_on o) = (copyAt data pos 2).map beValue ∧ (read32_on o data pos).map (ntohl_on o) = (copyAt data pos 4).map beValue ∧
    (read16_on o data pos).map (ntohs_on o) = be16 data pos ∧ (read32_on o data pos).map (ntohl_on o) = be32 data pos := by
  have h2 : (copyAt data pos 2).map (fun l => ntohs (leValue l)) = (copyAt data pos 2).map beValue := by
    cases h : copyAt data pos 2 with
    | none => rfl
    | some l => simp only [Option.map_some, ntohs_value (copyAt_length h)]
  have h4 : (copyAt data pos 4).map (fun l => ntohl (leValue l)) = (copyAt data pos 4).map beValue := by
    cases h : copyAt data pos 4 with
    | none => rfl
    | some l => simp only [Option.map_some, ntohl_value (copyAt_length h)]
  have e2 : be16 data pos = (copyAt data pos 2).map beValue := by
    rw [be16, read16, Option.map_map]
    exact h2
  have e4 : be32 data pos = (copyAt data pos 4).map beValue := by
    rw [be32, read32, Option.map_map]
    exact h4
  cases o with
  | little =>
    refine ⟨?_, ?_, ?_, ?_⟩
    · rw [← h2, read16_on, Option.map_map]; rfl
    · rw [← h4, read32_on, Option.map_map]; rfl
    · rw [e2, ← h2, read16_on, Option.map_map]; rfl
    · rw [e4, ← h4, read32_on, Option.map_map]; rfl
  | big =>
    refine ⟨?_, ?_, ?_, ?_⟩
    · rw [read16_on, Option.map_map]; rfl
    · rw [read32_on, Option.map_map]; rfl
    · rw [e2, read16_on, Option.map_map]; rfl
    · rw [e4, read32_on, Option.map_map]; rfl

/-- On little-endian machines this is the function of the other theorems. -/
theorem parseJKS_little (lib : JksLib κ χ) (data storagePass keyPass : List Byte) (ks : Option Nat) (m : ImpMem κ χ) :
    parseJKS_on .little lib data storagePass keyPass ks m = parseJKS lib data storagePass keyPass ks m := rfl

/-- C116 is false for Java key stores: every file that is imported on a little-endian machine is refused on a big-endian one, whatever the passwords there, because the magic number and the
version are compared as numbers of the machine. -/
theorem C116_jks_refuted (lib : JksLib κ χ) (data storagePass keyPass storagePass' keyPass' : List Byte) (ks ks' out : Option Nat) (m m' m₁ : ImpMem κ χ)
    (h : parseJKS_on .little lib data storagePass keyPass ks m = some (true, out, m')) :
    parseJKS_on .big lib data storagePass' keyPass' ks' m₁ = some (false, ks', m₁) := by
  unfold parseJKS_on at h ⊢
  simp only [Option.bind_eq_bind] at h ⊢
  unfold read32_on at h ⊢
  cases h0 : copyAt data 0 4 with
  | none => rw [h0] at h; cases h
  | some l0 =>
    cases h8 : copyAt data 8 4 with
    | none => rw [h0, h8] at h; cases h
    | some l8 =>
      cases h4 : copyAt data 4 4 with
      | none =>
        rw [h0, h8, h4] at h
        simp only [Option.map_some, Option.map_none, Option.bind_some, Option.bind_none] at h
        split at h <;> cases h
      | some l4 =>
        rw [h0, h8, h4] at h
        simp only [Option.map_some, Option.bind_some] at h ⊢
        match l0, copyAt_length h0, l4, copyAt_length h4 with
        | [a, b, c, d], _, [a', b', c', d'], _ =>
          split at h
          · cases h
          · split at h
            · cases h
            · rename_i hm hv
              split
              · rfl
              · rw [if_pos]
                have ha := a'.isLt
                have hb := b'.isLt
                have hc := c'.isLt
                have hd := d'.isLt
                simp only [ByteOrder.value, leValue, beValue, List.foldl_cons, List.foldl_nil, List.foldr_cons, List.foldr_nil, List.reverse_cons, List.reverse_nil, List.nil_append,
                  List.cons_append] at hv ⊢
                omega

/-! ### Parameters -/

theorem get_same {v : Int} (h : -2 ^ 31 ≤ v ∧ v < 2 ^ 31) (bits : Nat) (hb : 32 ≤ bits) : asn1_integer_get_on bits v = v := by
  unfold asn1_integer_get_on
  have : (2 : Int) ^ 31 ≤ 2 ^ (bits - 1) := pow_le_pow_right₀ (by norm_num) (by omega)
  rw [if_neg (by omega)]
  rw [Int.bmod_eq_of_le] <;> norm_num at h ⊢ <;> omega

/-- With a `long` of 32 bits, a value that does not fit becomes -1. -/
theorem get_32 (v : Int) : asn1_integer_get_on 32 v = if -2 ^ 31 ≤ v ∧ v < 2 ^ 31 then v else -1 := by
  split
  · rename_i h
    exact get_same h 32 (le_refl _)
  · unfold asn1_integer_get_on
    rw [if_pos (by norm_num; omega)]

theorem group_64 (sq : QuadSolver) (spec : CustomCurveSpec) (le : Bool) : group_from_asn1_on 64 sq spec le = group_from_asn1 sq spec le := rfl

/-- With 64 bits this is the function of the other theorems. -/
theorem param_decode_64 (env : Env) (pk : EvpPkey) (der : List Byte) : param_decode_on 64 env pk der = dstu_asn1_param_decode env pk der := rfl

theorem polyArray_range (bits : Nat) (hb : 32 ≤ bits) (s : CustomCurveSpec) (h : IntRange s) : polyArray_on bits s.m s.poly = polyArray_on 32 s.m s.poly := by
  obtain ⟨h1, h2⟩ := h
  unfold polyArray_on
  cases hp : s.poly with
  | trinomial k =>
    rw [hp] at h2
    simp only [get_same h1 bits hb, get_same h1 32 (le_refl _), get_same h2 bits hb, get_same h2 32 (le_refl _)]
  | pentanomial k j l =>
    rw [hp] at h2
    obtain ⟨h2, h3, h4⟩ := h2
    simp only [get_same h1 bits hb, get_same h1 32 (le_refl _), get_same h2 bits hb, get_same h2 32 (le_refl _), get_same h3 bits hb, get_same h3 32 (le_refl _),
      get_same h4 bits hb, get_same h4 32 (le_refl _)]

theorem get_fits {v : Int} (h : ¬asn1_integer_get_on 32 v ≤ 0) : -2 ^ 31 ≤ v ∧ v < 2 ^ 31 := by
  rw [get_32] at h
  split at h
  · assumption
  · exact absurd h (by decide)

theorem polyArray_32 (s : CustomCurveSpec) (h : ¬IntRange s) : polyArray_on 32 s.m s.poly = none := by
  unfold IntRange at h
  unfold polyArray_on
  cases hp : s.poly with
  | trinomial k =>
    rw [hp] at h
    simp only
    split
    · rfl
    · split
      · rfl
      · rename_i h1 h2
        exact absurd ⟨get_fits h1, get_fits h2⟩ h
  | pentanomial k j l =>
    rw [hp] at h
    simp only
    split
    · rfl
    · split
      · rfl
      · split
        · rfl
        · split
          · rfl
          · rename_i h1 h2 h3 h4
            exact absurd ⟨get_fits h1, get_fits h4, get_fits h3, get_fits h2⟩ h

/-- The integers of the description of a curve, if there is one, fit into an `int`. -/
def Fit (params : AlgorithmParameters) : Prop := ∀ s, params.curve = .custom s → IntRange s

/-- C116, what holds for parameters: if all integers fit into an `int`, they are read alike whether a `long` has 32 bits or more. -/
theorem C116_parameters_partial (env : Env) (pk : EvpPkey) (der : List Byte) (hf : ∀ params, env.codec.d2i der = some params → Fit params) (bits : Nat) (hb : 32 ≤ bits) :
    param_decode_on bits env pk der = param_decode_on 32 env pk der := by
  unfold param_decode_on
  cases hd : env.codec.d2i der with
  | none => rfl
  | some params =>
    have : curveGroup_on bits env.sq env.nids env.objs params.curve (pk.type = .le) = curveGroup_on 32 env.sq env.nids env.objs params.curve (pk.type = .le) := by
      cases hc : params.curve with
      | named oid => rfl
      | custom s =>
        simp only [curveGroup_on, group_from_asn1_on, polyArray_range bits hb s (hf params hd s hc)]
    simp only [key_from_asn1_on, this]

/-- C116, what holds: parameters that are accepted where a `long` has 32 bits are accepted, with the same key, where it has more; and exactly there the integers fit. -/
theorem C116_small_long_partial (env : Env) (pk pk' : EvpPkey) (der : List Byte) (h : param_decode_on 32 env pk der = (true, pk')) (bits : Nat) (hb : 32 ≤ bits) :
    param_decode_on bits env pk der = (true, pk') ∧ ∀ params, env.codec.d2i der = some params → Fit params := by
  have hf : ∀ params, env.codec.d2i der = some params → Fit params := by
    intro params hd s hc
    by_contra hn
    unfold param_decode_on at h
    have : curveGroup_on 32 env.sq env.nids env.objs params.curve (pk.type = .le) = none := by
      rw [hc]
      simp only [curveGroup_on, group_from_asn1_on, polyArray_32 s hn]
    cases hs : params.sbox with
    | none => simp [hd, key_from_asn1_on, this, hs] at h
    | some b => cases hb : bytes64 b <;> simp [hd, key_from_asn1_on, this, hs, hb] at h
  exact ⟨by rw [C116_parameters_partial env pk der hf bits hb, h], hf⟩

/-- C116 is false for parameters: there are some that are accepted where a `long` has 64 bits and refused where it has 32. -/
theorem C116_parameters_refuted (env : Env) (t : KeyType) (old : Option DstuKey) :
    ∃ der key, param_decode_on 64 env ⟨t, old⟩ der = (true, ⟨t, some key⟩) ∧ param_decode_on 32 env ⟨t, old⟩ der = (false, ⟨t, old⟩) := by
  obtain ⟨s, h1, _, h3, key, h4⟩ := C37_malformed_refuted env t old
  refine ⟨_, key, h4, ?_⟩
  have hp : polyArray_on 32 s.m s.poly = none := by
    unfold polyArray_on
    simp only [get_32]
    rw [if_pos]
    split <;> omega
  unfold param_decode_on
  simp only [h3, key_from_asn1_on, curveGroup_on, group_from_asn1_on, hp]

/-! ### The generator -/

theorem bytes_on_ofBytes (o : ByteOrder) (b : Bytes 8) : (U4x2.ofBytes_on o b).bytes_on o = b := by
  cases o with
  | little => exact U4x2.bytes_ofBytes b
  | big =>
    simp only [U4x2.bytes_on, U4x2.ofBytes_on, (byteOf_le32 _ _ _ _).1, (byteOf_le32 _ _ _ _).2.1, (byteOf_le32 _ _ _ _).2.2.1, (byteOf_le32 _ _ _ _).2.2.2]
    ext i hi : 1
    have : i = 0 ∨ i = 1 ∨ i = 2 ∨ i = 3 ∨ i = 4 ∨ i = 5 ∨ i = 6 ∨ i = 7 := by omega
    rcases this with rfl | rfl | rfl | rfl | rfl | rfl | rfl | rfl <;> rfl

theorem bytes_on_xor (o : ByteOrder) (a b : U4x2) : U4x2.bytes_on o (a.1 ^^^ b.1, a.2 ^^^ b.2) = xor8 (a.bytes_on o) (b.bytes_on o) := by
  cases o with
  | little => exact U4x2.bytes_xor a b
  | big =>
    simp only [U4x2.bytes_on, byteOf_xor]
    ext i hi : 1
    simp only [xor8, Vector.getElem_ofFn]
    have : i = 0 ∨ i = 1 ∨ i = 2 ∨ i = 3 ∨ i = 4 ∨ i = 5 ∨ i = 6 ∨ i = 7 := by omega
    rcases this with rfl | rfl | rfl | rfl | rfl | rfl | rfl | rfl <;> rfl

/-- Where the least significant byte of the first word of a block is. -/
def lowByte : ByteOrder → Fin 8
  | .little => 0
  | .big => 3

theorem low_bit_on (o : ByteOrder) (x : U4x2) : (x.1 &&& 1).setWidth 8 = if (x.bytes_on o)[lowByte o].getLsbD 0 then (1 : Byte) else 0 := by
  rw [low_bit]
  cases o <;> rfl

/-- The bits the generator gives after it was seeded. -/
def firstBits (o : ByteOrder) (seed : Bytes 40) (date : Bytes 8) (m : Rbg) (k : Nat) : List Byte :=
  (rbg_bits_on o k (rbg_init_on o ⟨true, some seed, date⟩ m).2).1

theorem bits_on (o : ByteOrder) (g : RbgSeed) : ∀ (k n : Nat) (m : Rbg), m.I.bytes_on o = g.I → m.s.bytes_on o = g.state n → (∀ blk, gostcrypt m.cryptor blk = g.E blk) →
    (rbg_bits_on o k m).1 = (List.range k).map fun j => if (g.E (xor8 g.I (g.state (n + j))))[lowByte o].getLsbD 0 then (1 : Byte) else 0
  | 0, n, m, _, _, _ => rfl
  | k + 1, n, m, hI, hs, hc => by
    have hx : (U4x2.ofBytes_on o (gostcrypt m.cryptor (U4x2.bytes_on o (m.I.1 ^^^ m.s.1, m.I.2 ^^^ m.s.2)))).bytes_on o = g.E (xor8 g.I (g.state n)) := by
      rw [bytes_on_ofBytes, bytes_on_xor, hI, hs, hc]
    have ih := bits_on o g k (n + 1) (rbg_get_bit_on o m).2 hI (by
      simp only [rbg_get_bit_on, bytes_on_ofBytes, bytes_on_xor, hI, hs, hc, RbgSeed.state]) hc
    have h0 : (rbg_get_bit_on o m).1 = if (g.E (xor8 g.I (g.state n)))[lowByte o].getLsbD 0 then (1 : Byte) else 0 := by
      simp only [rbg_get_bit_on, low_bit_on o, hx]
    have hu : (rbg_bits_on o (k + 1) m).1 = (rbg_get_bit_on o m).1 :: (rbg_bits_on o k (rbg_get_bit_on o m).2).1 := rfl
    have he : ∀ f : Nat → Byte, (List.range (k + 1)).map (fun j => f (n + j)) = f n :: (List.range k).map fun j => f (n + 1 + j) := by
      intro f
      rw [List.range_succ_eq_map, List.map_cons, List.map_map]
      congr 1
      apply List.map_congr_left
      intro j _
      rw [Function.comp_apply, Nat.succ_eq_add_one, Nat.add_assoc n 1 j, Nat.add_comm 1 j]
    rw [hu, h0, ih]
    exact (he fun i => if (g.E (xor8 g.I (g.state i)))[lowByte o].getLsbD 0 then (1 : Byte) else 0).symm

/-- C116, what holds for the generator: on both kinds of machines the blocks are those of the standard, for ever; a machine takes from each block one bit, the least significant one of the
number that the first four bytes are on this machine. -/
theorem C116_generator_partial (o : ByteOrder) (seed : Bytes 40) (date : Bytes 8) (m : Rbg) (k : Nat) :
    firstBits o seed date m k = (List.range k).map fun j =>
      if ((RbgSeed.ofSeed seed date).E (xor8 (RbgSeed.ofSeed seed date).I ((RbgSeed.ofSeed seed date).state j)))[lowByte o].getLsbD 0 then (1 : Byte) else 0 := by
  have hg : (⟨seedKey seed, seedTail seed, date⟩ : RbgSeed) = RbgSeed.ofSeed seed date := by
    unfold RbgSeed.ofSeed
    congr
  have := bits_on o (RbgSeed.ofSeed seed date) k 0 (rbg_init_on o ⟨true, some seed, date⟩ m).2 (by
      rw [← hg]
      simp only [rbg_init_on, bytes_on_ofBytes, seeded_cryptor]
      rfl) (by
      rw [← hg]
      exact bytes_on_ofBytes o _) (fun blk => by
      rw [← hg]
      exact seeded_cryptor _ _ _)
  simp only [Nat.zero_add] at this
  exact this

/-- On little-endian machines these are the bits of the standard. -/
theorem C116_generator_little (seed : Bytes 40) (date : Bytes 8) (m : Rbg) (k : Nat) :
    firstBits .little seed date m k = (List.range k).map fun j => if (RbgSeed.ofSeed seed date).bit j then (1 : Byte) else 0 :=
  C116_generator_partial .little seed date m k

/-- C116 is false for the generator: there is a seed for which the first bit on a big-endian machine is not that of the standard. -/
theorem C116_generator_refuted (m : Rbg) : ∃ seed date, firstBits .big seed date m 1 ≠ [if (RbgSeed.ofSeed seed date).bit 0 then 1 else 0] := by
  refine ⟨Vector.ofFn fun i => BitVec.ofNat 8 i.val, Vector.replicate 8 0, ?_⟩
  rw [C116_generator_partial]
  decide +kernel

/-! ### Concrete cases -/

/-- The key store of the examples of C55 is refused on a big-endian machine. -/
example : parseJKS_on .big toyJks (jksFile toyJks.sha1 .jceks ['p'] toyEntries ++ [1, 2]) (utf8 ['p']) (utf8 ['k', 'і']) none emptyMem = some (false, none, emptyMem) := by
  obtain ⟨id, m', h⟩ : ∃ id m', parseJKS toyJks (jksFile toyJks.sha1 .jceks ['p'] toyEntries ++ [1, 2]) (utf8 ['p']) (utf8 ['k', 'і']) none emptyMem = some (true, some id, m') := by
    obtain ⟨id, m', h, _⟩ := C55_import_partial toyJks .jceks ['p'] ['k', 'і'] (by simp) (by simp) toyEntries [1, 2] (by decide) toy_fits.1 toy_fits.2 _ _ toy_gives none emptyMem boot_reachable
    exact ⟨id, m', h⟩
  exact C116_jks_refuted toyJks _ _ _ _ _ none none _ emptyMem m' emptyMem h

/-- The parameters of a curve of degree 163, described by its numbers, are accepted for every size of `long`. -/
example (env : Env) (bits : Nat) (hb : 32 ≤ bits) : ∃ der, param_decode_on bits env ⟨.be, none⟩ der = (true, ⟨.be, some ⟨some g163, none, none, none⟩⟩) := by
  have hbb : ¬ BadBase g163 := fun h => numbers163.2.2.2.2.2.2.2.2.2 h.1
  obtain ⟨spec, h1, hm, h2, h4⟩ := custom_group_round_trip env.sq g163 g163_dstu hbb false
  have hf : fieldSpec (poly2arr g163.p) = some (163, .pentanomial 3 6 7) := by decide +kernel
  have hs : spec.m = 163 ∧ spec.poly = .pentanomial 3 6 7 := by
    unfold custom_from_group at h1
    rw [hf] at h1
    simp only at h1
    repeat' split at h1
    all_goals cases h1
    exact ⟨rfl, rfl⟩
  have hd := env.codec.inv ⟨.custom spec, none⟩ [] h4
  have hfit : ∀ params, env.codec.d2i (env.codec.i2d ⟨.custom spec, none⟩ ++ []) = some params → Fit params := by
    intro params hp s hc
    rw [hd] at hp
    cases hp
    cases hc
    unfold IntRange
    rw [hs.1, hs.2]
    norm_num
  have h64 : param_decode_on 64 env ⟨.be, none⟩ (env.codec.i2d ⟨.custom spec, none⟩ ++ []) = (true, ⟨.be, some ⟨some g163, none, none, none⟩⟩) := by
    unfold param_decode_on
    have h2' : group_from_asn1_on 64 env.sq spec false = some g163 := h2
    rw [hd]
    simp [key_from_asn1_on, curveGroup_on, h2', DSTU_KEY_new]
  rw [C116_parameters_partial env _ _ hfit 64 (by decide)] at h64
  exact ⟨_, (C116_small_long_partial env _ _ _ h64 bits hb).1⟩

example (o : ByteOrder) : (read32_on o [1, 2, 3, 4] 0).map (ntohl_on o) = some 0x01020304 := by
  rw [(C116_numbers_partial o [1, 2, 3, 4] 0).2.1]
  rfl

end Dstu.Props
