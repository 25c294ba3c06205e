import Verif.Lemmas.Steps
import Verif.Lemmas.Rbg
import Mathlib.Tactic.FinCases
import Mathlib.Data.Fintype.Basic

/-! What the indices of the table entries tell about the key. -/

namespace Dstu

open Tr

/-- The words that were substituted. -/
def wordsOf : List CpuStep → List W32
  | .test _ :: t => wordsOf t
  | .look _ a :: .look _ b :: .look _ c :: .look _ d :: t => le32 d c b a :: wordsOf t
  | _ => []

theorem wordsOf_fLooks (x : W32) (t : List CpuStep) : wordsOf (fLooks x ++ t) = x :: wordsOf t := by
  have h : le32 (x.setWidth 8) ((x >>> 8).setWidth 8) ((x >>> 16).setWidth 8) ((x >>> 24).setWidth 8) = x := by
    rw [le32_eq]
    refine Eq.trans ?_ (word_octet x)
    rw [← byteOf_eq, ← byteOf_eq, ← byteOf_eq, ← byteOf_eq]
    simp [byteOf]
  conv => rhs; rw [← h]
  rfl

/-- The subkeys, from the words that were substituted and the block. -/
def subkeysFrom (F : W32 → W32) : List W32 → W32 × W32 → List W32
  | x :: y :: ws, s =>
    let n2 := s.2 ^^^ F x
    (x - s.1) :: (y - n2) :: subkeysFrom F ws (s.1 ^^^ F y, n2)
  | _, _ => []

/-- A subkey of a context. -/
def GostCtx.K (c : GostCtx) (i : Fin 8) : W32 := c.key[i] + c.mask[i]

theorem subkeysFrom_rounds (c : GostCtx) (o : List (Fin 8 × Fin 8)) (s : W32 × W32) (t : List CpuStep) :
    ∃ r, subkeysFrom (f c) (wordsOf ((rounds_steps c o s).2 ++ t)) s = (o.flatMap fun ij => [c.K ij.1, c.K ij.2]) ++ r := by
  induction o generalizing s with
  | nil => exact ⟨_, rfl⟩
  | cons ij o ih =>
    obtain ⟨r, hr⟩ := ih (lines2_steps c s ij).1
    refine ⟨r, ?_⟩
    simp only [rounds_steps, List.append_assoc]
    have : (lines2_steps c s ij).2 = fLooks (s.1 + c.key[ij.1] + c.mask[ij.1]) ++ fLooks ((lines2_steps c s ij).1.2 + c.key[ij.2] + c.mask[ij.2]) := rfl
    rw [this, List.append_assoc, wordsOf_fLooks, wordsOf_fLooks, subkeysFrom]
    have h1 : (lines2_steps c s ij).1 = (s.1 ^^^ f c ((lines2_steps c s ij).1.2 + c.key[ij.2] + c.mask[ij.2]), s.2 ^^^ f c (s.1 + c.key[ij.1] + c.mask[ij.1])) := rfl
    have h2 : (lines2_steps c s ij).1.2 = s.2 ^^^ f c (s.1 + c.key[ij.1] + c.mask[ij.1]) := rfl
    rw [h2] at h1 ⊢
    rw [h1] at hr ⊢
    simp only [List.flatMap_cons, List.cons_append, List.nil_append]
    rw [hr]
    simp only [GostCtx.K, BitVec.add_assoc]
    congr 1
    · rw [BitVec.add_comm, BitVec.add_sub_cancel]
    · congr 1
      rw [BitVec.add_comm, BitVec.add_sub_cancel]

/-- The key, from the steps of the encryption of a known block. -/
def keyFrom (F : W32 → W32) (t : List CpuStep) (b : Bytes 8) : Bytes 32 :=
  Vector.ofFn fun q : Fin 32 => byteOf ((subkeysFrom F (wordsOf t) (loadBlock b)).getD (q.val / 4) 0) (q.val % 4)

theorem keyFrom_crypt (c : GostCtx) (b : Bytes 8) (t : List CpuStep) : keyFrom (f c) ((gostcrypt_steps c b).2 ++ t) b = gost_get_key c := by
  apply Vector.ext
  intro q hq
  obtain ⟨r, hr⟩ := subkeysFrom_rounds c encOrder (loadBlock b) t
  have : (gostcrypt_steps c b).2 = (rounds_steps c encOrder (loadBlock b)).2 := rfl
  simp only [keyFrom, gost_get_key, Vector.getElem_ofFn, this, hr]
  have h : ∀ k : Fin 8, ((encOrder.flatMap fun ij => [c.K ij.1, c.K ij.2]) ++ r).getD k.val 0 = c.K k := by
    intro k
    fin_cases k <;> rfl
  exact congrArg (byteOf · _) (h ⟨q / 4, by omega⟩)

/-- The substitution of the cipher and the generator. -/
def defaultF : W32 → W32 := f (gost_init MdData.zero.cctx (some (unpack_sbox default_sbox)))

theorem f_default (g : GostCtx) (rnd : Vector W32 8) (k : Bytes 32) : f (gost_key (gost_init g (some (unpack_sbox default_sbox))) rnd k) = defaultF := rfl

theorem f_default_nomask (g : GostCtx) (k : Bytes 32) : f (gost_key_nomask (gost_init g (some (unpack_sbox default_sbox))) k) = defaultF := rfl

/-! ### Cache lines -/

theorem lines_append (t u : List CpuStep) : Spec.lines (t ++ u) = Spec.lines t ++ Spec.lines u := List.map_append

theorem nibble_of_line (x : W32) (s : Nat) : ((BitVec.setWidth 8 (x >>> s)) >>> 4).toNat = x.toNat / 2 ^ s % 256 / 16 := by
  rw [BitVec.toNat_ushiftRight, BitVec.toNat_setWidth, BitVec.toNat_ushiftRight, Nat.shiftRight_eq_div_pow, Nat.shiftRight_eq_div_pow]

theorem div_nibble (n : Nat) : n % 256 / 16 = n / 16 % 16 := by omega

theorem lines_nibbles {x y : W32} (h : Spec.lines (fLooks x) = Spec.lines (fLooks y)) :
    x.toNat / 268435456 % 16 = y.toNat / 268435456 % 16 ∧ x.toNat / 1048576 % 16 = y.toNat / 1048576 % 16 ∧ x.toNat / 4096 % 16 = y.toNat / 4096 % 16 ∧
      x.toNat / 16 % 16 = y.toNat / 16 % 16 := by
  have h0 : Spec.lines (fLooks x) = [.look .k87 (BitVec.setWidth 8 (x >>> 24) >>> 4), .look .k65 (BitVec.setWidth 8 (x >>> 16) >>> 4), .look .k43 (BitVec.setWidth 8 (x >>> 8) >>> 4),
      .look .k21 (BitVec.setWidth 8 (x >>> 0) >>> 4)] := rfl
  have h0' : Spec.lines (fLooks y) = [.look .k87 (BitVec.setWidth 8 (y >>> 24) >>> 4), .look .k65 (BitVec.setWidth 8 (y >>> 16) >>> 4), .look .k43 (BitVec.setWidth 8 (y >>> 8) >>> 4),
      .look .k21 (BitVec.setWidth 8 (y >>> 0) >>> 4)] := rfl
  rw [h0, h0'] at h
  injection h with h1 h
  injection h with h2 h
  injection h with h3 h
  injection h with h4 _
  injection h1 with _ h1
  injection h2 with _ h2
  injection h3 with _ h3
  injection h4 with _ h4
  have h1 := congrArg BitVec.toNat h1
  have h2 := congrArg BitVec.toNat h2
  have h3 := congrArg BitVec.toNat h3
  have h4 := congrArg BitVec.toNat h4
  rw [nibble_of_line, nibble_of_line, div_nibble, div_nibble, Nat.div_div_eq_div_mul, Nat.div_div_eq_div_mul] at h1 h2 h3 h4
  refine ⟨?_, ?_, ?_, ?_⟩
  · simpa only [Nat.reducePow, Nat.reduceMul] using h1
  · simpa only [Nat.reducePow, Nat.reduceMul] using h2
  · simpa only [Nat.reducePow, Nat.reduceMul] using h3
  · simpa only [Nat.reducePow, Nat.reduceMul] using h4

theorem lines_inj {k k' : W32} (h : ∀ n, Spec.lines (fLooks (n + k)) = Spec.lines (fLooks (n + k'))) : k = k' := by
  have hx : ∀ X : Nat, X < 4294967296 → X / 268435456 % 16 = (X + (k' - k).toNat) % 4294967296 / 268435456 % 16 ∧ X / 1048576 % 16 = (X + (k' - k).toNat) % 4294967296 / 1048576 % 16 ∧
      X / 4096 % 16 = (X + (k' - k).toNat) % 4294967296 / 4096 % 16 ∧ X / 16 % 16 = (X + (k' - k).toNat) % 4294967296 / 16 % 16 := by
    intro X hX
    have h0 := lines_nibbles (h (BitVec.ofNat 32 X - k))
    rw [BitVec.sub_add_cancel] at h0
    have e : BitVec.ofNat 32 X - k + k' = BitVec.ofNat 32 X + (k' - k) := by
      rw [BitVec.sub_eq_add_neg, BitVec.sub_eq_add_neg, BitVec.add_assoc, BitVec.add_comm (-k)]
    rw [e, BitVec.toNat_add, BitVec.toNat_ofNat, Nat.mod_eq_of_lt hX] at h0
    simpa only [Nat.reducePow] using h0
  have hE : (k' - k).toNat < 4294967296 := (k' - k).isLt
  have a0 := hx 0 (by norm_num)
  have a1 := hx 15 (by norm_num)
  have a2 := hx 3840 (by norm_num)
  have a3 := hx 983040 (by norm_num)
  have a4 := hx 251658240 (by norm_num)
  generalize hg : (k' - k).toNat = E at *
  have e0 : E = 0 := by omega
  have : k' - k = 0 := BitVec.eq_of_toNat_eq (by rw [hg, e0]; rfl)
  calc k = (k' - k) + k := by rw [this]; simp
    _ = k' := BitVec.sub_add_cancel _ _

theorem lines2_onto (c : GostCtx) (ij : Fin 8 × Fin 8) (s : W32 × W32) : ∃ s', (lines2_steps c s' ij).1 = s := by
  obtain ⟨a, b⟩ := s
  refine ⟨(a ^^^ f c (b + c.key[ij.2] + c.mask[ij.2]), b ^^^ f c ((a ^^^ f c (b + c.key[ij.2] + c.mask[ij.2])) + c.key[ij.1] + c.mask[ij.1])), ?_⟩
  simp only [lines2_steps, BitVec.xor_assoc, BitVec.xor_self, BitVec.xor_zero]

theorem rounds_lines_inj (c c' : GostCtx) (hf : f c = f c') (o : List (Fin 8 × Fin 8))
    (h : ∀ s, Spec.lines (rounds_steps c o s).2 = Spec.lines (rounds_steps c' o s).2) : ∀ ij ∈ o, c.K ij.1 = c'.K ij.1 ∧ c.K ij.2 = c'.K ij.2 := by
  induction o with
  | nil => simp
  | cons ij o ih =>
    have hs : ∀ s : W32 × W32, Spec.lines (fLooks (s.1 + c.key[ij.1] + c.mask[ij.1])) = Spec.lines (fLooks (s.1 + c'.key[ij.1] + c'.mask[ij.1])) ∧
        Spec.lines (fLooks ((s.2 ^^^ f c (s.1 + c.key[ij.1] + c.mask[ij.1])) + c.key[ij.2] + c.mask[ij.2])) =
          Spec.lines (fLooks ((s.2 ^^^ f c' (s.1 + c'.key[ij.1] + c'.mask[ij.1])) + c'.key[ij.2] + c'.mask[ij.2])) ∧
        Spec.lines (rounds_steps c o (lines2_steps c s ij).1).2 = Spec.lines (rounds_steps c' o (lines2_steps c' s ij).1).2 := by
      intro s
      have h := h s
      simp only [rounds_steps, lines_append, lines2_steps, List.append_assoc] at h
      obtain ⟨h1, h2⟩ := List.append_inj h (by simp [Spec.lines, fLooks])
      obtain ⟨h2, h3⟩ := List.append_inj h2 (by simp [Spec.lines, fLooks])
      exact ⟨h1, h2, h3⟩
    have k1 : c.K ij.1 = c'.K ij.1 := by
      apply lines_inj
      intro n
      have := (hs (n, 0)).1
      rwa [BitVec.add_assoc, BitVec.add_assoc] at this
    have x1 : ∀ n : W32, n + c.key[ij.1] + c.mask[ij.1] = n + c'.key[ij.1] + c'.mask[ij.1] := by
      intro n
      rw [BitVec.add_assoc, BitVec.add_assoc]
      exact congrArg (n + ·) k1
    have k2 : c.K ij.2 = c'.K ij.2 := by
      apply lines_inj
      intro n
      have := (hs (0, n ^^^ f c (0 + c.key[ij.1] + c.mask[ij.1]))).2.1
      simp only [← hf, ← x1, BitVec.xor_assoc, BitVec.xor_self, BitVec.xor_zero] at this
      rwa [BitVec.add_assoc, BitVec.add_assoc] at this
    have x2 : ∀ n : W32, n + c.key[ij.2] + c.mask[ij.2] = n + c'.key[ij.2] + c'.mask[ij.2] := by
      intro n
      rw [BitVec.add_assoc, BitVec.add_assoc]
      exact congrArg (n + ·) k2
    have hl : ∀ s, (lines2_steps c s ij).1 = (lines2_steps c' s ij).1 := by
      intro s
      simp only [lines2_steps, ← hf, ← x1, ← x2]
    intro p hp
    rcases List.mem_cons.1 hp with rfl | hp
    · exact ⟨k1, k2⟩
    · refine ih (fun s => ?_) p hp
      obtain ⟨s', rfl⟩ := lines2_onto c ij s
      have := (hs s').2.2
      rwa [← hl] at this

theorem loadBlock_onto (s : W32 × W32) : ∃ b, loadBlock b = s := by
  refine ⟨storeBlock s.1 s.2, ?_⟩
  rw [loadBlock_eq, storeBlock_eq]
  simp [Spec.load, Spec.store, word_octet]

theorem crypt_lines_inj (c c' : GostCtx) (hf : f c = f c') (h : ∀ b, Spec.lines (gostcrypt_steps c b).2 = Spec.lines (gostcrypt_steps c' b).2) (i : Fin 8) : c.K i = c'.K i := by
  have := rounds_lines_inj c c' hf encOrder fun s => by
    obtain ⟨b, rfl⟩ := loadBlock_onto s
    exact h b
  have h01 := this (0, 1) (by decide)
  have h23 := this (2, 3) (by decide)
  have h45 := this (4, 5) (by decide)
  have h67 := this (6, 7) (by decide)
  fin_cases i
  · exact h01.1
  · exact h01.2
  · exact h23.1
  · exact h23.2
  · exact h45.1
  · exact h45.2
  · exact h67.1
  · exact h67.2

theorem rounds_congr (c d : GostCtx) (hf : f c = f d) (hk : ∀ i, c.K i = d.K i) (o : List (Fin 8 × Fin 8)) (s : W32 × W32) : rounds_steps c o s = rounds_steps d o s := by
  induction o generalizing s with
  | nil => rfl
  | cons ij o ih =>
    have hx : ∀ (i : Fin 8) (n : W32), n + c.key[i] + c.mask[i] = n + d.key[i] + d.mask[i] := by
      intro i n
      rw [BitVec.add_assoc, BitVec.add_assoc]
      exact congrArg (n + ·) (hk i)
    have : lines2_steps c s ij = lines2_steps d s ij := by
      simp only [lines2_steps, hf, hx]
    simp only [rounds_steps, this, ih]

theorem crypt_congr (c d : GostCtx) (hf : f c = f d) (hk : ∀ i, c.K i = d.K i) (b : Bytes 8) : gostcrypt_steps c b = gostcrypt_steps d b := by
  simp only [gostcrypt_steps, rounds_congr c d hf hk]

theorem K_gost_key (g g' : GostCtx) (rnd rnd' : Vector W32 8) (k : Bytes 32) (i : Fin 8) : (gost_key g rnd k).K i = (gost_key g' rnd' k).K i := by
  simp [GostCtx.K, gost_key, gost_key_impl, BitVec.sub_add_cancel]

theorem get_key_of_K (c d : GostCtx) (h : ∀ i, c.K i = d.K i) : gost_get_key c = gost_get_key d := by
  apply Vector.ext
  intro q hq
  simp only [gost_get_key, Vector.getElem_ofFn]
  exact congrArg (byteOf · _) (h ⟨q / 4, by omega⟩)

/-! ### The generator -/

/-- The block, from the steps of its encryption under a known key. -/
def blockFrom (F : W32 → W32) (k : Bytes 32) (t : List CpuStep) : W32 × W32 :=
  let ws := wordsOf t
  let x := ws.getD 0 0
  let y := ws.getD 1 0
  (x - le32 k[0] k[1] k[2] k[3], (y - le32 k[4] k[5] k[6] k[7]) ^^^ F x)

theorem blockFrom_crypt (g : GostCtx) (k : Bytes 32) (b : Bytes 8) (t : List CpuStep) :
    blockFrom (f (gost_key_nomask g k)) k ((gostcrypt_steps (gost_key_nomask g k) b).2 ++ t) = loadBlock b := by
  have hK : ∀ (i : Fin 8) (n : W32), n + (gost_key_nomask g k).key[i] + (gost_key_nomask g k).mask[i] =
      n + le32 k[4 * i.val] k[4 * i.val + 1] k[4 * i.val + 2] k[4 * i.val + 3] := by
    intro i n
    simp [gost_key_nomask, gost_key_impl]
  generalize hs : loadBlock b = s
  have : ∃ r, (gostcrypt_steps (gost_key_nomask g k) b).2 = fLooks (s.1 + le32 k[0] k[1] k[2] k[3]) ++
      (fLooks ((s.2 ^^^ f (gost_key_nomask g k) (s.1 + le32 k[0] k[1] k[2] k[3])) + le32 k[4] k[5] k[6] k[7]) ++ r) := by
    refine ⟨(rounds_steps (gost_key_nomask g k) encOrder.tail (lines2_steps (gost_key_nomask g k) s (0, 1)).1).2, ?_⟩
    have h0 := hK 0
    have h1 := hK 1
    simp only [Fin.val_zero, Fin.val_one, Nat.mul_zero, Nat.zero_add, Nat.mul_one] at h0 h1
    have e : (gostcrypt_steps (gost_key_nomask g k) b).2 = (rounds_steps (gost_key_nomask g k) ((0, 1) :: encOrder.tail) s).2 := by
      rw [← hs]; rfl
    rw [e]
    simp only [rounds_steps, lines2_steps, List.append_assoc]
    rw [h0, h1]
  obtain ⟨r, hr⟩ := this
  rw [hr]
  simp only [blockFrom, List.append_assoc, wordsOf_fLooks]
  simp only [List.getD_cons_zero, List.getD_cons_succ]
  rw [BitVec.add_sub_cancel, BitVec.add_sub_cancel, BitVec.xor_assoc, BitVec.xor_self, BitVec.xor_zero]

theorem rounds_length (c : GostCtx) (o : List (Fin 8 × Fin 8)) (s : W32 × W32) : (rounds_steps c o s).2.length = 8 * o.length := by
  induction o generalizing s with
  | nil => rfl
  | cons ij o ih =>
    simp only [rounds_steps, List.length_append, ih, List.length_cons]
    have : (lines2_steps c s ij).2.length = 8 := rfl
    omega

theorem crypt_length (c : GostCtx) (b : Bytes 8) : (gostcrypt_steps c b).2.length = 128 := rounds_length c encOrder _

theorem loadBlock_bytes (x : U4x2) : loadBlock x.bytes = x := by
  have h : ∀ n : W32, le32 (byteOf n 0) (byteOf n 1) (byteOf n 2) (byteOf n 3) = n := by
    intro n
    rw [le32_eq, byteOf_eq, byteOf_eq, byteOf_eq, byteOf_eq, word_octet]
  exact Prod.ext (h x.1) (h x.2)

/-- The seed, from the date and the steps of seeding and the first bit. -/
def seedFrom (date : Bytes 8) (t : List CpuStep) : Bytes 40 :=
  let k := keyFrom defaultF t date
  let I := U4x2.ofBytes (gostcrypt (gost_key_nomask (gost_init MdData.zero.cctx (some (unpack_sbox default_sbox))) k) date)
  let b := blockFrom defaultF k (t.drop 128)
  let s : U4x2 := (b.1 ^^^ I.1, b.2 ^^^ I.2)
  Vector.ofFn fun i : Fin 40 => if h : i.val < 32 then k[i.val] else s.bytes[i.val - 32]

theorem xor_cancel (a b : W32) : (a ^^^ b) ^^^ a = b := by
  rw [BitVec.xor_comm, ← BitVec.xor_assoc, BitVec.xor_self, BitVec.zero_xor]

theorem crypt_init_congr (g g' : GostCtx) (k : Bytes 32) (b : Bytes 8) :
    gostcrypt (gost_key_nomask (gost_init g (some (unpack_sbox default_sbox))) k) b = gostcrypt (gost_key_nomask (gost_init g' (some (unpack_sbox default_sbox))) k) b := by
  rw [← gostcrypt_result, ← gostcrypt_result]
  exact congrArg Prod.fst (crypt_congr _ _ rfl (K_gost_key _ _ _ _ k) b)

theorem seedFrom_steps (m : Rbg) (seed : Bytes 40) (date : Bytes 8) :
    seedFrom date ((rbg_init_steps seed date m).2 ++ (rbg_get_bit_steps (rbg_init_steps seed date m).1).2) = seed := by
  let g := gost_init m.cryptor (some (unpack_sbox default_sbox))
  let c := gost_key_nomask g (seedKey seed)
  have e1 : (rbg_init_steps seed date m).2 = (gostcrypt_steps c date).2 := rfl
  let I := U4x2.ofBytes (gostcrypt_steps c date).1
  let s := U4x2.ofBytes (seedTail seed)
  let x : U4x2 := (I.1 ^^^ s.1, I.2 ^^^ s.2)
  obtain ⟨u, e2⟩ : ∃ u, (rbg_get_bit_steps (rbg_init_steps seed date m).1).2 = (gostcrypt_steps c x.bytes).2 ++ u := ⟨_, rfl⟩
  have hk : keyFrom defaultF ((gostcrypt_steps c date).2 ++ ((gostcrypt_steps c x.bytes).2 ++ u)) date = seedKey seed := by
    have := keyFrom_crypt c date ((gostcrypt_steps c x.bytes).2 ++ u)
    rw [f_default_nomask] at this
    rw [this]
    exact get_key_gost_key _ _ _
  have hd : ((gostcrypt_steps c date).2 ++ ((gostcrypt_steps c x.bytes).2 ++ u)).drop 128 = (gostcrypt_steps c x.bytes).2 ++ u := by
    rw [← crypt_length c date, List.drop_left]
  have hb : blockFrom defaultF (seedKey seed) ((gostcrypt_steps c x.bytes).2 ++ u) = x := by
    have := blockFrom_crypt g (seedKey seed) x.bytes u
    rw [f_default_nomask, loadBlock_bytes] at this
    exact this
  have hI : U4x2.ofBytes (gostcrypt (gost_key_nomask (gost_init MdData.zero.cctx (some (unpack_sbox default_sbox))) (seedKey seed)) date) = I := by
    rw [crypt_init_congr _ m.cryptor, ← gostcrypt_result]
  rw [e1, e2]
  simp only [seedFrom]
  rw [hk, hd, hb, hI]
  have hs : ((x.1 ^^^ I.1, x.2 ^^^ I.2) : U4x2) = s := Prod.ext (xor_cancel _ _) (xor_cancel _ _)
  rw [hs, U4x2.bytes_ofBytes]
  apply Vector.ext
  intro i hi
  simp only [Vector.getElem_ofFn]
  split
  · simp [seedKey]
  · simp only [seedTail, Vector.getElem_ofFn]
    congr 1
    omega

end Dstu
