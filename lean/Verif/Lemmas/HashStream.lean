import Verif.Lemmas.Hash

namespace Dstu

theorem transformN_eq (n : Nat) (y : BitVec 256) :
    transformN n (Spec.toBytes y) = Spec.toBytes (Spec.iter Spec.hPsi n y) := by
  induction n generalizing y with
  | zero => rfl
  | succ n ih => rw [transformN, Spec.iter, ← toBytes_hPsi, ih]

theorem enc_with_key_spec (c : GostCtx) (S) (h : c.Tables S) (k : Bytes 32) (b : Bytes 8) :
    (gost_enc_with_key c k b).1.Tables S ∧ (gost_enc_with_key c k b).2 = Spec.encrypt S k b := by
  have ht := tables_gost_key_nomask c k S h
  refine ⟨ht, ?_⟩
  simp only [gost_enc_with_key]
  rw [gostcrypt_spec _ S ht, keys_gost_key_nomask]
  rfl

/-- The step function of the code is the standard's. -/
theorem hash_step_spec (c : GostCtx) (T) (h : c.Tables T) (x m : BitVec 256) :
    (hash_step c (Spec.toBytes x) (Spec.toBytes m)).1.Tables T ∧
    (hash_step c (Spec.toBytes x) (Spec.toBytes m)).2 = Spec.toBytes (Spec.hStep T x m) := by
  obtain ⟨a1, a2⟩ := enc_with_key_spec c T h
    (swap_bytes (xorV (Spec.toBytes x) (Spec.toBytes m))) (octets (Spec.toBytes x) 0)
  obtain ⟨b1, b2⟩ := enc_with_key_spec _ T a1
    (swap_bytes (xorV (circle_xor8 (Spec.toBytes x)) (circle_xor8 (circle_xor8 (Spec.toBytes m)))))
    (octets (Spec.toBytes x) 1)
  obtain ⟨c1, c2⟩ := enc_with_key_spec _ T b1
    (swap_bytes (xorV (complementU (circle_xor8 (circle_xor8 (Spec.toBytes x))))
      (circle_xor8 (circle_xor8 (circle_xor8 (circle_xor8 (Spec.toBytes m)))))))
    (octets (Spec.toBytes x) 2)
  obtain ⟨d1, d2⟩ := enc_with_key_spec _ T c1
    (swap_bytes (xorV (circle_xor8 (complementU (circle_xor8 (circle_xor8 (Spec.toBytes x)))))
      (circle_xor8 (circle_xor8 (circle_xor8 (circle_xor8 (circle_xor8 (circle_xor8 (Spec.toBytes m)))))))))
    (octets (Spec.toBytes x) 3)
  refine ⟨d1, ?_⟩
  simp only [hash_step]
  rw [a2, b2, c2, d2]
  have hj : join4
      (Spec.encrypt T (swap_bytes (xorV (Spec.toBytes x) (Spec.toBytes m))) (octets (Spec.toBytes x) 0))
      (Spec.encrypt T (swap_bytes (xorV (circle_xor8 (Spec.toBytes x))
        (circle_xor8 (circle_xor8 (Spec.toBytes m))))) (octets (Spec.toBytes x) 1))
      (Spec.encrypt T (swap_bytes (xorV (complementU (circle_xor8 (circle_xor8 (Spec.toBytes x))))
        (circle_xor8 (circle_xor8 (circle_xor8 (circle_xor8 (Spec.toBytes m)))))))
        (octets (Spec.toBytes x) 2))
      (Spec.encrypt T (swap_bytes (xorV (circle_xor8 (complementU (circle_xor8 (circle_xor8 (Spec.toBytes x)))))
        (circle_xor8 (circle_xor8 (circle_xor8 (circle_xor8 (circle_xor8 (circle_xor8 (Spec.toBytes m)))))))))
        (octets (Spec.toBytes x) 3)) = Spec.toBytes (Spec.hEncipher T x m) := by
    rw [← toBytes_join]
    simp only [← toBytes_hA, ← toBytes_hC3, ← toBytes_xor, ← hP_eq, ← block64_eq]
    rfl
  rw [hj, transformN_eq, ← toBytes_xor, ← toBytes_hPsi, ← toBytes_xor, transformN_eq]
  congr 2
  rw [BitVec.xor_comm, BitVec.xor_comm m]

theorem hash_step_bytes (c : GostCtx) (T) (h : c.Tables T) (H M : Bytes 32) :
    (hash_step c H M).1.Tables T ∧
    (hash_step c H M).2 = Spec.toBytes (Spec.hStep T (Spec.ofBytes H) (Spec.ofBytes M)) := by
  have := hash_step_spec c T h (Spec.ofBytes H) (Spec.ofBytes M)
  rwa [toBytes_ofBytes, toBytes_ofBytes] at this

/-! ### The checksum -/

theorem addLoop_value (a b : List Byte) (h : a.length = b.length) (c : Nat) :
    Spec.leNat (addLoop a b c).1 + 256 ^ a.length * (addLoop a b c).2 =
      Spec.leNat a + Spec.leNat b + c := by
  induction a generalizing b c with
  | nil => cases b <;> simp_all [addLoop, Spec.leNat]
  | cons x a ih =>
    cases b with
    | nil => simp at h
    | cons y b =>
      have := ih b (by simpa using h) ((x.toNat + y.toNat + c) >>> 8)
      simp only [addLoop, Spec.leNat, List.length_cons, Nat.pow_succ]
      have hand : (x.toNat + y.toNat + c) &&& 0xff = (x.toNat + y.toNat + c) % 256 :=
        Nat.and_two_pow_sub_one_eq_mod _ 8
      rw [hand, Nat.shiftRight_eq_div_pow] at *
      simp only [BitVec.toNat_ofNat]
      generalize (addLoop a b ((x.toNat + y.toNat + c) / 2 ^ 8)).2 = q at *
      generalize Spec.leNat (addLoop a b ((x.toNat + y.toNat + c) / 2 ^ 8)).1 = r at *
      have e : 256 ^ a.length * 256 * q = 256 * (256 ^ a.length * q) := by
        rw [Nat.mul_comm (256 ^ a.length), Nat.mul_assoc]
      rw [e]
      generalize 256 ^ a.length * q = z at *
      omega

theorem add_blocks_spec (x m : BitVec 256) :
    add_blocks (Spec.toBytes x) (Spec.toBytes m) = Spec.toBytes (x + m) := by
  have hv := addLoop_value (Spec.toBytes x).toList (Spec.toBytes m).toList (by simp) 0
  have hb : Spec.ofBytes (add_blocks (Spec.toBytes x) (Spec.toBytes m)) = x + m := by
    have h1 : x = BitVec.ofNat 256 (Spec.leNat (Spec.toBytes x).toList) := (ofBytes_toBytes x).symm
    have h2 : m = BitVec.ofNat 256 (Spec.leNat (Spec.toBytes m).toList) := (ofBytes_toBytes m).symm
    apply BitVec.eq_of_toNat_eq
    conv => rhs; rw [h1, h2]
    simp only [Spec.ofBytes, BitVec.toNat_ofNat, BitVec.toNat_add]
    have h3 : (add_blocks (Spec.toBytes x) (Spec.toBytes m)).toList =
      (addLoop (Spec.toBytes x).toList (Spec.toBytes m).toList 0).1 := by simp [add_blocks, Vector.toList]
    rw [h3]
    simp only [Vector.length_toList] at hv
    have h256 : (256 : Nat) ^ 32 = 2 ^ 256 := by norm_num
    rw [h256] at hv
    generalize Spec.leNat (addLoop (Spec.toBytes x).toList (Spec.toBytes m).toList 0).1 = p at *
    generalize (addLoop (Spec.toBytes x).toList (Spec.toBytes m).toList 0).2 = q at *
    generalize Spec.leNat (Spec.toBytes x).toList = u at *
    generalize Spec.leNat (Spec.toBytes m).toList = w at *
    omega
  rw [← hb, toBytes_ofBytes]

theorem add_blocks_bytes (a b : Bytes 32) :
    add_blocks a b = Spec.toBytes (Spec.ofBytes a + Spec.ofBytes b) := by
  rw [← add_blocks_spec, toBytes_ofBytes, toBytes_ofBytes]

/-! ### Streaming -/

/-- `h` is the state after the whole blocks `bs` and `left` further bytes `r`. -/
structure HashCtx.Rel (T : Fin 8 → BitVec 4 → BitVec 4) (h : HashCtx) (bs : List (BitVec 256))
    (r : List Byte) : Prop where
  len : h.len = 32 * bs.length
  left : h.left = r.length
  lt : r.length < 32
  H : h.H = Spec.toBytes (bs.foldl (Spec.hStep T) 0)
  S : h.S = Spec.toBytes (bs.foldl (· + ·) 0)
  rem : h.remainder.toList.take r.length = r

/-- The whole blocks of a message and the bytes after them. -/
def wholeBlocks (l : List Byte) : Nat → List (BitVec 256)
  | 0 => []
  | n + 1 => Spec.ofBytes (Vector.ofFn fun i : Fin 32 => (l[i.val]?).getD 0) :: wholeBlocks (l.drop 32) n

theorem wholeBlocks_length (l n) : (wholeBlocks l n).length = n := by
  induction n generalizing l with
  | zero => rfl
  | succ n ih => simp [wholeBlocks, ih]

theorem sub_ofBytes (l : List Byte) (h : 0 + 32 ≤ l.length) :
    Spec.ofBytes (sub l 0 32 h) = Spec.ofBytes (Vector.ofFn fun i : Fin 32 => (l[i.val]?).getD 0) := by
  rw [sub_eq_ofFn]

theorem hashOne_rel (c : GostCtx) (T) (hc : c.Tables T) (h : HashCtx) (bs r) (hr : h.Rel T bs r)
    (M : Bytes 32) (hlen : 32 * (bs.length + 1) < 2 ^ 63) :
    ∃ c' h', hashOne c h M = some (c', h') ∧ c'.Tables T ∧ h'.Rel T (bs ++ [Spec.ofBytes M]) r ∧
      h'.remainder = h.remainder ∧ h'.left = h.left := by
  obtain ⟨s1, s2⟩ := hash_step_bytes c T hc h.H M
  refine ⟨(hash_step c h.H M).1, 
    { h with H := (hash_step c h.H M).2, S := add_blocks h.S M, len := h.len + 32 }, ?_, s1, ?_, rfl, rfl⟩
  · simp only [hashOne, addLen, hr.len]
    rw [if_pos (by omega)]
    rfl
  · refine ⟨?_, hr.left, hr.lt, ?_, ?_, hr.rem⟩
    · simp only [hr.len, List.length_append, List.length_singleton]
      omega
    · refine s2.trans ?_
      simp only [hr.H, ofBytes_toBytes, List.foldl_append, List.foldl_cons, List.foldl_nil]
    · simp only [add_blocks_bytes, hr.S, ofBytes_toBytes, List.foldl_append, List.foldl_cons, List.foldl_nil]

theorem hashLoop_rel (c : GostCtx) (T) (hc : c.Tables T) (h : HashCtx) (bs) (hr : h.Rel T bs [])
    (l : List Byte) (n : Nat) (hn : 32 * n ≤ l.length) (hlen : 32 * (bs.length + n) < 2 ^ 63) :
    ∃ c' h', hashLoop c h l n = some (c', h', l.drop (32 * n)) ∧ c'.Tables T ∧
      h'.Rel T (bs ++ wholeBlocks l n) [] := by
  induction n generalizing c h bs l with
  | zero => exact ⟨c, h, by simp [hashLoop], hc, by simpa [wholeBlocks] using hr⟩
  | succ n ih =>
    have hl : 0 + 32 ≤ l.length := by omega
    obtain ⟨c1, h1, e1, t1, r1, _⟩ := hashOne_rel c T hc h bs [] hr (sub l 0 32 hl) (by omega)
    obtain ⟨c2, h2, e2, t2, r2⟩ := ih c1 t1 h1 _ r1 (l.drop 32) (by simp; omega) (by simp; omega)
    refine ⟨c2, h2, ?_, t2, ?_⟩
    · simp only [hashLoop, hl, dite_true, Option.bind_eq_bind]
      rw [e1]
      simp only [Option.bind_some]
      rw [e2, List.drop_drop]
      congr 3
      congr 1
      omega
    · rw [sub_ofBytes, List.append_assoc] at r2
      exact r2

theorem hashRest_rel (c : GostCtx) (T) (hc : c.Tables T) (h : HashCtx) (bs) (hr : h.Rel T bs [])
    (l : List Byte) (hlen : 32 * bs.length + l.length < 2 ^ 63) :
    ∃ c' h', hashRest c h l = some (c', h') ∧ c'.Tables T ∧
      h'.Rel T (bs ++ wholeBlocks l (l.length / 32)) (l.drop (32 * (l.length / 32))) := by
  obtain ⟨c1, h1, e1, t1, r1⟩ := hashLoop_rel c T hc h bs hr l (l.length / 32) (by omega) (by omega)
  unfold hashRest
  rw [e1]
  simp only [Option.bind_eq_bind, Option.bind_some]
  by_cases h0 : (l.drop (32 * (l.length / 32))).length = 0
  · refine ⟨c1, h1, by simp [h0], t1, ?_⟩
    have : l.drop (32 * (l.length / 32)) = [] := List.length_eq_zero_iff.mp h0
    rw [this]
    exact r1
  · have hle : (l.drop (32 * (l.length / 32))).length < 32 := by simp; omega
    simp only [h0, ne_eq, not_false_eq_true, if_true]
    generalize l.drop (32 * (l.length / 32)) = r at *
    have hm : memcpyAt h1.remainder 0 r =
        some (Vector.ofFn fun i : Fin 32 => (r[i.val]?).getD h1.remainder[i]) := by
      simp only [memcpyAt]
      rw [if_pos (by omega)]
      simp
    rw [hm]
    refine ⟨c1, _, rfl, t1, ⟨r1.len, rfl, hle, r1.H, r1.S, ?_⟩⟩
    apply List.ext_getElem
    · simp; omega
    · intro i a b
      simp [List.getElem?_eq_getElem b]

theorem wholeBlocks_append (r l : List Byte) (k : Nat) (hk : r.length + k = 32)
    (n : Nat) :
    wholeBlocks (r ++ l) (n + 1) =
      Spec.ofBytes (Vector.ofFn fun i : Fin 32 => ((r ++ l.take k)[i.val]?).getD 0) ::
        wholeBlocks (l.drop k) n := by
  simp only [wholeBlocks]
  have h1 : ∀ i : Nat, i < 32 → ((r ++ l)[i]?).getD 0 = ((r ++ l.take k)[i]?).getD 0 := by
    intro i h32
    by_cases hi : i < r.length
    · rw [List.getElem?_append_left hi, List.getElem?_append_left hi]
    · rw [List.getElem?_append_right (by omega), List.getElem?_append_right (by omega),
        List.getElem?_take_of_lt (by omega)]
  have h2 : (r ++ l).drop 32 = l.drop k := by
    rw [List.drop_append, List.drop_eq_nil_of_le (by omega), List.nil_append]
    congr 1
    omega
  have h3 : (Vector.ofFn fun i : Fin 32 => ((r ++ l)[i.val]?).getD 0) =
      Vector.ofFn fun i : Fin 32 => ((r ++ l.take k)[i.val]?).getD 0 := by
    apply Vector.ext
    intro i hi
    simp only [Vector.getElem_ofFn]
    exact h1 i hi
  rw [h2, h3]

theorem take_of_agree (R : Bytes 32) (l : List Byte) (hl : l.length ≤ 32)
    (h : ∀ i (hi : i < 32), i < l.length → R[i] = (l[i]?).getD 0) : R.toList.take l.length = l := by
  apply List.ext_getElem
  · simp; omega
  · intro i a b
    have := h i (by omega) b
    rw [List.getElem?_eq_getElem b] at this
    simpa using this

/-- One update in terms of the data seen so far: `bs` whole blocks followed by `r`. -/
theorem hash_block_rel (c : GostCtx) (T) (hc : c.Tables T) (h : HashCtx) (bs r) (hr : h.Rel T bs r)
    (l : List Byte) (hlen : 32 * bs.length + (r ++ l).length < 2 ^ 63) :
    ∃ c' h', hash_block c h l = some (c', h') ∧ c'.Tables T ∧
      h'.Rel T (bs ++ wholeBlocks (r ++ l) ((r ++ l).length / 32))
        ((r ++ l).drop (32 * ((r ++ l).length / 32))) := by
  unfold hash_block
  have hlt := hr.lt
  by_cases h0 : r.length = 0
  · have : r = [] := List.length_eq_zero_iff.mp h0
    subst this
    have hz : h.left = 0 := hr.left
    simp only [hz, ne_eq, not_true_eq_false, if_false, List.nil_append] at hlen ⊢
    exact hashRest_rel c T hc h bs hr l hlen
  · have hnz : h.left ≠ 0 := by rw [hr.left]; exact h0
    have hle : h.left ≤ 32 := by rw [hr.left]; omega
    simp only [hnz, ne_eq, not_false_eq_true, if_true, hle]
    obtain ⟨add, hadd⟩ : ∃ add, add = if 32 - h.left > l.length then l.length else 32 - h.left := ⟨_, rfl⟩
    rw [← hadd]
    obtain ⟨R, hm, hRi⟩ : ∃ R : Bytes 32, memcpyAt h.remainder h.left (l.take add) = some R ∧
        ∀ i (hi : i < 32), R[i] = if h.left ≤ i then
          ((l.take add)[i - h.left]?).getD h.remainder[i] else h.remainder[i] := by
      refine ⟨_, if_pos ?_, ?_⟩
      · simp only [List.length_take]
        split at hadd <;> omega
      · intro i hi
        simp only [Vector.getElem_ofFn, Fin.getElem_fin]
    rw [hm]
    simp only [Option.bind_eq_bind, Option.bind_some]
    rw [hr.left] at hadd hnz hle
    have hremi : ∀ i (hi : i < 32), i < r.length → h.remainder[i] = (r[i]?).getD 0 := by
      intro i hi hir
      have := congrArg (fun t => t[i]?) hr.rem
      simp only [List.getElem?_take_of_lt hir] at this
      rw [← this]
      simp [hi]
    have hrem : ∀ i (hi : i < 32), i < (r ++ l.take add).length →
        R[i] = ((r ++ l.take add)[i]?).getD 0 := by
      intro i hi hil
      rw [hRi i hi, hr.left]
      by_cases hir : i < r.length
      · rw [if_neg (by omega), List.getElem?_append_left hir, hremi i hi hir]
      · rw [if_pos (by omega), List.getElem?_append_right (by omega)]
        have : i - r.length < (l.take add).length := by simp at hil ⊢; omega
        rw [List.getElem?_eq_getElem this]
        rfl
    by_cases hsm : r.length + add < 32
    · -- not enough for a block
      have hal : add = l.length := by split at hadd <;> omega
      have htk : l.take add = l := by rw [hal, List.take_length]
      rw [if_pos (by rw [hr.left]; omega)]
      have hd0 : (r ++ l).length / 32 = 0 := by rw [List.length_append]; omega
      refine ⟨c, _, rfl, hc, ?_⟩
      rw [hd0]
      simp only [wholeBlocks, List.append_nil, Nat.mul_zero, List.drop_zero]
      refine ⟨hr.len, ?_, ?_, hr.H, hr.S, ?_⟩
      · simp only [hr.left, hal, List.length_append]
      · simp; omega
      · rw [htk] at hrem
        exact take_of_agree _ _ (by simp; omega) hrem
    · have hal : add = 32 - r.length := by split at hadd <;> omega
      have hll : add ≤ l.length := by split at hadd <;> omega
      rw [if_neg (by rw [hr.left]; omega)]
      have hRe : R = Vector.ofFn fun i : Fin 32 => ((r ++ l.take add)[i.val]?).getD 0 := by
        apply Vector.ext
        intro i hi
        rw [hrem i hi (by simp; omega)]
        simp
      have hr0 : HashCtx.Rel T { h with remainder := R, left := 0 } bs [] :=
        ⟨hr.len, rfl, by simp, hr.H, hr.S, rfl⟩
      simp only [List.length_append] at hlen
      obtain ⟨c1, h1, e1, t1, r1, m1, l1⟩ := hashOne_rel c T hc _ bs [] hr0 R (by omega)
      -- the step does not look at `left`
      have e1' : hashOne c { h with remainder := R, left := h.left + add } R =
          some (c1, { h1 with left := h.left + add }) := by
        simp only [hashOne, Option.bind_eq_bind, Option.bind_eq_some_iff, Option.pure_def,
          Option.some.injEq, Prod.mk.injEq] at e1 ⊢
        obtain ⟨a, ha, hc1, hh1⟩ := e1
        exact ⟨a, ha, hc1, by rw [← hh1]⟩
      have e1'' : hashOne c { h with remainder := R, left := h.left + add }
          ({ h with remainder := R, left := h.left + add } : HashCtx).remainder =
          some (c1, { h1 with left := h.left + add }) := e1'
      rw [e1'']
      simp only [Option.bind_some]
      have hl1 : ({ h1 with left := 0 } : HashCtx) = h1 := by
        have : h1.left = 0 := l1
        cases h1
        simp_all
      rw [hl1]
      obtain ⟨c2, h2, e2, t2, r2⟩ := hashRest_rel c1 T t1 h1 _ r1 (l.drop add) (by simp; omega)
      refine ⟨c2, h2, e2, t2, ?_⟩
      have hn : (r ++ l).length / 32 = (l.drop add).length / 32 + 1 := by simp; omega
      rw [hn, wholeBlocks_append r l add (by omega), ← hRe]
      have hd : (r ++ l).drop (32 * ((l.drop add).length / 32 + 1)) =
          (l.drop add).drop (32 * ((l.drop add).length / 32)) := by
        rw [List.drop_append, List.drop_eq_nil_of_le (by omega), List.nil_append, List.drop_drop]
        congr 1
        omega
      rw [hd]
      rw [List.append_assoc] at r2
      exact r2

theorem wholeBlocks_add (m : List Byte) (a b : Nat) :
    wholeBlocks m (a + b) = wholeBlocks m a ++ wholeBlocks (m.drop (32 * a)) b := by
  induction a generalizing m with
  | zero => simp [wholeBlocks]
  | succ a ih =>
    rw [show a + 1 + b = (a + b) + 1 by omega]
    simp only [wholeBlocks, List.cons_append]
    rw [ih, List.drop_drop]
    congr 3
    congr 1
    omega

theorem wholeBlocks_left (m l : List Byte) (a : Nat) (h : 32 * a ≤ m.length) :
    wholeBlocks (m ++ l) a = wholeBlocks m a := by
  induction a generalizing m with
  | zero => rfl
  | succ a ih =>
    simp only [wholeBlocks]
    have h3 : (Vector.ofFn fun i : Fin 32 => ((m ++ l)[i.val]?).getD 0) =
        Vector.ofFn fun i : Fin 32 => (m[i.val]?).getD 0 := by
      apply Vector.ext
      intro i hi
      simp only [Vector.getElem_ofFn]
      rw [List.getElem?_append_left (by omega)]
    rw [h3, List.drop_append_of_le_length (by omega), ih (m.drop 32) (by simp; omega)]

/-- `h` is the state after the message `m`. -/
def HashCtx.After (T : Fin 8 → BitVec 4 → BitVec 4) (h : HashCtx) (m : List Byte) : Prop :=
  h.Rel T (wholeBlocks m (m.length / 32)) (m.drop (32 * (m.length / 32)))

theorem start_after (T h) : (start_hash h).After T [] := by
  refine ⟨rfl, rfl, by simp, ?_, ?_, by simp⟩
  · simp only [start_hash, wholeBlocks, List.length_nil, Nat.zero_div, List.foldl_nil]
    rw [← toBytes_ofBytes (zeros 32)]
    rfl
  · simp only [start_hash, wholeBlocks, List.length_nil, Nat.zero_div, List.foldl_nil]
    rw [← toBytes_ofBytes (zeros 32)]
    rfl

theorem hash_block_after (c : GostCtx) (T) (hc : c.Tables T) (h : HashCtx) (m) (hm : h.After T m)
    (l : List Byte) (hlen : (m ++ l).length < 2 ^ 63) :
    ∃ c' h', hash_block c h l = some (c', h') ∧ c'.Tables T ∧ h'.After T (m ++ l) := by
  have hq : 32 * (m.length / 32) ≤ m.length := by omega
  obtain ⟨c', h', e, t, r⟩ := hash_block_rel c T hc h _ _ hm l (by
    rw [wholeBlocks_length]; simp only [List.length_append, List.length_drop] at hlen ⊢; omega)
  refine ⟨c', h', e, t, ?_⟩
  have hd : m.drop (32 * (m.length / 32)) ++ l = (m ++ l).drop (32 * (m.length / 32)) := by
    rw [List.drop_append_of_le_length hq]
  have hn : (m ++ l).length / 32 =
      m.length / 32 + ((m ++ l).drop (32 * (m.length / 32))).length / 32 := by
    simp only [List.length_append, List.length_drop]
    omega
  unfold HashCtx.After
  rw [hn, wholeBlocks_add, wholeBlocks_left m l _ hq, Nat.mul_add, ← List.drop_drop]
  rw [hd] at r
  exact r

/-! ### Finishing -/

theorem lenBytes_value (f n : Nat) (h : n < 256 ^ f) : Spec.leNat (lenBytes f n) = n := by
  induction f generalizing n with
  | zero => simp at h; subst h; rfl
  | succ f ih =>
    simp only [lenBytes]
    split
    · subst_vars; rfl
    · have hand : n &&& 0xff = n % 256 := Nat.and_two_pow_sub_one_eq_mod _ 8
      have hs : n >>> 8 = n / 256 := Nat.shiftRight_eq_div_pow n 8
      have := ih (n / 256) (by rw [Nat.pow_succ] at h; omega)
      rw [Spec.leNat, hand, hs, this]
      simp only [BitVec.toNat_ofNat]
      omega

theorem lenBytes_length (f n k : Nat) (h : n < 256 ^ k) : (lenBytes f n).length ≤ k := by
  induction f generalizing n k with
  | zero => simp [lenBytes]
  | succ f ih =>
    simp only [lenBytes]
    split
    · simp
    · cases k with
      | zero => simp at h; contradiction
      | succ k =>
        have hs : n >>> 8 = n / 256 := Nat.shiftRight_eq_div_pow n 8
        have := ih (n / 256) k (by rw [Nat.pow_succ] at h; omega)
        rw [hs]
        simpa using this

theorem leNat_pad (l : List Byte) (k : Nat) : Spec.leNat (l ++ List.replicate k 0#8) = Spec.leNat l := by
  induction l with
  | nil =>
    simp only [List.nil_append]
    induction k with
    | zero => rfl
    | succ k ih => simp [List.replicate_succ, Spec.leNat] at ih ⊢; exact ih
  | cons x l ih => simp [Spec.leNat, ih]

theorem memcpy_zeros (l : List Byte) (h : l.length ≤ 32) :
    memcpyAt (zeros 32) 0 l = some (Vector.ofFn fun i : Fin 32 => (l[i.val]?).getD 0) := by
  simp only [memcpyAt]
  rw [if_pos (by omega)]
  simp [zeros]

theorem pad_toList (l : List Byte) (h : l.length ≤ 32) :
    (Vector.ofFn fun i : Fin 32 => (l[i.val]?).getD (0 : Byte)).toList =
      l ++ List.replicate (32 - l.length) 0#8 := by
  apply List.ext_getElem
  · simp; omega
  · intro i a b
    simp only [Vector.getElem_toList, Vector.getElem_ofFn, List.getElem_append]
    split
    · rename_i hi
      rw [List.getElem?_eq_getElem hi]; rfl
    · rename_i hi
      rw [List.getElem?_eq_none (by omega)]; simp

theorem lenBlock (n : Nat) (h : n < 2 ^ 63) :
    ∃ B : Bytes 32, memcpyAt (zeros 32) 0 (lenBytes 64 n) = some B ∧ Spec.ofBytes B = BitVec.ofNat 256 n := by
  have hl : (lenBytes 64 n).length ≤ 8 := lenBytes_length 64 n 8 (by norm_num; omega)
  refine ⟨_, memcpy_zeros _ (by omega), ?_⟩
  rw [Spec.ofBytes, pad_toList _ (by omega), leNat_pad, lenBytes_value]
  exact lt_of_lt_of_le h (Nat.pow_le_pow_left (by omega) 63 |>.trans (Nat.pow_le_pow_right (by omega) (by omega)))

theorem blocks_whole (m : List Byte) :
    (Spec.blocks 32 (by omega) m).map Spec.ofBytes = wholeBlocks m (m.length / 32) ++
      (if m.drop (32 * (m.length / 32)) = [] then [] else
        [Spec.ofBytes (Vector.ofFn fun i : Fin 32 => ((m.drop (32 * (m.length / 32)))[i.val]?).getD 0)]) := by
  induction h : m.length using Nat.strongRecOn generalizing m with
  | _ n ih =>
    subst h
    by_cases h0 : m = []
    · subst h0
      simp [blocks_nil, wholeBlocks]
    · by_cases hs : m.length < 32
      · have : m.length / 32 = 0 := by omega
        rw [blocks_short 32 (by omega) m h0 (by omega), this]
        simp [wholeBlocks, h0]
      · rw [blocks_pos 32 (by omega) m h0, List.map_cons, ih (m.drop 32).length (by simp; omega) _ rfl]
        have hd : m.length / 32 = (m.drop 32).length / 32 + 1 := by simp; omega
        have he : m.drop (32 * ((m.drop 32).length / 32 + 1)) =
            (m.drop 32).drop (32 * ((m.drop 32).length / 32)) := by
          rw [List.drop_drop]; congr 1; omega
        rw [hd, he]
        rfl

theorem finishPartial_after (c : GostCtx) (T) (hc : c.Tables T) (h : HashCtx) (m) (hm : h.After T m)
    (hlen : m.length < 2 ^ 63) : ∃ (c1 : GostCtx) (B : List (BitVec 256)),
      finishPartial c h = some (c1, Spec.toBytes (B.foldl (Spec.hStep T) 0),
        Spec.toBytes (B.foldl (· + ·) 0), m.length) ∧ c1.Tables T ∧
      B = (Spec.blocks 32 (by omega) m).map Spec.ofBytes := by
  have hlt := hm.lt
  have hleft := hm.left
  have hl := hm.len
  have hrem := hm.rem
  have hH := hm.H
  have hS := hm.S
  have hbl := blocks_whole m
  rw [wholeBlocks_length] at hl
  have hrl : (m.drop (32 * (m.length / 32))).length = m.length - 32 * (m.length / 32) := by simp
  generalize wholeBlocks m (m.length / 32) = bs at *
  generalize m.drop (32 * (m.length / 32)) = r at *
  by_cases h0 : r = []
  · subst h0
    refine ⟨c, bs, ?_, hc, by simp [hbl]⟩
    rw [finishPartial, if_neg (by simp [hleft]), hH, hS, hl]
    simp only [List.length_nil] at hrl
    congr 4
    omega
  · have hpos : r.length ≠ 0 := fun h' => h0 (List.length_eq_zero_iff.mp h')
    rw [if_neg h0] at hbl
    rw [finishPartial, if_pos (by rw [hleft]; exact hpos), if_pos (by rw [hleft]; omega), hleft, hrem,
      memcpy_zeros r (by omega)]
    generalize (Vector.ofFn fun i : Fin 32 => (r[i.val]?).getD (0 : Byte)) = P at *
    obtain ⟨s1, s2⟩ := hash_step_bytes c T hc h.H P
    refine ⟨(hash_step c h.H P).1, bs ++ [Spec.ofBytes P], ?_, s1, hbl.symm⟩
    simp only [Option.bind_eq_bind, Option.bind_some, addLen]
    rw [if_pos (by omega), s2, add_blocks_bytes, hH, hS]
    simp only [Option.bind_some, ofBytes_toBytes, List.foldl_append, List.foldl_cons, List.foldl_nil]
    congr 4
    omega

/-- Finishing a longer message overflows the bit counter. -/
theorem finish_overflow (c : GostCtx) (T) (hc : c.Tables T) (h : HashCtx) (m) (hm : h.After T m)
    (hlen : m.length < 2 ^ 63) (hlen2 : 2 ^ 60 ≤ m.length) : finish_hash c h = none := by
  obtain ⟨c1, B, e1, t1, hB⟩ := finishPartial_after c T hc h m hm hlen
  unfold finish_hash
  rw [e1]
  simp only [Option.bind_eq_bind, Option.bind_some]
  rw [if_neg (by omega)]

/-- The digest of a message shorter than `2^60` bytes. -/
theorem finish_after (c : GostCtx) (T) (hc : c.Tables T) (h : HashCtx) (m) (hm : h.After T m)
    (hlen : m.length < 2 ^ 60) :
    ∃ c', finish_hash c h = some (c', Spec.gost34311 T m) ∧ c'.Tables T := by
  obtain ⟨c1, B, e1, t1, hB⟩ := finishPartial_after c T hc h m hm (by omega)
  unfold finish_hash
  rw [e1]
  simp only [Option.bind_eq_bind, Option.bind_some]
  -- the empty message
  obtain ⟨c2, e2, t2⟩ : ∃ c2 : GostCtx,
      (if m.length = 0 then hash_step c1 (Spec.toBytes (B.foldl (Spec.hStep T) 0)) (zeros 32)
        else (c1, Spec.toBytes (B.foldl (Spec.hStep T) 0))) =
      (c2, Spec.toBytes ((Spec.hBlocks m).foldl (Spec.hStep T) 0)) ∧ c2.Tables T := by
    by_cases h0 : m = []
    · subst h0
      have hB0 : B = [] := by rw [hB, blocks_nil]; rfl
      obtain ⟨s1, s2⟩ := hash_step_bytes c1 T t1 (Spec.toBytes 0) (zeros 32)
      refine ⟨(hash_step c1 (Spec.toBytes 0) (zeros 32)).1, ?_, s1⟩
      rw [if_pos List.length_nil, hB0]
      simp only [List.foldl_nil, Spec.hBlocks, if_true, List.foldl_cons]
      rw [ofBytes_toBytes] at s2
      exact Prod.ext rfl s2
    · rw [if_neg (fun h' => h0 (List.length_eq_zero_iff.mp h'))]
      refine ⟨c1, ?_, t1⟩
      rw [Spec.hBlocks, if_neg h0, hB]
  rw [e2]
  have hsum : (Spec.hBlocks m).foldl (· + ·) 0 = B.foldl (· + ·) 0 := by
    rw [Spec.hBlocks]
    split
    · subst_vars; rw [blocks_nil]; rfl
    · rw [hB]
  rw [if_pos (by omega)]
  obtain ⟨L, hL1, hL2⟩ := lenBlock (m.length * 8) (by omega)
  rw [hL1]
  simp only [Option.bind_some]
  obtain ⟨s1, s2⟩ := hash_step_bytes c2 T t2 (Spec.toBytes ((Spec.hBlocks m).foldl (Spec.hStep T) 0)) L
  obtain ⟨u1, u2⟩ := hash_step_bytes _ T s1
    (hash_step c2 (Spec.toBytes ((Spec.hBlocks m).foldl (Spec.hStep T) 0)) L).2
    (Spec.toBytes (B.foldl (· + ·) 0))
  refine ⟨_, ?_, u1⟩
  rw [u2, s2, hL2]
  simp only [ofBytes_toBytes, Spec.gost34311, hsum]
  rw [Nat.mul_comm 8]

end Dstu
