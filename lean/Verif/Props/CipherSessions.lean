import Verif.Model.CipherEvp
import Verif.Props.Envelope

/-! Property C95: cipher contexts after any history. -/

namespace Dstu.Props

open Dstu.Spec

/-- Encrypting machine undoes the decrypting machine and stays in the same state. -/
theorem brun_enc_dec (E) (s : BState) (m : List Byte) :
    (brun E true s (brun E false s m).2) = ((brun E false s m).1, m) := by
  induction m generalizing s with
  | nil => rfl
  | cons b m ih =>
    have h1 : ∀ s : BState, ∀ b, (bstep E true s (bstep E false s b).2) = ((bstep E false s b).1, b) := by
      intro s b
      have hx : b ^^^ s.buf[s.pos] ^^^ s.buf[s.pos] = b := by
        rw [BitVec.xor_assoc, BitVec.xor_self, BitVec.xor_zero]
      unfold bstep
      by_cases h : s.pos = 7
      · simp only [h, if_true, Bool.false_eq_true, if_false] at hx ⊢
        rw [hx]
      · simp only [h, if_true, Bool.false_eq_true, if_false] at hx ⊢
        rw [hx]
    simp only [brun, h1, ih]

/-- At a block boundary the machine has the key stream block of its register. -/
theorem brun_fresh (E enc) (s : BState) (hs : s.pos = 0 → s.buf = E s.iv) (m : List Byte) :
    (brun E enc s m).1.pos = 0 → (brun E enc s m).1.buf = E (brun E enc s m).1.iv := by
  induction m generalizing s with
  | nil => exact hs
  | cons b m ih =>
    simp only [brun]
    apply ih
    unfold bstep
    by_cases h : s.pos = 7
    · simp [h]
    · simp only [h, if_false]
      intro h0
      exfalso
      have h7 : s.pos.val ≠ 7 := fun e => h (Fin.ext e)
      have h8 := s.pos.isLt
      have := congrArg Fin.val h0
      simp only [Fin.val_add] at this
      have e1 : ((1 : Fin 8) : Nat) = 1 := rfl
      have e0 : ((0 : Fin 8) : Nat) = 0 := rfl
      rw [e1, e0] at this
      omega

/-- An update never has undefined behaviour, whatever the stored key stream block. -/
theorem do_cipher_defined (ctx : CipherCtx) (hn : ctx.num < 8) (l : List Byte) (hl : l ≠ []) :
    ∃ out ctx', dstu_cipher_do_cipher ctx (.buf l) = some ⟨l.length, out, ctx'⟩ ∧ ctx'.Same ctx ∧ ctx'.num < 8 ∧
      (8 - ctx'.num) % 8 = ((8 - ctx.num) % 8 + l.length) % 8 := by
  have good : ∀ c : CipherCtx, c.Inv → ∃ out ctx', dstu_cipher_do_cipher c (.buf l) = some ⟨l.length, out, ctx'⟩ ∧ ctx'.Same c ∧ ctx'.num < 8 ∧
      (8 - ctx'.num) % 8 = ((8 - c.num) % 8 + l.length) % 8 := by
    intro c hc
    obtain ⟨c', e, i, s, b⟩ := do_cipher_brun c hc l hl
    refine ⟨_, c', e, s, i.num_lt, ?_⟩
    have := congrArg (fun t => t.pos.val) b
    simp only [brun_pos, CipherCtx.bs] at this
    exact this
  by_cases h0 : ctx.num = 0
  · by_cases h8 : 8 ≤ l.length
    · have key' : dstu_cipher_do_cipher { ctx with buf := gostcrypt ctx.g ctx.iv } (.buf l) = dstu_cipher_do_cipher ctx (.buf l) := by
        have hb : l.length >>> 3 ≠ 0 := by rw [Nat.shiftRight_eq_div_pow]; omega
        cases l with
        | nil => simp at hl
        | cons a c =>
          have hblocks : dcBlocks { ctx with buf := gostcrypt ctx.g ctx.iv } (a :: c) = dcBlocks ctx (a :: c) := by
            simp only [dcBlocks, hb, ne_eq, not_false_eq_true, if_true]
          simp only [dstu_cipher_do_cipher, dcHead, h0, ne_eq, not_true_eq_false, if_false, Option.bind_eq_bind, Option.bind_some]
          rw [h0] at hblocks
          rw [hblocks]
      obtain ⟨out, c', e, s, n, p⟩ := good { ctx with buf := gostcrypt ctx.g ctx.iv } ⟨hn, fun _ => rfl⟩
      exact ⟨out, c', key' ▸ e, s, n, p⟩
    · obtain ⟨a, c', rfl⟩ := List.exists_cons_of_ne_nil hl
      have hb : (a :: c').length >>> 3 = 0 := by
        rw [Nat.shiftRight_eq_div_pow]
        omega
      have h1 : dcHead ctx (a :: c') = some (ctx, [], a :: c') := by
        simp only [dcHead, h0, ne_eq, not_true_eq_false, if_false]
      have h2 : dcBlocks ctx (a :: c') = some (ctx, [], a :: c') := by
        simp only [dcBlocks, hb, ne_eq, not_true_eq_false, if_false]
      have h3 := xorLoop_eq ctx.encrypting ctx.buf ctx.iv 0 (a :: c') (by omega)
      simp only [dstu_cipher_do_cipher, h1, h2, dcTail, Option.bind_eq_bind,
        Option.bind_some, ne_eq, reduceCtorEq, not_false_eq_true, if_true, h3, List.drop_zero,
        List.nil_append, Option.pure_def]
      have hz : (List.zipWith (fun x1 x2 => x1 ^^^ x2) (a :: c') (Vector.toList ctx.buf)).length = (a :: c').length := by
        simp only [List.length_zipWith, Vector.length_toList]
        omega
      rw [hz]
      refine ⟨_, _, rfl, ⟨rfl, rfl, rfl⟩, ?_, ?_⟩
      · simp only [List.length_cons]; omega
      · simp only [List.length_cons, h0] at *; omega
  · exact good ctx ⟨hn, fun h => absurd h h0⟩

/-- A context of the code stands for a stream, except for its S-box. -/
structure StandsCore (c : CipherCtx) (s : Stream) : Prop where
  keys : c.g.keys = subkeys s.key
  oiv : c.oiv = s.iv
  enc : c.encrypting = s.encrypting
  num : c.num < 8
  pos : (8 - c.num) % 8 = s.pos
  sent : ∀ l, s.sent = some l → c.bs = (brun s.block false ⟨s.iv, s.block s.iv, 0⟩ l).1

/-- A context of the code stands for a stream. -/
structure StandsAs (c : CipherCtx) (s : Stream) : Prop extends StandsCore c s where
  tables : c.g.Tables (tableOf s.sbox)
  sbox : dstu_get_sbox c.g = unpack_sbox s.sbox

theorem block_of (g : GostCtx) (key : Bytes 32) (p : Bytes 64) (ht : g.Tables (tableOf p)) (hk : g.keys = subkeys key) :
    gostcrypt g = encrypt (tableOf p) key := by
  funext b
  rw [gostcrypt_spec g _ ht, hk]
  rfl

theorem StandsAs.block {c : CipherCtx} {s : Stream} (h : StandsAs c s) : gostcrypt c.g = s.block :=
  block_of _ _ _ h.tables h.keys

theorem get_sbox_init (g : GostCtx) (p : Bytes 64) : dstu_get_sbox (gost_init g (some (unpack_sbox p))) = unpack_sbox p :=
  holds_inj _ _ _ (get_sbox_holds g (unpack_sbox p) _ (unpack_holds _)) (unpack_holds _)

theorem core_fresh : StandsCore (freshCipher false) (Stream.blank default_sbox) where
  keys := by decide
  oiv := rfl
  enc := rfl
  num := by decide
  pos := rfl
  sent := fun l h => by simp [Stream.blank] at h

theorem stands_init {c : CipherCtx} {s : Stream} (h : StandsCore c s) (enc : Option Bool) (rnd) (key : Option (Bytes 32)) (iv : Option (Bytes 8)) :
    StandsAs (dstu_cipher_init { c with encrypting := enc.getD c.encrypting } rnd key iv) (s.init default_sbox enc key iv) := by
  have ht : (dstu_cipher_init { c with encrypting := enc.getD c.encrypting } rnd key iv).g.Tables (tableOf default_sbox) := by
    cases key <;> cases iv <;> simp only [dstu_cipher_init]
    · exact kboxinit_tables _ _ _ (unpack_holds _)
    · exact kboxinit_tables _ _ _ (unpack_holds _)
    · exact tables_gost_key _ _ _ _ (kboxinit_tables _ _ _ (unpack_holds _))
    · exact tables_gost_key _ _ _ _ (kboxinit_tables _ _ _ (unpack_holds _))
  have hk : (dstu_cipher_init { c with encrypting := enc.getD c.encrypting } rnd key iv).g.keys = subkeys (key.getD s.key) := by
    cases key <;> cases iv <;> simp only [dstu_cipher_init, Option.getD]
    · rw [keys_gost_init]; exact h.keys
    · rw [keys_gost_init]; exact h.keys
    · rw [keys_gost_key]
    · rw [keys_gost_key]
  have hsb : dstu_get_sbox (dstu_cipher_init { c with encrypting := enc.getD c.encrypting } rnd key iv).g = unpack_sbox default_sbox := by
    cases key <;> cases iv <;> simp only [dstu_cipher_init] <;> exact get_sbox_init c.g _
  have he : (dstu_cipher_init { c with encrypting := enc.getD c.encrypting } rnd key iv).encrypting = enc.getD s.encrypting := by
    rw [init_encrypting, h.enc]
  have hE := block_of _ _ _ ht hk
  cases iv with
  | some v =>
    have st := init_start { c with encrypting := enc.getD c.encrypting } rnd key v
    refine { keys := hk, tables := ht, sbox := hsb, enc := he, oiv := ?_, num := ?_, pos := ?_, sent := ?_ }
    · simp only [dstu_cipher_init, Stream.init, Option.getD_some]
    · rw [st.num]; omega
    · rw [st.num]; rfl
    · intro l hl
      simp only [Stream.init, Option.isSome_some, if_true, Option.some.injEq] at hl
      subst hl
      rw [st.bs, hE]
      rfl
  | none =>
    refine { keys := hk, tables := ht, sbox := hsb, enc := he, oiv := ?_, num := ?_, pos := ?_, sent := ?_ }
    · simp only [dstu_cipher_init, Stream.init, Option.getD_none]; exact h.oiv
    · simp only [dstu_cipher_init]; exact h.num
    · simp only [dstu_cipher_init, Stream.init, Option.isSome_none, Bool.false_eq_true, if_false]; exact h.pos
    · intro l hl
      simp only [Stream.init, Option.isSome_none, Bool.false_eq_true, if_false] at hl
      split at hl
      · rename_i hs
        have := h.sent l hl
        have e1 : (s.init default_sbox enc key none).block = s.block := by
          simp only [Stream.block, Stream.init, hs.1, hs.2]
        have e2 : (s.init default_sbox enc key none).iv = s.iv := rfl
        rw [e1, e2, ← this]
        simp only [dstu_cipher_init, CipherCtx.bs]
      · cases hl

theorem stands_sbox {c : CipherCtx} {s : Stream} (h : StandsCore c s) (p : Bytes 64) :
    StandsAs { c with g := gost_init c.g (some (unpack_sbox p)), iv := c.oiv, buf := gostcrypt (gost_init c.g (some (unpack_sbox p))) c.oiv } (s.setSbox p) := by
  have ht : (gost_init c.g (some (unpack_sbox p))).Tables (tableOf p) := kboxinit_tables _ _ _ (unpack_holds _)
  have hk : (gost_init c.g (some (unpack_sbox p))).keys = subkeys s.key := by rw [keys_gost_init, h.keys]
  refine { keys := hk, tables := ht, sbox := get_sbox_init _ _, enc := h.enc, oiv := h.oiv, num := h.num, pos := h.pos, sent := ?_ }
  intro l hl
  simp only [Stream.setSbox] at hl
  split at hl
  · rename_i h0
    cases hl
    have hp := h.pos
    rw [h0] at hp
    simp only [CipherCtx.bs, brun, BState.mk.injEq]
    refine ⟨h.oiv, ?_, Fin.ext hp⟩
    rw [block_of _ _ _ ht hk, h.oiv]
    rfl
  · cases hl

theorem core_iv {c : CipherCtx} {s : Stream} (h : StandsCore c s) (iv : Bytes 8) :
    StandsCore { c with oiv := iv } { s with iv := iv, sent := none } :=
  ⟨h.keys, rfl, h.enc, h.num, h.pos, fun _ hl => by cases hl⟩

/-- The output of the specification, by the byte machine. -/
theorem output_eq (s : Stream) (sent data : List Byte) :
    s.output sent data = (brun s.block s.encrypting (brun s.block false ⟨s.iv, s.block s.iv, 0⟩ sent).1 data).2 := by
  unfold Stream.output
  cases s.encrypting with
  | true =>
    rw [if_pos rfl, ← brun_cfbDecrypt, ← brun_cfbEncrypt, brun_append, brun_enc_dec]
    simp
  | false =>
    rw [if_neg (by simp), ← brun_cfbDecrypt, brun_append]
    simp only
    rw [List.drop_append_of_le_length (by rw [brun_length]), List.drop_eq_nil_of_le (by rw [brun_length]), List.nil_append]

theorem StandsAs.inv {c : CipherCtx} {s : Stream} (h : StandsAs c s) (l) (hl : s.sent = some l) : c.Inv := by
  refine ⟨h.num, fun h0 => ?_⟩
  have hb := h.sent l hl
  have hf := brun_fresh s.block false ⟨s.iv, s.block s.iv, 0⟩ (fun _ => rfl) l
  rw [← hb] at hf
  rw [h.block]
  apply hf
  simp only [CipherCtx.bs, h0]
  rfl

/-- The register and the key stream block depend on the ciphertext only. -/
theorem brun_out_state (E) (s : BState) (m : List Byte) : (brun E true s m).1 = (brun E false s (brun E true s m).2).1 := by
  induction m generalizing s with
  | nil => rfl
  | cons b m ih =>
    have h1 : (bstep E false s (bstep E true s b).2).1 = (bstep E true s b).1 := by
      unfold bstep
      by_cases h : s.pos = 7 <;> simp [h]
    simp only [brun, h1, ih]

/-- An update. -/
theorem stands_update {c : CipherCtx} {s : Stream} (h : StandsAs c s) (data : List Byte) (hd : data ≠ []) :
    ∃ out c', dstu_cipher_do_cipher c (.buf data) = some ⟨data.length, out, c'⟩ ∧ StandsAs c' (s.update data).1 ∧
      ∀ o, (s.update data).2 = some o → o = .bytes out := by
  obtain ⟨out, c', e, sm, n, p⟩ := do_cipher_defined c h.num data hd
  refine ⟨out, c', e, ?_⟩
  obtain ⟨s1, s2, s3⟩ := sm
  rw [h.pos] at p
  cases hs : s.sent with
  | none =>
    have e1 : s.update data = ({ s with pos := (s.pos + data.length) % 8 }, none) := by
      simp only [Stream.update, hd, if_false, hs]
    rw [e1]
    refine ⟨{ keys := ?_, oiv := ?_, enc := ?_, num := n, pos := p, sent := ?_, tables := ?_, sbox := ?_ }, fun o ho => by cases ho⟩
    · rw [s1]; exact h.keys
    · rw [s2]; exact h.oiv
    · rw [s3]; exact h.enc
    · intro l hl
      simp only [hs] at hl
      cases hl
    · rw [s1]; exact h.tables
    · rw [s1]; exact h.sbox
  | some l =>
    obtain ⟨c'', e', _, _, hb⟩ := do_cipher_brun c (h.inv l hs) data hd
    rw [e'] at e
    simp only [Option.some.injEq, CipherRes.mk.injEq] at e
    obtain ⟨_, ho, rfl⟩ := e
    rw [h.block, h.enc, h.sent l hs] at ho hb
    rw [← output_eq] at ho
    have e1 : s.update data = ({ s with pos := (s.pos + data.length) % 8, sent := some (l ++ if s.encrypting then out else data) }, some (.bytes out)) := by
      simp only [Stream.update, hd, if_false, hs, ho]
    rw [e1]
    refine ⟨{ keys := ?_, oiv := ?_, enc := ?_, num := n, pos := p, sent := ?_, tables := ?_, sbox := ?_ }, fun o ho => by cases ho; rfl⟩
    · rw [s1]; exact h.keys
    · rw [s2]; exact h.oiv
    · rw [s3]; exact h.enc
    · intro l' hl
      simp only [Option.some.injEq] at hl
      subst hl
      have e2 : ∀ p q, Stream.block { s with pos := p, sent := q } = s.block := fun _ _ => rfl
      simp only [e2]
      rw [hb, brun_append]
      simp only
      cases hen : s.encrypting with
      | true =>
        simp only [if_true]
        rw [brun_out_state]
        rw [output_eq, hen] at ho
        rw [ho]
      | false => simp only [Bool.false_eq_true, if_false]
    · rw [s1]; exact h.tables
    · rw [s1]; exact h.sbox

/-- The contexts of the code stand for the streams. -/
def HeapStands (h : CipherHeap) (d : Streams) : Prop :=
  ∀ i, (h i = none ∧ d i = none) ∨ (h i = some none ∧ d i = some none) ∨ ∃ c s, h i = some (some c) ∧ d i = some (some s) ∧ StandsAs c s

theorem HeapStands.put_none {h : CipherHeap} {d : Streams} (hs : HeapStands h d) (i) : HeapStands (h.put i none) (d.put i none) := by
  intro j
  by_cases e : j = i
  · right; left
    simp [CipherHeap.put, Streams.put, e]
  · simp only [CipherHeap.put, Streams.put, e, if_false]
    exact hs j

theorem HeapStands.put_some {h : CipherHeap} {d : Streams} (hs : HeapStands h d) (i) {c s} (hc : StandsAs c s) :
    HeapStands (h.put i (some c)) (d.put i (some s)) := by
  intro j
  by_cases e : j = i
  · right; right
    exact ⟨c, s, by simp [CipherHeap.put, e], by simp [Streams.put, e], hc⟩
  · simp only [CipherHeap.put, Streams.put, e, if_false]
    exact hs j

theorem HeapStands.get {h : CipherHeap} {d : Streams} (hs : HeapStands h d) {i s} (hd : d i = some (some s)) :
    ∃ c, h i = some (some c) ∧ StandsAs c s := by
  rcases hs i with ⟨_, e⟩ | ⟨_, e⟩ | ⟨c, s', e1, e2, e3⟩
  · rw [hd] at e; cases e
  · rw [hd] at e; cases e
  · rw [hd] at e2; cases e2; exact ⟨c, e1, e3⟩

theorem HeapStands.exists {h : CipherHeap} {d : Streams} (hs : HeapStands h d) {i} (hd : d i ≠ none) : ∃ o, h i = some o := by
  rcases hs i with ⟨_, e⟩ | ⟨e, _⟩ | ⟨c, s', e1, e2, e3⟩
  · exact absurd e hd
  · exact ⟨_, e⟩
  · exact ⟨_, e1⟩

theorem HeapStands.put_same {h : CipherHeap} {d : Streams} (hs : HeapStands h d) {i c s} (e : h i = some (some c)) (e' : d i = some (some s)) :
    HeapStands (h.put i (some c)) d ∧ HeapStands (h.put i (some c)) (d.put i (some s)) := by
  have : h.put i (some c) = h := by
    funext j
    by_cases hj : j = i
    · simp only [CipherHeap.put, hj, if_true, e]
    · simp only [CipherHeap.put, hj, if_false]
  have h2 : d.put i (some s) = d := by
    funext j
    by_cases hj : j = i
    · simp only [Streams.put, hj, if_true, e']
    · simp only [Streams.put, hj, if_false]
  rw [this, h2]
  exact ⟨hs, hs⟩

theorem heap_step {h : CipherHeap} {d : Streams} (hs : HeapStands h d) (op : CipherOp) (hl : d.Legal op) :
    ∃ h' o, h.step op = some (h', o) ∧ HeapStands h' (d.step default_sbox op).1 ∧ ∀ o', (d.step default_sbox op).2 = some o' → o = o' := by
  cases op with
  | new i => exact ⟨_, _, rfl, hs.put_none i, fun o' e => by cases e; rfl⟩
  | init i enc key iv rnd =>
    rcases hs i with ⟨_, e⟩ | ⟨e1, e2⟩ | ⟨c, s, e1, e2, e3⟩
    · exact absurd e hl
    · refine ⟨h.put i (some (dstu_cipher_init { freshCipher false with encrypting := enc.getD (freshCipher false).encrypting } rnd key iv)), .ok, ?_, ?_, ?_⟩
      · simp only [CipherHeap.step, e1]
        rfl
      · simp only [Streams.step, e2, Option.getD_none]
        exact hs.put_some i (stands_init core_fresh enc rnd key iv)
      · simp only [Streams.step, e2]
        intro o' e; cases e; rfl
    · refine ⟨h.put i (some (dstu_cipher_init { c with encrypting := enc.getD c.encrypting } rnd key iv)), .ok, ?_, ?_, ?_⟩
      · simp only [CipherHeap.step, e1]
        rfl
      · simp only [Streams.step, e2, Option.getD_some]
        exact hs.put_some i (stands_init e3.toStandsCore enc rnd key iv)
      · simp only [Streams.step, e2]
        intro o' e; cases e; rfl
  | update i data =>
    obtain ⟨s, e2⟩ := hl
    obtain ⟨c, e1, e3⟩ := hs.get e2
    by_cases hd : data = []
    · subst hd
      refine ⟨h.put i (some c), .refused, ?_, ?_, ?_⟩
      · simp only [CipherHeap.step, e1, Option.bind_eq_bind, Option.bind_some]
        rfl
      · simp only [Streams.step, e2, Stream.update, if_true]
        exact (hs.put_same e1 e2).2
      · simp only [Streams.step, e2, Stream.update, if_true]
        intro o' e; cases e; rfl
    · obtain ⟨out, c', e, h1, h2⟩ := stands_update e3 data hd
      refine ⟨h.put i (some c'), .bytes out, ?_, ?_, ?_⟩
      · simp only [CipherHeap.step, e1, Option.bind_eq_bind, Option.bind_some, e]
        rw [if_neg (by omega)]
        rfl
      · simp only [Streams.step, e2]
        exact hs.put_some i h1
      · simp only [Streams.step, e2]
        intro o' ho; exact (h2 o' ho).symm
  | final i =>
    obtain ⟨s, e2⟩ := hl
    obtain ⟨c, e1, e3⟩ := hs.get e2
    refine ⟨h.put i (some c), .bytes [], ?_, (hs.put_same e1 e2).1, fun o' e => by cases e; rfl⟩
    simp only [CipherHeap.step, e1, Option.bind_eq_bind, Option.bind_some]
    rfl
  | sbox i p =>
    obtain ⟨s, e2⟩ := hl
    obtain ⟨c, e1, e3⟩ := hs.get e2
    refine ⟨h.put i (some { c with g := gost_init c.g (some (unpack_sbox p)), iv := c.oiv, buf := gostcrypt (gost_init c.g (some (unpack_sbox p))) c.oiv }), .ok, ?_, ?_, ?_⟩
    · simp only [CipherHeap.step, e1, Option.bind_eq_bind, Option.bind_some, setSbox_eq]
      rfl
    · simp only [Streams.step, e2]
      exact hs.put_some i (stands_sbox e3.toStandsCore p)
    · simp only [Streams.step, e2]
      intro o' e; cases e; rfl
  | load i iv p =>
    obtain ⟨s, e2⟩ := hl
    obtain ⟨c, e1, e3⟩ := hs.get e2
    refine ⟨h.put i (some { c with g := gost_init c.g (some (unpack_sbox p)), oiv := iv, iv := iv, buf := gostcrypt (gost_init c.g (some (unpack_sbox p))) iv }), .ok, ?_, ?_, ?_⟩
    · simp only [CipherHeap.step, e1, Option.bind_eq_bind, Option.bind_some, import_eq]
      rfl
    · simp only [Streams.step, e2]
      exact hs.put_some i (stands_sbox (core_iv e3.toStandsCore iv) p)
    · simp only [Streams.step, e2]
      intro o' e; cases e; rfl
  | save i =>
    obtain ⟨s, e2⟩ := hl
    obtain ⟨c, e1, e3⟩ := hs.get e2
    refine ⟨h, .bytes (dstu_cipher_set_asn1_parameters c), ?_, ?_, ?_⟩
    · simp only [CipherHeap.step, e1, Option.bind_eq_bind, Option.bind_some]
      rfl
    · simp only [Streams.step, e2]; exact hs
    · simp only [Streams.step, e2, export_eq, e3.oiv, e3.sbox, pack_unpack]
      intro o' e; cases e; rfl
  | copy i j =>
    obtain ⟨hi, hij, s, e2⟩ := hl
    obtain ⟨c, e1, e3⟩ := hs.get e2
    obtain ⟨o, eo⟩ := hs.exists hi
    refine ⟨h.put i (some c), .ok, ?_, ?_, ?_⟩
    · simp only [CipherHeap.step, e1, eo, Option.bind_eq_bind, Option.bind_some, if_neg hij]
      rfl
    · simp only [Streams.step, e2]
      exact hs.put_some i e3
    · simp only [Streams.step, e2]
      intro o' e; cases e; rfl
  | reset i =>
    obtain ⟨o, eo⟩ := hs.exists hl
    refine ⟨h.put i none, .ok, ?_, hs.put_none i, fun o' e => by cases e; rfl⟩
    simp only [CipherHeap.step, eo]
    rfl

theorem heap_run {h : CipherHeap} {d : Streams} (hs : HeapStands h d) (ops : List CipherOp) (hl : d.LegalRun default_sbox ops) :
    ∃ h' seen, h.run ops = some (h', seen) ∧ HeapStands h' (d.run default_sbox ops) ∧
      List.Forall₂ (fun o want => ∀ w, want = some w → o = w) seen (d.shown default_sbox ops) := by
  induction ops generalizing h d with
  | nil => exact ⟨h, [], rfl, hs, .nil⟩
  | cons op ops ih =>
    obtain ⟨h1, o, e1, s1, w1⟩ := heap_step hs op hl.1
    obtain ⟨h2, seen, e2, s2, w2⟩ := ih s1 hl.2
    refine ⟨h2, o :: seen, ?_, s2, .cons w1 w2⟩
    simp only [CipherHeap.run, e1, e2, Option.bind_eq_bind, Option.bind_some]
    rfl

/-- C95: any history of operations on any number of cipher contexts, each used as the interface allows, is defined, and everything
the specification says about what is seen is what is seen. -/
theorem C95_contexts (ops : List CipherOp) (hl : Streams.LegalRun default_sbox (fun _ => none) ops) :
    ∃ h seen, CipherHeap.empty.run ops = some (h, seen) ∧
      List.Forall₂ (fun o want => ∀ w, want = some w → o = w) seen (Streams.shown default_sbox (fun _ => none) ops) := by
  obtain ⟨h, seen, e, _, w⟩ := heap_run (h := CipherHeap.empty) (d := fun _ => none) (fun _ => Or.inl ⟨rfl, rfl⟩) ops hl
  exact ⟨h, seen, e, w⟩

theorem step_other (dflt) (d : Streams) (op : CipherOp) (i : Nat) (h : op.target ≠ i) : (d.step dflt op).1 i = d i := by
  have hp : ∀ j v, j ≠ i → d.put j v i = d i := fun j v hj => by simp only [Streams.put, Ne.symm hj, if_false]
  cases op with
  | new j => exact hp j _ h
  | reset j => exact hp j _ h
  | final j => rfl
  | init j enc key iv rnd =>
    simp only [Streams.step]
    split
    · rfl
    · exact hp j _ h
  | update j data =>
    simp only [Streams.step]
    split
    · exact hp j _ h
    · rfl
  | sbox j p =>
    simp only [Streams.step]
    split
    · exact hp j _ h
    · rfl
  | load j iv p =>
    simp only [Streams.step]
    split
    · exact hp j _ h
    · rfl
  | save j =>
    simp only [Streams.step]
    split <;> rfl
  | copy j k =>
    simp only [Streams.step]
    split
    · exact hp j _ h
    · rfl

theorem brun_state (E) (enc : Bool) (s : BState) (m : List Byte) :
    (brun E enc s m).1 = (brun E false s (if enc then (brun E enc s m).2 else m)).1 := by
  cases enc with
  | true => rw [if_pos rfl]; exact brun_out_state E s m
  | false => rfl

theorem collected_eq (i : Nat) (ops : List CipherOp) (ho : ∀ op ∈ ops, op.target ≠ i ∨ (∃ data, op = .update i data) ∨ op = .final i ∨ op = .save i)
    (d : Streams) (s : Stream) (c : List Byte) (hd : d i = some (some s)) (hc : s.sent = some c) (seen : List Seen)
    (hs : List.Forall₂ (fun o want => ∀ w, want = some w → o = w) seen (d.shown default_sbox ops)) :
    collected i ops seen = (brun s.block s.encrypting (brun s.block false ⟨s.iv, s.block s.iv, 0⟩ c).1 (given i ops)).2 := by
  induction ops generalizing d s c seen with
  | nil =>
    cases hs
    rfl
  | cons op ops ih =>
    simp only [Streams.shown] at hs
    cases hs with
    | @cons o _ seen _ h1 h2 =>
      have ho' : ∀ op ∈ ops, op.target ≠ i ∨ (∃ data, op = .update i data) ∨ op = .final i ∨ op = .save i :=
        fun x hx => ho x (List.mem_cons_of_mem _ hx)
      by_cases ht : op.target = i
      · rcases ho op (by simp) with h | ⟨data, rfl⟩ | rfl | rfl
        · exact absurd ht h
        · have hput : ∀ v, d.put i v i = some v := fun v => by simp [Streams.put]
          simp only [Streams.step, hd] at h1 h2
          by_cases hdata : data = []
          · subst hdata
            have e1 : s.update [] = (s, some .refused) := by simp [Stream.update]
            rw [e1] at h1 h2
            have := h1 _ rfl
            subst this
            simp only [collected, given, if_true, List.nil_append]
            exact ih ho' _ s c (hput _) hc seen h2
          · have e1 : s.update data = ({ s with pos := (s.pos + data.length) % 8, sent := some (c ++ if s.encrypting then s.output c data else data) }, some (.bytes (s.output c data))) := by
              simp only [Stream.update, hdata, if_false, hc]
            rw [e1] at h1 h2
            have := h1 _ rfl
            subst this
            simp only [collected, given, if_true]
            rw [ih ho' _ _ _ (hput _) rfl seen h2, brun_append]
            have e2 : ∀ p q, Stream.block { s with pos := p, sent := q } = s.block := fun _ _ => rfl
            simp only [e2]
            rw [output_eq, brun_append, ← brun_state]
        · simp only [collected, given]
          exact ih ho' _ s c hd hc seen h2
        · simp only [collected, given]
          simp only [Streams.step, hd] at h2
          exact ih ho' _ s c hd hc seen h2
      · have hst := step_other default_sbox d op i ht
        have hrec := ih ho' _ s c (hst.trans hd) hc seen h2
        have hg : given i (op :: ops) = given i ops := by
          cases op <;> simp_all [given, CipherOp.target]
        have hcol : collected i (op :: ops) (o :: seen) = collected i ops seen := by
          cases op <;> first | rfl | (cases o <;> simp_all [collected, CipherOp.target])
        rw [hg, hcol, hrec]

theorem heap_run_append (h h1 h2 : CipherHeap) (a b : List CipherOp) (s t : List Seen) (e1 : h.run a = some (h1, s)) (e2 : h1.run b = some (h2, t)) :
    h.run (a ++ b) = some (h2, s ++ t) ∧ s.length = a.length := by
  induction a generalizing h s with
  | nil =>
    cases e1
    exact ⟨e2, rfl⟩
  | cons op a ih =>
    simp only [CipherHeap.run, Option.bind_eq_bind] at e1
    obtain ⟨⟨h3, o⟩, e3, e1⟩ := Option.bind_eq_some_iff.1 e1
    obtain ⟨⟨h4, s'⟩, e4, e1⟩ := Option.bind_eq_some_iff.1 e1
    simp only [Option.pure_def, Option.some.injEq, Prod.mk.injEq] at e1
    obtain ⟨rfl, rfl⟩ := e1
    obtain ⟨i1, i2⟩ := ih h3 s' e4
    refine ⟨?_, by simp [i2]⟩
    simp only [List.cons_append, CipherHeap.run, e3, i1, Option.bind_eq_bind, Option.bind_some]
    rfl

theorem legal_append (d : Streams) (a b : List CipherOp) (h : d.LegalRun default_sbox (a ++ b)) :
    d.LegalRun default_sbox a ∧ (d.run default_sbox a).LegalRun default_sbox b := by
  induction a generalizing d with
  | nil => exact ⟨trivial, h⟩
  | cons op a ih =>
    obtain ⟨h1, h2⟩ := ih _ h.2
    exact ⟨⟨h.1, h1⟩, h2⟩

/-- C95: after any history, a context is initialised with a direction, a key and an IV; then it is updated with data cut in any way, while anything is done with
the other contexts (they may be copies of it, or be copied onto).  The outputs together are the CFB encryption or decryption of the data under the default S-box. -/
theorem C95_interleaved (before ops : List CipherOp) (i : Nat) (enc : Bool) (key : Bytes 32) (iv : Bytes 8) (rnd : Vector W32 8)
    (hl : Streams.LegalRun default_sbox (fun _ => none) (before ++ .init i (some enc) (some key) (some iv) rnd :: ops))
    (ho : ∀ op ∈ ops, op.target ≠ i ∨ (∃ data, op = .update i data) ∨ op = .final i ∨ op = .save i) :
    ∃ h seen₁ seen₂, CipherHeap.empty.run (before ++ .init i (some enc) (some key) (some iv) rnd :: ops) = some (h, seen₁ ++ .ok :: seen₂) ∧
      seen₁.length = before.length ∧
      collected i ops seen₂ = if enc then cfbEncrypt (encrypt (tableOf default_sbox) key) iv (given i ops)
        else cfbDecrypt (encrypt (tableOf default_sbox) key) iv (given i ops) := by
  obtain ⟨l1, l2, l3⟩ := legal_append _ _ _ hl
  obtain ⟨h1, seen1, e1, s1, _⟩ := heap_run (h := CipherHeap.empty) (d := fun _ => none) (fun _ => Or.inl ⟨rfl, rfl⟩) before l1
  obtain ⟨h2, o, e2, s2, w2⟩ := heap_step s1 _ l2
  obtain ⟨h3, seen2, e3, _, w3⟩ := heap_run s2 ops l3
  generalize Streams.run default_sbox (fun _ => none) before = d at *
  obtain ⟨so, hso⟩ : ∃ so, d i = some so := by
    cases hd : d i with
    | none => exact absurd hd l2
    | some so => exact ⟨so, rfl⟩
  simp only [Streams.step, hso] at w2 w3
  have := w2 _ rfl
  subst this
  have e4 : h1.run (.init i (some enc) (some key) (some iv) rnd :: ops) = some (h3, .ok :: seen2) := by
    simp only [CipherHeap.run, e2, e3, Option.bind_eq_bind, Option.bind_some]
    rfl
  obtain ⟨e5, e6⟩ := heap_run_append _ _ _ _ _ _ _ e1 e4
  refine ⟨h3, seen1, seen2, e5, e6, ?_⟩
  rw [collected_eq i ops ho _ _ [] (by simp [Streams.put]; rfl) rfl seen2 w3]
  cases enc with
  | true => rw [if_pos rfl, ← brun_cfbEncrypt]; rfl
  | false => rw [if_neg (by simp), ← brun_cfbDecrypt]; rfl

/-- C95: an operation on one context does not change another one. -/
theorem C95_independent (h h' : CipherHeap) (op : CipherOp) (o : Seen) (i : Nat) (hi : op.target ≠ i) (e : h.step op = some (h', o)) : h' i = h i := by
  have hp : ∀ j v, j ≠ i → h.put j v i = h i := fun j v hj => by simp only [CipherHeap.put, Ne.symm hj, if_false]
  cases op <;> simp only [CipherHeap.step, Option.bind_eq_bind, Option.bind_eq_some_iff, Option.pure_def, Option.some.injEq, Prod.mk.injEq, Prod.exists] at e
  case new j => rw [← e.1]; exact hp j _ hi
  case init j enc key iv rnd =>
    obtain ⟨c, _, rfl, _⟩ := e
    exact hp j _ hi
  case update j data =>
    obtain ⟨c, _, c', _, r, _, e⟩ := e
    split at e <;> (simp only [Option.some.injEq, Prod.mk.injEq] at e; rw [← e.1]; exact hp j _ hi)
  case final j =>
    obtain ⟨c, _, c', _, r, _, e⟩ := e
    split at e <;> (simp only [Option.some.injEq, Prod.mk.injEq] at e; rw [← e.1]; exact hp j _ hi)
  case sbox j p =>
    obtain ⟨c, _, c', _, r, x, _, rfl, _⟩ := e
    exact hp j _ hi
  case load j iv p =>
    obtain ⟨c, _, c', _, r, x, _, rfl, _⟩ := e
    exact hp j _ hi
  case save j =>
    obtain ⟨c, _, c', _, rfl, _⟩ := e
    rfl
  case copy j k =>
    obtain ⟨c, _, c', _, c'', _, e⟩ := e
    split at e
    · simp at e
    · simp only [Option.bind_some, Option.some.injEq, Prod.mk.injEq] at e
      rw [← e.1]; exact hp j _ hi
  case reset j =>
    obtain ⟨c, _, rfl, _⟩ := e
    exact hp j _ hi

/-- Two contexts used in turn, one of them with its own S-box, a copy in the middle of a message, and a context given a new key without IV. -/
def demoSessions : List CipherOp :=
  [.new 0, .new 1, .init 0 (some true) (some demoKey) (some demoIv) demoMask, .init 1 (some true) (some demoKey) (some demoIv) demoMask,
   .sbox 1 demoSbox, .update 0 [0x31], .update 1 [0x31, 0x32], .new 2, .copy 2 0, .update 0 [0x32, 0x33, 0x34], .update 2 [0x32, 0x33],
   .update 0 [], .update 0 [0x35, 0x36], .save 1, .init 2 none (some demoKey) none demoMask, .update 2 [0x34, 0x35, 0x36], .final 0, .reset 1]

example : Streams.LegalRun default_sbox (fun _ => none) demoSessions := by
  simp [demoSessions, Streams.LegalRun, Streams.Legal, Streams.step, Streams.put]

example : (CipherHeap.empty.run demoSessions).map (fun r => (collected 0 demoSessions r.2, collected 2 demoSessions r.2)) =
    some ([0x23, 0xa8, 0x38, 0x29, 0x32, 0xae], [0xa8, 0x38, 0x29, 0x32, 0xae]) := by decide +kernel

/-- The history `demoSessions` meets the hypotheses of `C95_contexts`, and of `C95_interleaved` for the first context. -/
example : ∃ h seen₁ seen₂, CipherHeap.empty.run demoSessions = some (h, seen₁ ++ .ok :: seen₂) ∧ seen₁.length = 2 ∧
    collected 0 (demoSessions.drop 3) seen₂ = cfbEncrypt (encrypt (tableOf default_sbox) demoKey) demoIv (given 0 (demoSessions.drop 3)) :=
  C95_interleaved (demoSessions.take 2) (demoSessions.drop 3) 0 true demoKey demoIv demoMask
    (by simp [demoSessions, Streams.LegalRun, Streams.Legal, Streams.step, Streams.put])
    (by simp [demoSessions, CipherOp.target])

example := C95_contexts demoSessions (by simp [demoSessions, Streams.LegalRun, Streams.Legal, Streams.step, Streams.put])

/-- Creating a context leaves another one alone. -/
example (h : CipherHeap) (i : Nat) (hi : i ≠ 3) : ∀ h' o, h.step (.new 3) = some (h', o) → h' i = h i :=
  fun h' o e => C95_independent h h' (.new 3) o i (by simpa [CipherOp.target] using fun e => hi e.symm) e

end Dstu.Props
