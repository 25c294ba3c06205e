import Verif.Spec.Err

/-! Lemmas about the error strings. -/

namespace Dstu

open Spec

theorem ERR_PACK_eq (l f r : Nat) : ERR_PACK l f r = (l % 256) * 2 ^ 24 + (f % 4096) * 2 ^ 12 + r % 4096 := by
  have hr : r % 4096 < 2 ^ 12 := Nat.mod_lt _ (by decide)
  have hf : f % 4096 < 4096 := Nat.mod_lt _ (by decide)
  unfold ERR_PACK
  rw [Nat.or_assoc, ← Nat.shiftLeft_add_eq_or_of_lt hr (f % 4096), ← Nat.shiftLeft_add_eq_or_of_lt (i := 24) (by rw [Nat.shiftLeft_eq]; omega),
    Nat.shiftLeft_eq, Nat.shiftLeft_eq]
  omega

theorem GET_LIB_PACK (l f r : Nat) : ERR_GET_LIB (ERR_PACK l f r) = l % 256 := by
  have hr : r % 4096 < 4096 := Nat.mod_lt _ (by decide)
  have hf : f % 4096 < 4096 := Nat.mod_lt _ (by decide)
  rw [ERR_GET_LIB, ERR_PACK_eq, Nat.shiftRight_eq_div_pow]
  omega

theorem PACK_inj {l f r f' r' : Nat} (hf : f < 4096) (hr : r < 4096) (hf' : f' < 4096) (hr' : r' < 4096) :
    ERR_PACK l f r = ERR_PACK l f' r' ↔ f = f' ∧ r = r' := by
  rw [ERR_PACK_eq, ERR_PACK_eq]
  omega

theorem PACK_ne_zero {l f r : Nat} (hl : 0 < l) (hl' : l < 256) : ERR_PACK l f r ≠ 0 := by
  rw [ERR_PACK_eq]; omega

theorem PACK_or (l f r : Nat) : ERR_PACK 0 f r ||| ERR_PACK l 0 0 = ERR_PACK l f r := by
  simp only [ERR_PACK, Nat.zero_mod, Nat.zero_shiftLeft, Nat.zero_or, Nat.or_zero]
  rw [Nat.or_comm, Nat.or_assoc]

theorem PACK_or_again (l f r : Nat) : ERR_PACK l f r ||| ERR_PACK l 0 0 = ERR_PACK l f r := by
  rw [← PACK_or l f r, Nat.or_assoc, Nat.or_self]

/-- The strings of the engine, with their function and reason codes. -/
def ownFuncts : List (Nat × Nat × String) := [
  (100, 0, "BIND_DSTU"), (102, 0, "DSTU_ASN1_PARAM_COPY"), (101, 0, "DSTU_ASN1_PARAM_DECODE"),
  (103, 0, "DSTU_ASN1_PARAM_ENCODE"), (104, 0, "DSTU_ASN1_PARAM_PRINT"), (105, 0, "DSTU_ASN1_PRIV_DECODE"),
  (106, 0, "DSTU_ASN1_PRIV_ENCODE"), (107, 0, "DSTU_ASN1_PUB_DECODE"), (108, 0, "DSTU_ASN1_PUB_ENCODE"),
  (109, 0, "DSTU_DO_SIGN"), (110, 0, "DSTU_DO_VERIFY"), (116, 0, "DSTU_PKEY_CTRL"), (111, 0, "DSTU_PKEY_INIT_BE"),
  (112, 0, "DSTU_PKEY_INIT_LE"), (113, 0, "DSTU_PKEY_KEYGEN"), (114, 0, "DSTU_PKEY_SIGN"), (115, 0, "DSTU_PKEY_VERIFY")]

def ownReasons : List (Nat × Nat × String) := [
  (0, 100, "ameth init failed"), (0, 103, "asn1 parameter encode failed"), (0, 107, "incorrect field type"),
  (0, 102, "invalid asn1 parameters"), (0, 108, "invalid digest type"), (0, 104, "not dstu key"),
  (0, 101, "pmeth init failed"), (0, 105, "point compress failed"), (0, 106, "point uncompress failed")]

def ownAll : List (Nat × Nat × String) := ownFuncts ++ ownReasons ++ [(0, 0, "dstu")]

/-- The table of library `l`. -/
def mkTable (l : Nat) (t : List (Nat × Nat × String)) : List ERR_STRING_DATA := t.map fun e => ⟨ERR_PACK l e.1 e.2.1, e.2.2⟩

theorem functs_mk : DSTU_str_functs = mkTable 0 ownFuncts := by decide +kernel
theorem reasons_mk : DSTU_str_reasons = mkTable 0 ownReasons := by decide +kernel

theorem patch_mk0 (l : Nat) (t : List (Nat × Nat × String)) (h : ∀ e ∈ t, ERR_PACK 0 e.1 e.2.1 ≠ 0) :
    err_patch l (mkTable 0 t) = mkTable l t := by
  induction t with
  | nil => rfl
  | cons e t ih =>
    have h0 := h e (by simp)
    show (if ERR_PACK 0 e.1 e.2.1 = 0 then _ else _) = _
    rw [if_neg h0]
    show ⟨ERR_PACK 0 e.1 e.2.1 ||| ERR_PACK l 0 0, e.2.2⟩ :: err_patch l (mkTable 0 t) = _
    rw [PACK_or, ih fun x hx => h x (by simp [hx])]
    rfl

theorem patch_mk {l : Nat} (hl : 0 < l) (hl' : l < 256) (t : List (Nat × Nat × String)) :
    err_patch l (mkTable l t) = mkTable l t := by
  induction t with
  | nil => rfl
  | cons e t ih =>
    show (if ERR_PACK l e.1 e.2.1 = 0 then _ else _) = _
    rw [if_neg (PACK_ne_zero hl hl')]
    show ⟨ERR_PACK l e.1 e.2.1 ||| ERR_PACK l 0 0, e.2.2⟩ :: err_patch l (mkTable l t) = _
    rw [PACK_or_again, ih]
    rfl

theorem patch_zero (t : List ERR_STRING_DATA) : err_patch 0 t = t := by
  induction t with
  | nil => rfl
  | cons e t ih =>
    unfold err_patch
    split
    · rfl
    · rw [ih]
      show (⟨e.error ||| ERR_PACK 0 0 0, e.string⟩ : ERR_STRING_DATA) :: t = _
      have : ERR_PACK 0 0 0 = 0 := by decide
      rw [this, Nat.or_zero]

theorem live_mk {l : Nat} (hl : 0 < l) (hl' : l < 256) (t : List (Nat × Nat × String)) : liveEntries (mkTable l t) = mkTable l t := by
  unfold liveEntries
  induction t with
  | nil => rfl
  | cons e t ih =>
    show List.takeWhile _ ((⟨ERR_PACK l e.1 e.2.1, e.2.2⟩ : ERR_STRING_DATA) :: mkTable l t) = _
    rw [List.takeWhile_cons_of_pos (by simpa using PACK_ne_zero hl hl'), ih]
    rfl

/-- Inserting (`v e = some`) or deleting (`v e = none`) entries one after another. -/
def putAll (v : ERR_STRING_DATA → Option String) (t : List ERR_STRING_DATA) (g : ErrRegistry) : ErrRegistry :=
  t.foldl (fun g e => g.put e.error (v e)) g

theorem putAll_append (v) (t t' : List ERR_STRING_DATA) (g : ErrRegistry) : putAll v (t ++ t') g = putAll v t' (putAll v t g) := by
  simp [putAll]

theorem putAll_rest (v) (t : List ERR_STRING_DATA) (g : ErrRegistry) :
    (putAll v t g).nextLib = g.nextLib ∧ (putAll v t g).others = g.others ∧ (putAll v t g).queue = g.queue := by
  induction t generalizing g with
  | nil => exact ⟨rfl, rfl, rfl⟩
  | cons e t ih => exact ih (g.put e.error (v e))

theorem putAll_strings (v) (t : List ERR_STRING_DATA) (g : ErrRegistry) (c : Nat) :
    (putAll v t g).strings c = match t.reverse.find? (fun e => e.error == c) with | some e => v e | none => g.strings c := by
  induction t generalizing g with
  | nil => rfl
  | cons e t ih =>
    show (putAll v t (g.put e.error (v e))).strings c = _
    rw [ih, List.reverse_cons, List.find?_append]
    cases h : t.reverse.find? (fun e => e.error == c) with
    | some x => rfl
    | none =>
      by_cases hc : e.error = c
      · subst hc; simp [ErrRegistry.put]
      · have hc' : ¬ c = e.error := fun h => hc h.symm
        simp [ErrRegistry.put, hc, hc']

theorem find_mk {l f r : Nat} (hf : f < 4096) (hr : r < 4096) (t : List (Nat × Nat × String))
    (h : ∀ e ∈ t, e.1 < 4096 ∧ e.2.1 < 4096) :
    (mkTable l t).find? (fun e => e.error == ERR_PACK l f r) =
      (t.find? fun e => e.1 == f && e.2.1 == r).map fun e => ⟨ERR_PACK l e.1 e.2.1, e.2.2⟩ := by
  induction t with
  | nil => rfl
  | cons e t ih =>
    have he := h e (by simp)
    have ih := ih fun x hx => h x (by simp [hx])
    show List.find? _ ((⟨ERR_PACK l e.1 e.2.1, e.2.2⟩ : ERR_STRING_DATA) :: mkTable l t) = _
    by_cases hm : e.1 = f ∧ e.2.1 = r
    · obtain ⟨h1, h2⟩ := hm
      rw [List.find?_cons_of_pos (by simp [h1, h2]), List.find?_cons_of_pos (by simp [h1, h2])]
      rfl
    · rw [List.find?_cons_of_neg, List.find?_cons_of_neg (by simpa using hm), ih]
      simpa [PACK_inj he.1 he.2 hf hr] using hm

theorem ownAll_range : ∀ e ∈ ownAll.reverse, e.1 < 4096 ∧ e.2.1 < 4096 := by decide +kernel

theorem ownAll_find (f r : Nat) : (ownAll.reverse.find? fun e => e.1 == f && e.2.1 == r).map (fun e => e.2.2) = ownString f r := by
  have hs : ∀ e ∈ ownAll.reverse, (e.1 = 0 ∨ e.2.1 = 0) ∧ e.1 < 117 ∧ e.2.1 < 117 := by decide +kernel
  by_cases hr : r = 0
  · subst hr
    by_cases hf : f < 117
    · have : ∀ f : Fin 117, (ownAll.reverse.find? fun e => e.1 == f.val && e.2.1 == 0).map (fun e => e.2.2) = ownString f.val 0 := by
        decide +kernel
      exact this ⟨f, hf⟩
    · have h1 : (ownAll.reverse.find? fun e => e.1 == f && e.2.1 == 0) = none := by
        rw [List.find?_eq_none]
        intro e he
        have := hs e he
        simp only [Bool.and_eq_true, beq_iff_eq, not_and]
        omega
      have h2 : ownString f 0 = none := by
        rw [ownString, if_pos rfl, if_neg (by omega)]
        unfold functionName
        split <;> first | rfl | omega
      rw [h1, h2]; rfl
  · by_cases hf : f = 0
    · subst hf
      by_cases hr' : r < 117
      · have : ∀ r : Fin 117, (ownAll.reverse.find? fun e => e.1 == 0 && e.2.1 == r.val).map (fun e => e.2.2) = ownString 0 r.val := by
          decide +kernel
        exact this ⟨r, hr'⟩
      · have h1 : (ownAll.reverse.find? fun e => e.1 == 0 && e.2.1 == r) = none := by
          rw [List.find?_eq_none]
          intro e he
          have := hs e he
          simp only [Bool.and_eq_true, beq_iff_eq, not_and]
          omega
        have h2 : ownString 0 r = none := by
          rw [ownString, if_neg hr, if_pos rfl]
          unfold reasonText
          split <;> first | rfl | omega
        rw [h1, h2]; rfl
    · have h1 : (ownAll.reverse.find? fun e => e.1 == f && e.2.1 == r) = none := by
        rw [List.find?_eq_none]
        intro e he
        have := hs e he
        simp only [Bool.and_eq_true, beq_iff_eq, not_and]
        omega
      rw [h1, ownString, if_neg hr, if_neg hf]; rfl

theorem mk_reverse (l : Nat) (t : List (Nat × Nat × String)) : (mkTable l t).reverse = mkTable l t.reverse := by
  simp [mkTable]

theorem mk_append (l : Nat) (t t' : List (Nat × Nat × String)) : mkTable l (t ++ t') = mkTable l t ++ mkTable l t' := by
  simp [mkTable]

/-- Inserting all strings. -/
theorem loaded_strings {l f r : Nat} (hf : f < 4096) (hr : r < 4096) (g : ErrRegistry) (hg : g.strings (ERR_PACK l f r) = none) :
    (putAll (fun e => some e.string) (mkTable l ownAll) g).strings (ERR_PACK l f r) = ownString f r := by
  rw [putAll_strings, mk_reverse, find_mk hf hr _ ownAll_range, ← ownAll_find]
  cases ownAll.reverse.find? fun e => e.1 == f && e.2.1 == r with
  | none => exact hg
  | some e => rfl

/-- Deleting all strings. -/
theorem unloaded_strings {l f r : Nat} (hf : f < 4096) (hr : r < 4096) (g : ErrRegistry) (hg : g.strings (ERR_PACK l f r) = ownString f r) :
    (putAll (fun _ => none) (mkTable l ownAll) g).strings (ERR_PACK l f r) = none := by
  rw [putAll_strings, mk_reverse, find_mk hf hr _ ownAll_range]
  have := ownAll_find f r
  cases h : ownAll.reverse.find? fun e => e.1 == f && e.2.1 == r with
  | none => rw [h] at this; rw [Option.map_none] at this; rw [Option.map_none]; exact hg.trans this.symm
  | some e => rfl

/-- Nothing else changes. -/
theorem putAll_other {l c : Nat} (hl : l < 256) (hc : ERR_GET_LIB c ≠ l) (v) (t : List (Nat × Nat × String)) (g : ErrRegistry) :
    (putAll v (mkTable l t) g).strings c = g.strings c := by
  rw [putAll_strings]
  have : (mkTable l t).reverse.find? (fun e => e.error == c) = none := by
    rw [List.find?_eq_none]
    intro e he
    obtain ⟨x, _, rfl⟩ := List.mem_map.1 (List.mem_reverse.1 he)
    simp only [beq_iff_eq]
    rintro rfl
    rw [GET_LIB_PACK, Nat.mod_eq_of_lt hl] at hc
    exact hc rfl
  rw [this]

/-- The tables hold the codes of library `l`, or have never been patched. -/
structure ErrState.Tables (l : Nat) (s : ErrState) : Prop where
  functs : s.functs = mkTable 0 ownFuncts ∨ s.functs = mkTable l ownFuncts
  reasons : s.reasons = mkTable 0 ownReasons ∨ s.reasons = mkTable l ownReasons
  libName : s.libName = mkTable 0 [(0, 0, "dstu")] ∨ s.libName = mkTable l [(0, 0, "dstu")]

/-- The tables after a load. -/
structure ErrState.Patched (l : Nat) (s : ErrState) : Prop where
  functs : s.functs = mkTable l ownFuncts
  reasons : s.reasons = mkTable l ownReasons
  libName : s.libName = mkTable l [(0, 0, "dstu")]

theorem patch_either {l : Nat} (hl : 0 < l) (hl' : l < 256) {t : List ERR_STRING_DATA} {o : List (Nat × Nat × String)}
    (h : t = mkTable 0 o ∨ t = mkTable l o) (hz : ∀ e ∈ o, ERR_PACK 0 e.1 e.2.1 ≠ 0) : err_patch l t = mkTable l o := by
  rcases h with rfl | rfl
  · exact patch_mk0 l o hz
  · exact patch_mk hl hl' o

theorem number_numbered (s : ErrState) (hl : s.libCode ≠ 0) : s.number = s := by
  unfold ErrState.number
  rw [if_neg hl]

theorem load_numbered (s : ErrState) {l : Nat} (hl : 0 < l) (hl' : l < 256) (hc : s.libCode = l) (ht : s.Tables l) (hi : s.init = true) :
    ERR_load_DSTU_strings s = ⟨mkTable l ownFuncts, mkTable l ownReasons, mkTable l [(0, 0, "dstu")], l, false,
      putAll (fun e => some e.string) (mkTable l ownAll) s.reg⟩ := by
  obtain ⟨functs, reasons, libName, lc, init, reg⟩ := s
  obtain ⟨h1, h2, h3⟩ := ht
  simp only at hc hi h1 h2 h3
  subst hc hi
  have hz : ∀ e ∈ ownFuncts, ERR_PACK 0 e.1 e.2.1 ≠ 0 := by decide +kernel
  have hz' : ∀ e ∈ ownReasons, ERR_PACK 0 e.1 e.2.1 ≠ 0 := by decide +kernel
  have e1 := patch_either hl hl' h1 hz
  have e2 := patch_either hl hl' h2 hz'
  have e3 : setFirst (ERR_PACK lc 0 0) libName = mkTable lc [(0, 0, "dstu")] := by
    rcases h3 with rfl | rfl <;> simp only [mkTable, List.map_cons, List.map_nil, setFirst]
  unfold ERR_load_DSTU_strings
  rw [number_numbered _ (by simpa using Nat.pos_iff_ne_zero.1 hl)]
  simp only [if_true, ERR_load_strings] at *
  rw [e1, e2, e3, patch_zero, live_mk hl hl', live_mk hl hl', live_mk hl hl']
  have : mkTable lc ownAll = mkTable lc ownFuncts ++ mkTable lc ownReasons ++ mkTable lc [(0, 0, "dstu")] := by
    simp [ownAll, mkTable]
  rw [this, putAll_append, putAll_append]
  rfl

theorem unload_numbered (s : ErrState) {l : Nat} (hl : 0 < l) (hl' : l < 256) (ht : s.Patched l) (hi : s.init = false) :
    ERR_unload_DSTU_strings s = { s with init := true, reg := putAll (fun _ => none) (mkTable l ownAll) s.reg } := by
  obtain ⟨functs, reasons, libName, lc, init, reg⟩ := s
  obtain ⟨h1, h2, h3⟩ := ht
  subst hi h1 h2 h3
  unfold ERR_unload_DSTU_strings ERR_unload_strings
  simp only [if_true]
  rw [live_mk hl hl', live_mk hl hl', live_mk hl hl']
  have : mkTable l ownAll = mkTable l ownFuncts ++ mkTable l ownReasons ++ mkTable l [(0, 0, "dstu")] := by
    simp [ownAll, mkTable]
  rw [this, putAll_append, putAll_append]
  rfl

attribute [local irreducible] ERR_PACK ERR_GET_LIB

/-- The number of the engine, in a state followed by operations: the one it has or the one it gets. -/
def ErrState.own (s : ErrState) (rest : List ErrOp) : Nat :=
  if s.libCode = 0 then s.reg.nextLib + othersAsked (rest.takeWhile fun op => !op.asks) else s.libCode

/-- Facts about the registry that always hold. -/
structure ErrState.Common (s : ErrState) : Prop where
  lo : 128 ≤ s.reg.nextLib
  hi : s.reg.nextLib ≤ 256
  others : ∀ l ∈ s.reg.others, l < s.reg.nextLib
  unused : ∀ c, s.reg.nextLib ≤ ERR_GET_LIB c → s.reg.strings c = none

/-- The engine has not asked for a number. -/
structure ErrState.Virgin (s : ErrState) : Prop where
  code : s.libCode = 0
  functs : s.functs = mkTable 0 ownFuncts
  reasons : s.reasons = mkTable 0 ownReasons
  libName : s.libName = mkTable 0 [(0, 0, "dstu")]
  init : s.init = true

/-- The engine has number `l`; its strings are registered or not. -/
structure ErrState.Core (l : Nat) (b : Bool) (s : ErrState) : Prop where
  code : s.libCode = l
  lo : 128 ≤ l
  hi : l < s.reg.nextLib
  private_ : l ∉ s.reg.others
  tables : s.Tables l
  patched : s.init = false → s.Patched l
  init : s.init = !b
  strings : ∀ f r, f < 4096 → r < 4096 → s.reg.strings (ERR_PACK l f r) = if b then ownString f r else none

theorem number_core {s : ErrState} (hc : s.Common) (hv : s.Virgin) (hr : s.reg.nextLib + 1 ≤ 256) :
    s.number.Common ∧ s.number.Core s.reg.nextLib false ∧ s.number.reg = { s.reg with nextLib := s.reg.nextLib + 1 } := by
  have hlo := hc.lo
  have e : s.number = { s with libCode := s.reg.nextLib, reg := { s.reg with nextLib := s.reg.nextLib + 1 } } := by
    unfold ErrState.number
    rw [if_pos hv.code]
    rfl
  rw [e]
  refine ⟨⟨?_, hr, ?_, ?_⟩, ⟨rfl, hlo, Nat.lt_succ_self _, ?_, ⟨.inl hv.functs, .inl hv.reasons, .inl hv.libName⟩, ?_, hv.init, ?_⟩, rfl⟩
  · show 128 ≤ s.reg.nextLib + 1
    omega
  · intro l hl
    exact Nat.lt_succ_of_lt (hc.others l hl)
  · intro c h
    exact hc.unused c (Nat.le_of_succ_le h)
  · intro h
    exact Nat.lt_irrefl _ (hc.others _ h)
  · intro h
    rw [show ({ s with libCode := s.reg.nextLib, reg := { s.reg with nextLib := s.reg.nextLib + 1 } } : ErrState).init = s.init from rfl, hv.init] at h
    cases h
  · intro f r _ _
    exact hc.unused _ (by rw [GET_LIB_PACK]; omega)

theorem load_core {s : ErrState} {l : Nat} {b : Bool} (hc : s.Common) (h : s.Core l b) :
    (ERR_load_DSTU_strings s).Common ∧ (ERR_load_DSTU_strings s).Core l true ∧
      (ERR_load_DSTU_strings s).reg.nextLib = s.reg.nextLib ∧ (ERR_load_DSTU_strings s).reg.queue = s.reg.queue ∧
      (ERR_load_DSTU_strings s).reg.others = s.reg.others ∧
      ∀ c, ERR_GET_LIB c ≠ l → (ERR_load_DSTU_strings s).reg.strings c = s.reg.strings c := by
  have hl : 0 < l := by have := h.lo; omega
  have hl' : l < 256 := by have := h.hi; have := hc.hi; omega
  cases b with
  | true =>
    have e : ERR_load_DSTU_strings s = s := by
      unfold ERR_load_DSTU_strings
      rw [number_numbered _ (by rw [h.code]; omega), if_neg (by rw [h.init]; decide)]
    rw [e]
    exact ⟨hc, h, rfl, rfl, rfl, fun _ _ => rfl⟩
  | false =>
    have hp := putAll_rest (fun e => some e.string) (mkTable l ownAll) s.reg
    rw [load_numbered s hl hl' h.code h.tables (by rw [h.init]; rfl)]
    refine ⟨⟨?_, ?_, ?_, ?_⟩, ⟨rfl, h.lo, ?_, ?_, ⟨.inr rfl, .inr rfl, .inr rfl⟩, fun _ => ⟨rfl, rfl, rfl⟩, rfl, ?_⟩, hp.1, hp.2.2, hp.2.1, ?_⟩
    · exact hp.1 ▸ hc.lo
    · exact hp.1 ▸ hc.hi
    · simp only [hp.1, hp.2.1]; exact hc.others
    · intro c hcl
      simp only [hp.1] at hcl
      have := h.hi
      exact (putAll_other hl' (by omega) _ _ _).trans (hc.unused c hcl)
    · simp only [hp.1]; exact h.hi
    · simp only [hp.2.1]; exact h.private_
    · intro f r hf hr
      exact loaded_strings hf hr _ (h.strings f r hf hr)
    · intro c hcl
      exact putAll_other hl' hcl _ _ _

theorem unload_core {s : ErrState} {l : Nat} {b : Bool} (hc : s.Common) (h : s.Core l b) :
    (ERR_unload_DSTU_strings s).Common ∧ (ERR_unload_DSTU_strings s).Core l false ∧
      (ERR_unload_DSTU_strings s).reg.nextLib = s.reg.nextLib ∧ (ERR_unload_DSTU_strings s).reg.queue = s.reg.queue ∧
      (ERR_unload_DSTU_strings s).reg.others = s.reg.others ∧
      ∀ c, ERR_GET_LIB c ≠ l → (ERR_unload_DSTU_strings s).reg.strings c = s.reg.strings c := by
  have hl : 0 < l := by have := h.lo; omega
  have hl' : l < 256 := by have := h.hi; have := hc.hi; omega
  cases b with
  | false =>
    have e : ERR_unload_DSTU_strings s = s := by
      unfold ERR_unload_DSTU_strings
      rw [if_neg (by rw [h.init]; decide)]
    rw [e]
    exact ⟨hc, h, rfl, rfl, rfl, fun _ _ => rfl⟩
  | true =>
    have hp := putAll_rest (fun _ => none) (mkTable l ownAll) s.reg
    have hi : s.init = false := by rw [h.init]; rfl
    have hpt := h.patched hi
    rw [unload_numbered s hl hl' hpt hi]
    refine ⟨⟨?_, ?_, ?_, ?_⟩, ⟨h.code, h.lo, ?_, ?_, ⟨.inr hpt.functs, .inr hpt.reasons, .inr hpt.libName⟩, fun hf => ?_, rfl, ?_⟩, hp.1, hp.2.2, hp.2.1, ?_⟩
    · exact hp.1 ▸ hc.lo
    · exact hp.1 ▸ hc.hi
    · simp only [hp.1, hp.2.1]; exact hc.others
    · intro c hcl
      simp only [hp.1] at hcl
      have := h.hi
      exact (putAll_other hl' (by omega) _ _ _).trans (hc.unused c hcl)
    · simp only [hp.1]; exact h.hi
    · simp only [hp.2.1]; exact h.private_
    · cases hf
    · intro f r hf hr
      exact unloaded_strings hf hr _ (h.strings f r hf hr)
    · intro c hcl
      exact putAll_other hl' hcl _ _ _

/-- The invariant between the operations done and those to come. -/
structure ErrState.Inv (g : ErrRegistry) (done rest : List ErrOp) (s : ErrState) : Prop where
  common : s.Common
  room : g.nextLib + othersAsked done + othersAsked rest < 256
  count : s.reg.nextLib = g.nextLib + othersAsked done + if done.any ErrOp.asks then 1 else 0
  queue : s.reg.queue = g.queue ++ (raised done).map fun e => ERR_PACK s.libCode e.1 e.2
  phase : (s.Virgin ∧ done.any ErrOp.asks = false ∧ registered done = false ∧ raised done = []) ∨
    (s.Core s.libCode (registered done) ∧ done.any ErrOp.asks = true)

theorem registered_snoc (done : List ErrOp) (op : ErrOp) :
    registered (done ++ [op]) = match op with | .load => true | .unload => false | _ => registered done := by
  simp only [registered, List.foldl_append, List.foldl_cons, List.foldl_nil]
  cases op <;> rfl

theorem othersAsked_append (a b : List ErrOp) : othersAsked (a ++ b) = othersAsked a + othersAsked b := by
  simp [othersAsked]

theorem raised_append (a b : List ErrOp) : raised (a ++ b) = raised a ++ raised b := by
  simp [raised]

theorem othersAsked_single (op : ErrOp) : othersAsked [op] = match op with | .otherNumber => 1 | _ => 0 := by
  cases op <;> rfl

theorem othersAsked_cons (op : ErrOp) (rest : List ErrOp) : othersAsked (op :: rest) = othersAsked [op] + othersAsked rest :=
  othersAsked_append [op] rest

theorem raised_single (op : ErrOp) : raised [op] = match op with | .raise f r => [(f, r)] | _ => [] := by
  cases op <;> rfl

/-- After asking, if needed, for the number. -/
theorem numbered_inv {g : ErrRegistry} {done rest : List ErrOp} {op : ErrOp} {s : ErrState} (h : s.Inv g done (op :: rest)) (ha : op.asks = true) :
    s.number.Common ∧ s.number.Core (s.own (op :: rest)) (registered done) ∧
      s.number.reg.nextLib = g.nextLib + othersAsked done + 1 ∧ s.number.libCode = s.own (op :: rest) ∧
      s.number.reg.strings = s.reg.strings ∧
      s.number.reg.queue = g.queue ++ (raised done).map fun e => ERR_PACK (s.own (op :: rest)) e.1 e.2 := by
  have hroom := h.room
  rcases h.phase with ⟨hv, h1, h2, h3⟩ | ⟨hk, h1⟩
  · have hcount := h.count
    rw [h1] at hcount
    simp only [Bool.false_eq_true, if_false] at hcount
    have hn := number_core h.common hv (by omega)
    have ho : s.own (op :: rest) = s.reg.nextLib := by
      unfold ErrState.own
      rw [if_pos hv.code, List.takeWhile_cons_of_neg (by simp [ha])]
      rfl
    rw [ho, h2]
    refine ⟨hn.1, hn.2.1, ?_, hn.2.1.code, ?_, ?_⟩
    · rw [hn.2.2]; simp only; omega
    · rw [hn.2.2]
    · rw [hn.2.2, h3]
      simp only [h.queue, h3, List.map_nil]
  · have hcount := h.count
    rw [h1] at hcount
    simp only [if_true] at hcount
    have h0 : s.libCode ≠ 0 := by have := hk.lo; omega
    have ho : s.own (op :: rest) = s.libCode := by
      unfold ErrState.own
      rw [if_neg h0]
    rw [ho, number_numbered s h0]
    exact ⟨h.common, hk, hcount, rfl, rfl, h.queue⟩

theorem load_number (s : ErrState) (h : s.number.libCode ≠ 0) : ERR_load_DSTU_strings s.number = ERR_load_DSTU_strings s := by
  unfold ERR_load_DSTU_strings
  rw [number_numbered _ h]

theorem own_numbered {s : ErrState} {l : Nat} (h : s.libCode = l) (h0 : 128 ≤ l) (rest : List ErrOp) : s.own rest = l := by
  unfold ErrState.own
  rw [if_neg (by omega), h]

theorem inv_load {g : ErrRegistry} {done rest : List ErrOp} {s : ErrState} (h : s.Inv g done (.load :: rest)) :
    (s.step .load).Inv g (done ++ [.load]) rest ∧ (s.step .load).own rest = s.own (.load :: rest) ∧
      ∀ c, ERR_GET_LIB c ≠ s.own (.load :: rest) → (s.step .load).reg.strings c = s.reg.strings c := by
  obtain ⟨hc, hk, hn, hl, hs, hq⟩ := numbered_inv h rfl
  have hroom := h.room
  rw [othersAsked_cons, othersAsked_single] at hroom
  have e : s.step .load = ERR_load_DSTU_strings s.number := (load_number s (by rw [hl]; have := hk.lo; omega)).symm
  obtain ⟨h1, h2, h3, h4, h5, h6⟩ := load_core hc hk
  rw [e]
  refine ⟨⟨h1, ?_, ?_, ?_, .inr ⟨?_, ?_⟩⟩, own_numbered h2.code h2.lo _, fun c hcl => ?_⟩
  · rw [othersAsked_append, othersAsked_single]; simpa using hroom
  · rw [h3, hn, othersAsked_append, othersAsked_single]; simp [ErrOp.asks]
  · rw [h4, hq, raised_append, raised_single, h2.code]; simp
  · rw [registered_snoc, h2.code]; exact h2
  · simp [ErrOp.asks]
  · rw [h6 c hcl, hs]

theorem inv_raise {g : ErrRegistry} {done rest : List ErrOp} {f r : Nat} {s : ErrState} (h : s.Inv g done (.raise f r :: rest)) :
    (s.step (.raise f r)).Inv g (done ++ [.raise f r]) rest ∧ (s.step (.raise f r)).own rest = s.own (.raise f r :: rest) ∧
      ∀ c, ERR_GET_LIB c ≠ s.own (.raise f r :: rest) → (s.step (.raise f r)).reg.strings c = s.reg.strings c := by
  obtain ⟨hc, hk, hn, hl, hs, hq⟩ := numbered_inv h rfl
  have hroom := h.room
  rw [othersAsked_cons, othersAsked_single] at hroom
  refine ⟨⟨⟨hc.lo, hc.hi, hc.others, hc.unused⟩, ?_, ?_, ?_, .inr ⟨?_, ?_⟩⟩, own_numbered hl hk.lo _, fun c hcl => ?_⟩
  · rw [othersAsked_append, othersAsked_single]; simpa using hroom
  · show s.number.reg.nextLib = _
    rw [hn, othersAsked_append, othersAsked_single]; simp [ErrOp.asks]
  · have e1 : (s.step (.raise f r)).reg.queue = s.number.reg.queue ++ [ERR_PACK s.number.libCode f r] := rfl
    have e2 : (s.step (.raise f r)).libCode = s.number.libCode := rfl
    rw [e1, e2, hq, hl, raised_append, raised_single]; simp
  · show ErrState.Core s.number.libCode _ _
    rw [registered_snoc, hl]
    exact ⟨hk.code, hk.lo, hk.hi, hk.private_, ⟨hk.tables.1, hk.tables.2, hk.tables.3⟩, fun hi => ⟨(hk.patched hi).1, (hk.patched hi).2, (hk.patched hi).3⟩, hk.init, hk.strings⟩
  · simp [ErrOp.asks]
  · show s.number.reg.strings c = _
    rw [hs]

theorem inv_unload {g : ErrRegistry} {done rest : List ErrOp} {s : ErrState} (h : s.Inv g done (.unload :: rest)) :
    (s.step .unload).Inv g (done ++ [.unload]) rest ∧ (s.step .unload).own rest = s.own (.unload :: rest) ∧
      ∀ c, ERR_GET_LIB c ≠ s.own (.unload :: rest) → (s.step .unload).reg.strings c = s.reg.strings c := by
  have hroom := h.room
  rw [othersAsked_cons, othersAsked_single] at hroom
  rcases h.phase with ⟨hv, h1, h2, h3⟩ | ⟨hk, h1⟩
  · have e : s.step .unload = s := by
      show ERR_unload_DSTU_strings s = s
      unfold ERR_unload_DSTU_strings
      rw [if_neg (by rw [hv.init]; decide)]
    rw [e]
    refine ⟨⟨h.common, ?_, ?_, ?_, .inl ⟨hv, ?_, ?_, ?_⟩⟩, ?_, fun _ _ => rfl⟩
    · rw [othersAsked_append, othersAsked_single]; simpa using hroom
    · rw [h.count, othersAsked_append, othersAsked_single]; simp [ErrOp.asks]
    · rw [h.queue, raised_append, raised_single]; simp
    · simpa [ErrOp.asks] using h1
    · rw [registered_snoc]
    · rw [raised_append, raised_single, h3]; rfl
    · unfold ErrState.own
      rw [if_pos hv.code, if_pos hv.code, List.takeWhile_cons_of_pos (by rfl), othersAsked_cons, othersAsked_single]
      simp
  · obtain ⟨g1, g2, g3, g4, g5, g6⟩ := unload_core h.common hk
    have hos := own_numbered (s := s) rfl hk.lo
    show (ERR_unload_DSTU_strings s).Inv _ _ _ ∧ (ERR_unload_DSTU_strings s).own _ = _ ∧ ∀ c, _ → (ERR_unload_DSTU_strings s).reg.strings c = _
    refine ⟨⟨g1, ?_, ?_, ?_, .inr ⟨?_, ?_⟩⟩, (own_numbered g2.code g2.lo _).trans (hos _).symm, fun c hcl => g6 c (by rwa [hos] at hcl)⟩
    · rw [othersAsked_append, othersAsked_single]; simpa using hroom
    · rw [g3, h.count, othersAsked_append, othersAsked_single]; simp [ErrOp.asks]
    · rw [g4, h.queue, raised_append, raised_single, g2.code]; simp
    · rw [registered_snoc, g2.code]; exact g2
    · simp [h1]

theorem inv_otherNumber {g : ErrRegistry} {done rest : List ErrOp} {s : ErrState} (h : s.Inv g done (.otherNumber :: rest)) :
    (s.step .otherNumber).Inv g (done ++ [.otherNumber]) rest ∧ (s.step .otherNumber).own rest = s.own (.otherNumber :: rest) := by
  have hroom := h.room
  rw [othersAsked_cons, othersAsked_single] at hroom
  simp only at hroom
  have hc := h.common
  have hlo := hc.lo
  have hcount := h.count
  have hcm : (s.step .otherNumber).Common := by
    refine ⟨?_, ?_, ?_, ?_⟩
    · show 128 ≤ s.reg.nextLib + 1
      omega
    · show s.reg.nextLib + 1 ≤ 256
      rw [hcount]
      split <;> omega
    · intro l hl
      rcases List.mem_cons.1 hl with rfl | hl
      · exact Nat.lt_succ_self _
      · exact Nat.lt_succ_of_lt (hc.others l hl)
    · intro c hcl
      exact hc.unused c (Nat.le_of_succ_le hcl)
  have hr : g.nextLib + othersAsked (done ++ [.otherNumber]) + othersAsked rest < 256 := by
    rw [othersAsked_append, othersAsked_single]; simp only; omega
  have hct : (s.step .otherNumber).reg.nextLib = g.nextLib + othersAsked (done ++ [.otherNumber]) + if (done ++ [ErrOp.otherNumber]).any ErrOp.asks then 1 else 0 := by
    show s.reg.nextLib + 1 = _
    rw [hcount, othersAsked_append, othersAsked_single]
    simp only [List.any_append, List.any_cons, List.any_nil, ErrOp.asks, Bool.or_false]
    omega
  have hq : (s.step .otherNumber).reg.queue = g.queue ++ (raised (done ++ [.otherNumber])).map fun e => ERR_PACK (s.step .otherNumber).libCode e.1 e.2 := by
    show s.reg.queue = _
    rw [h.queue, raised_append, raised_single, List.append_nil]; rfl
  rcases h.phase with ⟨hv, h1, h2, h3⟩ | ⟨hk, h1⟩
  · refine ⟨⟨hcm, hr, hct, hq, .inl ⟨⟨hv.1, hv.2, hv.3, hv.4, hv.5⟩, ?_, ?_, ?_⟩⟩, ?_⟩
    · simpa [ErrOp.asks] using h1
    · rw [registered_snoc]; exact h2
    · rw [raised_append, raised_single, h3]; rfl
    · have e1 : (s.step .otherNumber).libCode = 0 := hv.code
      unfold ErrState.own
      rw [if_pos hv.code, if_pos e1, List.takeWhile_cons_of_pos (by rfl), othersAsked_cons, othersAsked_single]
      show s.reg.nextLib + 1 + _ = _
      simp only; omega
  · have hos := own_numbered (s := s) rfl hk.lo
    refine ⟨⟨hcm, hr, hct, hq, .inr ⟨?_, ?_⟩⟩, (own_numbered (s := s.step .otherNumber) (l := s.libCode) rfl hk.lo _).trans (hos _).symm⟩
    · rw [registered_snoc]
      refine ⟨hk.code, hk.lo, Nat.lt_succ_of_lt hk.hi, ?_, ⟨hk.tables.1, hk.tables.2, hk.tables.3⟩, fun hi => ⟨(hk.patched hi).1, (hk.patched hi).2, (hk.patched hi).3⟩, hk.init, hk.strings⟩
      intro hm
      have hi := hk.hi
      rcases List.mem_cons.1 hm with hm | hm
      · have hm : s.libCode = s.reg.nextLib := hm
        omega
      · exact hk.private_ hm
    · simp [h1]

theorem inv_otherPut {g : ErrRegistry} {done rest : List ErrOp} {c : Nat} {t : Option String} {s : ErrState} (h : s.Inv g done (.otherPut c t :: rest)) :
    (s.step (.otherPut c t)).Inv g (done ++ [.otherPut c t]) rest ∧ (s.step (.otherPut c t)).own rest = s.own (.otherPut c t :: rest) := by
  have hroom := h.room
  rw [othersAsked_cons, othersAsked_single] at hroom
  simp only at hroom
  have hc := h.common
  have hlo := hc.lo
  have e : s.step (.otherPut c t) = s ∨ (s.step (.otherPut c t) = { s with reg := s.reg.put c t } ∧
      (ERR_GET_LIB c < 128 ∨ ERR_GET_LIB c ∈ s.reg.others)) := by
    by_cases hx : ERR_GET_LIB c < 128 ∨ ERR_GET_LIB c ∈ s.reg.others
    · exact .inr ⟨if_pos hx, hx⟩
    · exact .inl (if_neg hx)
  have hr : g.nextLib + othersAsked (done ++ [.otherPut c t]) + othersAsked rest < 256 := by
    rw [othersAsked_append, othersAsked_single]; simp only; omega
  have hct : s.reg.nextLib = g.nextLib + othersAsked (done ++ [.otherPut c t]) + if (done ++ [ErrOp.otherPut c t]).any ErrOp.asks then 1 else 0 := by
    rw [h.count, othersAsked_append, othersAsked_single]
    simp only [List.any_append, List.any_cons, List.any_nil, ErrOp.asks, Bool.or_false]
    omega
  have hq : s.reg.queue = g.queue ++ (raised (done ++ [.otherPut c t])).map fun e => ERR_PACK s.libCode e.1 e.2 := by
    rw [h.queue, raised_append, raised_single]; simp
  have hown : s.own rest = s.own (.otherPut c t :: rest) := by
    unfold ErrState.own
    split
    · rw [List.takeWhile_cons_of_pos (by rfl), othersAsked_cons, othersAsked_single]
      simp
    · rfl
  have hph : (s.Virgin ∧ (done ++ [ErrOp.otherPut c t]).any ErrOp.asks = false ∧ registered (done ++ [.otherPut c t]) = false ∧ raised (done ++ [.otherPut c t]) = []) ∨
      (s.Core s.libCode (registered (done ++ [.otherPut c t])) ∧ (done ++ [ErrOp.otherPut c t]).any ErrOp.asks = true) := by
    rw [registered_snoc, raised_append, raised_single]
    rcases h.phase with ⟨hv, h1, h2, h3⟩ | ⟨hk, h1⟩
    · exact .inl ⟨hv, by simpa [ErrOp.asks] using h1, h2, by simp [h3]⟩
    · exact .inr ⟨hk, by simp [h1]⟩
  rcases e with e | ⟨e, hx⟩
  · rw [e]
    exact ⟨⟨hc, hr, hct, hq, hph⟩, hown⟩
  · rw [e]
    refine ⟨⟨⟨hlo, hc.hi, hc.others, ?_⟩, hr, hct, hq, ?_⟩, hown⟩
    · intro c' hc'
      have hc'' : s.reg.nextLib ≤ ERR_GET_LIB c' := hc'
      have hne : c' ≠ c := by
        rintro rfl
        rcases hx with hx | hx
        · omega
        · exact absurd (hc.others _ hx) (Nat.not_lt.2 hc')
      show (if c' = c then t else s.reg.strings c') = none
      rw [if_neg hne]
      exact hc.unused c' hc'
    · rcases hph with ⟨hv, h1⟩ | ⟨hk, h1⟩
      · exact .inl ⟨⟨hv.1, hv.2, hv.3, hv.4, hv.5⟩, h1⟩
      · refine .inr ⟨⟨hk.code, hk.lo, hk.hi, hk.private_, ⟨hk.tables.1, hk.tables.2, hk.tables.3⟩, fun hi => ⟨(hk.patched hi).1, (hk.patched hi).2, (hk.patched hi).3⟩, hk.init, ?_⟩, h1⟩
        intro f r hf hr
        have hlt := hk.hi
        have hhi := hc.hi
        have hne : ERR_PACK s.libCode f r ≠ c := by
          rintro rfl
          rw [GET_LIB_PACK, Nat.mod_eq_of_lt (by omega)] at hx
          have := hk.lo
          rcases hx with hx | hx
          · omega
          · exact hk.private_ hx
        show (if ERR_PACK s.libCode f r = c then t else s.reg.strings (ERR_PACK s.libCode f r)) = _
        rw [if_neg hne]
        exact hk.strings f r hf hr

theorem errInv_step {g : ErrRegistry} {done rest : List ErrOp} {op : ErrOp} {s : ErrState} (h : s.Inv g done (op :: rest)) :
    (s.step op).Inv g (done ++ [op]) rest ∧ (s.step op).own rest = s.own (op :: rest) ∧
      (op.engine = true → ∀ c, ERR_GET_LIB c ≠ s.own (op :: rest) → (s.step op).reg.strings c = s.reg.strings c) := by
  cases op with
  | load => have := inv_load h; exact ⟨this.1, this.2.1, fun _ => this.2.2⟩
  | unload => have := inv_unload h; exact ⟨this.1, this.2.1, fun _ => this.2.2⟩
  | raise f r => have := inv_raise h; exact ⟨this.1, this.2.1, fun _ => this.2.2⟩
  | otherNumber => have := inv_otherNumber h; exact ⟨this.1, this.2, fun hx => by cases hx⟩
  | otherPut c t => have := inv_otherPut h; exact ⟨this.1, this.2, fun hx => by cases hx⟩

theorem errInv_run {g : ErrRegistry} {s : ErrState} : ∀ (ops done rest : List ErrOp), s.Inv g done (ops ++ rest) →
    (s.run ops).Inv g (done ++ ops) rest ∧ (s.run ops).own rest = s.own (ops ++ rest) := by
  intro ops
  induction ops generalizing s with
  | nil => intro done rest h; simpa [ErrState.run] using h
  | cons op ops ih =>
    intro done rest h
    have h1 := errInv_step h
    have h2 := ih (done ++ [op]) rest h1.1
    rw [List.append_assoc] at h2
    exact ⟨h2.1, h2.2.trans h1.2.1⟩

end Dstu
