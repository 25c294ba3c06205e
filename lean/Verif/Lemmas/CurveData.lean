import Verif.Lemmas.CurveTable

/-! The ten entries of the table pass the checks; every check is evaluated by the kernel. -/

namespace Dstu

set_option maxRecDepth 20000 in
theorem entry163 (nid : Nat) : EntryCheck ⟨nid, [163, 7, 6, 3, 0, -1], data163⟩ 163 [7, 6, 3, 0] where
  prime := by norm_num
  small := by decide
  exps := by decide
  head := rfl
  poly := by simp only; decide +kernel
  log2 := by decide +kernel
  weight := by decide +kernel
  length := by simp only; decide +kernel
  eval0 := by decide +kernel
  eval1 := by decide +kernel
  frob := by decide +kernel
  b_lt := by simp only; decide +kernel
  x_lt := by simp only; decide +kernel
  y_lt := by simp only; decide +kernel
  b_ne := by simp only; decide +kernel
  n_gt := by simp only; decide +kernel
  curve := by simp only; decide +kernel

set_option maxRecDepth 20000 in
theorem entry167 (nid : Nat) : EntryCheck ⟨nid, [167, 6, 0, -1, 0, 0], data167⟩ 167 [6, 0] where
  prime := by norm_num
  small := by decide
  exps := by decide
  head := rfl
  poly := by simp only; decide +kernel
  log2 := by decide +kernel
  weight := by decide +kernel
  length := by simp only; decide +kernel
  eval0 := by decide +kernel
  eval1 := by decide +kernel
  frob := by decide +kernel
  b_lt := by simp only; decide +kernel
  x_lt := by simp only; decide +kernel
  y_lt := by simp only; decide +kernel
  b_ne := by simp only; decide +kernel
  n_gt := by simp only; decide +kernel
  curve := by simp only; decide +kernel

set_option maxRecDepth 20000 in
theorem entry173 (nid : Nat) : EntryCheck ⟨nid, [173, 10, 2, 1, 0, -1], data173⟩ 173 [10, 2, 1, 0] where
  prime := by norm_num
  small := by decide
  exps := by decide
  head := rfl
  poly := by simp only; decide +kernel
  log2 := by decide +kernel
  weight := by decide +kernel
  length := by simp only; decide +kernel
  eval0 := by decide +kernel
  eval1 := by decide +kernel
  frob := by decide +kernel
  b_lt := by simp only; decide +kernel
  x_lt := by simp only; decide +kernel
  y_lt := by simp only; decide +kernel
  b_ne := by simp only; decide +kernel
  n_gt := by simp only; decide +kernel
  curve := by simp only; decide +kernel

set_option maxRecDepth 20000 in
theorem entry179 (nid : Nat) : EntryCheck ⟨nid, [179, 4, 2, 1, 0, -1], data179⟩ 179 [4, 2, 1, 0] where
  prime := by norm_num
  small := by decide
  exps := by decide
  head := rfl
  poly := by simp only; decide +kernel
  log2 := by decide +kernel
  weight := by decide +kernel
  length := by simp only; decide +kernel
  eval0 := by decide +kernel
  eval1 := by decide +kernel
  frob := by decide +kernel
  b_lt := by simp only; decide +kernel
  x_lt := by simp only; decide +kernel
  y_lt := by simp only; decide +kernel
  b_ne := by simp only; decide +kernel
  n_gt := by simp only; decide +kernel
  curve := by simp only; decide +kernel

set_option maxRecDepth 20000 in
theorem entry191 (nid : Nat) : EntryCheck ⟨nid, [191, 9, 0, -1, 0, 0], data191⟩ 191 [9, 0] where
  prime := by norm_num
  small := by decide
  exps := by decide
  head := rfl
  poly := by simp only; decide +kernel
  log2 := by decide +kernel
  weight := by decide +kernel
  length := by simp only; decide +kernel
  eval0 := by decide +kernel
  eval1 := by decide +kernel
  frob := by decide +kernel
  b_lt := by simp only; decide +kernel
  x_lt := by simp only; decide +kernel
  y_lt := by simp only; decide +kernel
  b_ne := by simp only; decide +kernel
  n_gt := by simp only; decide +kernel
  curve := by simp only; decide +kernel

set_option maxRecDepth 20000 in
theorem entry233 (nid : Nat) : EntryCheck ⟨nid, [233, 9, 4, 1, 0, -1], data233⟩ 233 [9, 4, 1, 0] where
  prime := by norm_num
  small := by decide
  exps := by decide
  head := rfl
  poly := by simp only; decide +kernel
  log2 := by decide +kernel
  weight := by decide +kernel
  length := by simp only; decide +kernel
  eval0 := by decide +kernel
  eval1 := by decide +kernel
  frob := by decide +kernel
  b_lt := by simp only; decide +kernel
  x_lt := by simp only; decide +kernel
  y_lt := by simp only; decide +kernel
  b_ne := by simp only; decide +kernel
  n_gt := by simp only; decide +kernel
  curve := by simp only; decide +kernel

set_option maxRecDepth 20000 in
theorem entry257 (nid : Nat) : EntryCheck ⟨nid, [257, 12, 0, -1, 0, 0], data257⟩ 257 [12, 0] where
  prime := by norm_num
  small := by decide
  exps := by decide
  head := rfl
  poly := by simp only; decide +kernel
  log2 := by decide +kernel
  weight := by decide +kernel
  length := by simp only; decide +kernel
  eval0 := by decide +kernel
  eval1 := by decide +kernel
  frob := by decide +kernel
  b_lt := by simp only; decide +kernel
  x_lt := by simp only; decide +kernel
  y_lt := by simp only; decide +kernel
  b_ne := by simp only; decide +kernel
  n_gt := by simp only; decide +kernel
  curve := by simp only; decide +kernel

set_option maxRecDepth 20000 in
theorem entry307 (nid : Nat) : EntryCheck ⟨nid, [307, 8, 4, 2, 0, -1], data307⟩ 307 [8, 4, 2, 0] where
  prime := by norm_num
  small := by decide
  exps := by decide
  head := rfl
  poly := by simp only; decide +kernel
  log2 := by decide +kernel
  weight := by decide +kernel
  length := by simp only; decide +kernel
  eval0 := by decide +kernel
  eval1 := by decide +kernel
  frob := by decide +kernel
  b_lt := by simp only; decide +kernel
  x_lt := by simp only; decide +kernel
  y_lt := by simp only; decide +kernel
  b_ne := by simp only; decide +kernel
  n_gt := by simp only; decide +kernel
  curve := by simp only; decide +kernel

set_option maxRecDepth 20000 in
theorem entry367 (nid : Nat) : EntryCheck ⟨nid, [367, 21, 0, -1, 0, 0], data367⟩ 367 [21, 0] where
  prime := by norm_num
  small := by decide
  exps := by decide
  head := rfl
  poly := by simp only; decide +kernel
  log2 := by decide +kernel
  weight := by decide +kernel
  length := by simp only; decide +kernel
  eval0 := by decide +kernel
  eval1 := by decide +kernel
  frob := by decide +kernel
  b_lt := by simp only; decide +kernel
  x_lt := by simp only; decide +kernel
  y_lt := by simp only; decide +kernel
  b_ne := by simp only; decide +kernel
  n_gt := by simp only; decide +kernel
  curve := by simp only; decide +kernel

set_option maxRecDepth 20000 in
theorem entry431 (nid : Nat) : EntryCheck ⟨nid, [431, 5, 3, 1, 0, -1], data431⟩ 431 [5, 3, 1, 0] where
  prime := by norm_num
  small := by decide
  exps := by decide
  head := rfl
  poly := by simp only; decide +kernel
  log2 := by decide +kernel
  weight := by decide +kernel
  length := by simp only; decide +kernel
  eval0 := by decide +kernel
  eval1 := by decide +kernel
  frob := by decide +kernel
  b_lt := by simp only; decide +kernel
  x_lt := by simp only; decide +kernel
  y_lt := by simp only; decide +kernel
  b_ne := by simp only; decide +kernel
  n_gt := by simp only; decide +kernel
  curve := by simp only; decide +kernel

/-- The degrees and low exponents of the table. -/
def tableExps : List (Nat × List Nat) := [(163, [7, 6, 3, 0]), (167, [6, 0]), (173, [10, 2, 1, 0]), (179, [4, 2, 1, 0]), (191, [9, 0]), (233, [9, 4, 1, 0]), (257, [12, 0]), (307, [8, 4, 2, 0]), (367, [21, 0]), (431, [5, 3, 1, 0])]

theorem table_check (nids : CurveNids) (i : Nat) (c : NamedCurve) (hc : (dstu_curves nids)[i]? = some c) :
    ∃ m ks, tableExps[i]? = some (m, ks) ∧ EntryCheck c m ks := by
  match i with
  | 0 => simp only [dstu_curves, List.getElem?_cons_succ, List.getElem?_cons_zero, Option.some.injEq] at hc; subst hc; exact ⟨_, _, rfl, entry163 _⟩
  | 1 => simp only [dstu_curves, List.getElem?_cons_succ, List.getElem?_cons_zero, Option.some.injEq] at hc; subst hc; exact ⟨_, _, rfl, entry167 _⟩
  | 2 => simp only [dstu_curves, List.getElem?_cons_succ, List.getElem?_cons_zero, Option.some.injEq] at hc; subst hc; exact ⟨_, _, rfl, entry173 _⟩
  | 3 => simp only [dstu_curves, List.getElem?_cons_succ, List.getElem?_cons_zero, Option.some.injEq] at hc; subst hc; exact ⟨_, _, rfl, entry179 _⟩
  | 4 => simp only [dstu_curves, List.getElem?_cons_succ, List.getElem?_cons_zero, Option.some.injEq] at hc; subst hc; exact ⟨_, _, rfl, entry191 _⟩
  | 5 => simp only [dstu_curves, List.getElem?_cons_succ, List.getElem?_cons_zero, Option.some.injEq] at hc; subst hc; exact ⟨_, _, rfl, entry233 _⟩
  | 6 => simp only [dstu_curves, List.getElem?_cons_succ, List.getElem?_cons_zero, Option.some.injEq] at hc; subst hc; exact ⟨_, _, rfl, entry257 _⟩
  | 7 => simp only [dstu_curves, List.getElem?_cons_succ, List.getElem?_cons_zero, Option.some.injEq] at hc; subst hc; exact ⟨_, _, rfl, entry307 _⟩
  | 8 => simp only [dstu_curves, List.getElem?_cons_succ, List.getElem?_cons_zero, Option.some.injEq] at hc; subst hc; exact ⟨_, _, rfl, entry367 _⟩
  | 9 => simp only [dstu_curves, List.getElem?_cons_succ, List.getElem?_cons_zero, Option.some.injEq] at hc; subst hc; exact ⟨_, _, rfl, entry431 _⟩
  | i + 10 => simp [dstu_curves] at hc

end Dstu
