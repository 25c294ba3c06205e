import Verif.Spec.KeyStore
import Verif.Lemmas.KeyStore

/-! C51, C52: key stores. -/

namespace Dstu.Props

open Dstu Dstu.Spec

/-- C51.  After any operations on stores, places and objects that exist, a store has as many keys and certificates as
the lists say; a place inside holds what was put there, a place outside reads as null.  `none` is undefined
behaviour. -/
theorem C51_store_contents (ops : List KsOp) (h : AllAlong Allowed .boot ops) :
    ∃ m, KsMem.boot.run ops = some m ∧ ∀ id v, (Shelves.boot.run ops).store id = some v → ∀ side,
      KeyStoreNum side id m = some (v side).length ∧
      (∀ pos o, (v side)[pos]? = some o → KeyStoreGet side id pos m = some (.of o)) ∧
      (∀ pos, (v side).length ≤ pos → KeyStoreGet side id pos m = some .null) := by
  obtain ⟨m, e, H, _⟩ := run_holds boot_holds ops h
  refine ⟨m, e, fun id v hv side => ?_⟩
  have hm := holds_store H hv
  refine ⟨by simp [KeyStoreNum, hm, storeOf, blockOf], ?_, ?_⟩
  · intro pos o ho
    obtain ⟨hlt, heq⟩ := List.getElem?_eq_some_iff.1 ho
    have hc : cellsOf (v side) = some ((v side).map Cell.of) := cellsOf_ne (by intro hc; rw [hc] at hlt; simp at hlt)
    simp [KeyStoreGet, hm, storeOf, blockOf, hlt, hc, readCell, heq]
  · intro pos hp
    simp [KeyStoreGet, hm, storeOf, blockOf, Nat.not_lt.2 hp]

/-- C51.  No such operation is undefined, and freed or never created stores are not there. -/
theorem C51_no_store (ops : List KsOp) (h : AllAlong Allowed .boot ops) (id : Nat) (hn : (Shelves.boot.run ops).store id = none) :
    ∃ m, KsMem.boot.run ops = some m ∧ m.stores id = none := by
  obtain ⟨m, e, H, _⟩ := run_holds boot_holds ops h
  exact ⟨m, e, by rw [H.stores, hn]; rfl⟩

/-- Two stores, a key in each and a certificate in the second; the second is appended to the first. -/
def twoStores : List KsOp :=
  [.new 1 0, .new 2 1, .make .keys, .make .keys, .make .certs, .set .keys 0 0 (some 0), .set .keys 1 1 (some 1),
    .set .certs 1 0 (some 2), .append 0 1]

theorem twoStores_tidy : AllAlong Tidy .boot twoStores := by
  simp [twoStores, AllAlong, Tidy, Allowed, Shelves.step, Shelves.list, Shelves.boot, List.replicate]

theorem tidy_allowed (ops : List KsOp) (s : Shelves) (h : AllAlong Tidy s ops) : AllAlong Allowed s ops := by
  induction ops generalizing s with
  | nil => trivial
  | cons op ops ih => exact ⟨h.1.1, ih _ h.2⟩

example : (Shelves.boot.run twoStores).list 0 .keys = [some 0, none, some 1] := rfl
example : (Shelves.boot.run twoStores).list 0 .certs = [some 2] := rfl
example : (Shelves.boot.run twoStores).list 1 .keys = [none, none] := rfl
example : ((KsMem.boot.run twoStores).bind fun m => KeyStoreGet .keys 0 2 m) = some (.ptr 1) := by decide +kernel

/-- Setting outside the store is undefined: the setters do not check the index. -/
example : KsMem.boot.run [.new 1 0, .set .keys 0 1 none] = none := rfl

/-- A store appended to itself keeps its objects. -/
example : ((KsMem.boot.run [.new 1 0, .make .keys, .set .keys 0 0 (some 0), .append 0 0]).bind fun m => KeyStoreGet .keys 0 1 m) = some (.ptr 0) := by
  decide +kernel

/-- C52, for callers that never set a place already taken.  No operation is undefined (so nothing is freed twice); an
object lives if and only if the caller has it or some store holds it, and it is at one place only. -/
theorem C52_owned_partial (ops : List KsOp) (h : AllAlong Tidy .boot ops) :
    ∃ m, KsMem.boot.run ops = some m ∧
      (∀ a side, m.objs a = some side ↔ ∃ p, (Shelves.boot.run ops).At a side p) ∧
      (∀ a x y p q, (Shelves.boot.run ops).At a x p → (Shelves.boot.run ops).At a y q → p = q) := by
  obtain ⟨m, e, H, l⟩ := run_holds boot_holds ops (tidy_allowed _ _ h)
  refine ⟨m, e, fun a side => ⟨l h (fun a side h => by cases h) a side, fun ⟨p, hp⟩ => H.own _ _ _ hp⟩, ?_⟩
  intro a x y p q h1 h2
  have h3 := H.own _ _ _ h1
  rw [H.own _ _ _ h2] at h3
  cases h3
  exact H.uniq _ _ _ _ h1 h2

/-- C52.  A live object is freed by an operation if and only if the operation frees the store that holds the object.
In particular appending, which leaves its second store's places empty, frees nothing. -/
theorem C52_freed_by_its_store (ops : List KsOp) (op : KsOp) (h : AllAlong Allowed .boot ops) (ho : Allowed (Shelves.boot.run ops) op) :
    ∃ m m', KsMem.boot.run ops = some m ∧ m.step op = some m' ∧
      ∀ a side, m.objs a = some side →
        (m'.objs a = none ↔ ∃ id pos, op = .free id ∧ (Shelves.boot.run ops).At a side (.cell id side pos)) := by
  obtain ⟨m, e, H, _⟩ := run_holds boot_holds ops h
  obtain ⟨m', e', _, k, _⟩ := step_holds H op ho
  refine ⟨m, m', e, e', fun a side hs => ?_⟩
  rw [k a side hs]
  simp

/-- C52.  What a store holds or the caller has is never freed memory, even when places are set twice. -/
theorem C52_held_is_live (ops : List KsOp) (h : AllAlong Allowed .boot ops) :
    ∃ m, KsMem.boot.run ops = some m ∧ ∀ a side p, (Shelves.boot.run ops).At a side p → m.objs a = some side := by
  obtain ⟨m, e, H, _⟩ := run_holds boot_holds ops h
  exact ⟨m, e, H.own⟩

/-- C52.  When the last store is freed and the caller has handed over everything, nothing is left. -/
theorem C52_nothing_left_partial (ops : List KsOp) (h : AllAlong Tidy .boot ops)
    (h0 : ∀ id, (Shelves.boot.run ops).store id = none) (h1 : ∀ a, (Shelves.boot.run ops).hand a = none) :
    ∃ m, KsMem.boot.run ops = some m ∧ ∀ a, m.objs a = none := by
  obtain ⟨m, e, hl, _⟩ := C52_owned_partial ops h
  refine ⟨m, e, fun a => ?_⟩
  cases ha : m.objs a with
  | none => rfl
  | some side =>
    obtain ⟨p, hp⟩ := (hl a side).1 ha
    cases p with
    | hand => rw [Shelves.At, h1 a] at hp; cases hp
    | cell id x pos =>
      have := hp.2
      simp [Shelves.list, h0 id] at this

/-- C52 fails for a place set twice: the first key stays allocated though all stores are freed and the caller gave it
away. -/
theorem C52_overwrite_refuted : ∃ ops m, AllAlong Allowed .boot ops ∧ KsMem.boot.run ops = some m ∧
    (∀ id, (Shelves.boot.run ops).store id = none) ∧ (∀ a, (Shelves.boot.run ops).hand a = none) ∧ m.objs 0 = some .keys := by
  refine ⟨[.new 1 0, .make .keys, .make .keys, .set .keys 0 0 (some 0), .set .keys 0 0 (some 1), .free 0], _, ?_, rfl, ?_, ?_, rfl⟩
  · simp [AllAlong, Allowed, Shelves.step, Shelves.list, Shelves.boot, List.replicate, List.set]
  · intro id
    by_cases h : id = 0 <;> simp [Shelves.run, Shelves.step, Shelves.boot, h]
  · intro a
    by_cases h : a = 0 <;> by_cases h' : a = 1 <;> simp [Shelves.run, Shelves.step, Shelves.boot, h, h']

example : AllAlong Tidy .boot (twoStores ++ [.free 1, .free 0]) ∧
    (∀ id, (Shelves.boot.run (twoStores ++ [.free 1, .free 0])).store id = none) ∧
    (∀ a, (Shelves.boot.run (twoStores ++ [.free 1, .free 0])).hand a = none) := by
  refine ⟨?_, ?_, ?_⟩
  · simp [twoStores, AllAlong, Tidy, Allowed, Shelves.step, Shelves.list, Shelves.boot, List.replicate]
  · intro id
    by_cases h : id = 0 <;> by_cases h' : id = 1 <;> simp [twoStores, Shelves.run, Shelves.step, Shelves.boot, h, h']
  · intro a
    by_cases h : a = 0 <;> by_cases h' : a = 1 <;> by_cases h'' : a = 2 <;>
      simp [twoStores, Shelves.run, Shelves.step, Shelves.boot, h, h', h'']

/-- The certificate of the second store lives on when the second store is freed after the append. -/
example : ∃ m, KsMem.boot.run (twoStores ++ [.free 1]) = some m ∧ m.objs 2 = some .certs := ⟨_, rfl, rfl⟩
example : ∃ m, KsMem.boot.run (twoStores ++ [.free 1, .free 0]) = some m ∧ m.objs 2 = none := ⟨_, rfl, rfl⟩

/-- `twoStores` in `C51_no_store` and, with both stores freed, in `C52_nothing_left_partial`. -/
example : (∃ m, KsMem.boot.run (twoStores ++ [.free 1]) = some m ∧ m.stores 1 = none) ∧ ∃ m, KsMem.boot.run (twoStores ++ [.free 1, .free 0]) = some m ∧ ∀ a, m.objs a = none := by
  refine ⟨C51_no_store _ ?_ 1 ?_, C52_nothing_left_partial _ ?_ ?_ ?_⟩
  · simp [twoStores, AllAlong, Allowed, Shelves.step, Shelves.list, Shelves.boot, List.replicate]
  · simp [twoStores, Shelves.run, Shelves.step, Shelves.boot]
  · simp [twoStores, AllAlong, Tidy, Allowed, Shelves.step, Shelves.list, Shelves.boot, List.replicate]
  · intro id
    by_cases h : id = 0 <;> by_cases h' : id = 1 <;> simp [twoStores, Shelves.run, Shelves.step, Shelves.boot, h, h']
  · intro a
    by_cases h : a = 0 <;> by_cases h' : a = 1 <;> by_cases h'' : a = 2 <;>
      simp [twoStores, Shelves.run, Shelves.step, Shelves.boot, h, h', h'']

end Dstu.Props
