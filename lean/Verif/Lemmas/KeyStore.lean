import Verif.Spec.KeyStore

/-! Lemmas about key stores. -/

namespace Dstu

open Spec

theorem nullLoop_eq (n i : Nat) (l : List Cell) (h : l.length = i + n) :
    nullLoop n i l = some (l.take i ++ List.replicate n .null) := by
  induction n generalizing i l with
  | zero => rw [List.take_of_length_le (by omega)]; simp [nullLoop]
  | succ n ih =>
    have hi : i < l.length := by omega
    simp only [nullLoop, writeCell, if_pos hi]
    show nullLoop n (i + 1) (l.set i .null) = _
    rw [ih _ _ (by simp; omega)]
    congr 1
    apply List.ext_getElem?
    intro j
    grind

/-- The array that holds a list. -/
def cellsOf (l : List (Option Nat)) : Option (List Cell) := if l = [] then none else some (l.map Cell.of)

def blockOf (l : List (Option Nat)) : Block := ⟨l.length, cellsOf l⟩

theorem newBlock_eq (n : Nat) : newBlock n = some (blockOf (List.replicate n none)) := by
  unfold newBlock blockOf cellsOf
  cases n with
  | zero => rfl
  | succ n =>
    rw [if_pos (by omega), nullLoop_eq _ _ _ (by simp)]
    simp [Cell.of]

/-- The contents of all arrays of a side. -/
def KsMem.cells (m : KsMem) (id : Nat) (side : Side) : Option (List Cell) := (m.stores id).bind fun ks => (ks side).cells

theorem put_stores (m : KsMem) (id : Nat) (side : Side) (b : Block) (i : Nat) :
    (m.put id side b).stores i = if i = id then (m.stores i).map fun ks => fun x => if x = side then b else ks x else m.stores i := rfl

/-- Writing into a block. -/
theorem write_eq {m : KsMem} {id : Nat} {side : Side} {ks : KeyStore} {l : List Cell} {pos : Nat} (v : Cell) (hs : m.stores id = some ks)
    (hl : (ks side).cells = some l) (hp : pos < l.length) : m.write id side pos v = some (m.put id side ⟨(ks side).num, some (l.set pos v)⟩) := by
  unfold KsMem.write
  rw [hs]
  show (writeCell (ks side).cells pos v >>= _) = _
  rw [hl]
  simp only [writeCell, if_pos hp]
  rfl

/-- Two memories that agree but for stores. -/
structure SameRest (m m' : KsMem) : Prop where
  nextStore : m'.nextStore = m.nextStore
  objs : m'.objs = m.objs
  nextObj : m'.nextObj = m.nextObj

/-- The store with one array replaced. -/
def KeyStore.withCells (ks : KeyStore) (side : Side) (l : List Cell) : KeyStore := fun x => if x = side then ⟨(ks side).num, some l⟩ else ks x

theorem withCells_withCells (ks : KeyStore) (side : Side) (l l' : List Cell) : (ks.withCells side l).withCells side l' = ks.withCells side l' := by
  funext x
  unfold KeyStore.withCells
  split <;> simp

theorem put_withCells {m : KsMem} {id : Nat} {ks : KeyStore} (hs : m.stores id = some ks) (side : Side) (l : List Cell) (j : Nat) :
    (m.put id side ⟨(ks side).num, some l⟩).stores j = if j = id then some (ks.withCells side l) else m.stores j := by
  rw [put_stores]
  split
  · subst_vars; rw [hs]; rfl
  · rfl

theorem moveLoop_succ {t f : Nat} (side : Side) (base n i : Nat) {m m1 m2 : KsMem} {F : KeyStore} {c : Cell} (hF : m.stores f = some F)
    (hc : readCell (F side).cells i = some c) (h1 : m.write t side (base + i) c = some m1) (h2 : m1.write f side i .null = some m2) :
    moveLoop t f side base (n + 1) i m = moveLoop t f side base n (i + 1) m2 := by
  show (m.stores f >>= _) = _
  rw [hF]
  show (readCell (F side).cells i >>= _) = _
  rw [hc]
  show (m.write t side (base + i) c >>= _) = _
  rw [h1]
  show (m1.write f side i .null >>= _) = _
  rw [h2]
  rfl

theorem set_mid {α} (X Y : List α) (g c : α) (k : Nat) (h : k = X.length) : (X ++ g :: Y).set k c = (X ++ [c]) ++ Y := by
  subst h; simp

theorem withCells_same {ks : KeyStore} {side : Side} {l : List Cell} (h : (ks side).cells = some l) : ks.withCells side l = ks := by
  funext x
  unfold KeyStore.withCells
  split
  · rename_i hx
    subst hx
    rw [← h]
  · rfl

theorem moveLoop_ne {t f : Nat} (hne : t ≠ f) (side : Side) (base : Nat) (r : List Cell) (m : KsMem) (T F : KeyStore) (d A G : List Cell)
    (hT : m.stores t = some T) (hF : m.stores f = some F) (htl : (T side).cells = some (A ++ G)) (hfl : (F side).cells = some (d ++ r))
    (hA : A.length = base + d.length) (hG : G.length = r.length) :
    ∃ m', moveLoop t f side base r.length d.length m = some m' ∧ SameRest m m' ∧
      m'.stores t = some (T.withCells side (A ++ r)) ∧
      m'.stores f = some (F.withCells side (d ++ List.replicate r.length .null)) ∧
      ∀ j, j ≠ t → j ≠ f → m'.stores j = m.stores j := by
  induction r generalizing m T F d A G with
  | nil =>
    cases List.length_eq_zero_iff.1 hG
    refine ⟨m, rfl, ⟨rfl, rfl, rfl⟩, ?_, ?_, fun _ _ _ => rfl⟩
    · rw [hT, withCells_same htl]
    · rw [hF, withCells_same (by simpa using hfl)]
  | cons c r ih =>
    cases G with
    | nil => simp at hG
    | cons g G =>
      have hw1 := write_eq (m := m) c hT htl (pos := base + d.length) (by simp; omega)
      rw [set_mid _ _ _ _ _ hA.symm] at hw1
      have hs1 := put_withCells hT side ((A ++ [c]) ++ G)
      have hF1 : (m.put t side ⟨(T side).num, some ((A ++ [c]) ++ G)⟩).stores f = some F := by
        rw [hs1, if_neg (Ne.symm hne), hF]
      have hw2 := write_eq .null hF1 hfl (pos := d.length) (by simp)
      rw [set_mid _ _ _ _ _ rfl] at hw2
      have hs2 := put_withCells hF1 side ((d ++ [.null]) ++ r)
      obtain ⟨m', e, hr, ht', hf', hj'⟩ := ih _ (T.withCells side ((A ++ [c]) ++ G)) (F.withCells side ((d ++ [.null]) ++ r))
        (d ++ [.null]) (A ++ [c]) G
        (by rw [hs2, if_neg hne, hs1, if_pos rfl]) (by rw [hs2, if_pos rfl])
        (by simp [KeyStore.withCells]) (by simp [KeyStore.withCells]) (by simp; omega) (by simpa using hG)
      rw [List.length_append] at e
      refine ⟨m', ?_, ⟨hr.1, hr.2, hr.3⟩, ?_, ?_, ?_⟩
      · rw [← e]
        exact moveLoop_succ side base r.length d.length hF (by rw [hfl]; simp [readCell]) hw1 hw2
      · rw [ht', withCells_withCells]; simp
      · rw [hf', withCells_withCells]; simp [List.replicate_succ]
      · intro j h1 h2
        rw [hj' j h1 h2, hs2, if_neg h2, hs1, if_neg h1]

theorem moveLoop_self {t : Nat} (side : Side) (base : Nat) (r : List Cell) (m : KsMem) (T : KeyStore) (d A G : List Cell)
    (hT : m.stores t = some T) (htl : (T side).cells = some (d ++ r ++ A ++ G))
    (hb : base = d.length + r.length) (hA : A.length = d.length) (hG : G.length = r.length) :
    ∃ m', moveLoop t t side base r.length d.length m = some m' ∧ SameRest m m' ∧
      m'.stores t = some (T.withCells side (d ++ List.replicate r.length .null ++ (A ++ r))) ∧
      ∀ j, j ≠ t → m'.stores j = m.stores j := by
  induction r generalizing m T d A G with
  | nil =>
    cases List.length_eq_zero_iff.1 hG
    refine ⟨m, rfl, ⟨rfl, rfl, rfl⟩, ?_, fun _ _ => rfl⟩
    rw [hT, withCells_same (by simpa using htl)]
  | cons c r ih =>
    cases G with
    | nil => simp at hG
    | cons g G =>
      simp only [List.length_cons] at hb
      have hw1 := write_eq (m := m) c hT htl (pos := base + d.length) (by simp; omega)
      rw [set_mid _ _ _ _ _ (by simp; omega)] at hw1
      have hs1 := put_withCells hT side ((d ++ (c :: r) ++ A ++ [c]) ++ G)
      have hF1 : (m.put t side ⟨(T side).num, some ((d ++ (c :: r) ++ A ++ [c]) ++ G)⟩).stores t = some (T.withCells side ((d ++ (c :: r) ++ A ++ [c]) ++ G)) := by
        rw [hs1, if_pos rfl]
      have hw2 := write_eq (l := (d ++ (c :: r) ++ A ++ [c]) ++ G) (pos := d.length) (side := side) .null hF1 (by simp [KeyStore.withCells]) (by simp)
      have e2 : ((d ++ (c :: r) ++ A ++ [c]) ++ G).set d.length .null = (d ++ [.null]) ++ r ++ (A ++ [c]) ++ G := by
        simp
      rw [e2] at hw2
      have hs2 := put_withCells hF1 side ((d ++ [.null]) ++ r ++ (A ++ [c]) ++ G)
      obtain ⟨m', e, hr, ht', hj'⟩ := ih _ (T.withCells side ((d ++ [.null]) ++ r ++ (A ++ [c]) ++ G)) (d ++ [.null]) (A ++ [c]) G
        (by rw [hs2, if_pos rfl, withCells_withCells])
        (by simp [KeyStore.withCells]) (by simp; omega) (by simp; omega) (by simpa using hG)
      rw [List.length_append] at e
      refine ⟨m', ?_, ⟨hr.1, hr.2, hr.3⟩, ?_, ?_⟩
      · rw [← e]
        exact moveLoop_succ side base r.length d.length hT (by rw [htl]; simp [readCell]) hw1 hw2
      · rw [ht', withCells_withCells]; simp [List.replicate_succ]
      · intro j h1
        rw [hj' j h1, hs2, if_neg h1, hs1, if_neg h1]

theorem realloc_eq (l : List (Option Nat)) (n : Nat) :
    clear_realloc (cellsOf l) (l.length + n) = some (l.map Cell.of ++ List.replicate n .garbage) := by
  unfold cellsOf
  split
  · subst_vars; simp [clear_realloc]
  · simp only [clear_realloc, List.length_map]
    rw [List.take_of_length_le (by simp), Nat.add_sub_cancel_left]

/-- The store with one list replaced. -/
def KeyStore.withList (ks : KeyStore) (side : Side) (l : List (Option Nat)) : KeyStore := fun x => if x = side then blockOf l else ks x

theorem withList_same {ks : KeyStore} {side : Side} {l : List (Option Nat)} (h : ks side = blockOf l) : ks.withList side l = ks := by
  funext x
  unfold KeyStore.withList
  split
  · subst_vars; exact h.symm
  · rfl

theorem cellsOf_ne {l : List (Option Nat)} (h : l ≠ []) : cellsOf l = some (l.map Cell.of) := if_neg h

theorem put_put (m : KsMem) (id : Nat) (side : Side) (b b' : Block) : (m.put id side b).put id side b' = m.put id side b' := by
  unfold KsMem.put
  congr 1
  funext i
  by_cases h : i = id
  · simp only [h, if_true, Option.map_map]
    congr 1
    funext ks x
    simp only [Function.comp]
    split <;> rfl
  · simp [h]

/-- keylib/keystore.c:53-58 and 63-68: the end of `appendSide`. -/
def appendEnd (t f : Nat) (side : Side) (m : KsMem) : Option KsMem := do
  let T ← m.stores t
  let F ← m.stores f
  some (m.put t side ⟨(T side).num + (F side).num, (T side).cells⟩)

theorem appendSide_unfold {t f : Nat} (side : Side) {m : KsMem} {T F : KeyStore} (hT : m.stores t = some T) (hF : m.stores f = some F) :
    appendSide t f side m = if (F side).num > 0 then
      (moveLoop t f side (T side).num (F side).num 0 (m.put t side ⟨(T side).num, clear_realloc (T side).cells ((T side).num + (F side).num)⟩)) >>= appendEnd t f side
    else some m := by
  unfold appendSide
  rw [hT]
  show (m.stores f >>= _) = _
  rw [hF]
  rfl

theorem appendEnd_eq {t f : Nat} (side : Side) {m : KsMem} {T F : KeyStore} (hT : m.stores t = some T) (hF : m.stores f = some F) :
    appendEnd t f side m = some (m.put t side ⟨(T side).num + (F side).num, (T side).cells⟩) := by
  unfold appendEnd
  rw [hT]
  show (m.stores f >>= _) = _
  rw [hF]
  rfl

theorem appendSide_ne {t f : Nat} (hne : t ≠ f) (side : Side) (m : KsMem) (T F : KeyStore) (tl fl : List (Option Nat))
    (hT : m.stores t = some T) (hF : m.stores f = some F) (htl : T side = blockOf tl) (hfl : F side = blockOf fl) :
    ∃ m', appendSide t f side m = some m' ∧ SameRest m m' ∧
      m'.stores t = some (T.withList side (tl ++ fl)) ∧ m'.stores f = some (F.withList side (List.replicate fl.length none)) ∧
      ∀ j, j ≠ t → j ≠ f → m'.stores j = m.stores j := by
  have hun := appendSide_unfold side hT hF
  by_cases h0 : fl = []
  · subst h0
    refine ⟨m, ?_, ⟨rfl, rfl, rfl⟩, ?_, ?_, fun _ _ _ => rfl⟩
    · rw [hun, hfl]; rfl
    · rw [List.append_nil, withList_same htl, hT]
    · rw [withList_same (by rw [hfl]; rfl), hF]
  · have hpos : (F side).num > 0 := by
      rw [hfl]; exact List.length_pos_iff.2 h0
    rw [hun, if_pos hpos]
    have hnum : (F side).num = fl.length := by rw [hfl]; rfl
    have htn : (T side).num = tl.length := by rw [htl]; rfl
    have htc : (T side).cells = cellsOf tl := by rw [htl]; rfl
    have hfc : (F side).cells = some (fl.map Cell.of) := by rw [hfl]; exact cellsOf_ne h0
    rw [hnum, htn, htc, realloc_eq]
    have hs1 := put_withCells hT side (tl.map Cell.of ++ List.replicate fl.length .garbage)
    rw [htn] at hs1
    obtain ⟨m', e, hr, ht', hf', hj'⟩ := moveLoop_ne hne side tl.length (fl.map Cell.of) (m.put t side ⟨tl.length, some (tl.map Cell.of ++ List.replicate fl.length .garbage)⟩)
      (T.withCells side (tl.map Cell.of ++ List.replicate fl.length .garbage)) F [] (tl.map Cell.of) (List.replicate fl.length .garbage)
      (by rw [hs1, if_pos rfl]) (by rw [hs1, if_neg (Ne.symm hne), hF]) (by simp [KeyStore.withCells]) (by simpa using hfc) (by simp) (by simp)
    simp only [List.length_map, List.length_nil] at e
    rw [e]
    show ∃ m'', appendEnd t f side m' = some m'' ∧ _
    rw [appendEnd_eq side ht' hf']
    refine ⟨_, rfl, ⟨hr.1, hr.2, hr.3⟩, ?_, ?_, ?_⟩
    · rw [put_stores, if_pos rfl, ht', Option.map_some]
      congr 1
      funext x
      unfold KeyStore.withList KeyStore.withCells
      by_cases hx : x = side
      · simp only [hx, if_true, htn, hnum, blockOf, List.length_append]
        rw [cellsOf_ne (by simp [h0]), List.map_append]
      · simp only [hx, if_false]
    · rw [put_stores, if_neg (Ne.symm hne), hf']
      congr 1
      funext x
      unfold KeyStore.withList KeyStore.withCells
      by_cases hx : x = side
      · simp only [hx, if_true, hnum, blockOf, List.length_replicate]
        rw [cellsOf_ne (by simpa using h0)]
        simp [Cell.of]
      · simp only [hx, if_false]
    · intro j h1 h2
      rw [put_stores, if_neg h1, hj' j h1 h2, hs1, if_neg h1]

theorem appendSide_self {t : Nat} (side : Side) (m : KsMem) (T : KeyStore) (tl : List (Option Nat))
    (hT : m.stores t = some T) (htl : T side = blockOf tl) :
    ∃ m', appendSide t t side m = some m' ∧ SameRest m m' ∧
      m'.stores t = some (T.withList side (List.replicate tl.length none ++ tl)) ∧ ∀ j, j ≠ t → m'.stores j = m.stores j := by
  have hun := appendSide_unfold side hT hT
  by_cases h0 : tl = []
  · subst h0
    refine ⟨m, ?_, ⟨rfl, rfl, rfl⟩, ?_, fun _ _ => rfl⟩
    · rw [hun, htl]; rfl
    · rw [withList_same (by rw [htl]; rfl), hT]
  · have hpos : (T side).num > 0 := by
      rw [htl]; exact List.length_pos_iff.2 h0
    rw [hun, if_pos hpos]
    have htn : (T side).num = tl.length := by rw [htl]; rfl
    have htc : (T side).cells = cellsOf tl := by rw [htl]; rfl
    rw [htn, htc, realloc_eq]
    have hs1 := put_withCells hT side (tl.map Cell.of ++ List.replicate tl.length .garbage)
    rw [htn] at hs1
    obtain ⟨m', e, hr, ht', hj'⟩ := moveLoop_self side tl.length (tl.map Cell.of) (m.put t side ⟨tl.length, some (tl.map Cell.of ++ List.replicate tl.length .garbage)⟩)
      (T.withCells side (tl.map Cell.of ++ List.replicate tl.length .garbage)) [] [] (List.replicate tl.length .garbage)
      (by rw [hs1, if_pos rfl]) (by simp [KeyStore.withCells]) (by simp) (by simp) (by simp)
    simp only [List.length_map, List.length_nil] at e
    rw [e]
    show ∃ m'', appendEnd t t side m' = some m'' ∧ _
    rw [appendEnd_eq side ht' ht']
    refine ⟨_, rfl, ⟨hr.1, hr.2, hr.3⟩, ?_, ?_⟩
    · rw [put_stores, if_pos rfl, ht', Option.map_some]
      congr 1
      funext x
      unfold KeyStore.withList KeyStore.withCells
      by_cases hx : x = side
      · simp only [hx, if_true, htn, blockOf, List.length_append, List.length_replicate]
        rw [cellsOf_ne (by simp [h0]), List.map_append]
        simp [Cell.of]
      · simp only [hx, if_false]
    · intro j h1
      rw [put_stores, if_neg h1, hj' j h1, hs1, if_neg h1]

/-- A store that holds lists. -/
def storeOf (v : Side → List (Option Nat)) : KeyStore := fun side => blockOf (v side)

theorem append_ne {t f : Nat} (hne : t ≠ f) (m : KsMem) (T F : Side → List (Option Nat))
    (hT : m.stores t = some (storeOf T)) (hF : m.stores f = some (storeOf F)) :
    ∃ m', KeyStoreAppend t f m = some m' ∧ SameRest m m' ∧
      m'.stores t = some (storeOf fun x => T x ++ F x) ∧ m'.stores f = some (storeOf fun x => List.replicate (F x).length none) ∧
      ∀ j, j ≠ t → j ≠ f → m'.stores j = m.stores j := by
  obtain ⟨m1, e1, r1, t1, f1, j1⟩ := appendSide_ne hne .keys m _ _ (T .keys) (F .keys) hT hF rfl rfl
  obtain ⟨m2, e2, r2, t2, f2, j2⟩ := appendSide_ne hne .certs m1 _ _ (T .certs) (F .certs) t1 f1 rfl rfl
  refine ⟨m2, ?_, ⟨r2.1.trans r1.1, r2.2.trans r1.2, r2.3.trans r1.3⟩, ?_, ?_, ?_⟩
  · unfold KeyStoreAppend
    rw [e1]
    exact e2
  · rw [t2]; congr 1; funext x; cases x <;> rfl
  · rw [f2]; congr 1; funext x; cases x <;> rfl
  · intro j h1 h2
    rw [j2 j h1 h2, j1 j h1 h2]

theorem append_self {t : Nat} (m : KsMem) (T : Side → List (Option Nat)) (hT : m.stores t = some (storeOf T)) :
    ∃ m', KeyStoreAppend t t m = some m' ∧ SameRest m m' ∧
      m'.stores t = some (storeOf fun x => List.replicate (T x).length none ++ T x) ∧ ∀ j, j ≠ t → m'.stores j = m.stores j := by
  obtain ⟨m1, e1, r1, t1, j1⟩ := appendSide_self .keys m _ (T .keys) hT rfl
  obtain ⟨m2, e2, r2, t2, j2⟩ := appendSide_self .certs m1 _ (T .certs) t1 rfl
  refine ⟨m2, ?_, ⟨r2.1.trans r1.1, r2.2.trans r1.2, r2.3.trans r1.3⟩, ?_, ?_⟩
  · unfold KeyStoreAppend
    rw [e1]
    exact e2
  · rw [t2]; congr 1; funext x; cases x <;> rfl
  · intro j h1
    rw [j2 j h1, j1 j h1]

theorem freeLoop_eq (side : Side) (r : List (Option Nat)) (d : List Cell) (m : KsMem)
    (hl : ∀ (i a : Nat), r[i]? = some (some a) → m.objs a = some side)
    (hu : ∀ (i j a : Nat), r[i]? = some (some a) → r[j]? = some (some a) → i = j) :
    freeLoop side (some (d ++ r.map Cell.of)) r.length d.length m =
      some { m with objs := fun a => if some a ∈ r then none else m.objs a } := by
  induction r generalizing d m with
  | nil => simp [freeLoop]
  | cons c r ih =>
    have hread : readCell (some (d ++ (c :: r).map Cell.of)) d.length = some (Cell.of c) := by simp [readCell]
    show (readCell _ d.length >>= _) = _
    rw [hread]
    have hd : d ++ (c :: r).map Cell.of = (d ++ [Cell.of c]) ++ r.map Cell.of := by simp
    have hlen : d.length + 1 = (d ++ [Cell.of c]).length := by simp
    have hu' : ∀ (i j a : Nat), r[i]? = some (some a) → r[j]? = some (some a) → i = j := by
      intro i j a h1 h2
      have := hu (i + 1) (j + 1) a (by simpa using h1) (by simpa using h2)
      omega
    cases c with
    | none =>
      show freeLoop side _ r.length (d.length + 1) m = _
      rw [hd, hlen, ih _ _ (fun i a h => hl (i + 1) a (by simpa using h)) hu']
      congr 2
      funext a
      simp
    | some a =>
      have ha := hl 0 a rfl
      show (m.freeObj side (.ptr a) >>= _) = _
      simp only [KsMem.freeObj, if_pos ha]
      show freeLoop side _ r.length (d.length + 1) _ = _
      have hnot : some a ∉ r := by
        intro hm
        obtain ⟨i, hi, he⟩ := List.mem_iff_getElem.1 hm
        have := hu 0 (i + 1) a rfl (by simp [List.getElem?_eq_getElem hi, he])
        omega
      rw [hd, hlen, ih]
      · congr 2
        funext b
        by_cases hb : b = a
        · subst hb; simp
        · simp [hb]
      · intro i b h
        have := hl (i + 1) b (by simpa using h)
        show (if b = a then none else m.objs b) = _
        rw [if_neg, this]
        rintro rfl
        exact hnot (List.mem_of_getElem? h)
      · exact hu'

theorem freeSide_eq (side : Side) (l : List (Option Nat)) (m : KsMem)
    (hl : ∀ (i a : Nat), l[i]? = some (some a) → m.objs a = some side)
    (hu : ∀ (i j a : Nat), l[i]? = some (some a) → l[j]? = some (some a) → i = j) :
    freeSide side (blockOf l) m = some { m with objs := fun a => if some a ∈ l then none else m.objs a } := by
  unfold freeSide blockOf cellsOf
  by_cases h0 : l = []
  · subst h0; simp
  · simp only [h0, if_false]
    exact freeLoop_eq side l [] m hl hu

/-- The memory holds the shelves. -/
structure Holds (m : KsMem) (s : Shelves) : Prop where
  stores : ∀ i, m.stores i = (s.store i).map storeOf
  next : m.nextStore = s.next
  nextObj : m.nextObj = s.nextObj
  freshStore : ∀ i, s.next ≤ i → s.store i = none
  freshObj : ∀ a, s.nextObj ≤ a → m.objs a = none
  own : ∀ a side p, s.At a side p → m.objs a = some side
  uniq : ∀ a side p q, s.At a side p → s.At a side q → p = q

/-- Nothing is freed. -/
def Kept (m m' : KsMem) : Prop := ∀ a side, m.objs a = some side → m'.objs a = some side

/-- Nothing is lost. -/
def NoLeak (m : KsMem) (s : Shelves) : Prop := ∀ a side, m.objs a = some side → ∃ p, s.At a side p

theorem boot_holds : Holds .boot .boot :=
  ⟨fun _ => rfl, rfl, rfl, fun _ _ => rfl, fun _ _ => rfl,
    fun a side p h => (by cases p with
      | hand => cases h
      | cell id x pos => have := h.2; simp [Shelves.list, Shelves.boot] at this),
    fun a side p q h => (by cases p with
      | hand => cases h
      | cell id x pos => have := h.2; simp [Shelves.list, Shelves.boot] at this)⟩

theorem list_eq {s : Shelves} {id : Nat} {v : Side → List (Option Nat)} (h : s.store id = some v) (side : Side) :
    s.list id side = v side := by simp [Shelves.list, h]

theorem list_none {s : Shelves} {id : Nat} (h : s.store id = none) (side : Side) : s.list id side = [] := by
  simp [Shelves.list, h]

theorem holds_store {m : KsMem} {s : Shelves} (H : Holds m s) {id : Nat} {v : Side → List (Option Nat)}
    (h : s.store id = some v) : m.stores id = some (storeOf v) := by rw [H.stores, h]; rfl

theorem make_holds {m : KsMem} {s : Shelves} (H : Holds m s) (side : Side) :
    ∃ m', m.step (.make side) = some m' ∧ Holds m' (s.step (.make side)) ∧ Kept m m' ∧ (NoLeak m s → NoLeak m' (s.step (.make side))) := by
  have hnew : ∀ x p, ¬ s.At m.nextObj x p := by
    intro x p h
    have := H.own _ _ _ h
    rw [H.freshObj _ (Nat.le_of_eq H.nextObj.symm)] at this
    cases this
  have hat : ∀ a x p, (s.step (.make side)).At a x p ↔ (a = s.nextObj ∧ x = side ∧ p = .hand) ∨ (a ≠ s.nextObj ∧ s.At a x p) := by
    intro a x p
    cases p with
    | hand =>
      show (if a = s.nextObj then some side else s.hand a) = some x ↔ _
      by_cases h : a = s.nextObj
      · simp [h, eq_comm]
      · simp [h, Shelves.At]
    | cell id y pos =>
      show s.At a x (.cell id y pos) ↔ _
      by_cases h : a = s.nextObj
      · subst h
        have := hnew x (.cell id y pos)
        rw [H.nextObj] at this
        simp [this]
      · simp [h]
  refine ⟨_, rfl, ⟨H.stores, H.next, congrArg (· + 1) H.nextObj, H.freshStore, ?_, ?_, ?_⟩, fun a x h => ?_, ?_⟩
  rotate_left 3
  · show (if a = m.nextObj then some side else m.objs a) = some x
    rw [if_neg, h]
    rintro rfl
    rw [H.freshObj _ (Nat.le_of_eq H.nextObj.symm)] at h
    cases h
  rotate_left 1
  · intro a ha
    have ha : s.nextObj + 1 ≤ a := ha
    show (if a = m.nextObj then some side else m.objs a) = none
    rw [if_neg (by rw [H.nextObj]; omega), H.freshObj a (by omega)]
  · intro a x p h
    show (if a = m.nextObj then some side else m.objs a) = some x
    rw [H.nextObj]
    rcases (hat a x p).1 h with ⟨h1, h2, _⟩ | ⟨h1, h2⟩
    · simp [h1, h2]
    · rw [if_neg h1, H.own _ _ _ h2]
  · intro a x p q h1 h2
    rcases (hat a x p).1 h1 with ⟨h1, h2', h3⟩ | ⟨h1, h2'⟩ <;> rcases (hat a x q).1 h2 with ⟨h4, h5, h6⟩ | ⟨h4, h5⟩
    · rw [h3, h6]
    · exact absurd h1 h4
    · exact absurd h4 h1
    · exact H.uniq _ _ _ _ h2' h5
  · intro L a x h
    have h : (if a = m.nextObj then some side else m.objs a) = some x := h
    rw [H.nextObj] at h
    by_cases ha : a = s.nextObj
    · rw [if_pos ha] at h
      exact ⟨.hand, (hat _ _ _).2 (Or.inl ⟨ha, by cases h; rfl, rfl⟩)⟩
    · rw [if_neg ha] at h
      obtain ⟨p, hp⟩ := L a x h
      exact ⟨p, (hat _ _ _).2 (Or.inr ⟨ha, hp⟩)⟩

theorem replicate_none_get {n i a : Nat} : (List.replicate n (none : Option Nat))[i]? ≠ some (some a) := by
  rw [List.getElem?_replicate]
  split <;> simp

theorem new_holds {m : KsMem} {s : Shelves} (H : Holds m s) (k c : Nat) :
    ∃ m', m.step (.new k c) = some m' ∧ Holds m' (s.step (.new k c)) ∧ Kept m m' ∧ (NoLeak m s → NoLeak m' (s.step (.new k c))) := by
  have hat : ∀ a x p, (s.step (.new k c)).At a x p ↔ s.At a x p := by
    intro a x p
    cases p with
    | hand => rfl
    | cell id y pos =>
      show (y = x ∧ ((s.step (.new k c)).list id x)[pos]? = some (some a)) ↔ (y = x ∧ (s.list id x)[pos]? = some (some a))
      by_cases h : id = s.next
      · subst h
        rw [list_none (H.freshStore _ (Nat.le_refl _))]
        have : (s.step (.new k c)).list s.next x = match x with | .keys => List.replicate k none | .certs => List.replicate c none := by
          simp only [Shelves.list, Shelves.step, if_true]
          cases x <;> rfl
        rw [this]
        cases x <;> simp [replicate_none_get]
      · have : (s.step (.new k c)).list id x = s.list id x := by simp [Shelves.list, Shelves.step, h]
        rw [this]
  refine ⟨{ m with stores := fun i => if i = m.nextStore then some (mkStore (blockOf (List.replicate k none)) (blockOf (List.replicate c none))) else m.stores i, nextStore := m.nextStore + 1 }, by simp only [KsMem.step, KeyStoreNew, newBlock_eq]; rfl, ⟨?_, congrArg (· + 1) H.next, H.nextObj, ?_, H.freshObj, ?_, ?_⟩, fun _ _ h => h, ?_⟩
  · intro i
    show (if i = m.nextStore then _ else m.stores i) = Option.map storeOf (if i = s.next then _ else s.store i)
    rw [H.next]
    split
    · simp only [Option.map_some]
      congr 1
      funext x
      cases x <;> rfl
    · exact H.stores i
  · intro i hi
    have hi : s.next + 1 ≤ i := hi
    show (if i = s.next then _ else s.store i) = none
    rw [if_neg (by omega), H.freshStore i (by omega)]
  · intro a x p h
    exact H.own _ _ _ ((hat _ _ _).1 h)
  · intro a x p q h1 h2
    exact H.uniq _ _ _ _ ((hat _ _ _).1 h1) ((hat _ _ _).1 h2)
  · intro L a x h
    obtain ⟨p, hp⟩ := L a x h
    exact ⟨p, (hat _ _ _).2 hp⟩

theorem set_holds {m : KsMem} {s : Shelves} (H : Holds m s) (side : Side) (id pos : Nat) (obj : Option Nat)
    (hp : pos < (s.list id side).length) (ho : ∀ a, obj = some a → s.hand a = some side) :
    ∃ m', m.step (.set side id pos obj) = some m' ∧ Holds m' (s.step (.set side id pos obj)) ∧ Kept m m' ∧
      ((s.list id side)[pos]? = some none → NoLeak m s → NoLeak m' (s.step (.set side id pos obj))) := by
  obtain ⟨v, hv⟩ : ∃ v, s.store id = some v := by
    cases h : s.store id with
    | none => rw [list_none h] at hp; simp at hp
    | some v => exact ⟨v, rfl⟩
  rw [list_eq hv] at hp
  have hm := holds_store H hv
  have hlist : ∀ i x, (s.step (.set side id pos obj)).list i x = if i = id ∧ x = side then (s.list i x).set pos obj else s.list i x := by
    intro i x
    by_cases hi : i = id
    · subst hi
      by_cases hx : x = side <;> simp [Shelves.list, Shelves.step, hv, hx]
    · simp [Shelves.list, Shelves.step, hi]
  have hat : ∀ a x p, (s.step (.set side id pos obj)).At a x p ↔
      (obj = some a ∧ x = side ∧ p = .cell id side pos) ∨ (obj ≠ some a ∧ p ≠ .cell id side pos ∧ s.At a x p) := by
    intro a x p
    cases p with
    | hand =>
      show (if some a = obj then none else s.hand a) = some x ↔ _
      by_cases h : some a = obj
      · simp [h]
      · simp [h, Ne.symm h, Shelves.At]
    | cell i y q =>
      show (y = x ∧ ((s.step (.set side id pos obj)).list i x)[q]? = some (some a)) ↔ _
      rw [hlist]
      by_cases h : obj = some a
      · have hno : ∀ z i y q, ¬ s.At a z (.cell i y q) := by
          intro z i y q hc
          have h1 := ho a h
          have h2 := H.own _ _ _ hc
          have h3 := H.own a side .hand h1
          rw [h2] at h3
          cases h3
          have := H.uniq a side .hand _ h1 hc
          cases this
        have hno' : ∀ i q, (s.list i x)[q]? ≠ some (some a) := fun i q hc => hno x i x q ⟨rfl, hc⟩
        by_cases hi : i = id ∧ x = side
        · obtain ⟨rfl, rfl⟩ := hi
          rw [if_pos ⟨rfl, rfl⟩, List.getElem?_set, list_eq hv]
          by_cases hq : pos = q
          · subst hq
            simp [hp, h]
          · have := hno' i q
            rw [list_eq hv] at this
            simp [hq, Ne.symm hq, this, h]
        · rw [if_neg hi]
          have := hno' i q
          simp only [this, h, and_false, ne_eq, not_true, false_and, or_false, true_and, false_iff]
          rintro ⟨h1, h2⟩
          cases h2
          exact hi ⟨rfl, h1⟩
      · simp only [h, ne_eq, not_false_eq_true, true_and, false_and, false_or]
        by_cases hi : i = id ∧ x = side
        · obtain ⟨rfl, rfl⟩ := hi
          rw [if_pos ⟨rfl, rfl⟩, List.getElem?_set]
          by_cases hq : pos = q
          · subst hq
            rw [list_eq hv]
            simp only [hp, if_true]
            constructor
            · rintro ⟨_, h2⟩
              exact absurd (Option.some.inj h2) h
            · rintro ⟨h1, h2, _⟩
              exact absurd (by rw [h2]) h1
          · simp only [hq, if_false]
            constructor
            · rintro ⟨h1, h2⟩
              exact ⟨by intro hc; cases hc; exact hq rfl, h1, h2⟩
            · rintro ⟨_, h1, h2⟩
              exact ⟨h1, h2⟩
        · rw [if_neg hi]
          constructor
          · rintro ⟨h1, h2⟩
            exact ⟨by intro hc; cases hc; exact hi ⟨rfl, h1.symm⟩, h1, h2⟩
          · rintro ⟨_, h1, h2⟩
            exact ⟨h1, h2⟩
  obtain ⟨m', e, hr, hs, hj⟩ : ∃ m', m.step (.set side id pos obj) = some m' ∧ SameRest m m' ∧
      m'.stores id = some (storeOf fun x => if x = side then (v x).set pos obj else v x) ∧ ∀ j, j ≠ id → m'.stores j = m.stores j := by
    have hcells : (storeOf v side).cells = some ((v side).map Cell.of) := by
      simp only [storeOf, blockOf]
      exact cellsOf_ne (by intro hc; rw [hc] at hp; simp at hp)
    have hw : writeCell (storeOf v side).cells pos (Cell.of obj) = some (((v side).set pos obj).map Cell.of) := by
      rw [hcells]
      simp [writeCell, hp, List.map_set]
    refine ⟨m.put id side ⟨(storeOf v side).num, some (((v side).set pos obj).map Cell.of)⟩, by simp only [KsMem.step, KeyStoreSet, KsMem.write, hm]; show (writeCell (storeOf v side).cells pos (Cell.of obj) >>= _) = _; rw [hw]; rfl, ⟨rfl, rfl, rfl⟩, ?_, ?_⟩
    · simp only [KsMem.put, if_true, hm, Option.map_some]
      congr 1
      funext x
      by_cases hx : x = side
      · subst hx
        simp only [if_true, storeOf, blockOf, List.length_set]
        have hne : (v x).set pos obj ≠ [] := by
          intro hc
          have : ((v x).set pos obj).length = 0 := by rw [hc]; rfl
          rw [List.length_set] at this
          omega
        rw [cellsOf_ne hne]
      · simp [hx, storeOf]
    · intro j hj
      simp [KsMem.put, hj]
  refine ⟨m', e, ⟨?_, ?_, ?_, ?_, ?_, ?_, ?_⟩, fun a x h => by rw [hr.2]; exact h, ?_⟩
  · intro i
    by_cases hi : i = id
    · subst hi
      rw [hs]
      simp [Shelves.step, hv]
    · rw [hj i hi, H.stores]
      simp [Shelves.step, hi]
  · exact hr.1.trans H.next
  · exact hr.3.trans H.nextObj
  · intro i hi
    have := H.freshStore i hi
    simp [Shelves.step, this]
  · intro a ha
    rw [hr.2]
    exact H.freshObj a ha
  · intro a x p h
    rw [hr.2]
    rcases (hat _ _ _).1 h with ⟨h1, h2, _⟩ | ⟨_, _, h2⟩
    · subst h2
      exact H.own a _ .hand (ho a h1)
    · exact H.own _ _ _ h2
  · intro a x p q h1 h2
    rcases (hat _ _ _).1 h1 with ⟨a1, a2, a3⟩ | ⟨a1, a2, a3⟩ <;> rcases (hat _ _ _).1 h2 with ⟨b1, b2, b3⟩ | ⟨b1, b2, b3⟩
    · rw [a3, b3]
    · exact absurd a1 b1
    · exact absurd b1 a1
    · exact H.uniq _ _ _ _ a3 b3
  · intro hempty L a x h
    rw [hr.2] at h
    obtain ⟨p, hp'⟩ := L a x h
    by_cases hob : obj = some a
    · have h3 := H.own a side .hand (ho a hob)
      rw [h] at h3
      cases h3
      exact ⟨.cell id _ pos, (hat _ _ _).2 (Or.inl ⟨hob, rfl, rfl⟩)⟩
    · refine ⟨p, (hat _ _ _).2 (Or.inr ⟨hob, ?_, hp'⟩)⟩
      rintro rfl
      have := hp'.2
      rw [← hp'.1, hempty] at this
      cases this

/-- Where an object came from when a store was appended to another. -/
def origin (s : Shelves) (t f : Nat) : Place → Place
  | .hand => .hand
  | .cell i x pos => if i = t ∧ (s.list t x).length ≤ pos then .cell f x (pos - (s.list t x).length) else .cell i x pos

theorem append_at {s : Shelves} {t f : Nat} {T F : Side → List (Option Nat)} (hT : s.store t = some T) (hF : s.store f = some F)
    (a : Nat) (x : Side) (p : Place) : (s.step (.append t f)).At a x p →
      s.At a x (origin s t f p) ∧ ∀ i y pos, p = .cell i y pos → (i = t ∧ (s.list t y).length ≤ pos) ∨ (i ≠ f ∧ (i = t → pos < (s.list t y).length)) := by
  cases p with
  | hand => exact fun h => ⟨h, by intro i y pos hc; cases hc⟩
  | cell i y pos =>
    rintro ⟨rfl, h⟩
    have hlist : (s.step (.append t f)).list i y = if i = t then (if t = f then List.replicate (T y).length none else T y) ++ F y
        else if i = f then List.replicate (F y).length none else s.list i y := by
      by_cases hi : i = t
      · subst hi
        simp only [Shelves.list, Shelves.step, if_true, hT, Option.map_some, hF]
      · by_cases hf : i = f
        · subst hf
          simp [Shelves.list, Shelves.step, hi, hF]
        · simp [Shelves.list, Shelves.step, hi, hf]
    rw [hlist] at h
    have hlt := list_eq hT y
    have hlf := list_eq hF y
    by_cases hi : i = t
    · subst hi
      rw [if_pos rfl] at h
      by_cases hp : (T y).length ≤ pos
      · have hl : (if i = f then List.replicate (T y).length none else T y).length = (T y).length := by split <;> simp
        rw [List.getElem?_append_right (by rw [hl]; exact hp), hl] at h
        have ho : origin s i f (.cell i y pos) = .cell f y (pos - (T y).length) := by
          show (if i = i ∧ (s.list i y).length ≤ pos then _ else _) = _
          rw [hlt, if_pos ⟨rfl, hp⟩]
        rw [ho]
        refine ⟨⟨rfl, by rw [hlf]; exact h⟩, ?_⟩
        intro i' y' pos' hc
        cases hc
        exact Or.inl ⟨rfl, by rw [hlt]; exact hp⟩
      · have hl : (if i = f then List.replicate (T y).length none else T y).length = (T y).length := by split <;> simp
        rw [List.getElem?_append_left (by rw [hl]; omega)] at h
        have ho : origin s i f (.cell i y pos) = .cell i y pos := by
          show (if i = i ∧ (s.list i y).length ≤ pos then _ else _) = _
          rw [hlt, if_neg (by simp only [true_and]; exact hp)]
        rw [ho]
        by_cases htf : i = f
        · rw [if_pos htf] at h
          exact absurd h replicate_none_get
        · rw [if_neg htf] at h
          refine ⟨⟨rfl, by rw [hlt]; exact h⟩, ?_⟩
          intro i' y' pos' hc
          cases hc
          exact Or.inr ⟨htf, fun _ => by rw [hlt]; omega⟩
    · rw [if_neg hi] at h
      by_cases hf : i = f
      · rw [if_pos hf] at h
        exact absurd h replicate_none_get
      · rw [if_neg hf] at h
        have ho : origin s t f (.cell i y pos) = .cell i y pos := by
          show (if i = t ∧ (s.list t y).length ≤ pos then _ else _) = _
          rw [if_neg (by simp [hi])]
        rw [ho]
        refine ⟨⟨rfl, h⟩, ?_⟩
        intro i' y' pos' hc
        cases hc
        exact Or.inr ⟨hf, fun h => absurd h hi⟩

theorem append_to {s : Shelves} {t f : Nat} {T F : Side → List (Option Nat)} (hT : s.store t = some T) (hF : s.store f = some F)
    (a : Nat) (x : Side) (p : Place) (h : s.At a x p) : ∃ q, (s.step (.append t f)).At a x q := by
  cases p with
  | hand => exact ⟨.hand, h⟩
  | cell i y pos =>
    obtain ⟨rfl, h⟩ := h
    by_cases hf : i = f
    · subst hf
      refine ⟨.cell t y ((T y).length + pos), rfl, ?_⟩
      rw [list_eq hF] at h
      have : (s.step (.append t i)).list t y = (if t = i then List.replicate (T y).length none else T y) ++ F y := by
        simp only [Shelves.list, Shelves.step, if_true, hT, Option.map_some, hF]
      have hl : (if t = i then List.replicate (T y).length none else T y).length = (T y).length := by split <;> simp
      rw [this, List.getElem?_append_right (by rw [hl]; omega), hl, Nat.add_sub_cancel_left]
      exact h
    · refine ⟨.cell i y pos, rfl, ?_⟩
      by_cases hi : i = t
      · subst hi
        rw [list_eq hT] at h
        have : (s.step (.append i f)).list i y = T y ++ F y := by
          simp only [Shelves.list, Shelves.step, if_true, hT, Option.map_some, hF, hf, if_false]
        rw [this, List.getElem?_append_left]
        · exact h
        · exact (List.getElem?_eq_some_iff.1 h).1
      · have : (s.step (.append t f)).list i y = s.list i y := by simp [Shelves.list, Shelves.step, hi, hf]
        rw [this]
        exact h

theorem append_holds {m : KsMem} {s : Shelves} (H : Holds m s) (t f : Nat) (ht : (s.store t).isSome) (hf : (s.store f).isSome) :
    ∃ m', m.step (.append t f) = some m' ∧ Holds m' (s.step (.append t f)) ∧ Kept m m' ∧ (NoLeak m s → NoLeak m' (s.step (.append t f))) := by
  obtain ⟨T, hT⟩ := Option.isSome_iff_exists.1 ht
  obtain ⟨F, hF⟩ := Option.isSome_iff_exists.1 hf
  obtain ⟨m', e, hr, hs⟩ : ∃ m', KeyStoreAppend t f m = some m' ∧ SameRest m m' ∧
      ∀ i, m'.stores i = ((s.step (.append t f)).store i).map storeOf := by
    by_cases hne : t = f
    · subst hne
      obtain ⟨m', e, hr, h1, h2⟩ := append_self m T (holds_store H hT)
      refine ⟨m', e, hr, fun i => ?_⟩
      by_cases hi : i = t
      · subst hi
        rw [h1]
        simp [Shelves.step, hT, list_eq hT]
      · rw [h2 i hi, H.stores]
        simp [Shelves.step, hi]
    · obtain ⟨m', e, hr, h1, h2, h3⟩ := append_ne hne m T F (holds_store H hT) (holds_store H hF)
      refine ⟨m', e, hr, fun i => ?_⟩
      by_cases hi : i = t
      · subst hi
        rw [h1]
        simp [Shelves.step, hT, list_eq hF, hne]
      · by_cases hi' : i = f
        · subst hi'
          rw [h2]
          simp [Shelves.step, hF, hi]
        · rw [h3 i hi hi', H.stores]
          simp [Shelves.step, hi, hi']
  refine ⟨m', e, ⟨hs, hr.1.trans H.next, hr.3.trans H.nextObj, ?_, ?_, ?_, ?_⟩, fun a x h => by rw [hr.2]; exact h, ?_⟩
  · intro i hi
    have := H.freshStore i hi
    simp [Shelves.step, this]
  · intro a ha
    rw [hr.2]
    exact H.freshObj a ha
  · intro a x p h
    rw [hr.2]
    exact H.own _ _ _ (append_at hT hF a x p h).1
  · intro a x p q h1 h2
    obtain ⟨a1, b1⟩ := append_at hT hF a x p h1
    obtain ⟨a2, b2⟩ := append_at hT hF a x q h2
    have ho := H.uniq _ _ _ _ a1 a2
    cases p with
    | hand =>
      cases q with
      | hand => rfl
      | cell i y pos =>
        exfalso
        simp only [origin] at ho
        split at ho <;> cases ho
    | cell i y pos =>
      cases q with
      | hand =>
        exfalso
        simp only [origin] at ho
        split at ho <;> cases ho
      | cell i' y' pos' =>
        have c1 := b1 i y pos rfl
        have c2 := b2 i' y' pos' rfl
        simp only [origin] at ho
        split at ho <;> rename_i d1 <;> split at ho <;> rename_i d2
        · injection ho with _ h3 h4
          subst h3
          obtain ⟨rfl, d1⟩ := d1
          obtain ⟨rfl, d2⟩ := d2
          congr 1
          omega
        · injection ho with h3 h4 h5
          rcases c2 with c2 | c2
          · exact absurd c2 d2
          · exact absurd h3.symm c2.1
        · injection ho with h3 h4 h5
          rcases c1 with c1 | c1
          · exact absurd c1 d1
          · exact absurd h3 c1.1
        · exact ho
  · intro L a x h
    rw [hr.2] at h
    obtain ⟨p, hp⟩ := L a x h
    exact append_to hT hF a x p hp

open Classical in
theorem free_holds {m : KsMem} {s : Shelves} (H : Holds m s) (id : Nat) (hid : (s.store id).isSome) :
    ∃ m', m.step (.free id) = some m' ∧ Holds m' (s.step (.free id)) ∧
      (∀ a side, m.objs a = some side → m'.objs a = if ∃ pos, s.At a side (.cell id side pos) then none else some side) ∧ (NoLeak m s → NoLeak m' (s.step (.free id))) := by
  obtain ⟨v, hv⟩ := Option.isSome_iff_exists.1 hid
  have hm := holds_store H hv
  have hl : ∀ (x : Side) (i a : Nat), (v x)[i]? = some (some a) → s.At a x (.cell id x i) :=
    fun x i a h => ⟨rfl, by rw [list_eq hv]; exact h⟩
  have hu : ∀ (x : Side) (i j a : Nat), (v x)[i]? = some (some a) → (v x)[j]? = some (some a) → i = j := by
    intro x i j a h1 h2
    have := H.uniq _ _ _ _ (hl x i a h1) (hl x j a h2)
    cases this
    rfl
  have hmem : ∀ (x : Side) (a : Nat), some a ∈ v x ↔ ∃ i, (v x)[i]? = some (some a) := fun x a => List.mem_iff_getElem?
  have e1 := freeSide_eq .keys (v .keys) m (fun i a h => H.own _ _ _ (hl .keys i a h)) (hu .keys)
  have e2 := freeSide_eq .certs (v .certs) { m with objs := fun a => if some a ∈ v .keys then none else m.objs a } (fun i a h => by
    have h2 := H.own _ _ _ (hl .certs i a h)
    show (if some a ∈ v .keys then none else m.objs a) = _
    rw [if_neg, h2]
    intro hc
    obtain ⟨j, hj⟩ := (hmem .keys a).1 hc
    have := H.own _ _ _ (hl .keys j a hj)
    rw [h2] at this
    cases this) (hu .certs)
  have hin : ∀ a x p, s.At a x p → (some a ∈ v .keys ∨ some a ∈ v .certs ↔ ∃ y pos, p = .cell id y pos) := by
    intro a x p h
    have hx : ∀ y, some a ∈ v y → ∃ pos, p = .cell id y pos := by
      intro y hy
      obtain ⟨i, hi⟩ := (hmem y a).1 hy
      have h1 := H.own _ _ _ (hl y i a hi)
      have h2 := H.own _ _ _ h
      rw [h1] at h2
      cases h2
      exact ⟨i, H.uniq _ _ _ _ h (hl _ i a hi)⟩
    constructor
    · rintro (hy | hy)
      · exact ⟨.keys, hx .keys hy⟩
      · exact ⟨.certs, hx .certs hy⟩
    · rintro ⟨y, pos, rfl⟩
      obtain ⟨rfl, h⟩ := h
      rw [list_eq hv] at h
      have := List.mem_of_getElem? h
      cases y
      · exact Or.inl this
      · exact Or.inr this
  have hat : ∀ a x p, (s.step (.free id)).At a x p ↔ s.At a x p ∧ ¬ ∃ y pos, p = .cell id y pos := by
    intro a x p
    cases p with
    | hand => exact ⟨fun h => ⟨h, by rintro ⟨_, _, hc⟩; cases hc⟩, fun h => h.1⟩
    | cell i y pos =>
      by_cases hi : i = id
      · subst hi
        constructor
        · rintro ⟨_, h⟩
          simp [Shelves.list, Shelves.step] at h
        · rintro ⟨_, h⟩
          exact absurd ⟨y, pos, rfl⟩ h
      · have : (s.step (.free id)).list i x = s.list i x := by simp [Shelves.list, Shelves.step, hi]
        show (y = x ∧ ((s.step (.free id)).list i x)[pos]? = some (some a)) ↔ _
        rw [this]
        constructor
        · intro h
          exact ⟨h, by rintro ⟨_, _, hc⟩; cases hc; exact hi rfl⟩
        · exact fun h => h.1
  refine ⟨{ m with
      objs := fun a => if some a ∈ v .certs then none else if some a ∈ v .keys then none else m.objs a,
      stores := fun i => if i = id then none else m.stores i }, ?_, ⟨?_, H.next, H.nextObj, ?_, ?_, ?_, ?_⟩, fun a x h => ?_, ?_⟩
  rotate_left 6
  · have hiff : (some a ∈ v .certs ∨ some a ∈ v .keys) ↔ ∃ pos, s.At a x (.cell id x pos) := by
      constructor
      · have hy : ∀ y, some a ∈ v y → ∃ pos, s.At a x (.cell id x pos) := by
          intro y hy
          obtain ⟨i, hi⟩ := (hmem y a).1 hy
          have h1 := H.own _ _ _ (hl y i a hi)
          rw [h] at h1
          cases h1
          exact ⟨i, hl _ i a hi⟩
        rintro (h1 | h1) <;> exact hy _ h1
      · rintro ⟨pos, _, h1⟩
        rw [list_eq hv] at h1
        have := List.mem_of_getElem? h1
        cases x
        · exact Or.inr this
        · exact Or.inl this
    show (if some a ∈ v .certs then none else if some a ∈ v .keys then none else m.objs a) = _
    by_cases hc : ∃ pos, s.At a x (.cell id x pos)
    · rw [if_pos hc]
      rcases hiff.2 hc with h1 | h1 <;> simp [h1]
    · have := mt hiff.1 hc
      rw [not_or] at this
      rw [if_neg hc, if_neg this.1, if_neg this.2, h]
  rotate_left 1
  · simp only [KsMem.step, KeyStoreFree, hm]
    show (freeSide .keys (blockOf (v .keys)) m >>= fun m => freeSide .certs (blockOf (v .certs)) m >>= _) = _
    rw [e1]
    show (freeSide .certs (blockOf (v .certs)) _ >>= _) = _
    rw [e2]
    rfl
  · intro i
    show (if i = id then none else m.stores i) = Option.map storeOf (if i = id then none else s.store i)
    split
    · rfl
    · exact H.stores i
  · intro i hi
    have := H.freshStore i hi
    simp [Shelves.step, this]
  · intro a ha
    have := H.freshObj a ha
    show (if some a ∈ v .certs then none else if some a ∈ v .keys then none else m.objs a) = none
    simp [this]
  · intro a x p h
    obtain ⟨h1, h2⟩ := (hat _ _ _).1 h
    have := mt (hin a x p h1).1 h2
    rw [not_or] at this
    show (if some a ∈ v .certs then none else if some a ∈ v .keys then none else m.objs a) = some x
    rw [if_neg this.2, if_neg this.1, H.own _ _ _ h1]
  · intro a x p q h1 h2
    exact H.uniq _ _ _ _ ((hat _ _ _).1 h1).1 ((hat _ _ _).1 h2).1
  · intro L a x h
    have h : (if some a ∈ v .certs then none else if some a ∈ v .keys then none else m.objs a) = some x := h
    split at h
    · cases h
    · rename_i n1
      split at h
      · cases h
      · rename_i n2
        obtain ⟨p, hp⟩ := L a x h
        refine ⟨p, (hat _ _ _).2 ⟨hp, ?_⟩⟩
        intro hc
        rcases (hin a x p hp).2 hc with hc | hc
        · exact n2 hc
        · exact n1 hc

open Classical in
theorem step_holds {m : KsMem} {s : Shelves} (H : Holds m s) (op : KsOp) (ha : Allowed s op) :
    ∃ m', m.step op = some m' ∧ Holds m' (s.step op) ∧
      (∀ a side, m.objs a = some side → m'.objs a = if ∃ id pos, op = .free id ∧ s.At a side (.cell id side pos) then none else some side) ∧ (Tidy s op → NoLeak m s → NoLeak m' (s.step op)) := by
  cases op with
  | make side =>
    obtain ⟨m', e, h, k, l⟩ := make_holds H side
    exact ⟨m', e, h, fun a x ha => by rw [k a x ha]; simp, fun _ => l⟩
  | new k c =>
    obtain ⟨m', e, h, k, l⟩ := new_holds H k c
    exact ⟨m', e, h, fun a x ha => by rw [k a x ha]; simp, fun _ => l⟩
  | set side id pos obj =>
    obtain ⟨m', e, h, k, l⟩ := set_holds H side id pos obj ha.1 ha.2
    exact ⟨m', e, h, fun a x ha => by rw [k a x ha]; simp, fun t => l t.2⟩
  | append t f =>
    obtain ⟨m', e, h, k, l⟩ := append_holds H t f ha.1 ha.2
    exact ⟨m', e, h, fun a x ha => by rw [k a x ha]; simp, fun _ => l⟩
  | free id =>
    obtain ⟨m', e, h, k, l⟩ := free_holds H id ha
    refine ⟨m', e, h, fun a x ha => ?_, fun _ => l⟩
    rw [k a x ha]
    simp

theorem run_holds {m : KsMem} {s : Shelves} (H : Holds m s) (ops : List KsOp) (ha : AllAlong Allowed s ops) :
    ∃ m', m.run ops = some m' ∧ Holds m' (s.run ops) ∧ (AllAlong Tidy s ops → NoLeak m s → NoLeak m' (s.run ops)) := by
  induction ops generalizing m s with
  | nil => exact ⟨m, rfl, H, fun _ h => h⟩
  | cons op ops ih =>
    obtain ⟨m1, e1, h1, _, l1⟩ := step_holds H op ha.1
    obtain ⟨m2, e2, h2, l2⟩ := ih h1 ha.2
    refine ⟨m2, ?_, h2, fun t l => l2 t.2 (l1 t.1 l)⟩
    simp only [KsMem.run, e1]
    exact e2

end Dstu
