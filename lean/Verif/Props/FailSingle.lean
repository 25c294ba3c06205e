import Verif.Props.FailKeylib

/-! C81 and C82: what one failure alone does to the import of four files, for every call of the import in turn.

The calls that `C81_..._partial` exempts are of the kind `weak`.  Here each of them is shown to be exempt with reason, as far as it occurs in these imports: when it alone fails, there is
undefined behaviour, something stays allocated, or the failure is not reported. -/

namespace Dstu.Props

open Res Fail

/-- Outcome of an import in which call `n` fails, if it is of the kind `kind`, and nothing else; `no` are the numbers of the branches that are not taken. -/
def failing (no : List Nat) (kind : Kind) (n : Nat) : Fate := fun k t => (k ≠ .data ∨ t ∉ no) ∧ ¬ (k = kind ∧ t = n)

/-- The calls of the kind `kind`, numbered below `bound`, that are made and whose failure alone is undefined behaviour. -/
def crashing {α : Type} (f : Res α) (no : List Nat) (kind : Kind) (bound : Nat) : List Nat :=
  (List.range bound).filter fun n => (f (failing no kind n) start).isNone

/-- Those whose failure alone leaves something allocated besides the store that is returned. -/
def leaking (f : Res (Option StorePtr)) (no : List Nat) (kind : Kind) (bound : Nat) : List Nat :=
  (List.range bound).filter fun n => match f (failing no kind n) start with
    | none => false
    | some (r, c) => c.faults = 1 ∧ c.live ≠ optStoreOwn r

/-- Those whose failure alone is not noticed: nothing is lost, and as much is imported as without it. -/
def unnoticed (f : Res (Option StorePtr)) (no : List Nat) (kind : Kind) (bound : Nat) : List Nat :=
  (List.range bound).filter fun n => match f (failing no kind n) start, f (failing no kind bound) start with
    | some (r, c), some (r', _) => c.faults = 1 ∧ c.live = optStoreOwn r ∧ Multiset.card (optStoreOwn r) = Multiset.card (optStoreOwn r')
    | _, _ => false

/-- Those whose failure alone is reported by a failure of the import or, where the file has a second key, by its absence; nothing is lost. -/
def noticed (f : Res (Option StorePtr)) (no : List Nat) (kind : Kind) (bound : Nat) : List Nat :=
  (List.range bound).filter fun n => match f (failing no kind n) start, f (failing no kind bound) start with
    | some (r, c), some (r', _) => c.faults = 1 ∧ c.live = optStoreOwn r ∧ Multiset.card (optStoreOwn r) ≠ Multiset.card (optStoreOwn r')
    | _, _ => false

/-- A Java key store with a key and its certificate. -/
def oneEntry : List EntryShape := [.key (.keyProtector 1 { twoKeys with attrs := 0 }) 1]

/-- A PKCS#8 structure with two keys, whose import needs 55 outcomes.  The three lists hold all calls of the kind `weak` in it: no failure of one of them alone is noticed without damage.
That of call 3 is harmless only because of the order of the attributes. -/
theorem C81_pkcs8_each_refuted :
    crashing (Fail.keysFromPKCS8 twoKeys) [26] .weak 55 = [2, 9, 11, 16, 17, 18, 20, 25, 53, 54] ∧
    leaking (Fail.keysFromPKCS8 twoKeys) [26] .weak 55 = [12, 13, 19, 21, 45, 46, 47, 48, 49, 50] ∧
    unnoticed (Fail.keysFromPKCS8 twoKeys) [26] .weak 55 = [3, 22, 40] ∧
    noticed (Fail.keysFromPKCS8 twoKeys) [26] .weak 55 = [] ∧
    3 ∈ crashing (Fail.keysFromPKCS8 twoKeys) [5, 26] .weak 55 := by
  decide +kernel

/-- The same structure in a Key-6 file. -/
theorem C81_key6_each_refuted :
    crashing (Fail.parseKey6 false twoKeys) [33] .weak 62 = [3, 5, 6, 9, 16, 18, 23, 24, 25, 27, 32, 60, 61] ∧
    leaking (Fail.parseKey6 false twoKeys) [33] .weak 62 = [19, 20, 26, 28, 52, 53, 54, 55, 56, 57] ∧
    unnoticed (Fail.parseKey6 false twoKeys) [33] .weak 62 = [10, 29, 47] ∧
    noticed (Fail.parseKey6 false twoKeys) [33] .weak 62 = [] := by
  decide +kernel

/-- A PKCS#12 file with a key and a certificate. -/
theorem C81_pkcs12_each_refuted :
    crashing (Fail.parsePKCS12 [some [.keyBag [], .certBag []]]) [] .weak 16 = [7, 8, 9] ∧
    leaking (Fail.parsePKCS12 [some [.keyBag [], .certBag []]]) [] .weak 16 = [] ∧
    unnoticed (Fail.parsePKCS12 [some [.keyBag [], .certBag []]]) [] .weak 16 = [] ∧
    noticed (Fail.parsePKCS12 [some [.keyBag [], .certBag []]]) [] .weak 16 = [] := by
  decide +kernel

/-- A Java key store.  Here also failures of other calls leave the converted password of the store allocated: those of objects (`new`, decoders) and of the digests. -/
theorem C81_jks_each_refuted :
    crashing (Fail.parseJKS plainPass plainPass oneEntry) [10, 22] .weak 60 = [2, 11, 12, 14, 23, 26, 28, 29, 34, 40, 41, 44, 45, 46, 49, 50, 51, 52] ∧
    leaking (Fail.parseJKS plainPass plainPass oneEntry) [10, 22] .weak 60 = [3, 15] ∧
    unnoticed (Fail.parseJKS plainPass plainPass oneEntry) [10, 22] .weak 60 = [27, 42, 43] ∧
    noticed (Fail.parseJKS plainPass plainPass oneEntry) [10, 22] .weak 60 = [] ∧
    leaking (Fail.parseJKS plainPass plainPass oneEntry) [10, 22] .object 60 = [13, 25, 48] ∧
    leaking (Fail.parseJKS plainPass plainPass oneEntry) [10, 22] .call 60 = [30, 31, 32, 33, 35, 36, 37, 38] := by
  decide +kernel

/-- C82: in the same Java key store, the failure of any of the four writes to the converted passwords is not noticed. -/
theorem C82_jks_each_refuted :
    unnoticed (Fail.parseJKS plainPass plainPass oneEntry) [10, 22] .call 60 = [5, 8, 17, 20] ∧
    noticed (Fail.parseJKS plainPass plainPass oneEntry) [10, 22] .call 60 = [53, 54, 55, 56, 57] := by
  decide +kernel

/-- Without a failure all four imports succeed and leave nothing but the store. -/
example : (∀ n ∈ [([26], Fail.keysFromPKCS8 twoKeys), ([33], Fail.parseKey6 false twoKeys), ([], Fail.parsePKCS12 [some [.keyBag [], .certBag []]]),
      ([10, 22], Fail.parseJKS plainPass plainPass oneEntry)],
    ∃ r, (n.2 (failing n.1 .weak 100) start).map (fun x => (x.1.isSome, decide (x.2.live = optStoreOwn x.1), x.2.faults)) = some r ∧ r = (true, true, 0)) := by
  simp only [List.mem_cons, List.not_mem_nil, or_false]
  rintro n (rfl | rfl | rfl | rfl) <;> exact ⟨_, by decide +kernel, rfl⟩

end Dstu.Props
