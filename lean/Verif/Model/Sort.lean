import Verif.Model.Process

/-!
# `sort.Slice`

The pattern-defeating quicksort of the standard library (`pdqsort_func` in sort/zsortfunc.go, Go 1.19 to 1.23; go.mod asks for 1.23), which `processData` calls with a comparison function that is no strict order
(cmd/stayrtr/stayrtr.go:269-298). The slice is a function from indices, of which the first `n` are in the slice: access to any other is a panic. The generator of pseudo-random numbers is a parameter (its shifts are not the same in all versions).
-/

namespace StayRTR.GoSort

variable {α : Type}

/-- What is in the slice (cmd/stayrtr/stayrtr.go:269). -/
abbrev Cells (α : Type) := Nat → α

/-- Two elements exchanged (cmd/stayrtr/stayrtr.go:269). -/
def swapped (d : Cells α) (i j : Nat) : Cells α := fun k => if k = i then d j else if k = j then d i else d k

/-- The slice that is sorted and the comparison of its elements: `lessSwap` (cmd/stayrtr/stayrtr.go:269-298). -/
structure Sorting (α : Type) where
  /-- the length of the slice -/
  n : Nat
  less : α → α → Bool
  /-- `xorshift.Next` -/
  next : BitVec 64 → BitVec 64

namespace Sorting

variable (S : Sorting α)

/-- `data.Less(i, j)`: the comparison function indexes the slice (cmd/stayrtr/stayrtr.go:290-297). -/
def lessAt (d : Cells α) (i j : Nat) : GoRes Bool := if i < S.n ∧ j < S.n then .ok (S.less (d i) (d j)) else .panic

/-- `data.Swap(i, j)`: `reflect.Swapper` (cmd/stayrtr/stayrtr.go:269). -/
def swapAt (d : Cells α) (i j : Nat) : GoRes (Cells α) := if i < S.n ∧ j < S.n then .ok (swapped d i j) else .panic

/-- `for ; j > a && data.Less(j, j-1); j-- { data.Swap(j, j-1) }` (`insertionSort_func`; with `a` = 0 in `partialInsertionSort_func`; cmd/stayrtr/stayrtr.go:269). -/
def sink (a : Nat) : Nat → Cells α → GoRes (Cells α)
  | 0, d => .ok d
  | j + 1, d =>
    if a < j + 1 then
      (S.lessAt d (j + 1) j).bind fun b => if b then (S.swapAt d (j + 1) j).bind fun d => sink a j d else .ok d
    else .ok d

/-- The outer loop of `insertionSort_func`, `k` times from `i` on (cmd/stayrtr/stayrtr.go:269). -/
def insertAll (a : Nat) : Nat → Nat → Cells α → GoRes (Cells α)
  | 0, _, d => .ok d
  | k + 1, i, d => (S.sink a i d).bind fun d => insertAll a k (i + 1) d

/-- `insertionSort_func` (cmd/stayrtr/stayrtr.go:269). -/
def insertionSort (a b : Nat) (d : Cells α) : GoRes (Cells α) := S.insertAll a (b - (a + 1)) (a + 1) d

/-- The larger child of `siftDown_func`, if the node `child` is in the heap (cmd/stayrtr/stayrtr.go:269). -/
def largerChild (hi first child : Nat) (d : Cells α) : GoRes Nat :=
  if child + 1 < hi then (S.lessAt d (first + child) (first + child + 1)).bind fun b => .ok (if b then child + 1 else child) else .ok child

/-- The loop of `siftDown_func`, at most as often as the first argument says (cmd/stayrtr/stayrtr.go:269). -/
def siftDown (hi first : Nat) : Nat → Nat → Cells α → GoRes (Cells α)
  | 0, _, d => .ok d
  | f + 1, root, d =>
    if hi ≤ 2 * root + 1 then .ok d
    else (S.largerChild hi first (2 * root + 1) d).bind fun child =>
      (S.lessAt d (first + root) (first + child)).bind fun b => if b then (S.swapAt d (first + root) (first + child)).bind fun d => siftDown hi first f child d else .ok d

/-- The first loop of `heapSort_func`, from `i` down to 0 (cmd/stayrtr/stayrtr.go:269). -/
def heapify (hi first : Nat) : Nat → Cells α → GoRes (Cells α)
  | 0, d => S.siftDown hi first hi 0 d
  | i + 1, d => (S.siftDown hi first hi (i + 1) d).bind fun d => heapify hi first i d

/-- The second loop of `heapSort_func`, from `i - 1` down to 0 (cmd/stayrtr/stayrtr.go:269). -/
def popAll (first : Nat) : Nat → Cells α → GoRes (Cells α)
  | 0, d => .ok d
  | i + 1, d => (S.swapAt d first (first + i)).bind fun d => (S.siftDown i first i 0 d).bind fun d => popAll first i d

/-- `heapSort_func` (cmd/stayrtr/stayrtr.go:269). -/
def heapSort (a b : Nat) (d : Cells α) : GoRes (Cells α) := (S.heapify (b - a) a ((b - a - 1) / 2) d).bind fun d => S.popAll a (b - a) d

/-- `for i <= j && data.Less(i, a) { i++ }` (`partition_func`; cmd/stayrtr/stayrtr.go:269). -/
def skipLess (a j : Nat) (d : Cells α) : Nat → Nat → GoRes Nat
  | 0, i => .ok i
  | f + 1, i => if i ≤ j then (S.lessAt d i a).bind fun b => if b then skipLess a j d f (i + 1) else .ok i else .ok i

/-- `for i <= j && !data.Less(j, a) { j-- }` (`partition_func`; cmd/stayrtr/stayrtr.go:269). -/
def skipNotLess (a i : Nat) (d : Cells α) : Nat → Nat → GoRes Nat
  | 0, j => .ok j
  | f + 1, j => if i ≤ j then (S.lessAt d j a).bind fun b => if b then .ok j else skipNotLess a i d f (j - 1) else .ok j

/-- The second loop of `partition_func`: the slice and `j` (cmd/stayrtr/stayrtr.go:269). -/
def partLoop (a : Nat) : Nat → Nat → Nat → Cells α → GoRes (Cells α × Nat)
  | 0, _, j, d => .ok (d, j)
  | f + 1, i, j, d =>
    (S.skipLess a j d (j + 1 - i) i).bind fun i => (S.skipNotLess a i d (j + 1 - i) j).bind fun j =>
      if j < i then .ok (d, j) else (S.swapAt d i j).bind fun d => partLoop a f (i + 1) (j - 1) d

/-- `partition_func`: the slice, the place of the pivot, and whether nothing was out of place (cmd/stayrtr/stayrtr.go:269). -/
def partition (a b pivot : Nat) (d : Cells α) : GoRes (Cells α × Nat × Bool) :=
  (S.swapAt d a pivot).bind fun d => (S.skipLess a (b - 1) d (b - (a + 1)) (a + 1)).bind fun i => (S.skipNotLess a i d (b - i) (b - 1)).bind fun j =>
    if j < i then (S.swapAt d j a).bind fun d => .ok (d, j, true)
    else (S.swapAt d i j).bind fun d => (S.partLoop a (b - a) (i + 1) (j - 1) d).bind fun r => (S.swapAt r.1 r.2 a).bind fun d => .ok (d, r.2, false)

/-- `for i <= j && !data.Less(a, i) { i++ }` (`partitionEqual_func`; cmd/stayrtr/stayrtr.go:269). -/
def skipNotMore (a j : Nat) (d : Cells α) : Nat → Nat → GoRes Nat
  | 0, i => .ok i
  | f + 1, i => if i ≤ j then (S.lessAt d a i).bind fun b => if b then .ok i else skipNotMore a j d f (i + 1) else .ok i

/-- `for i <= j && data.Less(a, j) { j-- }` (`partitionEqual_func`; cmd/stayrtr/stayrtr.go:269). -/
def skipMore (a i : Nat) (d : Cells α) : Nat → Nat → GoRes Nat
  | 0, j => .ok j
  | f + 1, j => if i ≤ j then (S.lessAt d a j).bind fun b => if b then skipMore a i d f (j - 1) else .ok j else .ok j

/-- The loop of `partitionEqual_func`: the slice and `i` (cmd/stayrtr/stayrtr.go:269). -/
def equalLoop (a : Nat) : Nat → Nat → Nat → Cells α → GoRes (Cells α × Nat)
  | 0, i, _, d => .ok (d, i)
  | f + 1, i, j, d =>
    (S.skipNotMore a j d (j + 1 - i) i).bind fun i => (S.skipMore a i d (j + 1 - i) j).bind fun j =>
      if j < i then .ok (d, i) else (S.swapAt d i j).bind fun d => equalLoop a f (i + 1) (j - 1) d

/-- `partitionEqual_func` (cmd/stayrtr/stayrtr.go:269). -/
def partitionEqual (a b pivot : Nat) (d : Cells α) : GoRes (Cells α × Nat) := (S.swapAt d a pivot).bind fun d => S.equalLoop a (b - a) (a + 1) (b - 1) d

/-- `for i < b && !data.Less(i, i-1) { i++ }` (`partialInsertionSort_func`; cmd/stayrtr/stayrtr.go:269). -/
def skipOrdered (b : Nat) (d : Cells α) : Nat → Nat → GoRes Nat
  | 0, i => .ok i
  | f + 1, i => if i < b then (S.lessAt d i (i - 1)).bind fun c => if c then .ok i else skipOrdered b d f (i + 1) else .ok i

/-- `for j := i + 1; j < b; j++`: the greater element to the right (`partialInsertionSort_func`; cmd/stayrtr/stayrtr.go:269). -/
def rise (b : Nat) : Nat → Nat → Cells α → GoRes (Cells α)
  | 0, _, d => .ok d
  | f + 1, j, d => if j < b then (S.lessAt d j (j - 1)).bind fun c => if c then (S.swapAt d j (j - 1)).bind fun d => rise b f (j + 1) d else .ok d else .ok d

/-- The loop of `partialInsertionSort_func`: the slice, and whether it is sorted. The smaller element is shifted to the left down to index 1, not only to `a` (cmd/stayrtr/stayrtr.go:269). -/
def partialLoop (a b : Nat) : Nat → Nat → Cells α → GoRes (Cells α × Bool)
  | 0, _, d => .ok (d, false)
  | f + 1, i, d =>
    (S.skipOrdered b d (b - i) i).bind fun i =>
      if i = b then .ok (d, true)
      else if b - a < 50 then .ok (d, false)
      else (S.swapAt d i (i - 1)).bind fun d =>
        (if 2 ≤ i - a then S.sink 0 (i - 1) d else .ok d).bind fun d =>
          (if 2 ≤ b - i then S.rise b (b - (i + 1)) (i + 1) d else .ok d).bind fun d => partialLoop a b f i d

/-- `partialInsertionSort_func` (cmd/stayrtr/stayrtr.go:269). -/
def partialInsertionSort (a b : Nat) (d : Cells α) : GoRes (Cells α × Bool) := S.partialLoop a b 5 (a + 1) d

/-- `bits.Len` (cmd/stayrtr/stayrtr.go:269). -/
def bitsLen (n : Nat) : Nat := if n = 0 then 0 else Nat.log2 n + 1

/-- The place `breakPatterns_func` draws with a random number (cmd/stayrtr/stayrtr.go:269). -/
def drawn (length : Nat) (r : BitVec 64) : Nat :=
  let other := r.toNat % 2 ^ bitsLen length
  if length ≤ other then other - length else other

/-- `breakPatterns_func`: three elements in the middle are exchanged with random ones (cmd/stayrtr/stayrtr.go:269). -/
def breakPatterns (a b : Nat) (d : Cells α) : GoRes (Cells α) :=
  let length := b - a
  if 8 ≤ length then
    let r1 := S.next (BitVec.ofNat 64 length)
    let r2 := S.next r1
    let r3 := S.next r2
    let idx := a + length / 4 * 2 - 1
    (S.swapAt d (idx - 1) (a + drawn length r1)).bind fun d => (S.swapAt d idx (a + drawn length r2)).bind fun d => S.swapAt d (idx + 1) (a + drawn length r3)
  else .ok d

/-- `order2_func`: the two indices in order, and the number of exchanges so far (cmd/stayrtr/stayrtr.go:269). -/
def order2 (d : Cells α) (a b swaps : Nat) : GoRes (Nat × Nat × Nat) := (S.lessAt d b a).bind fun c => .ok (if c then (b, a, swaps + 1) else (a, b, swaps))

/-- `median_func` (cmd/stayrtr/stayrtr.go:269). -/
def median (d : Cells α) (a b c swaps : Nat) : GoRes (Nat × Nat) :=
  (S.order2 d a b swaps).bind fun x => (S.order2 d x.2.1 c x.2.2).bind fun y => (S.order2 d x.1 y.1 y.2.2).bind fun z => .ok (z.2.1, z.2.2)

/-- `sortedHint` (cmd/stayrtr/stayrtr.go:269). -/
inductive Hint where
  | unknown | increasing | decreasing
  deriving DecidableEq, Repr

/-- The hint of `choosePivot_func`, from the number of exchanges (cmd/stayrtr/stayrtr.go:269). -/
def hintOf (swaps : Nat) : Hint := if swaps = 0 then .increasing else if swaps = 12 then .decreasing else .unknown

/-- `choosePivot_func` (cmd/stayrtr/stayrtr.go:269). -/
def choosePivot (a b : Nat) (d : Cells α) : GoRes (Nat × Hint) :=
  let l := b - a
  let i := a + l / 4 * 1
  let j := a + l / 4 * 2
  let k := a + l / 4 * 3
  if 8 ≤ l then
    if 50 ≤ l then
      (S.median d (i - 1) i (i + 1) 0).bind fun x => (S.median d (j - 1) j (j + 1) x.2).bind fun y => (S.median d (k - 1) k (k + 1) y.2).bind fun z =>
        (S.median d x.1 y.1 z.1 z.2).bind fun r => .ok (r.1, hintOf r.2)
    else (S.median d i j k 0).bind fun r => .ok (r.1, hintOf r.2)
  else .ok (j, hintOf 0)

/-- The loop of `reverseRange_func` (cmd/stayrtr/stayrtr.go:269). -/
def reverseLoop : Nat → Nat → Nat → Cells α → GoRes (Cells α)
  | 0, _, _, d => .ok d
  | f + 1, i, j, d => if i < j then (S.swapAt d i j).bind fun d => reverseLoop f (i + 1) (j - 1) d else .ok d

/-- `reverseRange_func` (cmd/stayrtr/stayrtr.go:269). -/
def reverseRange (a b : Nat) (d : Cells α) : GoRes (Cells α) := S.reverseLoop (b - a) a (b - 1) d

/-- The variables of the loop of `pdqsort_func` (cmd/stayrtr/stayrtr.go:269). -/
structure Vars where
  a : Nat
  b : Nat
  limit : Nat
  wasBalanced : Bool
  wasPartitioned : Bool

/-- What `pdqsort_func` does before it chooses a pivot: after an unbalanced step, patterns are broken (cmd/stayrtr/stayrtr.go:269). -/
def unbalanced (v : Vars) (d : Cells α) : GoRes (Cells α × Nat) := if v.wasBalanced then .ok (d, v.limit) else (S.breakPatterns v.a v.b d).bind fun d => .ok (d, v.limit - 1)

/-- The choice of the pivot in `pdqsort_func`; a decreasing range is reversed (cmd/stayrtr/stayrtr.go:269). -/
def oriented (v : Vars) (d : Cells α) : GoRes (Cells α × Nat × Bool) :=
  (S.choosePivot v.a v.b d).bind fun p =>
    match p.2 with
    | .decreasing => (S.reverseRange v.a v.b d).bind fun d => .ok (d, v.b - 1 - (p.1 - v.a), true)
    | .increasing => .ok (d, p.1, true)
    | .unknown => .ok (d, p.1, false)

/-- `pdqsort_func` (cmd/stayrtr/stayrtr.go:269): the first argument is more than the length of the range, and bounds the depth of the calls and the number of steps of the loop, each of which makes the range smaller. -/
def pdqsort : Nat → Vars → Cells α → GoRes (Cells α)
  | 0, _, d => .ok d
  | f + 1, v, d =>
    if v.b - v.a ≤ 12 then S.insertionSort v.a v.b d
    else if v.limit = 0 then S.heapSort v.a v.b d
    else (S.unbalanced v d).bind fun r => (S.oriented v r.1).bind fun p =>
      (if v.wasBalanced && v.wasPartitioned && p.2.2 then S.partialInsertionSort v.a v.b p.1 else .ok (p.1, false)).bind fun q =>
        if q.2 then .ok q.1
        else (if 0 < v.a then (S.lessAt q.1 (v.a - 1) p.2.1).bind fun c => .ok (!c) else .ok false).bind fun equal =>
          if equal then (S.partitionEqual v.a v.b p.2.1 q.1).bind fun m => pdqsort f { v with a := m.2, limit := r.2 } m.1
          else (S.partition v.a v.b p.2.1 q.1).bind fun m =>
            let mid := m.2.1
            if mid - v.a < v.b - mid then (pdqsort f ⟨v.a, mid, r.2, true, true⟩ m.1).bind fun d => pdqsort f ⟨mid + 1, v.b, r.2, decide ((v.b - v.a) / 8 ≤ mid - v.a), m.2.2⟩ d
            else (pdqsort f ⟨mid + 1, v.b, r.2, true, true⟩ m.1).bind fun d => pdqsort f ⟨v.a, mid, r.2, decide ((v.b - v.a) / 8 ≤ v.b - mid), m.2.2⟩ d

end Sorting

/-- `sort.Slice` (cmd/stayrtr/stayrtr.go:269). -/
def sortSlice (less : α → α → Bool) (next : BitVec 64 → BitVec 64) : List α → GoRes (List α)
  | [] => .ok []
  | x :: l =>
    let S : Sorting α := ⟨l.length + 1, less, next⟩
    (S.pdqsort (l.length + 2) ⟨0, l.length + 1, Sorting.bitsLen (l.length + 1), true, true⟩ fun i => (x :: l).getD i x).bind fun d => .ok ((List.range (l.length + 1)).map d)

/-- `xorshift.Next` of Go 1.23 (cmd/stayrtr/stayrtr.go:269). -/
def xorshift (r : BitVec 64) : BitVec 64 :=
  let r := r ^^^ (r <<< 13)
  let r := r ^^^ (r >>> 7)
  r ^^^ (r <<< 17)

end StayRTR.GoSort

namespace StayRTR

/-- The sort of `processData`, cmd/stayrtr/stayrtr.go:269-298; it does not panic (`C149_no_panic`). -/
def goSorter (next : BitVec 64 → BitVec 64) : Sorter := fun l => match GoSort.sortSlice vrpLess next l with
  | .ok l => l
  | _ => l

end StayRTR
