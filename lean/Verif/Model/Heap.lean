import Verif.Model.Store

/-!
# The data of the server as memory shared by goroutines

In `Model/SD.lean` and `Model/Store.lean` records are values. In the code they are pointers in slices, keys have byte slices of their own, and a goroutine that answers a router walks through a slice of the server without any lock
(`SendSDs`, lib/server.go:917-935, after `GetCurrentSDs` or `GetSDsSerialDiff` released `sdlock`, 295-307), while the goroutine of the updates computes the next data (`AddData`, 351-392).

Here memory is a heap of cells, a goroutine is a program of single reads, writes and allocations, and the goroutines interleave.

Simplifications: memory is sequentially consistent; `append` writes in place, after the elements of the slice (if Go moves the array instead, the old one keeps its contents); the list `sdListDiff`, which is touched only under
`sdlock`, is a value; there is one goroutine of updates (`routineUpdate`, cmd/stayrtr/stayrtr.go:539). Memory that nothing points to is not reused. `HashKey` and `GetFlag` of one turn of a loop are one read of the record.
-/

namespace StayRTR

/-- A pointer (lib/server.go:141-142). -/
abbrev Ref := Nat

/-- What a `SendableData` points to: `VRP` (lib/server.go:824-829), `BgpsecKey` with its two byte slices (869-874). -/
inductive HRec where
  | vrp (v : VRP)
  | brk (asn : U32) (pubkey ski : Ref) (flags : U8)
  deriving DecidableEq, Repr

/-- A piece of memory: a record, the array of a `[]byte` (lib/server.go:871-872), the array of a `[]SendableData` (141-142). -/
inductive Cell where
  | record (r : HRec)
  | bytes (b : Bytes)
  | refs (l : List Ref)
  deriving DecidableEq, Repr

/-- Memory: the cells below `next` are in use (lib/server.go:140-144). -/
structure Heap where
  cell : Ref → Cell
  next : Ref

namespace Heap

/-- Memory with nothing in use (lib/server.go:193-216). -/
def empty : Heap := ⟨fun _ => .bytes [], 0⟩

/-- Change of one cell (lib/server.go:861-863, 909-911). -/
def set (h : Heap) (r : Ref) (c : Cell) : Heap := { h with cell := fun x => if x = r then c else h.cell x }

/-- Allocation: the next cell, with its contents (lib/server.go:853-859, 897-907). -/
def alloc (h : Heap) (c : Cell) : Heap := { h.set h.next c with next := h.next + 1 }

end Heap

/-- What a goroutine does to memory, one access at a time, and what it computes (lib/server.go:219-289, 351-392, 917-935). -/
inductive HProg (α : Type) : Type where
  | ret (a : α)
  | alloc (c : Cell) (k : Ref → HProg α)
  | read (r : Ref) (k : Cell → HProg α)
  | write (r : Ref) (c : Cell) (k : HProg α)

namespace HProg

/-- One program after another (lib/server.go:351-392). -/
def bind {α β : Type} : HProg α → (α → HProg β) → HProg β
  | ret a, f => f a
  | alloc c k, f => alloc c fun r => bind (k r) f
  | read r k, f => read r fun c => bind (k c) f
  | write r c k, f => write r c (bind k f)

/-- Programs in sequence (lib/server.go:351-392). -/
instance instMonadHProg : Monad HProg where
  pure := ret
  bind := bind

/-- One access to memory; `none`: the program is done (lib/server.go:219-289). -/
def step {α : Type} (h : Heap) : HProg α → Option (Heap × HProg α)
  | ret _ => none
  | alloc c k => some (h.alloc c, k h.next)
  | read r k => some (h, k (h.cell r))
  | write r c k => some (h.set r c, k)

/-- The program without other goroutines (lib/server.go:351-392). -/
def exec {α : Type} (h : Heap) : HProg α → α × Heap
  | ret a => (a, h)
  | alloc c k => exec (h.alloc c) (k h.next)
  | read r k => exec h (k (h.cell r))
  | write r c k => exec (h.set r c) k

end HProg

/-- A `[]SendableData`: where its array is and how many elements it has (lib/server.go:141-142). -/
structure Slice where
  arr : Ref
  len : Nat
  deriving DecidableEq, Repr

/-! ## Records -/

/-- The bytes of a byte slice. The default stands for cells of another type, which Go's types exclude (lib/server.go:871-872, 901, 905). -/
def readBytes (r : Ref) : HProg Bytes := .read r fun
  | .bytes b => .ret b
  | _ => .ret []

/-- The fields of a record, as `HashKey` (lib/server.go:839-841, 884-886) and `SendData` (974-1013) read them. -/
def readSD (r : Ref) : HProg SD := .read r fun
  | .record (.vrp v) => .ret (.vrp v)
  | .record (.brk asn p s f) => do
    let pb ← readBytes p
    let sb ← readBytes s
    .ret (.brk ⟨asn, pb, sb, f⟩)
  | _ => .ret (.brk ⟨0, [], [], 0⟩)

/-- `Copy` of a key's byte slice: `make`, then `copy` (lib/server.go:900-901, 904-905). -/
def copyBytes (r : Ref) : HProg Ref := do
  let b ← readBytes r
  let n ← HProg.alloc (.bytes (List.replicate b.length 0)) .ret
  let b ← readBytes r
  HProg.write n (.bytes b) (.ret n)

/-- `Copy`, lib/server.go:853-859, 897-907. -/
def copySD (r : Ref) : HProg Ref := .read r fun
  | .record (.vrp v) => .alloc (.record (.vrp v)) .ret
  | .record (.brk asn p s f) => do
    let np ← copyBytes p
    let ns ← copyBytes s
    .alloc (.record (.brk asn np ns f)) .ret
  | _ => .ret r

/-- `SetFlag`, lib/server.go:861-863, 909-911. -/
def setFlag (r : Ref) (f : U8) : HProg Unit := .read r fun
  | .record (.vrp v) => .write r (.record (.vrp { v with flags := f })) (.ret ())
  | .record (.brk asn p s _) => .write r (.record (.brk asn p s f)) (.ret ())
  | _ => .ret ()

/-! ## Slices -/

/-- `make([]SendableData, 0)`, lib/server.go:228-230, 259. -/
def newSlice : HProg Slice := .alloc (.refs []) fun r => .ret ⟨r, 0⟩

/-- `append` of one element, lib/server.go:240, 248, 251, 267. -/
def appendTo (s : Slice) (x : Ref) : HProg Slice := .read s.arr fun
  | .refs l => .write s.arr (.refs (l.take s.len ++ [x])) (.ret ⟨s.arr, s.len + 1⟩)
  | _ => .ret s

/-- The rest of a `range` loop from element `i` on, with `n` elements to come (lib/server.go:221, 235, 243, 263, 270, 922). -/
def rangeFrom {β : Type} (s : Slice) (f : β → Ref → HProg β) : Nat → Nat → β → HProg β
  | _, 0, b => .ret b
  | i, n + 1, b => .read s.arr fun
    | .refs l => do
      let b' ← f b (l.getD i 0)
      rangeFrom s f (i + 1) n b'
    | _ => .ret b

/-- `for _, item := range s`, lib/server.go:221, 235, 243, 263, 270, 922: the length is taken once, each element when its turn comes. -/
def rangeOver {β : Type} (s : Slice) (b : β) (f : β → Ref → HProg β) : HProg β := rangeFrom s f 0 s.len b

/-! ## The diffs -/

/-- `ConvertSDListToMap`, lib/server.go:219-225. -/
def convertH (s : Slice) : HProg FlagMap := rangeOver s (fun _ => none) fun m r => do
  let v ← readSD r
  .ret fun k => if k = v.hashKey then some v.getFlag else m k

/-- The first loop of `ComputeDiff`, lib/server.go:235-242, and the part of the second for what is gone (243-248). -/
def computeLoop (s : Slice) (other : FlagMap) (f : U8) (dst : Slice) : HProg Slice := rangeOver s dst fun dst item => do
  let v ← readSD item
  if (other v.hashKey).isNone then
    let rcopy ← copySD item
    setFlag rcopy f
    appendTo dst rcopy
  else .ret dst

/-- `ComputeDiff` as `AddData` calls it, with `populateUnchanged` false, lib/server.go:227-256: added and removed. -/
def computeDiffH (new prev : Slice) : HProg (Slice × Slice) := do
  let added ← newSlice
  let removed ← newSlice
  let newMap ← convertH new
  let prevMap ← convertH prev
  let added ← computeLoop new prevMap flagAdded added
  let removed ← computeLoop prev newMap flagRemoved removed
  .ret (added, removed)

/-- The loops of `ApplyDiff`, lib/server.go:263-287: those that `keep` wants are copied. -/
def applyLoop (s : Slice) (keep : SD → Bool) (dst : Slice) : HProg Slice := rangeOver s dst fun dst item => do
  let v ← readSD item
  if keep v then
    let rcopy ← copySD item
    appendTo dst rcopy
  else .ret dst

/-- The test of the second loop of `ApplyDiff`, lib/server.go:271-286. -/
def takesDiff (prevMap : FlagMap) (x : SD) : Bool :=
  if x.getFlag = flagAdded then true
  else if x.getFlag = flagRemoved then
    match prevMap x.hashKey with
    | none => true
    | some f => f == flagRemoved
  else false

/-- `ApplyDiff`, lib/server.go:258-289. -/
def applyDiffH (diff prev : Slice) : HProg Slice := do
  let newSDs ← newSlice
  let diffMap ← convertH diff
  let prevMap ← convertH prev
  let newSDs ← applyLoop prev (fun x => (diffMap x.hashKey).isNone) newSDs
  applyLoop diff (takesDiff prevMap) newSDs

/-! ## The store -/

/-- The `sd*` fields and `keepDiff` of `Server`, lib/server.go:140-144. -/
structure RefStore where
  listDiff : List Slice
  current : Slice
  serial : U32
  keepDiff : Int
  deriving DecidableEq, Repr

/-- `append(added, removed...)`, lib/server.go:360. -/
def appendAll (dst src : Slice) : HProg Slice := rangeOver src dst appendTo

/-- The loop over the diffs kept, lib/server.go:374-376. -/
def applyAll (diff : Slice) : List Slice → HProg (List Slice)
  | [] => .ret []
  | s :: rest => do
    let s' ← applyDiffH diff s
    let rest' ← applyAll diff rest
    .ret (s' :: rest')

/-- `AddSDsDiff`, lib/server.go:371-392, up to the assignment of the fields. The nil slice of line 373 is a slice without elements. -/
def addSDsDiffH (diff : Slice) (s : RefStore) : HProg RefStore := do
  let nextDiff ← applyAll diff s.listDiff
  let newCurrent ← applyDiffH diff s.current
  let newserial := if s.current.len > 0 then s.serial + 1 else s.serial
  let nextDiff := nextDiff ++ [⟨diff.arr, 0⟩] ++ [diff]
  let nextDiff := if s.keepDiff > 0 ∧ (nextDiff.length : Int) > s.keepDiff then nextDiff.drop (nextDiff.length - s.keepDiff.toNat) else nextDiff
  .ret { s with listDiff := nextDiff, current := newCurrent, serial := newserial }

/-- `AddData`, lib/server.go:351-369; `none`: nothing changed. -/
def addDataH (new : Slice) (s : RefStore) : HProg (Option RefStore) := do
  let (added, removed) ← computeDiffH new s.current
  let curDiff ← appendAll added removed
  if curDiff.len = 0 then .ret none
  else
    let s' ← addSDsDiffH curDiff s
    .ret (some s')

/-- `v.Copy()` of a record that the caller has as a value, cmd/stayrtr/stayrtr.go:416, 419. -/
def allocSD : SD → HProg Ref
  | .vrp v => .alloc (.record (.vrp v)) .ret
  | .brk k => do
    let p ← HProg.alloc (.bytes k.pubkey) .ret
    let s ← HProg.alloc (.bytes k.ski) .ret
    .alloc (.record (.brk k.asn p s k.flags)) .ret

/-- The slice `SDs`, cmd/stayrtr/stayrtr.go:414-420. -/
def buildSlice : List SD → Slice → HProg Slice
  | [], s => .ret s
  | v :: l, s => do
    let r ← allocSD v
    let s' ← appendTo s r
    buildSlice l s'

/-- One update, cmd/stayrtr/stayrtr.go:414-421. -/
def updateH (new : List SD) (s : RefStore) : HProg (Option RefStore) := do
  let e ← newSlice
  let sds ← buildSlice new e
  addDataH sds s

/-- The loop of `SendSDs` and what `SendData` makes of each record, lib/server.go:922-924, 974-1013: a copy, whose fields go into the PDU. -/
def sendH (s : Slice) : HProg (List SD) := rangeOver s [] fun out item => do
  let c ← copySD item
  let v ← readSD c
  .ret (out ++ [v])

/-! ## The goroutines -/

/-- What a router asks for: `GetCurrentSDs` (lib/server.go:295-300) or `GetSDsSerialDiff` (302-323). -/
inductive DataQuery where
  | all
  | since (serial : U32)
  deriving DecidableEq, Repr

/-- The slice that is handed out, lib/server.go:295-323; the empty answer for the current serial (310-312) is a slice without elements. -/
def RefStore.answer (s : RefStore) : DataQuery → GoRes (Option Slice)
  | .all => .ok (some s.current)
  | .since serial =>
    if serial = s.serial then .ok (some ⟨s.current.arr, 0⟩)
    else if serial.toNat > s.serial.toNat then .ok none
    else
      let diff := (s.serial - serial).toNat
      if diff > s.listDiff.length then .ok none
      else GoRes.bind (goIndex s.listDiff (s.listDiff.length - diff)) (fun sd => .ok (some sd))

/-- What is seen of the goroutines: an update is over, router `i` gets its slice (lib/server.go:84, 108), the records sent to it (lib/server.go:922-924). -/
inductive HEvent where
  | updated (new : List SD)
  | got (i : Nat) (q : DataQuery)
  | sent (i : Nat) (out : List SD)
  deriving DecidableEq, Repr

/-- Memory, the fields of the server, the update that runs, with its data, and the answers that are being sent (lib/server.go:80-112, 351-392). -/
structure HSys where
  heap : Heap
  store : RefStore
  updater : Option (List SD × HProg (Option RefStore))
  senders : Nat → Option (HProg (List SD))
  log : List HEvent

namespace HSys

/-- `NewServer`, lib/server.go:193-216: slices without elements. -/
def init (keepDiff : Int) : HSys :=
  { heap := Heap.empty.alloc (.refs []), store := ⟨[], ⟨0, 0⟩, 0, keepDiff⟩, updater := none, senders := fun _ => none, log := [] }

/-- The senders with sender `i` replaced (lib/server.go:917-935). -/
def setSender (s : HSys) (i : Nat) (p : Option (HProg (List SD))) : Nat → Option (HProg (List SD)) := fun j => if j = i then p else s.senders j

end HSys

/-- One step of one goroutine (lib/server.go:80-112, 295-323, 351-392, 917-935). -/
inductive HStep : HSys → HSys → Prop
  /-- the updating goroutine begins with new data, cmd/stayrtr/stayrtr.go:410-421 -/
  | start {s : HSys} (new : List SD) (hu : s.updater = none) : HStep s { s with updater := some (new, updateH new s.store) }
  /-- one access to memory by it -/
  | update {s : HSys} {new : List SD} {p p' : HProg (Option RefStore)} {h' : Heap} (hu : s.updater = some (new, p)) (hp : p.step s.heap = some (h', p')) :
      HStep s { s with heap := h', updater := some (new, p') }
  /-- no difference, lib/server.go:363-364 -/
  | unchanged {s : HSys} {new : List SD} (hu : s.updater = some (new, .ret none)) : HStep s { s with updater := none, log := s.log ++ [.updated new] }
  /-- the fields are assigned, lib/server.go:380-391 -/
  | publish {s : HSys} {new : List SD} {st : RefStore} (hu : s.updater = some (new, .ret (some st))) : HStep s { s with updater := none, store := st, log := s.log ++ [.updated new] }
  /-- a router gets its slice, lib/server.go:84, 108 -/
  | get {s : HSys} (i : Nat) (q : DataQuery) {sl : Slice} (hi : s.senders i = none) (hq : s.store.answer q = .ok (some sl)) :
      HStep s { s with senders := s.setSender i (some (sendH sl)), log := s.log ++ [.got i q] }
  /-- one access to memory while it is answered, lib/server.go:922-924 -/
  | send {s : HSys} {i : Nat} {p p' : HProg (List SD)} {h' : Heap} (hi : s.senders i = some p) (hp : p.step s.heap = some (h', p')) :
      HStep s { s with heap := h', senders := s.setSender i (some p') }
  /-- the answer is complete, lib/server.go:925-934 -/
  | done {s : HSys} {i : Nat} {out : List SD} (hi : s.senders i = some (.ret out)) : HStep s { s with senders := s.setSender i none, log := s.log ++ [.sent i out] }

/-- What the goroutines can reach (lib/server.go:193-216). -/
inductive HReached (keepDiff : Int) : HSys → Prop
  | init : HReached keepDiff (HSys.init keepDiff)
  | step {s s' : HSys} (h : HReached keepDiff s) (hs : HStep s s') : HReached keepDiff s'

end StayRTR
