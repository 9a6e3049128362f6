import Verif.Model.Mon
import Verif.Model.Json

/-!
# rtrmon: shared entries, the comparator and the page with the difference

cmd/rtrmon/rtrmon.go. A `VRPMap` maps names to pointers, and the entries they point to are shared: by the map of a source, the one before it, and the published difference. Here a map holds references into a heap, so that what
`BuildNewVrpMap` does to shared entries is seen by everyone. The two sources and the comparator are goroutines; their steps interleave.
-/

namespace StayRTR

/-- `*VRPJsonSimple`, cmd/rtrmon/rtrmon.go:732. -/
abbrev MonRef := Nat

/-- The entries allocated so far, cmd/rtrmon/rtrmon.go:397, 419, 455. -/
abbrev MonHeap := List MonEntry

/-- `VRPMap`, cmd/rtrmon/rtrmon.go:732. -/
abbrev RefMap := List (Str × MonRef)

namespace RefMap

/-- Map lookup (cmd/rtrmon/rtrmon.go:391, 432, 695). -/
def get (m : RefMap) (k : Str) : Option MonRef :=
  match m with
  | [] => none
  | (k', r) :: m => if k' = k then some r else get m k

/-- Map deletion (cmd/rtrmon/rtrmon.go:484, 503, 525). -/
def del (m : RefMap) (k : Str) : RefMap := m.filter fun x => x.1 ≠ k

/-- Map assignment (cmd/rtrmon/rtrmon.go:397, 435, 461, 482, 696). -/
def put (m : RefMap) (k : Str) (r : MonRef) : RefMap := (k, r) :: m.del k

/-- The map with the entries that its pointers point to now (cmd/rtrmon/rtrmon.go:732). -/
def deref (h : MonHeap) (m : RefMap) : MonMap := m.filterMap fun x => (h[x.2]?).map fun e => (x.1, e)

end RefMap

/-- `firstSeen`, cmd/rtrmon/rtrmon.go:390-395, 410-415. -/
def refFirstSeen (h : MonHeap) (cur : RefMap) (now : Int) (k : Str) : Int :=
  match (cur.get k).bind fun r => h[r]? with
  | some e => if e.visible then e.firstSeen else now
  | none => now

/-- `res[key] = &VRPJsonSimple{...}`, cmd/rtrmon/rtrmon.go:397-404, 419-425. -/
def refNew (s : MonHeap × RefMap) (k : Str) (e : MonEntry) : MonHeap × RefMap := (s.1 ++ [e], s.2.put k s.1.length)

/-- The first loop of `BuildNewVrpMap`, cmd/rtrmon/rtrmon.go:375-405. -/
def refAddVrp (wide : WideFloat) (cur : RefMap) (now : Int) (s : MonHeap × RefMap) (v : VRPJson) : MonHeap × RefMap :=
  match v.getASN2 wide with
  | none => s
  | some asn => match v.getPrefix2 with
    | none => s
    | some p =>
      let k := monVrpKey p v.length asn
      refNew s k ⟨asn, v.length, p.toStr, refFirstSeen s.1 cur now k, now, true, none⟩

/-- The second loop of `BuildNewVrpMap`, cmd/rtrmon/rtrmon.go:407-426. -/
def refAddKey (cur : RefMap) (now : Int) (s : MonHeap × RefMap) (b : BgpSecKeyJson) : MonHeap × RefMap :=
  let k := monBrkKey b.ski b.asn b.pubkey
  refNew s k ⟨b.asn, 0, [], refFirstSeen s.1 cur now k, now, true, some b⟩

/-- The third loop of `BuildNewVrpMap`, cmd/rtrmon/rtrmon.go:428-439: the entry itself is changed, and taken over. -/
def refGrace (ends : Int) (s : MonHeap × RefMap × Nat) (x : Str × MonRef) : MonHeap × RefMap × Nat :=
  match s.1[x.2]? with
  | none => s
  | some e => if (s.2.1.get x.1).isNone && decide (e.lastSeen ≥ ends) then (s.1.set x.2 { e with visible := false }, s.2.1.put x.1 x.2, s.2.2 + 1) else s

/-- `BuildNewVrpMap`, cmd/rtrmon/rtrmon.go:370-442. -/
def refBuild (wide : WideFloat) (grace : Int) (h : MonHeap) (cur : RefMap) (vrps : List VRPJson) (keys : List BgpSecKeyJson) (now : Int) : MonHeap × RefMap × Nat :=
  let s := keys.foldl (refAddKey cur now) (vrps.foldl (refAddVrp wide cur now) (h, []))
  cur.foldl (refGrace (now - grace)) (s.1, s.2, 0)

/-- One entry in the loop of `UpdateCurrentVrpMap`, cmd/rtrmon/rtrmon.go:450-462: a copy is made. -/
def refKeep (now ends : Int) (s : (MonHeap × RefMap) × Nat) (x : Str × MonRef) : (MonHeap × RefMap) × Nat :=
  match s.1.1[x.2]? with
  | none => s
  | some e =>
    if !e.visible && decide (e.lastSeen < ends) then s
    else if e.visible then (refNew s.1 x.1 { e with lastSeen := now }, s.2)
    else (refNew s.1 x.1 e, s.2 + 1)

/-- `UpdateCurrentVrpMap`, cmd/rtrmon/rtrmon.go:444-465. -/
def refUpdate (grace : Int) (h : MonHeap) (cur : RefMap) (now : Int) : (MonHeap × RefMap) × Nat := cur.foldl (refKeep now (now - grace)) ((h, []), 0)

/-- One entry in the loop of `Diff`, cmd/rtrmon/rtrmon.go:693-699. -/
def refDiffStep (h : MonHeap) (b : RefMap) (res : RefMap) (x : Str × MonRef) : RefMap :=
  match h[x.2]? with
  | none => res
  | some e => if e.visible && (match (b.get x.1).bind fun r => h[r]? with | none => true | some e' => !e'.visible) then res.put x.1 x.2 else res

/-- `diffMetadata`, cmd/rtrmon/rtrmon.go:711-721. -/
structure DiffMeta where
  lastFetch : Int
  url : Str
  serial : U32
  sessionID : U16
  count : Nat
  rtrRefresh : U32
  rtrRetry : U32
  rtrExpire : U32
  deriving DecidableEq, Repr

/-- `Client`, cmd/rtrmon/rtrmon.go:209-243: the data. -/
structure MonSrc where
  path : Str
  vrps : RefMap
  /-- What the RTR session has announced so far; `GetData` does not read it. -/
  vrpsRtr : RefMap
  serial : U32
  sessionID : U16
  /-- Unix seconds; `none`: the zero `time.Time`. -/
  lastUpdate : Option Int
  rtrRefresh : U32
  rtrRetry : U32
  rtrExpire : U32
  deriving DecidableEq, Repr

/-- `NewClient`, cmd/rtrmon/rtrmon.go:245-252, with the path given to it (lines 934, 957). -/
def MonSrc.new (path : Str) : MonSrc := ⟨path, [], [], 0, 0, none, 0, 0, 0⟩

/-- `c.lastUpdate.UnixNano() / 1e9`, cmd/rtrmon/rtrmon.go:630: nanoseconds in 64 bits, which the zero time (the year 1) exceeds. Fractions of seconds do not matter, as the time is not before 1970. -/
def lastFetchOf (t : Option Int) : Int := (BitVec.ofInt 64 (1000000000 * t.getD (-62135596800))).toInt.tdiv 1000000000

/-- `GetData`, cmd/rtrmon/rtrmon.go:615-634. -/
def MonSrc.getData (s : MonSrc) : RefMap × DiffMeta :=
  (s.vrps, ⟨lastFetchOf s.lastUpdate, s.path, s.serial, s.sessionID, s.vrps.length, s.rtrRefresh, s.rtrRetry, s.rtrExpire⟩)

/-- What the comparator has published: its fields (cmd/rtrmon/rtrmon.go:645-648) and the gauges (lines 791-854). -/
structure RefReport where
  onlyIn1 : RefMap
  onlyIn2 : RefMap
  md1 : DiffMeta
  md2 : DiffMeta
  total1 : Nat
  total2 : Nat
  diff1 : Nat
  diff2 : Nat
  unmatched : List (Int × Nat × Nat)
  deriving DecidableEq, Repr

/-- What the goroutine of a source is doing (cmd/rtrmon/rtrmon.go:267-363, 467-567). -/
inductive SrcPhase where
  /-- Nothing new since it last told the comparator. -/
  | idle
  /-- Working on an update; of an RTR source, from the first PDU of an answer on. -/
  | working
  /-- At `ch <- id`, lines 357, 549. -/
  | sending
  deriving DecidableEq, Repr

/-- Where the comparator is (cmd/rtrmon/rtrmon.go:763-890). -/
inductive CompPhase where
  /-- At the `select`, line 768. -/
  | waiting
  /-- An id was received, line 772. -/
  | got (id : Bool)
  /-- Line 775 is done. -/
  | one (id : Bool) (m1 : RefMap) (md1 : DiffMeta)
  /-- In the first `Diff`, line 778. -/
  | diff1 (id : Bool) (m1 : RefMap) (md1 : DiffMeta) (m2 : RefMap) (md2 : DiffMeta) (todo acc : RefMap)
  /-- In the second `Diff`, line 779. -/
  | diff2 (id : Bool) (m1 : RefMap) (md1 : DiffMeta) (m2 : RefMap) (md2 : DiffMeta) (only1 todo acc : RefMap)
  deriving DecidableEq, Repr

/-- The two sources and the comparator. `false` is the primary, `true` the secondary source (cmd/rtrmon/rtrmon.go:637-648). -/
structure MonSys where
  heap : MonHeap
  src : Bool → MonSrc
  phase : Bool → SrcPhase
  comp : CompPhase
  published : Option RefReport
  /-- The gauges `LastUpdate`, cmd/rtrmon/rtrmon.go:858-876. -/
  lastUpdate : Bool → Option Int

/-- A function changed at one place (cmd/rtrmon/rtrmon.go:639). -/
def setAt {α : Type} (f : Bool → α) (i : Bool) (x : α) : Bool → α := fun j => if j = i then x else f j

/-- `NewComparator` with two new clients, cmd/rtrmon/rtrmon.go:650-660, 934, 957. -/
def MonSys.start (path : Bool → Str) : MonSys := ⟨[], fun i => MonSrc.new (path i), fun _ => .idle, .waiting, none, fun _ => none⟩

/-- Publishing, cmd/rtrmon/rtrmon.go:781-854; `clock v` is the time read for threshold `v` (line 817). -/
def refReport (startedAt : Int) (clock : Int → Int) (thresholds : List Int) (h : MonHeap) (m1 : RefMap) (md1 : DiffMeta) (m2 : RefMap) (md2 : DiffMeta) (only1 only2 : RefMap) : RefReport :=
  ⟨only1, only2, md1, md2, m1.length, m2.length, only1.length, only2.length,
    (thresholds.filter fun v => decide (clock v - v ≥ startedAt)).map fun v =>
      (v, countUnmatched (only1.deref h) (m2.deref h) (clock v - v), countUnmatched (only2.deref h) (m1.deref h) (clock v - v))⟩

/-- What one step of a source's goroutine may do to the heap and to its own data (cmd/rtrmon/rtrmon.go:267-363, 467-567). -/
abbrev Work := MonHeap → MonSrc → MonHeap → MonSrc → Prop

/-- The steps of the three goroutines. `startedAt` is line 766, `thresholds` line 816. `OneOff` is never set and `q` never closed, as the sources run forever (cmd/rtrmon/rtrmon.go:254-364, 643, 892-912). -/
inductive MonSys.Step (work : Work) (startedAt : Int) (thresholds : List Int) : MonSys → MonSys → Prop
  /-- The timer, a PDU (cmd/rtrmon/rtrmon.go:270, 467). -/
  | begin (s : MonSys) (i : Bool) (hp : s.phase i = .idle) : Step work startedAt thresholds s { s with phase := setAt s.phase i .working }
  /-- The update being worked on. -/
  | work (s : MonSys) (i : Bool) (hp : s.phase i = .working) (h' : MonHeap) (c' : MonSrc) (hw : work s.heap (s.src i) h' c') :
      Step work startedAt thresholds s { s with heap := h', src := setAt s.src i c' }
  /-- The new data is in place (cmd/rtrmon/rtrmon.go:351-354, 539-546). -/
  | finish (s : MonSys) (i : Bool) (hp : s.phase i = .working) : Step work startedAt thresholds s { s with phase := setAt s.phase i .sending }
  /-- `ch <- id` meets `id := <-c.comp` (cmd/rtrmon/rtrmon.go:356, 548, 772). -/
  | meet (s : MonSys) (i : Bool) (hp : s.phase i = .sending) (hc : s.comp = .waiting) :
      Step work startedAt thresholds s { s with phase := setAt s.phase i .idle, comp := .got i }
  /-- `c.PrimaryClient.GetData()`, line 775. -/
  | data1 (s : MonSys) (id : Bool) (hc : s.comp = .got id) : Step work startedAt thresholds s { s with comp := .one id (s.src false).getData.1 (s.src false).getData.2 }
  /-- `c.SecondaryClient.GetData()`, line 776. -/
  | data2 (s : MonSys) (id : Bool) (m1 : RefMap) (md1 : DiffMeta) (hc : s.comp = .one id m1 md1) :
      Step work startedAt thresholds s { s with comp := .diff1 id m1 md1 (s.src true).getData.1 (s.src true).getData.2 m1 [] }
  /-- One entry of the first `Diff`, lines 778, 693-699. -/
  | scan1 (s : MonSys) (id : Bool) (m1 : RefMap) (md1 : DiffMeta) (m2 : RefMap) (md2 : DiffMeta) (x : Str × MonRef) (todo acc : RefMap) (hc : s.comp = .diff1 id m1 md1 m2 md2 (x :: todo) acc) :
      Step work startedAt thresholds s { s with comp := .diff1 id m1 md1 m2 md2 todo (refDiffStep s.heap m2 acc x) }
  /-- The second `Diff` begins, line 779. -/
  | next (s : MonSys) (id : Bool) (m1 : RefMap) (md1 : DiffMeta) (m2 : RefMap) (md2 : DiffMeta) (acc : RefMap) (hc : s.comp = .diff1 id m1 md1 m2 md2 [] acc) :
      Step work startedAt thresholds s { s with comp := .diff2 id m1 md1 m2 md2 acc m2 [] }
  /-- One entry of the second `Diff`, lines 779, 693-699. -/
  | scan2 (s : MonSys) (id : Bool) (m1 : RefMap) (md1 : DiffMeta) (m2 : RefMap) (md2 : DiffMeta) (only1 : RefMap) (x : Str × MonRef) (todo acc : RefMap)
      (hc : s.comp = .diff2 id m1 md1 m2 md2 only1 (x :: todo) acc) :
      Step work startedAt thresholds s { s with comp := .diff2 id m1 md1 m2 md2 only1 todo (refDiffStep s.heap m1 acc x) }
  /-- The lines 781-877. -/
  | publish (s : MonSys) (id : Bool) (m1 : RefMap) (md1 : DiffMeta) (m2 : RefMap) (md2 : DiffMeta) (only1 only2 : RefMap) (clock : Int → Int) (hc : s.comp = .diff2 id m1 md1 m2 md2 only1 [] only2) :
      Step work startedAt thresholds s { s with
        comp := .waiting
        published := some (refReport startedAt clock thresholds s.heap m1 md1 m2 md2 only1 only2)
        lastUpdate := setAt s.lastUpdate id (some (if id then md2.lastFetch else md1.lastFetch)) }

/-- A run of the program (cmd/rtrmon/rtrmon.go:892-912). -/
inductive MonSys.Reach (work : Work) (startedAt : Int) (thresholds : List Int) (path : Bool → Str) : MonSys → Prop
  | start : Reach work startedAt thresholds path (MonSys.start path)
  | step {s s' : MonSys} (h : Reach work startedAt thresholds path s) (hs : MonSys.Step work startedAt thresholds s s') : Reach work startedAt thresholds path s'

/-- Announcement or withdrawal, cmd/rtrmon/rtrmon.go:481-485, 500-504, 522-526. -/
def refRecord (h : MonHeap) (c : MonSrc) (flags : U8) (k : Str) (e : MonEntry) : MonHeap × MonSrc :=
  if flags = 1 then (h ++ [e], { c with vrpsRtr := c.vrpsRtr.put k h.length }) else (h, { c with vrpsRtr := c.vrpsRtr.del k })

/-- `HandlePDU`, cmd/rtrmon/rtrmon.go:467-567: what it does to the data. At the end of data the map is copied, and the entries are shared (lines 533-535). -/
def refPdu (now : Int) (h : MonHeap) (c : MonSrc) : Pdu → MonHeap × MonSrc
  | .ipv4Prefix _ f p ml asn => refRecord h c f (monVrpKey p ml asn) (monVrpEntry now p ml asn)
  | .ipv6Prefix _ f p ml asn => refRecord h c f (monVrpKey p ml asn) (monVrpEntry now p ml asn)
  | .routerKey _ f ski asn spki => refRecord h c f (monBrkKey (hexBytes ski) asn spki) (monBrkEntry now ski asn spki)
  | .endOfData _ _ n refresh retry expire => (h, { c with serial := n, vrps := c.vrpsRtr, rtrRefresh := refresh, rtrRetry := retry, rtrExpire := expire, lastUpdate := some now })
  | .cacheResponse _ s => (h, { c with sessionID := s })
  | _ => (h, c)

/-- What an RTR source does (cmd/rtrmon/rtrmon.go:467-567): a PDU at a time is one step. -/
def RtrWork : Work := fun h c h' c' => ∃ now p, (h', c') = refPdu now h c p

/-- What a source with a file does (cmd/rtrmon/rtrmon.go:334-354): a new file, or an unchanged one. Each is one step here; what is proved for any `Work` holds for any other division, too. -/
inductive FileWork (wide : WideFloat) (grace : Int) : Work
  | file (h : MonHeap) (c : MonSrc) (vrps : List VRPJson) (keys : List BgpSecKeyJson) (now : Int) :
      FileWork wide grace h c (refBuild wide grace h c.vrps vrps keys now).1 { c with vrps := (refBuild wide grace h c.vrps vrps keys now).2.1, lastUpdate := some now }
  | unchanged (h : MonHeap) (c : MonSrc) (now : Int) :
      FileWork wide grace h c (refUpdate grace h c.vrps now).1.1 { c with vrps := (refUpdate grace h c.vrps now).1.2, lastUpdate := some now }

/-- A source of either kind (cmd/rtrmon/rtrmon.go:275, 325). -/
def CodeWork (wide : WideFloat) (grace : Int) : Work := fun h c h' c' => FileWork wide grace h c h' c' ∨ RtrWork h c h' c'

/-- A `VRPJsonSimple`, cmd/rtrmon/rtrmon.go:723-731. -/
def encEntry (e : MonEntry) : Json :=
  .obj ([("asn".toList, encInt e.asn.toNat), ("max-length".toList, encInt e.length.toNat), ("prefix".toList, .str e.pfx), ("first-seen".toList, encInt e.firstSeen),
    ("last-seen".toList, encInt e.lastSeen), ("visible".toList, .bool e.visible)] ++ (match e.bgpsec with | none => [] | some k => [("bgpsec".toList, encKey k)]))

/-- A `diffMetadata`, cmd/rtrmon/rtrmon.go:711-721. -/
def encDiffMeta (m : DiffMeta) : Json :=
  .obj [("last-fetch".toList, encInt m.lastFetch), ("url".toList, .str m.url), ("serial".toList, encInt m.serial.toNat), ("session-id".toList, encInt m.sessionID.toNat), ("count".toList, encInt m.count),
    ("rtr-refresh".toList, encInt m.rtrRefresh.toNat), ("rtr-retry".toList, encInt m.rtrRetry.toNat), ("rtr-expire".toList, encInt m.rtrExpire.toNat)]

/-- A pointer to a `diffMetadata`, cmd/rtrmon/rtrmon.go:735-736. -/
def encDiffMetaPtr : Option DiffMeta → Json
  | none => .null
  | some m => encDiffMeta m

/-- A `diffExport`, cmd/rtrmon/rtrmon.go:734-739. `VRPArray` (lines 703-709) makes a slice that is never nil. -/
def encDiff (md1 md2 : Option DiffMeta) (d1 d2 : List MonEntry) : Json :=
  .obj [("metadata-primary".toList, encDiffMetaPtr md1), ("metadata-secondary".toList, encDiffMetaPtr md2), ("only-primary".toList, .arr (d1.map encEntry)), ("only-secondary".toList, .arr (d2.map encEntry))]

/-- `VRPArray`, cmd/rtrmon/rtrmon.go:703-709: the entries in some order. -/
def IsVrpArray (h : MonHeap) (m : RefMap) (l : List MonEntry) : Prop := l.Perm ((m.deref h).map (·.2))

/-- `ServeDiff`, cmd/rtrmon/rtrmon.go:741-761: a body that may be sent. -/
def ServesDiff (s : MonSys) (b : Bytes) : Prop :=
  ∃ d1 d2, IsVrpArray s.heap ((s.published.map (·.onlyIn1)).getD []) d1 ∧ IsVrpArray s.heap ((s.published.map (·.onlyIn2)).getD []) d2 ∧
    b = encodeFile (encDiff (s.published.map (·.md1)) (s.published.map (·.md2)) d1 d2)

end StayRTR
