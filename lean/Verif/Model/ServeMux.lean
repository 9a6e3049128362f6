import Verif.Model.Startup
import Verif.Model.JsonText

/-!
# The HTTP request multiplexer

`http.ServeMux` of Go 1.23 (net/http: server.go, pattern.go, routing_tree.go) on bytes, as both programs use it (cmd/stayrtr/stayrtr.go:172-175, 799-804; cmd/rtrmon/rtrmon.go:1005-1011): patterns with methods,
hosts, wildcards and escapes, their conflicts, the search for the handler, and redirections. `Mux` in `Model/Startup.lean` is the simple form of it; `C138_simple` compares the two.

Simplifications: the tree of the patterns is the list of them, each with what is left of it below the node; which names wildcards may have is a parameter (identifiers of Go); requests with the method CONNECT and the
target of a redirection are left out.
-/

namespace StayRTR

/-- The parts of a text between the bytes `x`, `strings.IndexByte` in the loops of `parsePattern` and `firstSegment` of net/http (cmd/stayrtr/stayrtr.go:800). -/
def splitBytes (x : U8) : Bytes → List Bytes
  | [] => [[]]
  | c :: l =>
    if c = x then [] :: splitBytes x l
    else match splitBytes x l with
      | f :: fs => (c :: f) :: fs
      | [] => [[c]]

/-- The parts with `x` between them, as `path.Clean` writes them (cmd/stayrtr/stayrtr.go:174). -/
def joinBytes (x : U8) : List Bytes → Bytes
  | [] => []
  | [s] => s
  | s :: t :: l => s ++ x :: joinBytes x (t :: l)

/-- `unhex` of net/url (cmd/stayrtr/stayrtr.go:800). -/
def unhexByte (b : U8) : Option Nat :=
  if 0x30 ≤ b.toNat ∧ b.toNat ≤ 0x39 then some (b.toNat - 0x30) else if 0x61 ≤ b.toNat ∧ b.toNat ≤ 0x66 then some (b.toNat - 0x61 + 10)
  else if 0x41 ≤ b.toNat ∧ b.toNat ≤ 0x46 then some (b.toNat - 0x41 + 10) else none

/-- `url.PathUnescape`, from the left; the number counts the bytes that belong to the escape before (cmd/stayrtr/stayrtr.go:800). -/
def urlUnescape : Nat → Bytes → Option Bytes
  | _, [] => some []
  | skip + 1, _ :: l => urlUnescape skip l
  | 0, b :: l =>
    if b = 0x25 then match l with
      | x :: y :: _ => match unhexByte x, unhexByte y with
        | some m, some n => (urlUnescape 2 l).map (BitVec.ofNat 8 (16 * m + n) :: ·)
        | _, _ => none
      | _ => none
    else (urlUnescape 0 l).map (b :: ·)

/-- `pathUnescape` of net/http: the text itself if its escapes are wrong (cmd/stayrtr/stayrtr.go:800). -/
def pathUnescape (s : Bytes) : Bytes := (urlUnescape 0 s).getD s

/-- `segment` of net/http (cmd/stayrtr/stayrtr.go:800). -/
structure PathSegment where
  s : Bytes
  wild : Bool
  multi : Bool
  deriving DecidableEq, Repr

/-- `pattern` of net/http (cmd/stayrtr/stayrtr.go:800). -/
structure MuxPattern where
  method : Bytes
  host : Bytes
  segments : List PathSegment
  deriving DecidableEq, Repr

/-- `validMethod` of net/http: a token of RFC 9110 (cmd/stayrtr/stayrtr.go:800). -/
def validMethod (m : Bytes) : Bool :=
  m ≠ [] && m.all fun b => (0x30 ≤ b.toNat && b.toNat ≤ 0x39) || (0x41 ≤ b.toNat && b.toNat ≤ 0x5a) || (0x61 ≤ b.toNat && b.toNat ≤ 0x7a) || "!#$%&'*+-.^_`|~".toList.contains (Char.ofNat b.toNat)

/-- `path.Clean` on the segments of a path that begins with a slash; `done` are those before, the last first (cmd/stayrtr/stayrtr.go:174). -/
def cleanSegments (done : List Bytes) : List Bytes → List Bytes
  | [] => done.reverse
  | s :: l => if s = [] ∨ s = [0x2e] then cleanSegments done l else if s = [0x2e, 0x2e] then cleanSegments done.tail l else cleanSegments (s :: done) l

/-- `cleanPath` of net/http (cmd/stayrtr/stayrtr.go:174). -/
def cleanPath (p : Bytes) : Bytes :=
  let p := if p.head? = some 0x2f then p else 0x2f :: p
  let segs := cleanSegments [] (splitBytes 0x2f p.tail)
  if p.getLast? = some 0x2f ∧ segs ≠ [] then 0x2f :: joinBytes 0x2f segs ++ [0x2f] else 0x2f :: joinBytes 0x2f segs

/-- `strings.CutSuffix(name, "...")` in `parsePattern` of net/http (cmd/stayrtr/stayrtr.go:800). -/
def cutDots (name : Bytes) : Bytes × Bool :=
  if [0x2e, 0x2e, 0x2e].isSuffixOf name then (name.take (name.length - 3), true) else (name, false)

/-- The segments of the path of a pattern, the loop of `parsePattern` of net/http (cmd/stayrtr/stayrtr.go:800); `seen` are the names before. -/
def parseSegments (isName : Bytes → Bool) (seen : List Bytes) : List Bytes → Option (List PathSegment)
  | [] => some []
  | seg :: more =>
    if seg = [] ∧ more = [] then some [⟨[], true, true⟩]
    else if 0x7b ∉ seg then (parseSegments isName seen more).map (⟨pathUnescape seg, false, false⟩ :: ·)
    else if seg.head? ≠ some 0x7b ∨ seg.getLast? ≠ some 0x7d then none
    else
      let name := seg.tail.dropLast
      if name = [0x24] then if more ≠ [] then none else some [⟨[0x2f], false, false⟩]
      else
        let (name, multi) := cutDots name
        if (multi ∧ more ≠ []) ∨ name = [] ∨ isName name = false ∨ name ∈ seen then none
        else (parseSegments isName (name :: seen) more).map (⟨name, true, multi⟩ :: ·)

/-- `strings.IndexAny(s, " \t")` in `parsePattern` of net/http (cmd/stayrtr/stayrtr.go:800). -/
def isBlankByte (b : U8) : Bool := b == 0x20 || b == 0x09

/-- `parsePattern` of net/http (cmd/stayrtr/stayrtr.go:173, 800, 803; cmd/rtrmon/rtrmon.go:1006-1008); `none`: an error. -/
def parsePattern (isName : Bytes → Bool) (s : Bytes) : Option MuxPattern :=
  let method := if s.any isBlankByte then s.takeWhile (!isBlankByte ·) else []
  let rest := if s.any isBlankByte then (s.dropWhile (!isBlankByte ·)).dropWhile isBlankByte else s
  if method ≠ [] ∧ validMethod method = false then none
  else if 0x2f ∉ rest then none
  else
    let host := rest.takeWhile (· ≠ 0x2f)
    let path := rest.dropWhile (· ≠ 0x2f)
    if 0x7b ∈ host then none
    else if method ≠ [] ∧ method ≠ [0x43, 0x4f, 0x4e, 0x4e, 0x45, 0x43, 0x54] ∧ path ≠ cleanPath path then none
    else (parseSegments isName [] (splitBytes 0x2f path.tail)).map fun segs => ⟨method, host, segs⟩

/-- `relationship` of net/http (cmd/stayrtr/stayrtr.go:800). -/
inductive Relationship where
  | equivalent
  | moreGeneral
  | moreSpecific
  | disjoint
  | overlaps
  deriving DecidableEq, Repr

/-- `combineRelationships` of net/http (cmd/stayrtr/stayrtr.go:800). -/
def combineRelationships : Relationship → Relationship → Relationship
  | .equivalent, r => r
  | .disjoint, _ => .disjoint
  | .overlaps, .disjoint => .disjoint
  | .overlaps, _ => .overlaps
  | .moreGeneral, .equivalent => .moreGeneral
  | .moreGeneral, .moreSpecific => .overlaps
  | .moreGeneral, r => r
  | .moreSpecific, .equivalent => .moreSpecific
  | .moreSpecific, .moreGeneral => .overlaps
  | .moreSpecific, r => r

/-- `compareSegments` of net/http (cmd/stayrtr/stayrtr.go:800). -/
def compareSegments (a b : PathSegment) : Relationship :=
  if a.multi && b.multi then .equivalent
  else if a.multi then .moreGeneral
  else if b.multi then .moreSpecific
  else if a.wild && b.wild then .equivalent
  else if a.wild then if b.s = [0x2f] then .disjoint else .moreGeneral
  else if b.wild then if a.s = [0x2f] then .disjoint else .moreSpecific
  else if a.s = b.s then .equivalent else .disjoint

/-- The loop of `comparePaths` of net/http and what follows it (cmd/stayrtr/stayrtr.go:800); `last1` and `last2` say whether the last segment of the pattern is for all that follows. -/
def comparePathsLoop (last1 last2 : Bool) (rel : Relationship) : List PathSegment → List PathSegment → Relationship
  | [], [] => rel
  | [], _ :: _ => if last1 then combineRelationships rel .moreGeneral else .disjoint
  | _ :: _, [] => if last2 then combineRelationships rel .moreSpecific else .disjoint
  | a :: l, b :: k => match combineRelationships rel (compareSegments a b) with
    | .disjoint => .disjoint
    | r => comparePathsLoop last1 last2 r l k

/-- `lastSegment().multi` of net/http (cmd/stayrtr/stayrtr.go:800). -/
def MuxPattern.open (p : MuxPattern) : Bool := (p.segments.getLast?.map PathSegment.multi).getD false

/-- `comparePaths` of net/http (cmd/stayrtr/stayrtr.go:800). -/
def comparePaths (p q : MuxPattern) : Relationship :=
  if p.segments.length ≠ q.segments.length ∧ p.open = false ∧ q.open = false then .disjoint else comparePathsLoop p.open q.open .equivalent p.segments q.segments

/-- `GET`, `HEAD` (cmd/stayrtr/stayrtr.go:174). -/
def methodGET : Bytes := [0x47, 0x45, 0x54]
/-- `HEAD` (cmd/stayrtr/stayrtr.go:174). -/
def methodHEAD : Bytes := [0x48, 0x45, 0x41, 0x44]

/-- `compareMethods` of net/http (cmd/stayrtr/stayrtr.go:800). -/
def compareMethods (p q : MuxPattern) : Relationship :=
  if p.method = q.method then .equivalent else if p.method = [] then .moreGeneral else if q.method = [] then .moreSpecific
  else if p.method = methodGET ∧ q.method = methodHEAD then .moreGeneral else if q.method = methodGET ∧ p.method = methodHEAD then .moreSpecific else .disjoint

/-- `comparePathsAndMethods` of net/http (cmd/stayrtr/stayrtr.go:800). -/
def comparePatterns (p q : MuxPattern) : Relationship :=
  if compareMethods p q = .disjoint then .disjoint else combineRelationships (compareMethods p q) (comparePaths p q)

/-- `conflictsWith` of net/http (cmd/stayrtr/stayrtr.go:800). -/
def conflictsWith (p q : MuxPattern) : Bool := p.host = q.host && (comparePatterns p q = .equivalent || comparePatterns p q = .overlaps)

/-- The child of a node of the tree that a segment belongs to: `addSegments`, `addChild` of net/http (cmd/stayrtr/stayrtr.go:800). An empty text stands for the child of the wildcards. -/
inductive ChildKey where
  | text (s : Bytes)
  | any
  | rest
  deriving DecidableEq, Repr

/-- `findChild`, `addChild` of net/http: the child for a text (cmd/stayrtr/stayrtr.go:174). -/
def textKey (s : Bytes) : ChildKey := if s = [] then .any else .text s

/-- `addSegments` of net/http (cmd/stayrtr/stayrtr.go:800). -/
def PathSegment.key (s : PathSegment) : ChildKey := if s.multi then .rest else if s.wild then .any else textKey s.s

/-- `http.ServeMux`: the patterns with their handlers, the last first (cmd/stayrtr/stayrtr.go:800). -/
abbrev ServeMux := List (MuxPattern × HttpHandler)

/-- `register` of net/http (cmd/stayrtr/stayrtr.go:173, 800, 803; cmd/rtrmon/rtrmon.go:1006-1008): a panic if the pattern cannot be read, conflicts with another, or has a leaf of the tree that is taken (`set`). -/
def ServeMux.register (isName : Bytes → Bool) (m : ServeMux) (pattern : Bytes) (h : HttpHandler) : GoRes ServeMux :=
  match parsePattern isName pattern with
  | none => .panic
  | some p =>
    if m.any (fun x => conflictsWith p x.1) then .panic
    else if p.open = false ∧ m.any (fun x => x.1.host = p.host ∧ x.1.method = p.method ∧ x.1.segments.map PathSegment.key = p.segments.map PathSegment.key) then .panic
    else .ok ((p, h) :: m)

/-- The patterns below the child of a node (cmd/stayrtr/stayrtr.go:174): each with what is left of it. -/
def nodeChild (k : ChildKey) (ns : List (List PathSegment × MuxPattern × HttpHandler)) : List (List PathSegment × MuxPattern × HttpHandler) :=
  ns.filterMap fun x => match x.1 with
    | s :: l => if s.key = k then some (l, x.2) else none
    | [] => none

/-- `matchPath` of net/http on the segments of the path (cmd/stayrtr/stayrtr.go:174). -/
def matchPath : List (List PathSegment × MuxPattern × HttpHandler) → List Bytes → Option (MuxPattern × HttpHandler)
  | ns, [] => (ns.find? fun x => x.1 = []).map (·.2)
  | ns, t :: ts =>
    match matchPath (nodeChild (textKey t) ns) ts with
    | some r => some r
    | none => match if t ≠ [0x2f] then matchPath (nodeChild .any ns) ts else none with
      | some r => some r
      | none => (nodeChild .rest ns).head?.map (·.2)

/-- `firstSegment` of net/http, for the whole path (cmd/stayrtr/stayrtr.go:174): a slash at the end is a segment of its own. -/
def requestSegments : List Bytes → List Bytes
  | [] => []
  | [s] => if s = [] then [[0x2f]] else [pathUnescape s]
  | s :: l => pathUnescape s :: requestSegments l

/-- The patterns of one host and one method at the root of their part of the tree (cmd/stayrtr/stayrtr.go:174). -/
def ServeMux.node (m : ServeMux) (host method : Bytes) : List (List PathSegment × MuxPattern × HttpHandler) :=
  (m.filter fun x => x.1.host = host ∧ x.1.method = method).map fun x => (x.1.segments, x)

/-- `matchMethodAndPath` of net/http (cmd/stayrtr/stayrtr.go:174). -/
def ServeMux.matchMethod (m : ServeMux) (host method : Bytes) (path : List Bytes) : Option (MuxPattern × HttpHandler) :=
  match matchPath (m.node host method) path with
  | some r => some r
  | none => match if method = methodHEAD then matchPath (m.node host methodGET) path else none with
    | some r => some r
    | none => matchPath (m.node host []) path

/-- `match` of net/http (cmd/stayrtr/stayrtr.go:174). -/
def ServeMux.match (m : ServeMux) (host method path : Bytes) : Option (MuxPattern × HttpHandler) :=
  match if host ≠ [] then m.matchMethod host method (requestSegments (splitBytes 0x2f path.tail)) else none with
  | some r => some r
  | none => m.matchMethod [] method (requestSegments (splitBytes 0x2f path.tail))

/-- `exactMatch` of net/http (cmd/stayrtr/stayrtr.go:174). -/
def exactMatch (r : Option (MuxPattern × HttpHandler)) (path : Bytes) : Bool :=
  match r with
  | none => false
  | some (p, _) => if p.open then path.getLast? = some 0x2f && p.segments.length == path.count 0x2f else true

/-- What a request leads to (cmd/stayrtr/stayrtr.go:174). -/
inductive MuxAnswer where
  | handler (h : HttpHandler)
  | redirect
  | notFound
  deriving DecidableEq, Repr

/-- `findHandler` of net/http for a request with `host` (without its port), `method` and the path `path` with its escapes (cmd/stayrtr/stayrtr.go:174, cmd/rtrmon/rtrmon.go:1010). -/
def ServeMux.find (m : ServeMux) (host method path : Bytes) : MuxAnswer :=
  let clean := cleanPath path
  let n := m.match host method clean
  if exactMatch n clean = false ∧ clean.getLast? ≠ some 0x2f ∧ exactMatch (m.match host method (clean ++ [0x2f])) (clean ++ [0x2f]) then .redirect
  else if clean ≠ path then .redirect
  else match n with
    | some (_, h) => .handler h
    | none => .notFound

/-- The paths of rtrmon, cmd/rtrmon/rtrmon.go:1006-1008. -/
def monServeMux (isName : Bytes → Bool) (outFile metricsPath : Bytes) : GoRes ServeMux :=
  (ServeMux.register isName [] (0x2f :: outFile) .diff).bind fun m => (m.register isName metricsPath .metrics).bind fun m => m.register isName [0x2f] .index

/-- The paths of stayrtr, cmd/stayrtr/stayrtr.go:173, 799-804. -/
def runServeMux (isName : Bytes → Bool) (f : StartFlags) : GoRes ServeMux :=
  (if f.exportPath ≠ [] then ServeMux.register isName [] (utf8Str f.exportPath) .exporter else .ok []).bind fun m =>
    (if f.updateEndpoint then m.register isName (utf8Str "/api/update".toList) .updateNow else .ok m).bind fun m => m.register isName (utf8Str f.metricsPath) .metrics

end StayRTR
