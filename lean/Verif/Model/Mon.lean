import Verif.Model.ClientSession
import Verif.Model.Text
import Verif.Model.Slurm
import Verif.Model.Fetch
import Verif.Model.Parse

/-!
# rtrmon

cmd/rtrmon/rtrmon.go. Times are Unix seconds. A Go map is a list of pairs; only lookups and counts are used of it, which do not depend on the order. Entries are values here; the entries
that maps share by pointers are in `Model/MonSys.lean`.
-/

namespace StayRTR

/-- `VRPJsonSimple`, cmd/rtrmon/rtrmon.go:723-731. -/
structure MonEntry where
  asn : U32
  length : U8
  pfx : Str
  firstSeen : Int
  lastSeen : Int
  visible : Bool
  bgpsec : Option BgpSecKeyJson
  deriving DecidableEq, Repr

/-- `VRPMap`, cmd/rtrmon/rtrmon.go:732. -/
abbrev MonMap := List (Str × MonEntry)

namespace MonMap

/-- Map lookup (cmd/rtrmon/rtrmon.go:391, 674, 695). -/
def get (m : MonMap) (k : Str) : Option MonEntry :=
  match m with
  | [] => none
  | (k', e) :: m => if k' = k then some e else get m k

/-- Map deletion (cmd/rtrmon/rtrmon.go:484). -/
def del (m : MonMap) (k : Str) : MonMap := m.filter fun x => x.1 ≠ k

/-- Map assignment (cmd/rtrmon/rtrmon.go:397, 482). -/
def put (m : MonMap) (k : Str) (e : MonEntry) : MonMap := (k, e) :: del m k

end MonMap

/-- `fmt.Sprintf("%s-%d-%d", prefix, maxlen, asn)`, cmd/rtrmon/rtrmon.go:388, 478, 497. -/
def monVrpKey (p : Prefix) (maxLen : U8) (asn : U32) : Str := p.toStr ++ '-' :: (decStr maxLen.toNat ++ '-' :: decStr asn.toNat)

/-- The bytes of a slice printed with `%s` (cmd/rtrmon/rtrmon.go:408, 519), one character per byte. -/
def rawStr (b : Bytes) : Str := b.map fun x => Char.ofNat x.toNat

/-- `fmt.Sprintf("%s-%d-%s", ski, asn, pubkey)`, cmd/rtrmon/rtrmon.go:408, 519. -/
def monBrkKey (ski : Str) (asn : U32) (pubkey : Bytes) : Str := ski ++ '-' :: (decStr asn.toNat ++ '-' :: rawStr pubkey)

/-- `firstSeen`, cmd/rtrmon/rtrmon.go:390-395, 410-415. -/
def monFirstSeen (cur : MonMap) (now : Int) (k : Str) : Int :=
  match cur.get k with
  | some e => if e.visible then e.firstSeen else now
  | none => now

/-- The first loop of `BuildNewVrpMap`, cmd/rtrmon/rtrmon.go:375-405. -/
def monAddVrp (wide : WideFloat) (cur : MonMap) (now : Int) (res : MonMap) (v : VRPJson) : MonMap :=
  match v.getASN2 wide with
  | none => res
  | some asn => match v.getPrefix2 with
    | none => res
    | some p =>
      let k := monVrpKey p v.length asn
      res.put k ⟨asn, v.length, p.toStr, monFirstSeen cur now k, now, true, none⟩

/-- The second loop of `BuildNewVrpMap`, cmd/rtrmon/rtrmon.go:407-426. -/
def monAddKey (cur : MonMap) (now : Int) (res : MonMap) (b : BgpSecKeyJson) : MonMap :=
  let k := monBrkKey b.ski b.asn b.pubkey
  res.put k ⟨b.asn, 0, [], monFirstSeen cur now k, now, true, some b⟩

/-- The third loop of `BuildNewVrpMap`, cmd/rtrmon/rtrmon.go:428-439. -/
def monGrace (ends : Int) (r : MonMap × Nat) (x : Str × MonEntry) : MonMap × Nat :=
  if (r.1.get x.1).isNone && decide (x.2.lastSeen ≥ ends) then (r.1.put x.1 { x.2 with visible := false }, r.2 + 1) else r

/-- `BuildNewVrpMap`, cmd/rtrmon/rtrmon.go:370-442. `grace` is `int64(GracePeriod.Seconds())`. -/
def buildNewVrpMap (wide : WideFloat) (grace : Int) (cur : MonMap) (vrps : List VRPJson) (keys : List BgpSecKeyJson) (now : Int) : MonMap × Nat :=
  let res := keys.foldl (monAddKey cur now) (vrps.foldl (monAddVrp wide cur now) [])
  cur.foldl (monGrace (now - grace)) (res, 0)

/-- One entry in the loop of `UpdateCurrentVrpMap`, cmd/rtrmon/rtrmon.go:450-462. -/
def monKeep (now ends : Int) (r : MonMap × Nat) (x : Str × MonEntry) : MonMap × Nat :=
  if !x.2.visible && decide (x.2.lastSeen < ends) then r
  else if x.2.visible then (r.1.put x.1 { x.2 with lastSeen := now }, r.2)
  else (r.1.put x.1 x.2, r.2 + 1)

/-- `UpdateCurrentVrpMap`, cmd/rtrmon/rtrmon.go:444-465. -/
def updateCurrentVrpMap (grace : Int) (cur : MonMap) (now : Int) : MonMap × Nat := cur.foldl (monKeep now (now - grace)) ([], 0)

/-- `Diff`, cmd/rtrmon/rtrmon.go:691-701. -/
def monDiff (a b : MonMap) : MonMap :=
  a.foldl (fun res x => if x.2.visible && (match b.get x.1 with | none => true | some e => !e.visible) then res.put x.1 x.2 else res) []

/-- `isDefinitelyVisible`, cmd/rtrmon/rtrmon.go:662-664. -/
def definitelyVisible (e : Option MonEntry) (t : Int) : Bool :=
  match e with
  | none => false
  | some e => e.visible && decide (e.firstSeen ≤ t)

/-- `isDefinitelyNotVisisble`, cmd/rtrmon/rtrmon.go:666-668. -/
def definitelyNotVisible (e : Option MonEntry) (t : Int) : Bool :=
  match e with
  | none => true
  | some e => !e.visible && decide (e.lastSeen ≤ t)

/-- `countUnmatched`, cmd/rtrmon/rtrmon.go:670-689. -/
def countUnmatched (vrps others : MonMap) (t : Int) : Nat :=
  vrps.countP fun x =>
    if definitelyVisible (some x.2) t then definitelyNotVisible (others.get x.1) t
    else if definitelyNotVisible (some x.2) t then definitelyVisible (others.get x.1) t
    else false

/-- `Client`, cmd/rtrmon/rtrmon.go:209-243: the data, not the settings. -/
structure MonClient where
  vrps : MonMap
  vrpsRtr : MonMap
  serial : U32
  sessionID : U16
  /-- Unix seconds; `none`: never. -/
  lastUpdate : Option Int
  rtrRefresh : U32
  rtrRetry : U32
  rtrExpire : U32
  /-- The gauge of entries in the grace period, cmd/rtrmon/rtrmon.go:350. -/
  graceGauge : Nat
  deriving DecidableEq, Repr

/-- `NewClient`, cmd/rtrmon/rtrmon.go:245-252. -/
def MonClient.new : MonClient := ⟨[], [], 0, 0, none, 0, 0, 0, 0⟩

/-- One fetch of a file, cmd/rtrmon/rtrmon.go:326-359. `decode` is `decodeJSON`. The flag tells whether a comparison is started. -/
def monFetch (wide : WideFloat) (decode : Bytes → Option (List VRPJson × List BgpSecKeyJson)) (grace : Int) (path : Str) (fc : FetchConfig) (c : MonClient) (o : Outcome) (now : Int) : FetchConfig × MonClient × Bool :=
  let (fc, r) := fc.fetchFile path o
  if r.err.isSome ∧ r.code ≠ 304 then (fc, c, false)
  else if r.code = 304 then
    let (m, n) := updateCurrentVrpMap grace c.vrps now
    (fc, { c with vrps := m, lastUpdate := some now, graceGauge := n }, true)
  else match decode r.data with
    | none => (fc, c, false)
    | some (vrps, keys) =>
      let (m, n) := buildNewVrpMap wide grace c.vrps vrps keys now
      (fc, { c with vrps := m, lastUpdate := some now, graceGauge := n }, true)

/-- Announcement or withdrawal, cmd/rtrmon/rtrmon.go:481-485, 500-504, 522-526. -/
def MonClient.record (c : MonClient) (flags : U8) (k : Str) (e : MonEntry) : MonClient :=
  if flags = 1 then { c with vrpsRtr := c.vrpsRtr.put k e } else { c with vrpsRtr := c.vrpsRtr.del k }

/-- The entry for a prefix PDU, cmd/rtrmon/rtrmon.go:470-476, 489-495. -/
def monVrpEntry (now : Int) (p : Prefix) (maxLen : U8) (asn : U32) : MonEntry := ⟨asn, maxLen, p.toStr, now, 0, true, none⟩

/-- The entry for a Router Key PDU, cmd/rtrmon/rtrmon.go:508-518. -/
def monBrkEntry (now : Int) (ski : Bytes) (asn : U32) (spki : Bytes) : MonEntry := ⟨asn, 0, [], now, 0, true, some ⟨asn, none, [], spki, hexBytes ski⟩⟩

/-- `HandlePDU`, cmd/rtrmon/rtrmon.go:467-567. -/
def monPdu (now : Int) (breakRTR : Bool) : CHandler MonClient := fun c p =>
  match p with
  | .ipv4Prefix _ f p ml asn => (c.record f (monVrpKey p ml asn) (monVrpEntry now p ml asn), [])
  | .ipv6Prefix _ f p ml asn => (c.record f (monVrpKey p ml asn) (monVrpEntry now p ml asn), [])
  | .routerKey _ f ski asn spki => (c.record f (monBrkKey (hexBytes ski) asn spki) (monBrkEntry now ski asn spki), [])
  | .endOfData _ _ n refresh retry expire =>
    ({ c with serial := n, vrps := c.vrpsRtr, rtrRefresh := refresh, rtrRetry := retry, rtrExpire := expire, lastUpdate := some now }, if breakRTR then [.disconnect] else [])
  | .cacheResponse _ s => ({ c with sessionID := s }, [])
  | .cacheReset .. => (c, [])
  | .serialNotify .. => (c, [])
  | _ => (c, [.disconnect])

/-- The monitor of one RTR source: its data, the session, and whether the program has ended (cmd/rtrmon/rtrmon.go:209-243; lib/client.go:19-33). -/
structure MonState where
  client : MonClient
  session : CSession
  ended : Bool
  deriving DecidableEq, Repr

/-- What happens to it (cmd/rtrmon/rtrmon.go:254-326, 467-613). -/
inductive MonEvent where
  /-- A new session is set up (cmd/rtrmon/rtrmon.go:274-324, 569-578); possible when there is none. -/
  | connect
  /-- Setting it up fails. -/
  | connectFails
  /-- A PDU arrives at a time. -/
  | pdu (now : Int) (p : Pdu)
  /-- The stream ends or cannot be decoded. -/
  | lost
  /-- The timer of `continuousRTR`, cmd/rtrmon/rtrmon.go:609-611. -/
  | timer

/-- Before the first session, cmd/rtrmon/rtrmon.go:254-267. -/
def MonState.init : MonState := ⟨MonClient.new, ⟨1, false⟩, false⟩

/-- One event and what is sent. `ClientSession.Start` returning an error ends the program (cmd/rtrmon/rtrmon.go:319-322), as it does when the stream ends. -/
def MonState.step (breakRTR : Bool) (s : MonState) (e : MonEvent) : MonState × List Pdu :=
  if s.ended then (s, [])
  else match e with
    | .connect =>
      if s.session.connected then (s, [])
      else let (c, out) := (CSession.start 1).act [.send (.resetQuery 0)]
        ({ s with session := c }, out)
    | .connectFails => if s.session.connected then (s, []) else ({ s with ended := true }, [])
    | .pdu now p =>
      if s.session.connected then
        let (c, d, out) := CSession.onPdu (monPdu now breakRTR) s.session s.client p
        ({ s with session := c, client := d }, out)
      else (s, [])
    | .lost => if s.session.connected then ({ s with session := { s.session with connected := false }, ended := true }, []) else (s, [])
    | .timer =>
      if s.session.connected && !breakRTR then
        let (c, out) := s.session.act [.send (.serialQuery 0 s.client.sessionID s.client.serial)]
        ({ s with session := c }, out)
      else (s, [])

/-- A run: the final state and everything sent (cmd/rtrmon/rtrmon.go:267-326). -/
def MonState.run (breakRTR : Bool) (s : MonState) : List MonEvent → MonState × List Pdu
  | [] => (s, [])
  | e :: es => let (s', out) := s.step breakRTR e
    let (s'', out') := run breakRTR s' es
    (s'', out ++ out')

/-- The flags for one source, cmd/rtrmon/rtrmon.go:58-67, 69-78, and the environment variables. -/
structure MonFlags where
  validateCert : Bool
  validateSSH : Bool
  serverKey : Str
  /-- none, password or key. -/
  method : Str
  user : Str
  password : Str
  envPassword : Str
  deriving DecidableEq, Repr

/-- The settings in `Client`, cmd/rtrmon/rtrmon.go:210-214. -/
structure MonTransport where
  validateSSH : Bool
  validateCert : Bool
  user : Str
  serverKey : Str
  password : Str
  deriving DecidableEq, Repr

/-- What `main` sets for the primary source, cmd/rtrmon/rtrmon.go:939-955: not the validation. -/
def monPrimary (f : MonFlags) : MonTransport := ⟨false, false, f.user, [], if f.password = [] then f.envPassword else f.password⟩

/-- What `main` sets for the secondary source, cmd/rtrmon/rtrmon.go:972-987: not the validation; the environment only with the method key. -/
def monSecondary (f : MonFlags) : MonTransport := ⟨false, false, f.user, [], if f.method = "key".toList then f.envPassword else f.password⟩

/-- `InsecureSkipVerify: !c.ValidateCert`, cmd/rtrmon/rtrmon.go:283-285. -/
def monTlsAccepts (t : MonTransport) (certOk : Bool) : Bool := !t.validateCert || certOk

/-- `HostKeyCallback`, cmd/rtrmon/rtrmon.go:289-298. -/
def monHostKeyAccepts (t : MonTransport) (fingerprint : Str) : Bool := if t.validateSSH then fingerprint == "SHA256:".toList ++ t.serverKey else true

/-- What a comparison publishes, cmd/rtrmon/rtrmon.go:778-836. -/
structure MonReport where
  onlyIn1 : MonMap
  onlyIn2 : MonMap
  total1 : Nat
  total2 : Nat
  diff1 : Nat
  diff2 : Nat
  /-- For each threshold reported: the two counts. -/
  unmatched : List (Int × Nat × Nat)

/-- One comparison, cmd/rtrmon/rtrmon.go:775-836; `clock v` is the time read for threshold `v` (line 817). -/
def monCompare (startedAt : Int) (clock : Int → Int) (thresholds : List Int) (vrps1 vrps2 : MonMap) : MonReport :=
  let onlyIn1 := monDiff vrps1 vrps2
  let onlyIn2 := monDiff vrps2 vrps1
  ⟨onlyIn1, onlyIn2, vrps1.length, vrps2.length, onlyIn1.length, onlyIn2.length,
    (thresholds.filter fun v => decide (clock v - v ≥ startedAt)).map fun v => (v, countUnmatched onlyIn1 vrps2 (clock v - v), countUnmatched onlyIn2 vrps1 (clock v - v))⟩

/-- `strconv.ParseInt(s, 10, 32)`, cmd/rtrmon/rtrmon.go:185. -/
def parseInt32 (s : Str) : Option Int :=
  match s with
  | '-' :: t => match parseDec t with
    | some n => if n ≤ 2 ^ 31 then some (-(n : Int)) else none
    | none => none
  | '+' :: t => match parseDec t with
    | some n => if n < 2 ^ 31 then some n else none
    | none => none
  | t => match parseDec t with
    | some n => if n < 2 ^ 31 then some n else none
    | none => none

/-- The loop of `thresholds.Set`, cmd/rtrmon/rtrmon.go:184-192. -/
def parseThresholds : List Str → Option (List Int)
  | [] => some []
  | s :: l => match parseInt32 s, parseThresholds l with
    | some n, some ns => some (n :: ns)
    | _, _ => none

/-- `sort.Slice` with `<`, cmd/rtrmon/rtrmon.go:195. -/
def insertThreshold (n : Int) : List Int → List Int
  | [] => [n]
  | m :: l => if n ≤ m then n :: m :: l else m :: insertThreshold n l

/-- `thresholds.Set`, cmd/rtrmon/rtrmon.go:178-198: the new value, or an error, on which the program ends. -/
def thresholdsSet (value : Str) : Option (List Int) := (parseThresholds (splitOn ',' value)).map (List.foldr insertThreshold [])

/-- `strconv.AppendInt(res, n, 10)`, cmd/rtrmon/rtrmon.go:169. -/
def intStr (n : Int) : Str := if n < 0 then '-' :: decStr n.natAbs else decStr n.natAbs

/-- `thresholds.String`, cmd/rtrmon/rtrmon.go:166-176. -/
def thresholdsString (l : List Int) : Str := joinWith ',' (l.map intStr)

/-- The default, cmd/rtrmon/rtrmon.go:150. -/
def defaultThresholds : List Int := [0, 56, 256, 596, 851, 1024, 1706, 3411]

/-- The grace period after `main` adjusted it (cmd/rtrmon/rtrmon.go:928-932), as the whole seconds used by the maps (lines 429, 446). The flag is in nanoseconds. Indexing an empty list panics. -/
def monGracePeriod (flag : Int) (thresholds : List Int) : GoRes Int :=
  match thresholds.getLast? with
  | none => .panic
  | some t => .ok ((if 1000000000 * t > flag then 1000000000 * t else flag).tdiv 1000000000)

end StayRTR
