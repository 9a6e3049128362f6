import Verif.Model.Mon
import Verif.Spec.Session

/-!
# What the monitor is meant to keep

A source is a history of sightings: at these times it listed these names. No maps, no incremental bookkeeping.
-/

namespace StayRTR.Spec

/-- The names a file lists: the VRPs that can be read, and the router keys. -/
def names (wide : WideFloat) (vrps : List VRPJson) (keys : List BgpSecKeyJson) : List Str :=
  vrps.filterMap (fun v => match v.getASN2 wide, v.getPrefix2 with
    | some asn, some p => some (monVrpKey p v.length asn)
    | _, _ => none) ++
  keys.map (fun b => monBrkKey b.ski b.asn b.pubkey)

/-- What was seen of a source and when, the newest first. -/
abbrev Sightings := List (Int × List Str)

/-- The time the name was last listed. -/
def lastSighting (h : Sightings) (k : Str) : Option Int := (h.find? fun x => decide (k ∈ x.2)).map (·.1)

/-- Since when the name was listed without interruption up to the newest sighting. -/
def since (h : Sightings) (k : Str) : Option Int := (h.takeWhile fun x => decide (k ∈ x.2)).getLast?.map (·.1)

/-- The sightings up to the last time the name was listed. -/
def untilSeen (h : Sightings) (k : Str) : Sightings := h.dropWhile fun x => decide (k ∉ x.2)

/-- The newest sightings come last in time. -/
def InOrder (h : Sightings) : Prop := h.Pairwise fun a b => b.1 ≤ a.1

/-- What is to be said about a name after a history: visible, first seen, last seen. A name in the newest sighting is visible since the start of its current run; any other name is kept, invisible and with the times of its last
run, while its last sighting is within the grace period. -/
def verdict (grace : Int) (h : Sightings) (k : Str) : Option (Bool × Int × Int) :=
  match h with
  | [] => none
  | (now, ns) :: _ =>
    if k ∈ ns then (since h k).map fun f => (true, f, now)
    else match lastSighting h k, since (untilSeen h k) k with
      | some t, some f => if now - grace ≤ t then some (false, f, t) else none
      | _, _ => none

/-- What an entry says. -/
def tells (e : MonEntry) : Bool × Int × Int := (e.visible, e.firstSeen, e.lastSeen)

/-- The name an entry stands for by its own fields. -/
def entryName (e : MonEntry) : Str :=
  match e.bgpsec with
  | none => e.pfx ++ '-' :: (decStr e.length.toNat ++ '-' :: decStr e.asn.toNat)
  | some b => monBrkKey b.ski b.asn b.pubkey

/-- One update of a source: a file, or the news that it has not changed. -/
inductive Update where
  | file (vrps : List VRPJson) (keys : List BgpSecKeyJson)
  | unchanged

/-- The sightings a history of updates amounts to (the newest first): unchanged means the names of the update before. -/
def sightings (wide : WideFloat) : List (Int × Update) → Sightings
  | [] => []
  | (t, .file vrps keys) :: h => (t, names wide vrps keys) :: sightings wide h
  | (t, .unchanged) :: h => (t, match sightings wide h with | (_, ns) :: _ => ns | [] => []) :: sightings wide h

/-- The map after a history of updates, with the functions of the code. -/
def mapAfter (wide : WideFloat) (grace : Int) : List (Int × Update) → MonMap
  | [] => []
  | (t, .file vrps keys) :: h => (buildNewVrpMap wide grace (mapAfter wide grace h) vrps keys t).1
  | (t, .unchanged) :: h => (updateCurrentVrpMap grace (mapAfter wide grace h) t).1

/-- The name of a record received over RTR. -/
def recName : Rec → Str
  | .vrp p ml asn => monVrpKey p ml asn
  | .brk asn ski pubkey => monBrkKey (hexBytes ski) asn pubkey

/-- The map has the record. -/
def Holds (m : MonMap) (r : Rec) : Prop := (m.get (recName r)).isSome = true

/-- A record with a real prefix. -/
def RealRec : Rec → Prop
  | .vrp p _ _ => p.WF ∧ p.isValid = true
  | .brk .. => True

/-- The last PDU about a record. -/
def lastAbout (ps : List Pdu) (r : Rec) : Option Pdu := (ps.filter fun p => decide (pduRecord p = some r)).getLast?

/-- Held after the PDUs: the last one about the record announced it; if there is none, held before. -/
def HeldAfter (held : Rec → Prop) (ps : List Pdu) (r : Rec) : Prop :=
  match lastAbout ps r with
  | some p => pduFlag p = some 1
  | none => held r

/-- A data PDU. -/
def IsData (p : Pdu) : Prop := (pduRecord p).isSome = true

/-- What an answer of a source tells about itself; `none`: nothing that can be used. -/
def told (decode : Bytes → Option (List VRPJson × List BgpSecKeyJson)) : Outcome → Option Update
  | .response 304 _ _ _ => some .unchanged
  | .response 200 _ _ (some b) => (decode b).map fun x => .file x.1 x.2
  | .file (some b) => (decode b).map fun x => .file x.1 x.2
  | _ => none

/-- The client after a history of fetches, the newest first. -/
def fetchedAfter (wide : WideFloat) (decode : Bytes → Option (List VRPJson × List BgpSecKeyJson)) (grace : Int) (path : Str) (fc : FetchConfig) : List (Int × Outcome) → FetchConfig × MonClient
  | [] => (fc, MonClient.new)
  | (t, o) :: h =>
    let r := fetchedAfter wide decode grace path fc h
    let x := monFetch wide decode grace path r.1 r.2 o t
    (x.1, x.2.1)

/-- The kind of answer fits the path: HTTP answers for a URL, the file system for a file. -/
def Fits (path : Str) : Outcome → Prop
  | .failed => True
  | .response .. => isURL path = true
  | .file _ => isURL path = false

/-- Two clients that share one fetch configuration (as set up at cmd/rtrmon/rtrmon.go:934-937, 948, 983), after a history of fetches, the newest first; `false`: of the first client. -/
def bothAfter (wide : WideFloat) (decode : Bytes → Option (List VRPJson × List BgpSecKeyJson)) (grace : Int) (path1 path2 : Str) (fc : FetchConfig) : List (Bool × Int × Outcome) → FetchConfig × MonClient × MonClient
  | [] => (fc, MonClient.new, MonClient.new)
  | (false, t, o) :: h =>
    let r := bothAfter wide decode grace path1 path2 fc h
    let x := monFetch wide decode grace path1 r.1 r.2.1 o t
    (x.1, x.2.1, r.2.2)
  | (true, t, o) :: h =>
    let r := bothAfter wide decode grace path1 path2 fc h
    let x := monFetch wide decode grace path2 r.1 r.2.2 o t
    (x.1, r.2.1, x.2.1)

/-- The name is shown as present. -/
def Shown (m : MonMap) (k : Str) : Prop := ∃ e, m.get k = some e ∧ e.visible = true

end StayRTR.Spec
