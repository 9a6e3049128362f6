import Verif.Model.Text

/-!
# Sendable data and diffs

Model of `VRP`, `BgpsecKey` and the diff functions of `/repo/lib/server.go`.
Values are immutable here: the Go code copies a record (`Copy`) before changing its flag.
-/

namespace StayRTR

/-- `FLAG_ADDED`, lib/structs.go:45. -/
def flagAdded : U8 := 1
/-- `FLAG_REMOVED`, lib/structs.go:46. -/
def flagRemoved : U8 := 0

/-- `VRP`, lib/server.go:824-829. -/
structure VRP where
  pfx : Prefix
  asn : U32
  maxLen : U8
  flags : U8
  deriving DecidableEq, Repr

/-- `BgpsecKey`, lib/server.go:869-874. -/
structure BgpsecKey where
  asn : U32
  pubkey : Bytes
  ski : Bytes
  flags : U8
  deriving DecidableEq, Repr

/-- `SendableData`, lib/server.go:34-42: the two implementations. -/
inductive SD where
  | vrp (v : VRP)
  | brk (k : BgpsecKey)
  deriving DecidableEq, Repr

namespace SD

/-- `HashKey`, lib/server.go:839-841 and 884-886. -/
def hashKey : SD → Str
  | vrp v => v.pfx.toStr ++ '-' :: (decStr v.maxLen.toNat ++ '-' :: decStr v.asn.toNat)
  | brk k => decStr k.asn.toNat ++ '-' :: (hexBytes k.ski ++ '-' :: hexBytes k.pubkey)

/-- `GetFlag`, lib/server.go:865-867, 913-915. -/
def getFlag : SD → U8
  | vrp v => v.flags
  | brk k => k.flags

/-- `Copy` followed by `SetFlag`, lib/server.go:242-243, 250-251 (`Copy`: 853-859, 897-907; `SetFlag`: 861-863, 909-911). -/
def withFlag (f : U8) : SD → SD
  | vrp v => vrp { v with flags := f }
  | brk k => brk { k with flags := f }

/-- `Equals`, lib/server.go:843-851, 888-895 (different `Type()` gives false). -/
def equals : SD → SD → Bool
  | vrp a, vrp b => a.maxLen == b.maxLen && a.asn == b.asn && a.pfx == b.pfx
  | brk a, brk b => a.asn == b.asn && a.pubkey == b.pubkey && a.ski == b.ski
  | _, _ => false

end SD

/-- A Go `map[string]uint8` (lib/server.go:220). -/
abbrev FlagMap := Str → Option U8

/-- `ConvertSDListToMap`, lib/server.go:219-225: later entries overwrite earlier ones. -/
def convertSDListToMap (l : List SD) : FlagMap :=
  l.foldl (fun m v => fun k => if k = v.hashKey then some v.getFlag else m k) (fun _ => none)

/-- `ComputeDiff`, lib/server.go:227-256: `(added, removed, unchanged)`. -/
def computeDiff (new prev : List SD) (populateUnchanged : Bool) : List SD × List SD × List SD :=
  let newMap := convertSDListToMap new
  let prevMap := convertSDListToMap prev
  let added := (new.filter (fun x => (prevMap x.hashKey).isNone)).map (SD.withFlag flagAdded)
  let removed := (prev.filter (fun x => (newMap x.hashKey).isNone)).map (SD.withFlag flagRemoved)
  let unchanged := if populateUnchanged then prev.filter (fun x => (newMap x.hashKey).isSome) else []
  (added, removed, unchanged)

/-- `ApplyDiff`, lib/server.go:258-289. -/
def applyDiff (diff prev : List SD) : List SD :=
  let diffMap := convertSDListToMap diff
  let prevMap := convertSDListToMap prev
  prev.filter (fun x => (diffMap x.hashKey).isNone) ++
  diff.filter (fun x =>
    if x.getFlag = flagAdded then true
    else if x.getFlag = flagRemoved then
      match prevMap x.hashKey with
      | none => true
      | some f => f == flagRemoved
    else false)

end StayRTR
