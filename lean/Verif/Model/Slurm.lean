import Verif.Model.Parse

/-!
# The cache file and SLURM

The decoded JSON of a cache file (prefixfile/prefixfile.go) and the SLURM filters and assertions (prefixfile/slurm.go). Decoding JSON is in `Model/Json.lean`: these are
the Go values after it.
-/

namespace StayRTR

/-- The dynamic value of `VRPJson.ASN` (prefixfile/prefixfile.go:29, 55-74): a string, a JSON number (`float64`, here its value truncated towards zero), an `int`,
a `uint32`, or anything else. -/
inductive AsnJson where
  | str (s : Str)
  | float (trunc : Int)
  | int (n : Int)
  | uint32 (n : U32)
  | other
  deriving DecidableEq, Repr

/-- `VRPJson`, prefixfile/prefixfile.go:26-32. -/
structure VRPJson where
  pfx : Str
  length : U8
  asn : AsnJson
  ta : Str
  expires : Option Int
  deriving DecidableEq, Repr

/-- `BgpSecKeyJson`, prefixfile/prefixfile.go:34-45. -/
structure BgpSecKeyJson where
  asn : U32
  expires : Option Int
  ta : Str
  pubkey : Bytes
  ski : Str
  deriving DecidableEq, Repr

/-- `uint32(f)` for a `float64` that is out of range is left to the implementation by the Go specification (prefixfile/prefixfile.go:67). -/
abbrev WideFloat := Int → U32

namespace VRPJson

/-- `GetASN2`, prefixfile/prefixfile.go:55-74. -/
def getASN2 (wide : WideFloat) (v : VRPJson) : Option U32 :=
  match v.asn with
  | .str s => parseUint32 (s.dropWhile (fun c => c == 'a' || c == 'A' || c == 's' || c == 'S'))
  | .uint32 n => some n
  | .float t => some (if 0 ≤ t ∧ t < 2 ^ 32 then BitVec.ofInt 32 t else wide t)
  | .int n => some (BitVec.ofInt 32 n)
  | .other => none

/-- `GetASN`, prefixfile/prefixfile.go:76-79: 0 for an error. -/
def getASN (wide : WideFloat) (v : VRPJson) : U32 := (v.getASN2 wide).getD 0

/-- `GetPrefix2`, prefixfile/prefixfile.go:81-90. -/
def getPrefix2 (v : VRPJson) : Option Prefix :=
  match parsePrefix v.pfx with
  | none => none
  | some p => if p.isValid then some p else none

/-- `GetPrefix`, prefixfile/prefixfile.go:92-95: the zero prefix for an error. -/
def getPrefix (v : VRPJson) : Prefix := v.getPrefix2.getD Prefix.invalid

end VRPJson

/-- `SlurmPrefixFilter`, prefixfile/slurm.go:14-18; an absent prefix is the empty string. -/
structure PrefixFilter where
  pfx : Str
  asn : Option U32
  deriving DecidableEq, Repr

/-- `SlurmBGPsecFilter`, prefixfile/slurm.go:20-24; an absent SKI is empty. -/
structure BgpsecFilter where
  asn : Option U32
  ski : Bytes
  deriving DecidableEq, Repr

/-- `SlurmPrefixAssertion`, prefixfile/slurm.go:44-49. -/
structure PrefixAssertion where
  pfx : Str
  asn : U32
  maxPrefixLength : Int
  comment : Str
  deriving DecidableEq, Repr

/-- `SlurmBGPsecAssertion`, prefixfile/slurm.go:51-56. -/
structure BgpsecAssertion where
  ski : Bytes
  asn : U32
  routerPublicKey : Bytes
  deriving DecidableEq, Repr

/-- `SlurmConfig`, prefixfile/slurm.go:71-80. -/
structure Slurm where
  prefixFilters : List PrefixFilter
  bgpsecFilters : List BgpsecFilter
  prefixAssertions : List PrefixAssertion
  bgpsecAssertions : List BgpsecAssertion
  deriving DecidableEq, Repr

namespace Slurm

/-- `SlurmPrefixFilter.GetPrefix`, prefixfile/slurm.go:34-37: the zero prefix for an error. -/
def filterPrefix (f : PrefixFilter) : Prefix := (parsePrefix f.pfx).getD Prefix.invalid

/-- The body of the inner loop of `FilterOnVRPs`, prefixfile/slurm.go:103-119. -/
def filterMatches (wide : WideFloat) (rPrefix : Prefix) (vrp : VRPJson) (f : PrefixFilter) : Bool :=
  let fPrefix := filterPrefix f
  let m := if fPrefix.isValid = true ∧ rPrefix.isValid = true
    then fPrefix.overlaps rPrefix && decide (fPrefix.bits ≤ rPrefix.bits) else true
  match f.asn with
  | some a => m && decide (vrp.getASN wide = a)
  | none => m

/-- `FilterOnVRPs`, prefixfile/slurm.go:93-131: `(added, removed)`. -/
def filterOnVRPs (wide : WideFloat) (fs : List PrefixFilter) (vrps : List VRPJson) : List VRPJson × List VRPJson :=
  if fs = [] then (vrps, [])
  else vrps.foldl (fun (r : List VRPJson × List VRPJson) vrp =>
    if fs.any (filterMatches wide vrp.getPrefix vrp) then (r.1, r.2 ++ [vrp]) else (r.1 ++ [vrp], r.2)) ([], [])

/-- The comparison with `filter.SKI` in `FilterOnBRKs` (prefixfile/slurm.go:145-158, 170-182): the decoded SKI is cached, also what was decoded before an error; `none` as cache: not decoded
yet. Gives the new cache and whether the filter matches. -/
def skiMatches (brk : BgpSecKeyJson) (cache : Option Bytes) (ski : Bytes) : Option Bytes × Bool :=
  match cache with
  | some c => (some c, c == ski)
  | none =>
    let (c, ok) := hexDecode brk.ski
    (some c, ok && c == ski)

/-- One filter of `FilterOnBRKs`, prefixfile/slurm.go:142-183. -/
def brkFilterStep (brk : BgpSecKeyJson) (cache : Option Bytes) (f : BgpsecFilter) : Option Bytes × Bool :=
  match f.asn with
  | some a =>
    if brk.asn = a then (if f.ski ≠ [] then skiMatches brk cache f.ski else (cache, true)) else (cache, false)
  | none => if f.ski ≠ [] then skiMatches brk cache f.ski else (cache, false)

/-- The inner loop of `FilterOnBRKs`, prefixfile/slurm.go:142-184: whether the key is removed. -/
def brkRemoved (brk : BgpSecKeyJson) : Option Bytes → List BgpsecFilter → Bool
  | _, [] => false
  | cache, f :: fs =>
    let (cache, m) := brkFilterStep brk cache f
    if m then true else brkRemoved brk cache fs

/-- `FilterOnBRKs`, prefixfile/slurm.go:133-192: `(added, removed)`. -/
def filterOnBRKs (fs : List BgpsecFilter) (brks : List BgpSecKeyJson) : List BgpSecKeyJson × List BgpSecKeyJson :=
  if fs = [] then (brks, [])
  else brks.foldl (fun (r : List BgpSecKeyJson × List BgpSecKeyJson) brk =>
    if brkRemoved brk none fs then (r.1, r.2 ++ [brk]) else (r.1 ++ [brk], r.2)) ([], [])

/-- The body of the loop of `AssertVRPs`, prefixfile/slurm.go:199-215. -/
def assertVRP (a : PrefixAssertion) : Option VRPJson :=
  match parseCIDR a.pfx with
  | none => none
  | some size =>
    let maxLength := if a.maxPrefixLength ≤ size then (size : Int) else a.maxPrefixLength
    some ⟨a.pfx, BitVec.ofInt 8 maxLength, .uint32 a.asn, a.comment, none⟩

/-- `AssertVRPs`, prefixfile/slurm.go:194-217. -/
def assertVRPs (l : List PrefixAssertion) : List VRPJson := l.filterMap assertVRP

/-- `AssertBRKs`, prefixfile/slurm.go:219-235. -/
def assertBRKs (l : List BgpsecAssertion) : List BgpSecKeyJson :=
  l.map (fun a => ⟨a.asn, none, [], a.routerPublicKey, hexBytes a.ski⟩)

/-- `FilterAssert`, prefixfile/slurm.go:243-264. -/
def filterAssert (wide : WideFloat) (s : Slurm) (vrps : List VRPJson) (brks : List BgpSecKeyJson) : List VRPJson × List BgpSecKeyJson :=
  ((filterOnVRPs wide s.prefixFilters vrps).1 ++ assertVRPs s.prefixAssertions,
   (filterOnBRKs s.bgpsecFilters brks).1 ++ assertBRKs s.bgpsecAssertions)

end Slurm

end StayRTR
