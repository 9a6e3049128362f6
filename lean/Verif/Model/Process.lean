import Verif.Model.Slurm
import Verif.Model.SD

/-!
# From the cache file to the records: `processData`

cmd/stayrtr/stayrtr.go:193-322. The clock is a parameter. `sort.Slice` is a parameter: any function that gives a permutation in the order of the comparison function;
the comparison function says true for equal elements, which `sort.Slice` does not expect, see DESIGN.md.
-/

namespace StayRTR

/-- `isValidPrefixLength`, cmd/stayrtr/stayrtr.go:193-201; `uint8(plen)` and `uint8(max)` are conversions of `int`. -/
def isValidPrefixLength (p : Prefix) (maxLength : U8) : Bool :=
  let plen := p.bits
  let max := p.ip.bitLen
  !(plen == 0 || decide ((BitVec.ofInt 8 plen).toNat > maxLength.toNat) || decide (maxLength.toNat > (BitVec.ofNat 8 max).toNat))

/-- `NowUnix > *v.Expires`, cmd/stayrtr/stayrtr.go:239-245, 302-307. -/
def isExpired (now : Int) : Option Int → Bool
  | none => false
  | some e => decide (now > e)

/-- The checks on one entry, cmd/stayrtr/stayrtr.go:225-245: the prefix and ASN if it passes. -/
def checkVRP (wide : WideFloat) (now : Int) (v : VRPJson) : Option (Prefix × U32) :=
  match v.getPrefix2 with
  | none => none
  | some p =>
    match v.getASN2 wide with
    | none => none
    | some asn =>
      if isValidPrefixLength p v.length = false then none
      else if isExpired now v.expires then none
      else some (p, asn)

/-- The key of the map `filterDuplicates`, cmd/stayrtr/stayrtr.go:254. -/
def dedupKey (p : Prefix) (asn : U32) (length : U8) : Str := p.toStr ++ ',' :: (decStr asn.toNat ++ ',' :: decStr length.toNat)

/-- The local variables of the first loop of `processData`, cmd/stayrtr/stayrtr.go:211-222: `seen` holds the keys of `filterDuplicates`. -/
structure ProcState where
  seen : List Str
  out : List VRP
  countv4 : Nat
  countv6 : Nat
  deriving DecidableEq, Repr

/-- The body of the first loop of `processData`, cmd/stayrtr/stayrtr.go:224-267. -/
def procStep (wide : WideFloat) (now : Int) (s : ProcState) (v : VRPJson) : ProcState :=
  match checkVRP wide now v with
  | none => s
  | some (p, asn) =>
    let s := if p.ip.is4 then { s with countv4 := s.countv4 + 1 } else { s with countv6 := s.countv6 + 1 }
    let key := dedupKey p asn v.length
    if key ∈ s.seen then s
    else { s with seen := key :: s.seen, out := s.out ++ [⟨p, asn, v.length, 0⟩] }

/-- `netip.Addr.Compare(a, b) < 1`, cmd/stayrtr/stayrtr.go:294: by length of the address, then by value. -/
def Addr.compareLe (a b : Addr) : Bool := decide (a.bitLen < b.bitLen) || (a.bitLen == b.bitLen && decide (a.value ≤ b.value))

/-- The comparison function of `sort.Slice`, cmd/stayrtr/stayrtr.go:269-298. -/
def vrpLess (a b : VRP) : Bool :=
  if a.pfx.bits = b.pfx.bits then
    if a.maxLen ≠ b.maxLen then decide (a.maxLen.toNat > b.maxLen.toNat) else a.pfx.ip.compareLe b.pfx.ip
  else decide (a.pfx.bits > b.pfx.bits)

/-- `sort.Slice`, cmd/stayrtr/stayrtr.go:269. -/
abbrev Sorter := List VRP → List VRP

/-- (Assumption on `sort.Slice`, cmd/stayrtr/stayrtr.go:269.) The result is a permutation, in the order of the comparison function. -/
def Sorter.Ok (sort : Sorter) : Prop := ∀ l, (sort l).Perm l ∧ (sort l).Pairwise (fun a b => vrpLess a b = true)

/-- The second loop of `processData`, cmd/stayrtr/stayrtr.go:300-319. -/
def processKeys (now : Int) (ks : List BgpSecKeyJson) : List BgpsecKey :=
  ks.filterMap (fun k =>
    if isExpired now k.expires then none
    else if (hexDecode k.ski).2 = false then none
    else some ⟨k.asn, k.pubkey, (hexDecode k.ski).1, 0⟩)

/-- The result of `processData`, cmd/stayrtr/stayrtr.go:321. -/
structure Processed where
  vrps : List VRP
  brks : List BgpsecKey
  countv4 : Nat
  countv6 : Nat
  deriving DecidableEq, Repr

/-- `processData`, cmd/stayrtr/stayrtr.go:209-322. -/
def processData (wide : WideFloat) (sort : Sorter) (now : Int) (vrps : List VRPJson) (brks : List BgpSecKeyJson) : Processed :=
  let s := vrps.foldl (procStep wide now) ⟨[], [], 0, 0⟩
  ⟨sort s.out, processKeys now brks, s.countv4, s.countv6⟩

/-- The list handed to `AddData`, cmd/stayrtr/stayrtr.go:414-420. -/
def Processed.sds (r : Processed) : List SD := r.vrps.map SD.vrp ++ r.brks.map SD.brk

end StayRTR
