import Verif.Spec.Json
import Verif.Spec.Slurm
import Verif.Spec.Update

/-!
# From the files to the records

What a cache file and a SLURM file (RFC 8416) ask for, on the text of the files. Nothing of the decoder, the filters or the update loop is used; the only thing of the model is what a fetch delivers.
-/

namespace StayRTR.Spec

/-- `e` is an entry of a list of a SLURM file. -/
def SlurmEntry (s : Str) (outer inner : String) (e : Json) : Prop := ∃ o o' es, FirstValue s (.obj o) ∧ Member o outer (.obj o') ∧ Member o' inner (.arr es) ∧ e ∈ es

/-- A prefix filter (RFC 8416, section 3.3.1) matches the VRPs of a prefix and an AS number: one of the two is given, and what is given matches. -/
def FilterDrops (e : Json) (p : Prefix) (a : U32) : Prop :=
  ∃ o, e = .obj o ∧ ((∃ t, Member o "prefix" (.str t)) ∨ ∃ lit, Member o "asn" (.num lit)) ∧ (∀ t, Member o "prefix" (.str t) → ∃ x, PrefixText t x ∧ Covers x p) ∧ ∀ lit, Member o "asn" (.num lit) → Denotes lit a.toNat

/-- A BGPsec filter (section 3.3.2) matches a router key: AS number or key identifier is given, and what is given matches. -/
def KeyFilterDrops (e : Json) (a : U32) (ski : Bytes) : Prop :=
  ∃ o, e = .obj o ∧ ((∃ lit, Member o "asn" (.num lit)) ∨ ∃ j b, Member o "SKI" j ∧ BytesIs j b) ∧ (∀ lit, Member o "asn" (.num lit) → Denotes lit a.toNat) ∧ ∀ j b, Member o "SKI" j → BytesIs j b → b = ski

/-- A prefix assertion (section 3.4.1) adds the VRP: all fields are given, or all but the maximum length, which is then the length of the prefix. Default routes are not served (C76). -/
def AssertsVrp (e : Json) (p : Prefix) (m : U8) (a : U32) : Prop :=
  ∃ o, e = .obj o ∧ (∃ t, Member o "prefix" (.str t) ∧ PrefixText t p) ∧ (∃ lit, Member o "asn" (.num lit) ∧ Denotes lit a.toNat) ∧
    ((∃ lit, Member o "maxPrefixLength" (.num lit) ∧ Denotes lit m.toNat) ∨ ((∀ lit, ¬ Member o "maxPrefixLength" (.num lit)) ∧ (m.toNat : Int) = p.bits)) ∧ 1 ≤ p.bits

/-- A BGPsec assertion (section 3.4.2) adds the router key. -/
def AssertsKey (e : Json) (a : U32) (ski key : Bytes) : Prop :=
  ∃ o, e = .obj o ∧ (∃ lit, Member o "asn" (.num lit) ∧ Denotes lit a.toNat) ∧ (∃ j, Member o "SKI" j ∧ BytesIs j ski) ∧ ∃ j, Member o "routerPublicKey" j ∧ BytesIs j key

/-- A SLURM file takes the record out. -/
def Dropped (s : Str) : Rec → Prop
  | .vrp p _ a => ∃ e, SlurmEntry s "validationOutputFilters" "prefixFilters" e ∧ FilterDrops e p a
  | .brk a ski _ => ∃ e, SlurmEntry s "validationOutputFilters" "bgpsecFilters" e ∧ KeyFilterDrops e a ski

/-- A SLURM file adds the record. -/
def Asserted (s : Str) : Rec → Prop
  | .vrp p m a => ∃ e, SlurmEntry s "locallyAddedAssertions" "prefixAssertions" e ∧ AssertsVrp e p m a
  | .brk a ski key => ∃ e, SlurmEntry s "locallyAddedAssertions" "bgpsecAssertions" e ∧ AssertsKey e a ski key

/-- What a cache file and, if there is one, a SLURM file ask for at the time `now`: what is stated and not taken out, and what is added. -/
def TextWants (now : Int) (s : Str) (slurm : Option Str) (r : Rec) : Prop :=
  match slurm with
  | none => FileStates now s r
  | some x => (FileStates now s r ∧ ¬ Dropped x r) ∨ Asserted x r

/-- What is asked of the text of a cache file: it begins with a cache file that has `roas`, no object has a name twice, numbers are ordinary (`OrdinaryNumbers`), AS numbers given as numbers are integers in range, and every router key gives its three fields. -/
structure GoodCache (s : Str) (l : RPKIList) : Prop where
  first : ∃ j, FirstValue s j ∧ CacheIs j l
  plain : ∀ j, FirstValue s j → NoRepeats j ∧ OrdinaryNumbers j
  roas : ∃ o es, FirstValue s (.obj o) ∧ Member o "roas" (.arr es)
  range : ∀ o lit, Entry s "roas" (.obj o) → Member o "asn" (.num lit) → ∃ x, IntText lit x ∧ 0 ≤ x ∧ x < 2 ^ 32
  keys : ∀ e, Entry s "bgpsec_keys" e → ∃ o, e = .obj o ∧ ∀ name ∈ ["asn", "ski", "pubkey"], ∃ j, Member o name j ∧ j ≠ .null

/-- What is asked of the text of a SLURM file: it begins with a SLURM file, no object has a name twice; prefix filters give a prefix or an AS number, prefixes of filters are real ones, key identifiers of filters are not empty,
assertions give their fields, and a maximum length that is given fits the prefix. -/
structure GoodSlurm (s : Str) : Prop where
  first : ∃ j x, FirstValue s j ∧ SlurmIs j x
  plain : ∀ j, FirstValue s j → NoRepeats j
  filters : ∀ e, SlurmEntry s "validationOutputFilters" "prefixFilters" e → ∃ o, e = .obj o ∧ ((∃ t, Member o "prefix" (.str t)) ∨ ∃ lit, Member o "asn" (.num lit)) ∧ ∀ t, Member o "prefix" (.str t) → ∃ x, PrefixText t x
  keyFilters : ∀ e, SlurmEntry s "validationOutputFilters" "bgpsecFilters" e → ∀ o j, e = .obj o → Member o "SKI" j → ¬ BytesIs j []
  assertions : ∀ e, SlurmEntry s "locallyAddedAssertions" "prefixAssertions" e → ∃ o, e = .obj o ∧ (∃ lit, Member o "asn" (.num lit)) ∧
    ∀ t p lit x, Member o "prefix" (.str t) → PrefixText t p → Member o "maxPrefixLength" (.num lit) → IntText lit x → p.bits ≤ x ∧ x ≤ p.ip.bitLen
  keyAssertions : ∀ e, SlurmEntry s "locallyAddedAssertions" "bgpsecAssertions" e → ∃ o, e = .obj o ∧ ∀ name ∈ ["asn", "SKI", "routerPublicKey"], ∃ j, Member o name j ∧ j ≠ .null

/-- The validators after the SLURM file is fetched, which is first. -/
def afterSlurm (s : UState) (f : Fetched) : FetchConfig :=
  match f.slurm with
  | none => s.fetch
  | some (file, o) => (s.fetch.fetchFile file o).1

/-- A refresh gets the cache file `b`, and the SLURM file `x` if there is one; both are new. -/
structure NewFiles (e : Env) (s : UState) (f : Fetched) (b : Bytes) (x : Option Bytes) : Prop where
  cache : delivered (afterSlurm s f) f.file f.cache = some b
  newCache : s.hashCache ≠ some (e.sha b)
  noSlurm : x = none → f.slurm = none ∧ s.slurm = none
  slurm : ∀ y, x = some y → ∃ file o, f.slurm = some (file, o) ∧ delivered s.fetch file o = some y ∧ s.hashSlurm ≠ some (e.sha y)

end StayRTR.Spec
