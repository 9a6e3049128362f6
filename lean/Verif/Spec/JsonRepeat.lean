import Verif.Spec.Json

/-!
# What a file with repeated names says

Every place of a file (the prefix of an entry, an entry of a list, …) has a history: the values that the text gives for it, in order. Without repeated names there is at most one; then this says the same as `Spec/Json.lean`.
-/

namespace StayRTR.Spec

/-- Whether a name is the name of a field can be decided. -/
instance instDecSpells (n : Str) (name : String) : Decidable (Spells n name) := by
  unfold Spells
  have : ∀ l m : Str, Decidable (List.Forall₂ SpellsChar l m) := by
    intro l
    induction l with
    | nil => intro m; cases m with
      | nil => exact .isTrue .nil
      | cons => exact .isFalse nofun
    | cons x l ih => intro m; cases m with
      | nil => exact .isFalse nofun
      | cons y m =>
        have : Decidable (SpellsChar x y) := by unfold SpellsChar; infer_instance
        exact decidable_of_iff (SpellsChar x y ∧ List.Forall₂ SpellsChar l m) List.forall₂_cons.symm
  exact this _ _

/-- The history of a member of an object that has a history itself. -/
def saidOf (name : String) (js : List Json) : List Json :=
  js.flatMap fun j => match j with
    | .obj o => (o.filter fun m => decide (Spells m.1 name)).map (·.2)
    | _ => []

/-- The last value that is not `null` counts. -/
def LastSays {α : Type} (R : Json → α → Prop) (zero : α) (js : List Json) (x : α) : Prop :=
  match (js.filter fun j => match j with | .null => false | _ => true).getLast? with
  | none => x = zero
  | some j => R j x

/-- The last value counts, also if it is `null`. -/
def NewestSays {α : Type} (R : Json → α → Prop) (zero : α) (js : List Json) (x : α) : Prop :=
  match js.getLast? with
  | none => x = zero
  | some j => OrNull R zero j x

/-- The lists of a history since the last `null` or empty list. -/
def sinceReset (js : List Json) : List Json := (js.reverse.takeWhile fun j => match j with | .arr (_ :: _) => true | _ => false).reverse

/-- The history of the entry at position `i`, given the lists. -/
def column (i : Nat) (js : List Json) : List Json := js.filterMap fun j => match j with | .arr l => l[i]? | _ => none

/-- The last list says how long the list is; each entry has the history of all entries at its position, since the last `null` or empty list. -/
def ListSays {α : Type} (S : List Json → α → Prop) (js : List Json) (x : Option (List α)) : Prop :=
  match js.getLast? with
  | some (.arr l) => ∃ xs, x = some xs ∧ xs.length = l.length ∧ ∀ i (h : i < xs.length), S (column i (sinceReset js)) xs[i]
  | _ => x = none

/-- The bytes that lists of numbers begin with: those of a text before them. -/
def BytesBefore (js : List Json) (b : Bytes) : Prop := match js.getLast? with
  | some (.str s) => Base64Text s b
  | _ => b = []

/-- Bytes: the last text or list counts; a `null` in a list of numbers leaves the byte that was at its position. -/
def BytesSays (js : List Json) (x : Bytes) : Prop :=
  match js.getLast? with
  | some (.str s) => Base64Text s x
  | some (.arr l) => x.length = l.length ∧ ∃ before b, js = before ++ sinceReset js ∧ BytesBefore before b ∧ ∀ i (h : i < x.length), LastSays (UintIs 8) (b.getD i 0) (column i (sinceReset js)) x[i]
  | _ => x = []

/-- The AS number of a VRP, as it is read: as in `JsonAsnIs`, but of a long exponent only the first digits count. -/
def JsonAsnReads (j : Json) (a : AsnJson) : Prop :=
  (∃ s, j = .str s ∧ a = .str s) ∨ (∃ lit x, j = .num lit ∧ FloatRead lit x ∧ a = .float x) ∨
    ((∀ s, j ≠ .str s) ∧ (∀ lit, j ≠ .num lit) ∧ (∀ lit, Within (.num lit) j → ∃ x, FloatRead lit x) ∧ a = .other)

/-- A value of the right type and range, or `null`. -/
def ValueFits {α : Type} (R : Json → α → Prop) (j : Json) : Prop := j = .null ∨ ∃ x, R j x

/-- An array of such values, or `null`. -/
def ListFits (ok : Json → Prop) (j : Json) : Prop := j = .null ∨ ∃ l, j = .arr l ∧ ∀ e ∈ l, ok e

/-- An object whose members of the given names fit, or `null`. -/
def MembersFit (fields : List (String × (Json → Prop))) (j : Json) : Prop := j = .null ∨ ∃ o, j = .obj o ∧ ∀ n k, (n, k) ∈ o → ∀ f ∈ fields, Spells n f.1 → f.2 k

/-- An entry of `roas` that can be decoded. -/
def VrpFits : Json → Prop := MembersFit [("prefix", ValueFits TextIs), ("maxLength", ValueFits (UintIs 8)), ("asn", ValueFits JsonAsnReads), ("ta", ValueFits TextIs), ("expires", ValueFits IntOptIs)]

/-- An entry of `bgpsec_keys` that can be decoded. -/
def KeyFits : Json → Prop := MembersFit [("asn", ValueFits (UintIs 32)), ("expires", ValueFits IntOptIs), ("ta", ValueFits TextIs), ("pubkey", ValueFits BytesIs), ("ski", ValueFits TextIs)]

/-- Metadata that can be decoded. -/
def MetaFits : Json → Prop :=
  MembersFit [("vrps", ValueFits IntIs), ("bgpsec_pubkeys", ValueFits IntIs), ("buildtime", ValueFits TextIs), ("generated", ValueFits IntOptIs), ("sessionid", ValueFits IntIs), ("serial", ValueFits IntIs)]

/-- A cache file that can be decoded. -/
def CacheFits : Json → Prop := MembersFit [("metadata", MetaFits), ("roas", ListFits VrpFits), ("bgpsec_keys", ListFits KeyFits)]

/-- What a history says of an entry of `roas`. -/
def VrpSays (js : List Json) (v : VRPJson) : Prop :=
  LastSays TextIs [] (saidOf "prefix" js) v.pfx ∧ LastSays (UintIs 8) 0 (saidOf "maxLength" js) v.length ∧ NewestSays JsonAsnReads .other (saidOf "asn" js) v.asn ∧ LastSays TextIs [] (saidOf "ta" js) v.ta ∧
    NewestSays IntOptIs none (saidOf "expires" js) v.expires

/-- What a history says of an entry of `bgpsec_keys`. -/
def KeySays (js : List Json) (k : BgpSecKeyJson) : Prop :=
  LastSays (UintIs 32) 0 (saidOf "asn" js) k.asn ∧ NewestSays IntOptIs none (saidOf "expires" js) k.expires ∧ LastSays TextIs [] (saidOf "ta" js) k.ta ∧ BytesSays (saidOf "pubkey" js) k.pubkey ∧
    LastSays TextIs [] (saidOf "ski" js) k.ski

/-- What a history says of the metadata. -/
def MetadataSays (js : List Json) (m : Metadata) : Prop :=
  LastSays IntIs 0 (saidOf "vrps" js) m.counts ∧ LastSays TextIs [] (saidOf "buildtime" js) m.buildtime ∧ NewestSays IntOptIs none (saidOf "generated" js) m.generated

/-- What a cache file says. -/
def CacheSays (js : List Json) (l : RPKIList) : Prop :=
  MetadataSays (saidOf "metadata" js) l.metadata ∧ ListSays VrpSays (saidOf "roas" js) l.roas ∧ ListSays KeySays (saidOf "bgpsec_keys" js) l.keys

/-- A prefix filter that can be decoded. -/
def PrefixFilterFits : Json → Prop := MembersFit [("prefix", ValueFits TextIs), ("asn", ValueFits Uint32OptIs), ("comment", ValueFits TextIs)]

/-- A BGPsec filter that can be decoded. -/
def BgpsecFilterFits : Json → Prop := MembersFit [("asn", ValueFits Uint32OptIs), ("SKI", ValueFits BytesIs), ("comment", ValueFits TextIs)]

/-- A prefix assertion that can be decoded. -/
def PrefixAssertionFits : Json → Prop := MembersFit [("prefix", ValueFits TextIs), ("asn", ValueFits (UintIs 32)), ("maxPrefixLength", ValueFits IntIs), ("comment", ValueFits TextIs)]

/-- A BGPsec assertion that can be decoded. -/
def BgpsecAssertionFits : Json → Prop := MembersFit [("SKI", ValueFits BytesIs), ("asn", ValueFits (UintIs 32)), ("comment", ValueFits TextIs), ("routerPublicKey", ValueFits BytesIs)]

/-- Filters that can be decoded. -/
def FiltersFit : Json → Prop := MembersFit [("prefixFilters", ListFits PrefixFilterFits), ("bgpsecFilters", ListFits BgpsecFilterFits)]

/-- Assertions that can be decoded. -/
def AssertionsFit : Json → Prop := MembersFit [("prefixAssertions", ListFits PrefixAssertionFits), ("bgpsecAssertions", ListFits BgpsecAssertionFits)]

/-- A SLURM file that can be decoded. -/
def SlurmFits : Json → Prop := MembersFit [("slurmVersion", ValueFits IntIs), ("validationOutputFilters", FiltersFit), ("locallyAddedAssertions", AssertionsFit)]

/-- What a history says of a prefix filter. -/
def PrefixFilterSays (js : List Json) (f : PrefixFilter) : Prop := LastSays TextIs [] (saidOf "prefix" js) f.pfx ∧ NewestSays Uint32OptIs none (saidOf "asn" js) f.asn

/-- What a history says of a BGPsec filter. -/
def BgpsecFilterSays (js : List Json) (f : BgpsecFilter) : Prop := NewestSays Uint32OptIs none (saidOf "asn" js) f.asn ∧ BytesSays (saidOf "SKI" js) f.ski

/-- What a history says of a prefix assertion. -/
def PrefixAssertionSays (js : List Json) (a : PrefixAssertion) : Prop :=
  LastSays TextIs [] (saidOf "prefix" js) a.pfx ∧ LastSays (UintIs 32) 0 (saidOf "asn" js) a.asn ∧ LastSays IntIs 0 (saidOf "maxPrefixLength" js) a.maxPrefixLength ∧ LastSays TextIs [] (saidOf "comment" js) a.comment

/-- What a history says of a BGPsec assertion. -/
def BgpsecAssertionSays (js : List Json) (a : BgpsecAssertion) : Prop :=
  BytesSays (saidOf "SKI" js) a.ski ∧ LastSays (UintIs 32) 0 (saidOf "asn" js) a.asn ∧ BytesSays (saidOf "routerPublicKey" js) a.routerPublicKey

/-- What a SLURM file says; absent lists are empty. -/
def SlurmSays (js : List Json) (s : Slurm) : Prop :=
  ∃ pf bf pa ba, ListSays PrefixFilterSays (saidOf "prefixFilters" (saidOf "validationOutputFilters" js)) pf ∧ ListSays BgpsecFilterSays (saidOf "bgpsecFilters" (saidOf "validationOutputFilters" js)) bf ∧
    ListSays PrefixAssertionSays (saidOf "prefixAssertions" (saidOf "locallyAddedAssertions" js)) pa ∧ ListSays BgpsecAssertionSays (saidOf "bgpsecAssertions" (saidOf "locallyAddedAssertions" js)) ba ∧
    s = ⟨pf.getD [], bf.getD [], pa.getD [], ba.getD []⟩

end StayRTR.Spec
