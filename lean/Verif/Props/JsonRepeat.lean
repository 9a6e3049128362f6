import Verif.Proofs.JsonPrint
import Verif.Proofs.JsonRepeat
import Verif.Props.Json

/-!
# C105, C107: files with repeated names
-/

namespace StayRTR

open Spec

/-- **C105.** All cache files, also those with repeated names: a file is loaded exactly if it begins with a JSON text that is `null` or an object in which every member of the names concerned, repeated or not, is of its type and range,
or `null`; and what is loaded is what the histories of the places say (`CacheSays`): of a text or number the last one counts; `null` leaves it, but empties lists and what may be absent; and of lists, the last one says how many
entries there are, but an entry has all that the entries at its position say since the list was last `null` or empty. -/
theorem C105_exact (b : Bytes) (s : Str) (hu : Repaired b s) (l : RPKIList) : decodeFile b = some l ↔ ∃ j, FirstValue s j ∧ CacheFits j ∧ CacheSays [j] l := by
  unfold decodeFile
  rw [goRunes_repaired hu]
  constructor
  · intro h
    split at h
    · cases h
    · rename_i j hj
      have hf := readJson_first hj
      exact ⟨j, hf, (cache_iff j (firstValue_numText hf) l).1 h⟩
  · rintro ⟨j, hf, h⟩
    have hd := (cache_iff j (firstValue_numText hf) l).2 h
    obtain ⟨y, hy, -⟩ := Option.map_eq_some_iff.1 hd
    rw [readJson_complete hf (decStruct_num hy)]
    exact hd

/-- **C105.** A numeric AS number of fewer than 9000 characters is read as the `float64` next to what it stands for, whatever its exponent. -/
theorem C105_short (lit : Str) (h : lit.length < 9000) (a : AsnJson) : JsonAsnReads (.num lit) a ↔ JsonAsnIs (.num lit) a := by
  have hw : ∀ l, Within (.num l) (.num lit) → l = lit := fun l hl => by cases hl; rfl
  simp only [JsonAsnReads, JsonAsnIs, reduceCtorEq, false_and, exists_false, false_or, Json.num.injEq]
  constructor
  · rintro (⟨l, x, rfl, h1, h2⟩ | ⟨-, h1, -⟩)
    · exact .inl ⟨_, x, rfl, (floatRead_short _ h x).1 h1, h2⟩
    · exact absurd rfl (h1 lit)
  · rintro (⟨l, x, rfl, h1, h2⟩ | ⟨-, h1, -⟩)
    · exact .inl ⟨_, x, rfl, (floatRead_short _ h x).2 h1, h2⟩
    · exact absurd rfl (h1 lit)

/-- Exponents of six and seven digits. -/
example : litFloat "1e-1000000".toList = some 0 ∧ litFloat "1e100000".toList = none ∧ litFloat "64496e0000000".toList = some 64496 := by decide +kernel

/-- Three lists of VRPs: the second is shorter, and the third brings back what the second had hidden. The second entry has the prefix of the first list and the length of the third. -/
def exThrice : Str :=
  (["{\"roas\":[{\"prefix\":\"10.0.0.0/8\"}", ",{\"prefix\":\"11.0.0.0/8\",\"asn\":7}", "],\"ROAS\":[{\"maxLength\":8}],\"roas\"", ":[null,{\"asn\":64496,\"maxLength\":9}", "]}"].flatMap String.toList)

/-- It satisfies the hypothesis, and the two entries are loaded. -/
example : Repaired (utf8Str exThrice) exThrice ∧
    decodeFile (utf8Str exThrice) = some ⟨⟨0, [], none⟩, some [⟨"10.0.0.0/8".toList, 8, .other, [], none⟩, ⟨"11.0.0.0/8".toList, 9, .float 64496, [], none⟩], none⟩ :=
  ⟨(utf8_str _).repaired, by decide +kernel⟩

/-- After an empty list, nothing comes back. -/
example : decodeFile (utf8Str (["{\"roas\":[{\"prefix\":\"10.0.0.0/8\"}", "],\"roas\":[],\"roas\":[{\"maxLength\"", ":8}]}"].flatMap String.toList)) = some ⟨⟨0, [], none⟩, some [⟨[], 8, .other, [], none⟩], none⟩ := by
  decide +kernel

/-- Base64 and then numbers: `null` keeps the second byte of the base64. -/
example : decodeFile (utf8Str (["{\"bgpsec_keys\":[{\"pubkey\":\"AQID\"", ",\"pubkey\":[9,null]}]}"].flatMap String.toList)) = some ⟨⟨0, [], none⟩, none, some [⟨0, none, [], [9, 2], []⟩]⟩ := by
  decide +kernel

/-- **C107.** All SLURM files, also those with repeated names, likewise. -/
theorem C107_exact (b : Bytes) (s : Str) (hu : Repaired b s) (x : Slurm) : decodeSlurmFile b = some x ↔ ∃ j, FirstValue s j ∧ SlurmFits j ∧ SlurmSays [j] x := by
  unfold decodeSlurmFile
  rw [goRunes_repaired hu]
  constructor
  · intro h
    split at h
    · cases h
    · rename_i j hj
      exact ⟨j, readJson_first hj, (slurm_iff j x).1 h⟩
  · rintro ⟨j, hf, h⟩
    have hd := (slurm_iff j x).2 h
    rw [readJson_complete hf (decStruct_num hd)]
    exact hd

/-- A SLURM file whose second list of filters keeps the AS number of the first. -/
def exSlurmTwice : Str :=
  (["{\"validationOutputFilters\":{\"prefix", "Filters\":[{\"asn\":64496}]},\"Validat", "ionOutputFilters\":{\"prefixFilters\":", "[{\"prefix\":\"192.0.2.0/24\"},{\"asn\"", ":1}]}}"].flatMap String.toList)

/-- It satisfies the hypothesis; two filters are loaded. -/
example : Repaired (utf8Str exSlurmTwice) exSlurmTwice ∧ decodeSlurmFile (utf8Str exSlurmTwice) = some ⟨[⟨"192.0.2.0/24".toList, some 64496⟩, ⟨[], some 1⟩], [], [], []⟩ :=
  ⟨(utf8_str _).repaired, by decide +kernel⟩

theorem jsonField_none {α : Type} {name : String} (hn : AsciiName name) (dec : α → Json → Option α) (old : α) (o : List (Str × Json)) (h : ∀ n j, (n, j) ∈ o → ¬ Spells n name) : jsonField o name dec old = some old := by
  induction o with
  | nil => rfl
  | cons x o ih =>
    obtain ⟨n, j⟩ := x
    rw [jsonField_cons, if_neg, ih (fun n j hm => h n j (List.mem_cons_of_mem _ hm))]
    intro he
    exact h n j List.mem_cons_self ((spells_iff n name hn).2 (beq_iff_eq.1 he))

theorem jsonField_null {α : Type} {name : String} (hn : AsciiName name) (zero : α) (dec : α → Json → Option α) (old x : Option (Arr α)) (a c : List (Str × Json)) (n : Str) (hs : Spells n name)
    (hc : ∀ n j, (n, j) ∈ c → ¬ Spells n name) (h : jsonField (a ++ (n, .null) :: c) name (decSlice zero dec) old = some x) : x = none := by
  rw [jsonField_append] at h
  cases ha : jsonField a name (decSlice zero dec) old with
  | none => rw [ha] at h; cases h
  | some y =>
    rw [ha, Option.bind_some, jsonField_cons, if_pos (beq_iff_eq.2 ((spells_iff n name hn).1 hs))] at h
    have : decSlice zero dec y .null = some none := rfl
    rw [this, Option.bind_some, jsonField_none hn _ _ _ hc] at h
    exact (Option.some.inj h).symm

/-- **C105.** Whatever lists come before it, a member `null` takes away the list of its name, if none follows: no entry of the earlier lists is loaded. -/
theorem C105_null (b : Bytes) (s : Str) (hu : Repaired b s) (a c : List (Str × Json)) (n : Str) (hf : FirstValue s (.obj (a ++ (n, .null) :: c))) (l : RPKIList) (hl : decodeFile b = some l) :
    (Spells n "roas" → (∀ n j, (n, j) ∈ c → ¬ Spells n "roas") → l.roas = none) ∧
    (Spells n "bgpsec_keys" → (∀ n j, (n, j) ∈ c → ¬ Spells n "bgpsec_keys") → l.keys = none) := by
  unfold decodeFile at hl
  rw [goRunes_repaired hu, readJson_complete hf (fun _ h => by cases h)] at hl
  simp only [decList, decStruct, Option.bind_eq_bind, Option.map_eq_some_iff, Option.bind_eq_some_iff, Option.some.injEq] at hl
  obtain ⟨_, ⟨md, _, roas, hr, keys, hk, rfl⟩, rfl⟩ := hl
  refine ⟨fun hs hc => ?_, fun hs hc => ?_⟩
  · simp [MemList.list, jsonField_null (by unfold AsciiName; decide +kernel) _ _ _ _ a c n hs hc hr]
  · simp [MemList.list, jsonField_null (by unfold AsciiName; decide +kernel) _ _ _ _ a c n hs hc hk]

/-- Two lists of VRPs, of which the second is `null`. -/
example : decodeFile (utf8Str "{\"roas\":[{\"prefix\":\"10.0.0.0/8\"}],\"Roas\":null}".toList) = some ⟨⟨0, [], none⟩, none, none⟩ := by decide +kernel

end StayRTR
