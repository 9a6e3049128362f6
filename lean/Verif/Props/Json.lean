import Verif.Proofs.Json
import Verif.Props.Process
import Verif.Props.JsonText

/-!
# C105-C107: what is made of a cache file and of a SLURM file
-/

namespace StayRTR

open Spec

/-! ## The cache file -/

/-- **C105** (partial: of files in which no object has a name twice, and of numbers of 9000 characters and more the exponents are below 100000). A cache file is loaded exactly if it begins with a JSON text that is `null` or a cache file, member by member, and what is
loaded is what it says; of a numeric AS number, the integer part of the `float64` next to it. Names count up to case; members of other names are ignored. -/
theorem C105_exact_partial (b : Bytes) (s : Str) (hu : Repaired b s) (hp : ∀ j, FirstValue s j → NoRepeats j ∧ OrdinaryNumbers j) (l : RPKIList) :
    decodeFile b = some l ↔ ∃ j, FirstValue s j ∧ OrNull CacheIs ⟨⟨0, [], none⟩, none, none⟩ j l := by
  unfold decodeFile
  rw [goRunes_repaired hu]
  constructor
  · intro h
    split at h
    · cases h
    · rename_i j hj
      have hf := readJson_first hj
      exact ⟨j, hf, (cacheD j ⟨(hp j hf).1, fun _ => firstValue_numbers hf (hp j hf).2⟩ l).1 h⟩
  · rintro ⟨j, hf, h⟩
    have hd := (cacheD j ⟨(hp j hf).1, fun _ => firstValue_numbers hf (hp j hf).2⟩ l).2 h
    obtain ⟨y, hy, -⟩ := Option.map_eq_some_iff.1 hd
    rw [readJson_complete hf (decStruct_num hy)]
    exact hd

/-- **C105.** Not so with repeated names: the second list of VRPs keeps the AS number of the first, and a VRP is loaded that stands nowhere in the file. -/
theorem C105_repeated_false :
    decodeFile (utf8Str (["{\"roas\":[{\"prefix\":\"10.0.0.0/8\",\"maxLeng", "th\":8,\"asn\":1}],\"roas\":[{\"prefix\":\"11.0.", "0.0/8\",\"maxLength\":9}]}"].flatMap String.toList)) =
      some ⟨⟨0, [], none⟩, some [⟨"11.0.0.0/8".toList, 9, .float 1, [], none⟩], none⟩ := by
  decide +kernel

/-- **C105.** An AS number with a fraction is cut to an integer; a number too large for a `float64` as AS number makes the file unreadable. -/
theorem C105_fraction_false :
    decodeFile (utf8Str "{\"roas\":[{\"prefix\":\"10.0.0.0/8\",\"maxLength\":8,\"asn\":64496.9}]}".toList) = some ⟨⟨0, [], none⟩, some [⟨"10.0.0.0/8".toList, 8, .float 64496, [], none⟩], none⟩ ∧
    decodeFile (utf8Str "{\"roas\":[{\"prefix\":\"10.0.0.0/8\",\"maxLength\":8,\"asn\":1e400}]}".toList) = none := by
  decide +kernel

/-- A cache file in odd spellings. -/
def exOdd : Str := (["{\"ROAS\": [null, {\"Prefix\":\"10.0.0.0\\/8\",", "\"maxLength\":8,\"asn\":\"AS1\",\"x\":{}}],\"bgps", "ec_keys\":[{\"asn\":1,\"pubkey\":\"AAE=\",\"ski\"", ":\"aB\"}],\"metadata\":{\"buildtime\":\"é\"}} "].flatMap String.toList)

/-- It satisfies the hypotheses, and something is loaded. -/
example : Repaired (utf8Str exOdd) exOdd ∧ (∀ j, FirstValue exOdd j → NoRepeats j ∧ OrdinaryNumbers j) ∧
    decodeFile (utf8Str exOdd) = some ⟨⟨0, "é".toList, none⟩, some [⟨[], 0, .other, [], none⟩, ⟨"10.0.0.0/8".toList, 8, .str "AS1".toList, [], none⟩], some [⟨1, none, [], [0, 1], "aB".toList⟩]⟩ :=
  ⟨(utf8_str _).repaired, plain_file (by decide +kernel), by decide +kernel⟩

/-- A cache file with an AS number in exponent notation, one with a fraction and one below zero. -/
def exNumbers : Str := (["{\"roas\":[{\"prefix\":\"10.0.0.0/8\",\"maxLeng", "th\":8,\"asn\":6.4496e4},{\"asn\":2.5E-1},{\"a", "sn\":-1.5e+0},{\"asn\":[1e20]}]}"].flatMap String.toList)

/-- It satisfies the hypotheses, and the integer parts are loaded. -/
example : Repaired (utf8Str exNumbers) exNumbers ∧ (∀ j, FirstValue exNumbers j → NoRepeats j ∧ OrdinaryNumbers j) ∧
    decodeFile (utf8Str exNumbers) = some ⟨⟨0, [], none⟩, some [⟨"10.0.0.0/8".toList, 8, .float 64496, [], none⟩, ⟨[], 0, .float 0, [], none⟩, ⟨[], 0, .float (-1), [], none⟩, ⟨[], 0, .other, [], none⟩], none⟩ :=
  ⟨(utf8_str _).repaired, plain_file (by decide +kernel), by decide +kernel⟩

/-! ## Served entries -/

theorem pairwise_ne {α : Type} {R : α → α → Prop} {l : List α} (h : l.Pairwise fun a b => ¬ R a b) {a b : α} (ha : a ∈ l) (hb : b ∈ l) (hne : a ≠ b) (hab : R a b) (hba : R b a) : False := by
  induction h with
  | nil => cases ha
  | cons h1 _ ih =>
    rcases List.mem_cons.1 ha with rfl | ha' <;> rcases List.mem_cons.1 hb with rfl | hb'
    · exact hne rfl
    · exact h1 _ hb' hab
    · exact h1 _ ha' hba
    · exact ih ha' hb'

theorem field_member {α : Type} {o : List (Str × Json)} {name : String} {R : Json → α → Prop} {zero x : α} (hr : NoRepeats (.obj o)) (h : FieldIs o name R zero x) {j : Json} (hm : Member o name j) : OrNull R zero j x := by
  obtain ⟨n, hn, hs⟩ := hm
  rcases h with ⟨n', j', hn', hs', h⟩ | ⟨h, -⟩
  · by_cases he : (n, j) = (n', j')
    · cases he; exact h
    · have hpw := hr o .self
      exact (pairwise_ne (R := fun a b => ∃ name, Spells a.1 name ∧ Spells b.1 name) hpw hn hn' he ⟨name, hs, hs'⟩ ⟨name, hs', hs⟩).elim
  · exact (h n j hn hs).elim

theorem field_given {α : Type} {o : List (Str × Json)} {name : String} {R : Json → α → Prop} {zero x : α} (h : FieldIs o name R zero x) (hx : x ≠ zero) : ∃ j, Member o name j ∧ R j x := by
  rcases h with ⟨n, j, hn, hs, ⟨-, h⟩ | ⟨-, h⟩⟩ | ⟨-, h⟩
  · exact (hx h).elim
  · exact ⟨j, ⟨n, hn, hs⟩, h⟩
  · exact (hx h).elim

theorem not_prefixText_nil (p : Prefix) : ¬ PrefixText [] p := by
  rw [← prefixText_iff]
  intro h
  cases h

theorem noRepeats_member {o : List (Str × Json)} {name : String} {j : Json} (h : NoRepeats (.obj o)) (hm : Member o name j) : NoRepeats j := by
  obtain ⟨n, hn, -⟩ := hm
  exact fun o' hw => h o' (.member hn hw)

theorem noRepeats_elem {l : List Json} {j : Json} (h : NoRepeats (.arr l)) (hm : j ∈ l) : NoRepeats j := fun o hw => h o (.elem hm hw)

theorem unexpired_iff {now : Int} {o : List (Str × Json)} {x : Option Int} (hr : NoRepeats (.obj o)) (h : FieldIs o "expires" IntOptIs none x) : (∀ e, x = some e → now ≤ e) ↔ Unexpired now o := by
  constructor
  · intro he lit hm
    rcases field_member hr h hm with ⟨h, -⟩ | ⟨-, n, hx, l, hl, -, -, h⟩
    · cases h
    · cases hl
      exact ⟨n, h, he n hx⟩
  · rintro hu e rfl
    obtain ⟨j, hm, n, hn, l, rfl, -, -, hi⟩ := field_given h (by simp)
    cases hn
    obtain ⟨x, hx, hle⟩ := hu l hm
    have := (litInt_iff l x).2 hx
    rw [(litInt_iff l e).2 hi] at this
    cases this
    exact hle

theorem statesVrp_iff {now : Int} {e : Json} {v : VRPJson} (hr : NoRepeats e) (h : VrpIs e v)
    (hin : ∀ o lit, e = .obj o → Member o "asn" (.num lit) → ∃ x, IntText lit x ∧ 0 ≤ x ∧ x < 2 ^ 32) (r : Prefix × U8 × U32) : StatesVrp now e r ↔ Serves now v r := by
  obtain ⟨o, rfl, h1, h2, h3, h4, h5⟩ := h
  unfold StatesVrp Serves
  constructor
  · rintro ⟨o', he, ⟨t, ht, hp⟩, ⟨lit, hl, hd⟩, hasn, hu, hb⟩
    cases he
    refine ⟨?_, ?_, ?_, hb.1, hb.2.1, hb.2.2, (unexpired_iff hr h5).2 hu⟩
    · rcases field_member hr h1 ht with ⟨h, -⟩ | ⟨-, h⟩
      · cases h
      · cases h; exact hp
    · rcases hasn with ⟨pre, d, hm, hpre, hd⟩ | ⟨lit, hm, hi⟩
      · rcases field_member hr h3 hm with ⟨h, -⟩ | ⟨-, ⟨s, hs, hv⟩ | ⟨_, _, h, -⟩ | ⟨h, -⟩⟩
        · cases h
        · cases hs
          rw [hv]
          exact ⟨pre, d, rfl, hpre, hd⟩
        · cases h
        · exact (h _ rfl).elim
      · rcases field_member hr h3 hm with ⟨h, -⟩ | ⟨-, ⟨s, hs, hv⟩ | ⟨l, n, h, hn, hv⟩ | ⟨-, h, -⟩⟩
        · cases h
        · cases hs
        · cases h
          rw [hv]
          exact intText_float hi (by omega) (by have := r.2.2.isLt; omega) hn
        · exact (h _ rfl).elim
    · rcases field_member hr h2 hl with ⟨h, -⟩ | ⟨-, l, h, hd'⟩
      · cases h
      · cases h
        rw [denotes_iff] at hd hd'
        rw [hd] at hd'
        exact BitVec.eq_of_toNat_eq (Option.some.inj hd').symm
  · rintro ⟨hp, ha, hl, hb1, hb2, hb3, hx⟩
    refine ⟨o, rfl, ?_, ?_, ?_, (unexpired_iff hr h5).1 hx, hb1, hb2, hb3⟩
    · obtain ⟨j, hm, rfl⟩ := field_given h1 (by intro h; rw [h] at hp; exact not_prefixText_nil _ hp)
      exact ⟨_, hm, hp⟩
    · obtain ⟨j, hm, lit, rfl, hd⟩ := field_given h2 (by intro h; rw [← hl, h] at hb2; simp at hb2; omega)
      exact ⟨lit, hm, hl ▸ hd⟩
    · obtain ⟨j, hm, h⟩ := field_given h3 (by intro h; rw [h] at ha; exact ha)
      rcases h with ⟨s, rfl, hv⟩ | ⟨l, n, rfl, hn, hv⟩ | ⟨-, -, -, hv⟩ <;> rw [hv] at ha
      · obtain ⟨pre, d, rfl, hpre, hd⟩ := ha
        exact .inl ⟨pre, d, hm, hpre, hd⟩
      · obtain ⟨x, hx, hx0, hx1⟩ := hin o l rfl hm
        have ha : n = r.2.2.toNat := ha
        exact .inr ⟨l, hm, by rw [← ha, intText_float hx hx0 hx1 hn]; exact hx⟩
      · exact ha.elim

theorem forall2_left {α β : Type} {R : α → β → Prop} {l : List α} {m : List β} (h : List.Forall₂ R l m) {a : α} (ha : a ∈ l) : ∃ b ∈ m, R a b := by
  induction h with
  | nil => cases ha
  | cons hr _ ih =>
    rcases List.mem_cons.1 ha with rfl | ha
    · exact ⟨_, by simp, hr⟩
    · obtain ⟨b, hb, h⟩ := ih ha
      exact ⟨b, by simp [hb], h⟩

theorem forall2_right {α β : Type} {R : α → β → Prop} {l : List α} {m : List β} (h : List.Forall₂ R l m) {b : β} (hb : b ∈ m) : ∃ a ∈ l, R a b := by
  induction h with
  | nil => cases hb
  | cons hr _ ih =>
    rcases List.mem_cons.1 hb with rfl | hb
    · exact ⟨_, by simp, hr⟩
    · obtain ⟨a, ha, h⟩ := ih hb
      exact ⟨a, by simp [ha], h⟩

/-- The entries of a list and what is loaded for them. -/
theorem entries_iff {α : Type} {s : Str} {o : List (Str × Json)} {name : String} {R : Json → α → Prop} {zero : α} {x : Option (List α)} (hf : FirstValue s (.obj o)) (hr : NoRepeats (.obj o))
    (h : FieldIs o name (ListIs R zero) none x) : (∀ v ∈ x.getD [], ∃ e, Entry s name e ∧ NoRepeats e ∧ OrNull R zero e v) ∧ ∀ e, Entry s name e → NoRepeats e ∧ ∃ v ∈ x.getD [], OrNull R zero e v := by
  constructor
  · intro v hv
    obtain ⟨j, hm, es, xs, rfl, rfl, hall⟩ := field_given h (by rintro rfl; simp at hv)
    obtain ⟨e, he, hev⟩ := forall2_right hall hv
    exact ⟨e, ⟨o, es, hf, hm, he⟩, noRepeats_elem (noRepeats_member hr hm) he, hev⟩
  · rintro e ⟨o', es, hf', hm, he⟩
    have := C103_unambiguous s _ _ (by simp) (by simp) hf hf'
    cases this
    refine ⟨noRepeats_elem (noRepeats_member hr hm) he, ?_⟩
    rcases field_member hr h hm with ⟨h, -⟩ | ⟨-, es', xs, he', hx, hall⟩
    · cases h
    · cases he'
      subst hx
      exact forall2_left hall he

/-- **C106** (partial: of files that load, in which no object has a name twice, of numbers of 9000 characters and more the exponents are below 100000, and AS numbers given as numbers are integers in range). Exactly the VRPs are processed that an entry of `roas` states;
entries that state none are ignored and do no harm to others. -/
theorem C106_vrps_partial (wide : WideFloat) {sort : Sorter} (hs : sort.Ok) (now : Int) (b : Bytes) (s : Str) (hu : Repaired b s) (hp : ∀ j, FirstValue s j → NoRepeats j ∧ OrdinaryNumbers j)
    (hin : ∀ o lit, Entry s "roas" (.obj o) → Member o "asn" (.num lit) → ∃ x, IntText lit x ∧ 0 ≤ x ∧ x < 2 ^ 32) (l : RPKIList) (hl : decodeFile b = some l) (ks : List BgpSecKeyJson) (r : Prefix × U8 × U32) :
    r ∈ (processData wide sort now (l.roas.getD []) ks).vrps.map (fun x => (x.pfx, x.maxLen, x.asn)) ↔ ∃ e, Entry s "roas" e ∧ StatesVrp now e r := by
  obtain ⟨j, hf, hj⟩ := (C105_exact_partial b s hu hp l).1 hl
  rcases hj with ⟨rfl, rfl⟩ | ⟨-, o, rfl, -, hroas, -⟩
  · constructor
    · intro h
      obtain ⟨x, hx, rfl⟩ := List.mem_map.1 h
      obtain ⟨-, v, hv, -⟩ := (processData_mem wide hs now _ ks x).1 hx
      simp at hv
    · rintro ⟨e, ⟨o, es, hf', -⟩, -⟩
      have := C103_unambiguous s _ _ (by simp) (by simp) hf hf'
      cases this
  · obtain ⟨he1, he2⟩ := entries_iff hf (hp _ hf).1 hroas
    have hrange : ∀ v ∈ l.roas.getD [], AsnInRange v.asn := by
      intro v hv
      obtain ⟨e, he, hre, ⟨-, rfl⟩ | ⟨-, o', rfl, -, -, hasn, -⟩⟩ := he1 v hv
      · trivial
      · cases hva : v.asn with
        | float t =>
          obtain ⟨j, hm, h⟩ := field_given hasn (by rw [hva]; simp)
          rw [hva] at h
          rcases h with ⟨s, -, h⟩ | ⟨lit, n, rfl, hn, h⟩ | ⟨-, -, -, h⟩
          · cases h
          · cases h
            obtain ⟨x, hx, h0, h1⟩ := hin o' lit he hm
            rw [intText_float hx h0 h1 hn]
            exact ⟨h0, h1⟩
          · cases h
        | int t =>
          obtain ⟨j, hm, h⟩ := field_given hasn (by rw [hva]; simp)
          rw [hva] at h
          rcases h with ⟨s, -, h⟩ | ⟨lit, n, rfl, hn, h⟩ | ⟨-, -, -, h⟩ <;> cases h
        | str _ => trivial
        | uint32 _ => trivial
        | other => trivial
    constructor
    · intro h
      obtain ⟨x, hx, rfl⟩ := List.mem_map.1 h
      obtain ⟨v, hv, hsv⟩ := C43_valid_partial wide hs now _ ks hrange x hx
      obtain ⟨e, he, hre, ⟨-, rfl⟩ | ⟨-, hev⟩⟩ := he1 v hv
      · exact (not_prefixText_nil _ hsv.1).elim
      · exact ⟨e, he, (statesVrp_iff hre hev (fun o lit h => hin o lit (h ▸ he)) _).2 hsv⟩
    · rintro ⟨e, he, hst⟩
      obtain ⟨hre, v, hv, ⟨rfl, -⟩ | ⟨-, hev⟩⟩ := he2 e he
      · obtain ⟨o, h, -⟩ := hst
        cases h
      · have := C44_exactly_once wide hs now _ ks v hv r ((statesVrp_iff hre hev (fun o lit h => hin o lit (h ▸ he)) _).1 hst)
        exact List.count_pos_iff.1 (by omega)

/-- A file with a good entry, one without AS number, one with an unreadable prefix and an empty one. -/
def exEntries : Str := (["{\"roas\":[{\"prefix\":\"10.0.0.0/8\",\"maxLeng", "th\":8,\"asn\":\"AS1\"},{\"prefix\":\"10.0.0.0/8", "\",\"maxLength\":8},{\"prefix\":\"x\",\"maxLengt", "h\":8,\"asn\":\"1\"},null]}"].flatMap String.toList)

/-- It satisfies the hypotheses, and the good entry is processed. -/
example : Repaired (utf8Str exEntries) exEntries ∧ (∀ j, FirstValue exEntries j → NoRepeats j ∧ OrdinaryNumbers j) ∧
    (decodeFile (utf8Str exEntries)).map (fun l => ((processData (fun _ => 0) insertionSorter 0 (l.roas.getD []) []).vrps.map (fun x => (x.pfx, x.maxLen, x.asn)))) = some [(⟨.v4 0x0a000000, 9⟩, 8, 1)] :=
  ⟨(utf8_str _).repaired, plain_file (by decide +kernel), by decide +kernel⟩

/-- **C106.** But an entry with a value of the wrong type or out of range makes the whole file unreadable: next to a good entry, a maximum length of 300, a maximum length as text, or a prefix that is a number. -/
theorem C106_type_false :
    decodeFile (utf8Str (["{\"roas\":[{\"prefix\":\"10.0.0.0/8\",\"maxLeng", "th\":8,\"asn\":1},{\"prefix\":\"11.0.0.0/8\",\"m", "axLength\":300,\"asn\":1}]}"].flatMap String.toList)) = none ∧
    decodeFile (utf8Str (["{\"roas\":[{\"prefix\":\"10.0.0.0/8\",\"maxLeng", "th\":8,\"asn\":1},{\"prefix\":\"11.0.0.0/8\",\"m", "axLength\":\"8\",\"asn\":1}]}"].flatMap String.toList)) = none ∧
    decodeFile (utf8Str (["{\"roas\":[{\"prefix\":\"10.0.0.0/8\",\"maxLeng", "th\":8,\"asn\":1},{\"prefix\":11,\"maxLength\":", "8,\"asn\":1}]}"].flatMap String.toList)) = none := by
  decide +kernel

theorem statesKey_iff {now : Int} {e : Json} {k : BgpSecKeyJson} (hr : NoRepeats e) (h : KeyIs e k)
    (hg : ∀ o, e = .obj o → ∀ name ∈ ["asn", "ski", "pubkey"], ∃ j, Member o name j ∧ j ≠ .null) (r : U32 × Bytes × Bytes) : StatesKey now e r ↔ ServesKey now k r := by
  obtain ⟨o, rfl, h1, h5, h4, h2, h3⟩ := h
  unfold StatesKey ServesKey
  constructor
  · rintro ⟨o', he, ⟨lit, hl, hd⟩, ⟨t, ht, hx⟩, ⟨j, hj, hb⟩, hu⟩
    cases he
    refine ⟨?_, ?_, ?_, (unexpired_iff hr h5).2 hu⟩
    · rcases field_member hr h1 hl with ⟨h, -⟩ | ⟨-, l, h, hd'⟩
      · cases h
      · cases h
        rw [denotes_iff] at hd hd'
        rw [hd] at hd'
        exact BitVec.eq_of_toNat_eq (Option.some.inj hd').symm
    · rcases field_member hr h3 ht with ⟨h, -⟩ | ⟨-, h⟩
      · cases h
      · cases h; exact hx
    · have hne : j ≠ .null := by
        rintro rfl
        rcases hb with ⟨s, h, -⟩ | ⟨l, h, -⟩ <;> cases h
      have d1 := (decBytes_iff j _).2 (field_member hr h2 hj)
      rw [(decBytes_iff j _).2 (.inr ⟨hne, hb⟩)] at d1
      exact (Option.some.inj d1).symm
  · rintro ⟨ha, hx, hk, he⟩
    refine ⟨o, rfl, ?_, ?_, ?_, (unexpired_iff hr h5).1 he⟩
    · obtain ⟨j, hm, hne⟩ := hg o rfl "asn" (by simp)
      rcases field_member hr h1 hm with ⟨h, -⟩ | ⟨-, l, rfl, hd⟩
      · exact (hne h).elim
      · exact ⟨l, hm, ha ▸ hd⟩
    · obtain ⟨j, hm, hne⟩ := hg o rfl "ski" (by simp)
      rcases field_member hr h3 hm with ⟨h, -⟩ | ⟨-, rfl⟩
      · exact (hne h).elim
      · exact ⟨_, hm, hx⟩
    · obtain ⟨j, hm, hne⟩ := hg o rfl "pubkey" (by simp)
      rcases field_member hr h2 hm with ⟨h, -⟩ | ⟨-, hb⟩
      · exact (hne h).elim
      · exact ⟨j, hm, hk ▸ hb⟩

/-- **C106** (partial: of files that load, in which no object has a name twice, of numbers of 9000 characters and more the exponents are below 100000, and every entry of `bgpsec_keys` gives AS number, key identifier and key). Exactly the router keys are
processed that an entry of `bgpsec_keys` states. -/
theorem C106_keys_partial (wide : WideFloat) (sort : Sorter) (now : Int) (b : Bytes) (s : Str) (hu : Repaired b s) (hp : ∀ j, FirstValue s j → NoRepeats j ∧ OrdinaryNumbers j)
    (hg : ∀ e, Entry s "bgpsec_keys" e → ∃ o, e = .obj o ∧ ∀ name ∈ ["asn", "ski", "pubkey"], ∃ j, Member o name j ∧ j ≠ .null) (l : RPKIList) (hl : decodeFile b = some l) (vs : List VRPJson) (r : U32 × Bytes × Bytes) :
    r ∈ (processData wide sort now vs (l.keys.getD [])).brks.map (fun x => (x.asn, x.ski, x.pubkey)) ↔ ∃ e, Entry s "bgpsec_keys" e ∧ StatesKey now e r := by
  have hmem : ∀ ks, r ∈ (processData wide sort now vs ks).brks.map (fun x => (x.asn, x.ski, x.pubkey)) ↔ ∃ k ∈ ks, ServesKey now k r := by
    intro ks
    constructor
    · intro h
      obtain ⟨x, hx, rfl⟩ := List.mem_map.1 h
      exact ((C48_keys wide sort now vs ks x).1 hx).2
    · rintro ⟨k, hk, h⟩
      exact List.mem_map.2 ⟨⟨r.1, r.2.2, r.2.1, 0⟩, (C48_keys wide sort now vs ks _).2 ⟨rfl, k, hk, h⟩, rfl⟩
  rw [hmem]
  obtain ⟨j, hf, hj⟩ := (C105_exact_partial b s hu hp l).1 hl
  rcases hj with ⟨rfl, rfl⟩ | ⟨-, o, rfl, -, -, hkeys⟩
  · constructor
    · rintro ⟨k, hk, -⟩
      simp at hk
    · rintro ⟨e, ⟨o, es, hf', -⟩, -⟩
      have := C103_unambiguous s _ _ (by simp) (by simp) hf hf'
      cases this
  · obtain ⟨he1, he2⟩ := entries_iff hf (hp _ hf).1 hkeys
    constructor
    · rintro ⟨k, hk, hsk⟩
      obtain ⟨e, he, hre, hor⟩ := he1 k hk
      obtain ⟨o', rfl, hg'⟩ := hg e he
      rcases hor with ⟨h, -⟩ | ⟨-, hek⟩
      · cases h
      · exact ⟨_, he, (statesKey_iff hre hek (by rintro o h; cases h; exact hg') r).2 hsk⟩
    · rintro ⟨e, he, hst⟩
      obtain ⟨hre, k, hk, hor⟩ := he2 e he
      obtain ⟨o', rfl, hg'⟩ := hg e he
      rcases hor with ⟨h, -⟩ | ⟨-, hek⟩
      · cases h
      · exact ⟨k, hk, (statesKey_iff hre hek (by rintro o h; cases h; exact hg') r).1 hst⟩

/-- **C106.** An entry of `bgpsec_keys` that says nothing is served all the same: as a router key of AS 0 with an empty key identifier and an empty key. -/
theorem C106_empty_key_false :
    (decodeFile (utf8Str "{\"bgpsec_keys\":[{},null]}".toList)).map (fun l => (processData (fun _ => 0) insertionSorter 0 [] (l.keys.getD [])).brks.map (fun x => (x.asn, x.ski, x.pubkey))) = some [(0, [], []), (0, [], [])] := by
  decide +kernel

/-- A file with an entry for a router key that is processed and an expired one. -/
example :
    (decodeFile (utf8Str (["{\"bgpsec_keys\":[{\"asn\":1,\"ski\":\"AB\",\"pub", "key\":\"AAE=\"},{\"asn\":2,\"ski\":\"AB\",\"pubkey", "\":\"AAE=\",\"expires\":-1}]}"].flatMap String.toList))).map
      (fun l => (processData (fun _ => 0) insertionSorter 0 [] (l.keys.getD [])).brks.map (fun x => (x.asn, x.ski, x.pubkey))) = some [(1, [0xAB], [0, 1])] := by
  decide +kernel

/-! ## The SLURM file -/

/-- **C107** (partial: of files in which no object has a name twice). A SLURM file is loaded exactly if it begins with a JSON text that is `null` or a SLURM file, member by member, and what is loaded is what it says. -/
theorem C107_exact_partial (b : Bytes) (s : Str) (hu : Repaired b s) (hp : ∀ j, FirstValue s j → NoRepeats j) (x : Slurm) :
    decodeSlurmFile b = some x ↔ ∃ j, FirstValue s j ∧ OrNull SlurmIs ⟨[], [], [], []⟩ j x := by
  unfold decodeSlurmFile
  rw [goRunes_repaired hu]
  constructor
  · intro h
    split at h
    · cases h
    · rename_i j hj
      have hf := readJson_first hj
      exact ⟨j, hf, (slurmD (P := False) j ⟨hp j hf, fun h => h.elim⟩ x).1 h⟩
  · rintro ⟨j, hf, h⟩
    have hd := (slurmD (P := False) j ⟨hp j hf, fun h => h.elim⟩ x).2 h
    rw [readJson_complete hf (decStruct_num hd)]
    exact hd

/-- A SLURM file with one filter and one assertion of each kind. -/
def exSlurmText : Str :=
  (["{\"slurmVersion\":1,\"validationOutputFilte", "rs\":{\"prefixFilters\":[{\"prefix\":\"192.0.2", ".0/24\",\"comment\":\"x\"}],\"bgpsecFilters\":[", "{\"asn\":64496,\"SKI\":\"AAEC\"}]},", "\"locallyAddedAssertions\":{\"prefixAsserti", "ons\":[{\"asn\":64496,\"prefix\":\"198.51.100.", "0/24\",\"maxPrefixLength\":24}],\"bgpsecAsse", "rtions\":[{\"asn\":64497,\"SKI\":\"AAEC\",\"rout", "erPublicKey\":\"AQ==\"}]}}"].flatMap String.toList)

/-- It satisfies the hypotheses, and all four are loaded. -/
example : Repaired (utf8Str exSlurmText) exSlurmText ∧ (∀ j, FirstValue exSlurmText j → NoRepeats j) ∧
    decodeSlurmFile (utf8Str exSlurmText) = some ⟨[⟨"192.0.2.0/24".toList, none⟩], [⟨some 64496, [0, 1, 2]⟩], [⟨"198.51.100.0/24".toList, 64496, 24, []⟩], [⟨[0, 1, 2], 64497, [1]⟩]⟩ :=
  ⟨(utf8_str _).repaired, fun j hj => (plain_file (by decide +kernel) j hj).1, by decide +kernel⟩

/-- **C107.** RFC 8416 (sections 3.3.2 and 3.4.2) writes key identifiers in base64 without padding: 27 characters for 20 bytes. No such text can be read, whatever the identifier; a file with one is refused as a whole. -/
theorem C107_unpadded_false :
    (∀ t : Str, t.length = 27 → (∀ c ∈ t, c ≠ '\n' ∧ c ≠ '\r') → ∀ old, decBytes old (.str t) = none) ∧
    decodeSlurmFile (utf8Str (["{\"validationOutputFilters\":{\"prefixFilte", "rs\":[{\"prefix\":\"192.0.2.0/24\"}],\"bgpsecF", "ilters\":[{\"SKI\":\"AAECAwQFBgcICQoLDA0ODxA", "REhM\"}]}}"].flatMap String.toList)) = none := by
  refine ⟨?_, by decide +kernel⟩
  intro t ht hc old
  show (b64Decode t).map _ = none
  cases h : b64Decode t with
  | none => rfl
  | some b =>
    obtain ⟨u, p, ds, rest, he, hp, hm, -⟩ := (b64Decode_iff t b).1 h
    rw [List.filter_eq_self.2 (by simpa using hc)] at he
    have := congrArg List.length he
    rw [ht, List.length_append, List.length_replicate] at this
    omega

/-- **C107.** RFC 8416 (section 3.1) has a version number of 1, and any deviation is an error. Here another version, unknown members and missing members are none. -/
theorem C107_lenient_false :
    decodeSlurmFile (utf8Str "{\"slurmVersion\":2}".toList) = some ⟨[], [], [], []⟩ ∧
    decodeSlurmFile (utf8Str "{\"slurmVersion\":1,\"prefixFilters\":[{\"prefix\":\"192.0.2.0/24\"}]}".toList) = some ⟨[], [], [], []⟩ ∧
    decodeSlurmFile (utf8Str "null".toList) = some ⟨[], [], [], []⟩ := by
  decide +kernel

end StayRTR
