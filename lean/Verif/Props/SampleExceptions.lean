import Verif.Props.Samples
import Verif.Props.Exceptions

/-!
# C177: the files of local exceptions in the repository

prefixfile/slurm.json (opened by prefixfile/slurm_test.go:14, 193), whose comments say what its filters are for, and cmd/stayrtr/test.slurm.json.
-/

namespace StayRTR

open Spec Slurm

namespace Spec

/-- prefixfile/slurm.json -/
def repoSlurm : Str := List.flatMap String.toList
  ["{\n",
   "  \"slurmVersion\": 2,\n",
   "  \"validationOutputFilters\": {\n",
   "    \"prefixFilters\": [\n",
   "      {\n",
   "        \"prefix\": \"192.0.2.0/24\",\n",
   "        \"comment\": \"All VRPs encompassed",
   " by prefix\"\n",
   "      },\n",
   "      {\n",
   "        \"asn\": 64496,\n",
   "        \"comment\": \"All VRPs matching AS",
   "N\"\n",
   "      },\n",
   "      {\n",
   "        \"prefix\": \"198.51.100.0/24\",\n",
   "        \"asn\": 64497,\n",
   "        \"comment\": \"All VRPs encompassed",
   " by prefix, matching ASN\"\n",
   "      }\n",
   "    ],\n",
   "    \"bgpsecFilters\": [\n",
   "      {\n",
   "        \"asn\": 64496,\n",
   "        \"comment\": \"All keys for ASN\"\n",
   "      },\n",
   "      {\n",
   "        \"SKI\": \"XC7RBWu3661vfYmhXZwtUw==",
   "\",\n",
   "        \"comment\": \"Key matching Router ",
   "SKI\"\n",
   "      },\n",
   "      {\n",
   "        \"asn\": 64497,\n",
   "        \"SKI\": \"XC7RBWu3661vfYmhXZwtUw==",
   "\",\n",
   "        \"comment\": \"Key for ASN 64497 ma",
   "tching Router SKI\"\n",
   "      }\n",
   "    ]\n",
   "  },\n",
   "  \"locallyAddedAssertions\": {\n",
   "    \"prefixAssertions\": [\n",
   "      {\n",
   "        \"asn\": 64496,\n",
   "        \"prefix\": \"198.51.100.0/24\",\n",
   "        \"comment\": \"My other important r",
   "oute\"\n",
   "      },\n",
   "      {\n",
   "        \"asn\": 64496,\n",
   "        \"prefix\": \"2001:DB8::/32\",\n",
   "        \"maxPrefixLength\": 48,\n",
   "        \"comment\": \"My other important d",
   "e-aggregated routes\"\n",
   "      }\n",
   "    ],\n",
   "    \"bgpsecAssertions\": [\n",
   "      {\n",
   "        \"asn\": 64496,\n",
   "        \"comment\": \"My known key for my ",
   "important ASN\",\n",
   "        \"SKI\": \"NQYXZ0PgL2fdRscxGdVDa+fh",
   "AQY=\",\n",
   "        \"routerPublicKey\": \"MFkwEwYHKoZI",
   "zj0CAQYIKoZIzj0DAQcDQgAEhv5HEBGixUjKJTle",
   "nvcD1Axyi07rFdVY1KhN4vMPYy5y0Mx6zfaiEqJN",
   "27jK/l61xC36Vsaezd7eXAsZ1AEEsQ==\"\n",
   "      }\n",
   "    ]\n",
   "  }\n",
   "}\n"]

/-- cmd/stayrtr/test.slurm.json (it has no newline at the end, which makes no difference). -/
def testSlurm : Str := List.flatMap String.toList
  ["{\n",
   "  \"slurmVersion\": 1,\n",
   "  \"validationOutputFilters\": {\n",
   "    \"prefixFilters\": [\n",
   "      {\n",
   "        \"asn\": 65000,\n",
   "        \"prefix\": \"10.0.0.0/24\"\n",
   "      }\n",
   "    ],\n",
   "    \"bgpsecFilters\": []\n",
   "  },\n",
   "  \"locallyAddedAssertions\": {\n",
   "    \"prefixAssertions\": [\n",
   "      {\n",
   "        \"asn\": 65002,\n",
   "        \"prefix\": \"10.2.0.0/25\",\n",
   "        \"maxPrefixLength\": 26\n",
   "      }\n",
   "    ]\n",
   "  }\n",
   "}\n"]

/-- cmd/stayrtr/smalltest.rpki.json -/
def smallCache : Str := List.flatMap String.toList
  ["{\n",
   "  \"metadata\": {\n",
   "    \"buildtime\": \"2021-07-27T18:56:02Z\",\n",
   "    \"vrps\": 2\n",
   "  },\n",
   "\n",
   "  \"roas\": [\n",
   "    {\n",
   "      \"asn\": 13335,\n",
   "      \"prefix\": \"1.0.0.0/24\",\n",
   "      \"maxLength\": 24,\n",
   "      \"ta\": \"apnic\",\n",
   "      \"expires\": 1627568318\n",
   "    },\n",
   "    {\n",
   "      \"asn\": \"AS9367\",\n",
   "      \"prefix\": \"2001:200:136::/48\",\n",
   "      \"maxLength\": 48,\n",
   "      \"ta\": \"apnic\",\n",
   "      \"expires\": 1627575699\n",
   "    }\n",
   "  ]\n",
   "}\n"]

/-- 1.0.0.0/24-24 AS13335 -/
def smallVrp1 : Rec := .vrp ⟨.v4 0x01000000, 25⟩ 24 13335
/-- 2001:200:136::/48-48 AS9367 -/
def smallVrp2 : Rec := .vrp ⟨.v6 0x20010200013600000000000000000000, 49⟩ 48 9367

/-- 192.0.2.0/24 -/
def netTest1 : Prefix := ⟨.v4 0xc0000200, 25⟩
/-- 198.51.100.0/24 -/
def netTest2 : Prefix := ⟨.v4 0xc6336400, 25⟩
/-- 10.0.0.0/24 -/
def netTen : Prefix := ⟨.v4 0x0a000000, 25⟩
/-- 10.2.0.0/25 -/
def netTen2 : Prefix := ⟨.v4 0x0a020000, 26⟩
/-- The key identifier that the filters name, XC7RBWu3661vfYmhXZwtUw== in Base64. -/
def repoSki : Bytes := [0x5c, 0x2e, 0xd1, 0x05, 0x6b, 0xb7, 0xeb, 0xad, 0x6f, 0x7d, 0x89, 0xa1, 0x5d, 0x9c, 0x2d, 0x53]
/-- The key identifier of the asserted key. -/
def repoKeySki : Bytes := [0x35, 0x06, 0x17, 0x67, 0x43, 0xe0, 0x2f, 0x67, 0xdd, 0x46, 0xc7, 0x31, 0x19, 0xd5, 0x43, 0x6b, 0xe7, 0xe1, 0x01, 0x06]
/-- The asserted key, an elliptic-curve key in DER. -/
def repoKey : Bytes :=
  [0x30, 0x59, 0x30, 0x13, 0x06, 0x07, 0x2a, 0x86, 0x48, 0xce, 0x3d, 0x02, 0x01, 0x06, 0x08, 0x2a, 0x86, 0x48, 0xce, 0x3d, 0x03, 0x01, 0x07, 0x03, 0x42, 0x00, 0x04, 0x86, 0xfe, 0x47, 0x10, 0x11, 0xa2, 0xc5, 0x48, 0xca, 0x25,
   0x39, 0x5e, 0x9e, 0xf7, 0x03, 0xd4, 0x0c, 0x72, 0x8b, 0x4e, 0xeb, 0x15, 0xd5, 0x58, 0xd4, 0xa8, 0x4d, 0xe2, 0xf3, 0x0f, 0x63, 0x2e, 0x72, 0xd0, 0xcc, 0x7a, 0xcd, 0xf6, 0xa2, 0x12, 0xa2, 0x4d, 0xdb, 0xb8, 0xca, 0xfe,
   0x5e, 0xb5, 0xc4, 0x2d, 0xfa, 0x56, 0xc6, 0x9e, 0xcd, 0xde, 0xde, 0x5c, 0x0b, 0x19, 0xd4, 0x01, 0x04, 0xb1]

end Spec

/-- What prefixfile/slurm.json is decoded to. -/
def repoExceptions : Slurm :=
  ⟨[⟨"192.0.2.0/24".toList, none⟩, ⟨[], some 64496⟩, ⟨"198.51.100.0/24".toList, some 64497⟩], [⟨some 64496, []⟩, ⟨none, repoSki⟩, ⟨some 64497, repoSki⟩],
   [⟨"198.51.100.0/24".toList, 64496, 0, "My other important route".toList⟩, ⟨"2001:DB8::/32".toList, 64496, 48, "My other important de-aggregated routes".toList⟩],
   [⟨repoKeySki, 64496, repoKey⟩]⟩

/-- What cmd/stayrtr/test.slurm.json is decoded to. -/
def testExceptions : Slurm := ⟨[⟨"10.0.0.0/24".toList, some 65000⟩], [], [⟨"10.2.0.0/25".toList, 65002, 26, []⟩], []⟩

theorem repo_good : decodeSlurmFile (utf8Str repoSlurm) = some repoExceptions := by decide +kernel

theorem test_good : decodeSlurmFile (utf8Str testSlurm) = some testExceptions := by decide +kernel

theorem repo_prefixes (p : Prefix) :
    (PrefixText "192.0.2.0/24".toList p ↔ p = netTest1) ∧ (PrefixText "198.51.100.0/24".toList p ↔ p = netTest2) ∧ (PrefixText "2001:DB8::/32".toList p ↔ p = netDoc) ∧
    (PrefixText "10.0.0.0/24".toList p ↔ p = netTen) ∧ (PrefixText "10.2.0.0/25".toList p ↔ p = netTen2) := by
  have h1 : parsePrefix "192.0.2.0/24".toList = some netTest1 := by decide +kernel
  have h2 : parsePrefix "198.51.100.0/24".toList = some netTest2 := by decide +kernel
  have h3 : parsePrefix "2001:DB8::/32".toList = some netDoc := by decide +kernel
  have h4 : parsePrefix "10.0.0.0/24".toList = some netTen := by decide +kernel
  have h5 : parsePrefix "10.2.0.0/25".toList = some netTen2 := by decide +kernel
  rw [← prefixText_iff, ← prefixText_iff, ← prefixText_iff, ← prefixText_iff, ← prefixText_iff, h1, h2, h3, h4, h5]
  simp only [Option.some.injEq, eq_comm, and_self]

/-- **C177.** prefixfile/slurm.json is loaded, and does what its comments say to every cache file, at any time: VRPs inside 192.0.2.0/24, of AS64496, and of AS64497 inside 198.51.100.0/24 are removed, and so are router keys of AS64496 and
those with the key identifier named; two VRPs and a router key of AS64496 are added, though its VRPs and keys are filtered; all else stays as it is. -/
theorem C177_repo : ∃ x, decodeSlurmFile (utf8Str repoSlurm) = some x ∧ ∀ (wide : WideFloat) (now : Int) (l : RPKIList),
    (∀ p m a, FileWants wide now (some x) l (.vrp p m a) ↔
      (FileWants wide now none l (.vrp p m a) ∧ ¬ Covers netTest1 p ∧ a ≠ 64496 ∧ ¬ (Covers netTest2 p ∧ a = 64497)) ∨ (p = netTest2 ∧ m = 24 ∧ a = 64496) ∨ (p = netDoc ∧ m = 48 ∧ a = 64496)) ∧
    (∀ a ski key, FileWants wide now (some x) l (.brk a ski key) ↔
      (FileWants wide now none l (.brk a ski key) ∧ a ≠ 64496 ∧ ski ≠ repoSki) ∨ (a = 64496 ∧ ski = repoKeySki ∧ key = repoKey)) := by
  refine ⟨_, repo_good, fun wide now l => ⟨fun p m a => ?_, fun a ski key => ?_⟩⟩
  · rw [C175_records]
    refine or_congr (and_congr Iff.rfl ?_) ?_
    · simp only [RemovedBy, repoExceptions, List.mem_cons, List.not_mem_nil, or_false, exists_eq_or_imp, exists_eq_left, PrefixFilterMatches, (repo_prefixes _).1, (repo_prefixes _).2.1, not_prefixText_nil,
        Option.some.injEq, reduceCtorEq, false_imp_iff, implies_true, and_true, true_and, forall_eq, forall_eq', not_or, ne_eq]
    · simp only [AssertedBy, repoExceptions, List.mem_cons, List.not_mem_nil, or_false, exists_eq_or_imp, exists_eq_left, (repo_prefixes _).2.1, (repo_prefixes _).2.2.1]
      refine or_congr ?_ ?_
      · constructor
        · rintro ⟨rfl, rfl, rfl, -⟩; exact ⟨rfl, by decide, rfl⟩
        · rintro ⟨rfl, rfl, rfl⟩; exact ⟨rfl, rfl, by decide, by decide, by decide, by decide⟩
      · constructor
        · rintro ⟨rfl, rfl, rfl, -⟩; exact ⟨rfl, by decide, rfl⟩
        · rintro ⟨rfl, rfl, rfl⟩; exact ⟨rfl, rfl, by decide, by decide, by decide, by decide⟩
  · have hne : repoSki ≠ [] := by decide
    rw [C175_records]
    refine or_congr (and_congr Iff.rfl ?_) ?_
    · simp only [RemovedBy, repoExceptions, List.mem_cons, List.not_mem_nil, or_false, exists_eq_or_imp, exists_eq_left, KeyFilterMatches, hne, ne_eq, not_true_eq_false, not_false_eq_true, reduceCtorEq, or_self, or_true,
        Option.some.injEq, forall_eq', false_imp_iff, implies_true, forall_true_left, true_and, and_true, not_or]
      exact ⟨fun h => ⟨h.1, h.2.1⟩, fun h => ⟨h.1, h.2, fun h' => h.2 h'.2⟩⟩
    · simp only [AssertedBy, repoExceptions, List.mem_cons, List.not_mem_nil, or_false, exists_eq_left, @eq_comm _ _ a, @eq_comm _ _ ski, @eq_comm _ _ key]

/-- **C177.** cmd/stayrtr/test.slurm.json likewise: VRPs of AS65000 inside 10.0.0.0/24 are removed and 10.2.0.0/25-26 AS65002 is added. -/
theorem C177_test : ∃ x, decodeSlurmFile (utf8Str testSlurm) = some x ∧ ∀ (wide : WideFloat) (now : Int) (l : RPKIList),
    (∀ p m a, FileWants wide now (some x) l (.vrp p m a) ↔ (FileWants wide now none l (.vrp p m a) ∧ ¬ (Covers netTen p ∧ a = 65000)) ∨ (p = netTen2 ∧ m = 26 ∧ a = 65002)) ∧
    (∀ a ski key, FileWants wide now (some x) l (.brk a ski key) ↔ FileWants wide now none l (.brk a ski key)) := by
  refine ⟨_, test_good, fun wide now l => ⟨fun p m a => ?_, fun a ski key => ?_⟩⟩
  · rw [C175_records]
    refine or_congr (and_congr Iff.rfl ?_) ?_
    · simp only [RemovedBy, testExceptions, List.mem_cons, List.not_mem_nil, or_false, exists_eq_left, PrefixFilterMatches, (repo_prefixes _).2.2.2.1, Option.some.injEq, forall_eq, forall_eq']
    · simp only [AssertedBy, testExceptions, List.mem_cons, List.not_mem_nil, or_false, exists_eq_left, (repo_prefixes _).2.2.2.2]
      constructor
      · rintro ⟨rfl, rfl, rfl, -⟩; exact ⟨rfl, by decide, rfl⟩
      · rintro ⟨rfl, rfl, rfl⟩; exact ⟨rfl, rfl, by decide, by decide, by decide, by decide⟩
  · rw [C175_records]
    simp only [RemovedBy, AssertedBy, testExceptions, List.not_mem_nil, false_and, exists_false, not_false_eq_true, and_true, or_false]
    exact Iff.rfl

/-! ## The cache file -/

/-- What cmd/stayrtr/smalltest.rpki.json is decoded to. -/
def smallList : RPKIList :=
  ⟨⟨2, "2021-07-27T18:56:02Z".toList, none⟩,
   some [⟨"1.0.0.0/24".toList, 24, .float 13335, "apnic".toList, some 1627568318⟩, ⟨"2001:200:136::/48".toList, 48, .str "AS9367".toList, "apnic".toList, some 1627575699⟩], none⟩

theorem small_good : decodeFile (utf8Str smallCache) = some smallList := by decide +kernel

theorem small_wants (wide : WideFloat) (now : Int) (r : Rec) : FileWants wide now none smallList r ↔ (r = smallVrp1 ∧ now ≤ 1627568318) ∨ (r = smallVrp2 ∧ now ≤ 1627575699) := by
  have h1 : parsePrefix "1.0.0.0/24".toList = some ⟨.v4 0x01000000, 25⟩ := by decide +kernel
  have h2 : parsePrefix "2001:200:136::/48".toList = some ⟨.v6 0x20010200013600000000000000000000, 49⟩ := by decide +kernel
  have a1 : ∀ a, AsnReads wide (.float 13335) a ↔ a = 13335 := by
    intro a
    have h3 : VRPJson.getASN2 wide ⟨[], 0, .float 13335, [], none⟩ = some 13335 := by
      have := (asnReads_iff wide ⟨[], 0, .float 13335, [], none⟩ 13335).2 ⟨fun _ => rfl, fun h => absurd ⟨by decide, by decide⟩ h⟩
      exact this
    rw [← asnReads_iff wide ⟨[], 0, .float 13335, [], none⟩ a, h3]
    simp only [Option.some.injEq, eq_comm]
  have a2 : ∀ a, AsnReads wide (.str "AS9367".toList) a ↔ a = 9367 := by
    intro a
    have h4 : VRPJson.getASN2 wide ⟨[], 0, .str "AS9367".toList, [], none⟩ = some 9367 := by
      have h5 : parseUint32 (List.dropWhile (fun c => c == 'a' || c == 'A' || c == 's' || c == 'S') "AS9367".toList) = some 9367 := by decide +kernel
      exact h5
    rw [← asnReads_iff wide ⟨[], 0, .str "AS9367".toList, [], none⟩ a, h4]
    simp only [Option.some.injEq, eq_comm]
  cases r with
  | vrp p m a =>
    simp only [FileWants, withExceptions, Wanted, smallList, Option.getD_some, List.mem_cons, List.not_mem_nil, or_false, exists_eq_or_imp, exists_eq_left, ← prefixText_iff, h1, h2, a1, a2, smallVrp1, smallVrp2, Rec.vrp.injEq, Option.some.injEq,
      forall_eq']
    refine or_congr ?_ ?_
    · constructor
      · rintro ⟨rfl, rfl, rfl, -, -, -, h⟩; exact ⟨⟨rfl, rfl, rfl⟩, h⟩
      · rintro ⟨⟨rfl, rfl, rfl⟩, h⟩; exact ⟨rfl, rfl, rfl, by decide, by decide, by decide, h⟩
    · constructor
      · rintro ⟨rfl, rfl, rfl, -, -, -, h⟩; exact ⟨⟨rfl, rfl, rfl⟩, h⟩
      · rintro ⟨⟨rfl, rfl, rfl⟩, h⟩; exact ⟨rfl, rfl, rfl, by decide, by decide, by decide, h⟩
  | brk a ski key => simp [FileWants, withExceptions, Wanted, smallList, smallVrp1, smallVrp2]

theorem small_loads {e : Env} (hd : e.decode = decodeFile) {s : UState} {f : Fetched} (hn : NewFiles e s f (utf8Str smallCache) none) (t : Times) :
    (fetchBoth e t f s).2 = true ∧ ((startup e t f s).lastdata = smallList ∧ (startup e t f s).slurm = none) ∧ (refresh e t f s).lastdata = smallList ∧ (refresh e t f s).slurm = none := by
  obtain ⟨h1, h2, h3⟩ := newFiles_load hn (by rw [hd]; exact small_good) (sl := none) rfl t
  refine ⟨h1, ?_, ?_⟩
  · unfold startup
    simp only
    rw [(startup_keeps ..).1, (startup_keeps ..).2.1]
    exact ⟨h2, h3⟩
  · unfold refresh
    simp only
    rw [(afterFetch_keeps ..).1, (afterFetch_keeps ..).2.1]
    exact ⟨h2, h3⟩

/-- The build time in the file, in nanoseconds since 1970. -/
theorem small_fresh (e : Env) (hp : e.parseTime = timeParse) (now : Int) : Fresh e smallList now ↔ now ≤ (1627412162 + 86400) * 1000000000 := by
  have hb : timeParse "2021-07-27T18:56:02Z".toList = some (1627412162 * 1000000000) := by decide +kernel
  constructor
  · rintro ⟨b, hb', hle⟩
    cases hb' with
    | generated g h => cases h
    | text b _ hp' =>
      rw [hp, show smallList.metadata.buildtime = "2021-07-27T18:56:02Z".toList from rfl, hb] at hp'
      have := Option.some.inj hp'
      omega
  · intro h
    exact ⟨_, .text _ rfl (by rw [hp]; exact hb), by omega⟩

/-- **C177.** cmd/stayrtr/smalltest.rpki.json, loaded by any server at any time, with or without the check of the build time: up to the 28th of July 2021, 18:56:02 (or at any time without the check), exactly its two VRPs are served, each until
it expires; later it changes nothing at the start, and at a refresh nothing but perhaps that all is dropped. -/
theorem C177_cache (e : Env) (hs : e.sort.Ok) (hd : e.decode = decodeFile) (hp : e.parseTime = timeParse) (t : Times) (f : Fetched) {s : UState} (h : Reached e s) (hn : NewFiles e s f (utf8Str smallCache) none) :
    ((e.checktime = true → t.check ≤ 1627498562 * 1000000000) → ∀ s', s' = startup e t f s ∨ s' = refresh e t f s → ∀ r, Served s' r ↔ (r = smallVrp1 ∧ seconds t.proc ≤ 1627568318) ∨ (r = smallVrp2 ∧ seconds t.proc ≤ 1627575699)) ∧
    (e.checktime = true → 1627498562 * 1000000000 < t.check → (startup e t f s).store = s.store ∧ ((refresh e t f s).store = s.store ∨ (refresh e t f s).store.current = [])) := by
  obtain ⟨hb, ⟨h1, h1'⟩, h2, h2'⟩ := small_loads hd hn t
  refine ⟨fun hc s' hs' r => ?_, fun hc hlate => ?_⟩
  · have hf : e.checktime = true → Fresh e smallList t.check := fun hct => (small_fresh e hp _).2 (by have := hc hct; omega)
    rcases hs' with rfl | rfl
    · rw [C53_start_partial e hs t f h (by rw [h1]; simp [smallList]) (by rw [h1]; exact hf) r, h1, h1', small_wants]
    · rw [C53_served_partial e hs t f h hb (by rw [h2]; simp [smallList]) (by rw [h2]; exact hf) r, h2, h2', small_wants]
  · have hf : ¬ Fresh e smallList t.check := fun hh => by have := (small_fresh e hp _).1 hh; omega
    obtain ⟨k1, k2⟩ := C50_stale e hs hc t f h
    exact ⟨k2 (by rw [h1]; exact hf), k1 (by rw [h2]; exact hf)⟩

/-! ## Concrete servers -/

/-- Both test files, fetched by a server that starts. -/
def smallFetched (slurm : Option Str) : Fetched := ⟨exFile, .file (some (utf8Str smallCache)), slurm.map fun x => ("slurm.json".toList, .file (some (utf8Str x)))⟩

/-- The situation of `C177_cache`: in time, after the first VRP expired, and too late. -/
example : Reached exceptionsEnv exInit ∧ exceptionsEnv.checktime = true ∧ exceptionsEnv.parseTime = timeParse ∧ exceptionsEnv.decode = decodeFile ∧ exceptionsEnv.sort.Ok ∧
    NewFiles exceptionsEnv exInit (smallFetched none) (utf8Str smallCache) none ∧
    records (startup exceptionsEnv (exAt 1627412162) (smallFetched none) exInit).store.current = [smallVrp2, smallVrp1] ∧
    records (startup { exceptionsEnv with checktime := false } (exAt 1627568319) (smallFetched none) exInit).store.current = [smallVrp2] ∧
    records (startup exceptionsEnv (exAt 1627498563) (smallFetched none) exInit).store.current = [] := by
  refine ⟨.init true true, rfl, rfl, rfl, insertionSorter_ok, ⟨by decide +kernel, by simp [exInit, UState.init], fun _ => ⟨rfl, rfl⟩, fun y h => by cases h⟩, by decide +kernel, by decide +kernel, by decide +kernel⟩

/-- What `C177_repo` and `C177_test` come to for this cache file. -/
example : records (startup exceptionsEnv (exAt 1627412162) (smallFetched (some testSlurm)) exInit).store.current = [smallVrp2, .vrp netTen2 26 65002, smallVrp1] ∧
    records (startup exceptionsEnv (exAt 1627412162) (smallFetched (some repoSlurm)) exInit).store.current =
      [smallVrp2, .vrp netDoc 48 64496, smallVrp1, .vrp netTest2 24 64496, .brk 64496 repoKeySki repoKey] := by
  decide +kernel

end StayRTR
