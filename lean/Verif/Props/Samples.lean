import Verif.Props.WholeAny
import Verif.Props.Dump

/-!
# C166: the sample files of the documentation

The SLURM file of README.md:194-228 with what is said of it (230-241), and the schema of cache files (README.md:313-326).
-/

namespace StayRTR

open Spec Slurm

namespace Spec

/-- Lines of a file. -/
def fileOf (lines : List String) : Str := lines.flatMap fun l => l.toList ++ ['\n']

/-- `slurm.json`, README.md:197-227, with the letters `,` that the first argument puts after the last members of objects and arrays. -/
def slurmSample (comma : String) : Str := fileOf
  ["{",
   "    \"slurmVersion\": 1,",
   "    \"validationOutputFilters\": {",
   "     \"prefixFilters\": [",
   "       {",
   "        \"prefix\": \"10.0.0.0/8\",",
   "        \"comment\": \"Everything inside will be removed\"",
   "       },",
   "       {",
   "        \"asn\": 65001" ++ comma,
   "       },",
   "       {",
   "        \"asn\": 65002,",
   "        \"prefix\": \"192.168.0.0/24\"" ++ comma,
   "       }" ++ comma,
   "     ],",
   "     \"bgpsecFilters\": []",
   "    },",
   "    \"locallyAddedAssertions\": {",
   "     \"prefixAssertions\": [",
   "       {",
   "        \"asn\": 65001,",
   "        \"prefix\": \"2001:db8::/32\",",
   "        \"maxPrefixLength\": 48,",
   "        \"comment\": \"Manual add\"",
   "       }",
   "     ],",
   "     \"bgpsecAssertions\": [",
   "     ]",
   "    }",
   "  }"]

/-- The schema of cache files with one VRP, README.md:315-326 without the dots. -/
def schemaSample : Str := fileOf
  ["{",
   "  \"roas\": [",
   "    {",
   "      \"prefix\": \"10.0.0.0/24\",",
   "      \"maxLength\": 24,",
   "      \"asn\": 65001",
   "    }",
   "  ]",
   "}"]

/-- 10.0.0.0/8 -/
def net10 : Prefix := ⟨.v4 0x0a000000, 9⟩
/-- 192.168.0.0/24 -/
def net192 : Prefix := ⟨.v4 0xc0a80000, 25⟩
/-- 2001:db8::/32 -/
def netDoc : Prefix := ⟨.v6 0x20010db8000000000000000000000000, 33⟩
/-- 10.0.0.0/24-24 AS65001, README.md:240. -/
def instanceVrp : Rec := .vrp ⟨.v4 0x0a000000, 25⟩ 24 65001

end Spec

/-! ## The SLURM file -/

theorem sample_bad : decodeSlurmFile (utf8Str (slurmSample ",")) = none := by decide +kernel

/-- The exceptions of the sample without the superfluous commas. -/
def sampleSlurm : Slurm :=
  ⟨[⟨"10.0.0.0/8".toList, none⟩, ⟨[], some 65001⟩, ⟨"192.168.0.0/24".toList, some 65002⟩], [], [⟨"2001:db8::/32".toList, 65001, 48, "Manual add".toList⟩], []⟩

theorem sample_good : decodeSlurmFile (utf8Str (slurmSample "")) = some sampleSlurm := by decide +kernel

/-- **C166 (fails)** The sample as it is printed is no JSON, for its commas after the last members: it is not loaded, whatever is loaded at that time stays, and a server that starts with it serves all that its cache file asks for.
In particular the VRP which the README says will be removed is served. -/
theorem C166_slurm_false (e : Env) (hs : e.sort.Ok) (hd : e.decodeSlurm = decodeSlurmFile) (t : Times) (f : Fetched) {s : UState} (h : Reached e s) {file : Str} {o : Outcome} (hf : f.slurm = some (file, o))
    (ho : delivered s.fetch file o = some (utf8Str (slurmSample ","))) :
    (startup e t f s).slurm = s.slurm ∧ (refresh e t f s).slurm = s.slurm ∧
    (s.slurm = none → (startup e t f s).lastdata.roas ≠ none → (e.checktime = true → Fresh e (startup e t f s).lastdata t.check) →
      (∀ r, Served (startup e t f s) r ↔ FileWants e.wide (seconds t.proc) none (startup e t f s).lastdata r) ∧
      (FileWants e.wide (seconds t.proc) none (startup e t f s).lastdata instanceVrp → Served (startup e t f s) instanceVrp)) := by
  have hb : (fetchBoth e t f s).1.slurm = s.slurm := by
    have h1 : (updateSlurm e file o s).1.slurm = s.slurm := by
      rw [updateSlurm_eq]
      simp only [ho, hd, sample_bad]
      split <;> rfl
    have h2 : ∀ s : UState, (updateFile e t.start t.change f.file f.cache s).1.slurm = s.slurm := by
      intro s
      rw [updateFile_eq]
      simp only
      split
      · rfl
      · split
        · rfl
        · split <;> rfl
    unfold fetchBoth
    rw [hf]
    simp only
    rw [h2, h1]
  have k1 : (startup e t f s).slurm = s.slurm := by
    unfold startup
    simp only
    rw [(startup_keeps ..).2.1]
    exact hb
  refine ⟨k1, ?_, fun hn hr hfr => ?_⟩
  · unfold refresh
    simp only
    rw [(afterFetch_keeps ..).2.1]
    exact hb
  · have key : ∀ r, Served (startup e t f s) r ↔ FileWants e.wide (seconds t.proc) none (startup e t f s).lastdata r := by
      intro r
      rw [C53_start_partial e hs t f h hr hfr r, k1, hn]
    exact ⟨key, fun hw => (key _).2 hw⟩

theorem sample_prefixes (p : Prefix) : (PrefixText "10.0.0.0/8".toList p ↔ p = net10) ∧ (PrefixText "192.168.0.0/24".toList p ↔ p = net192) ∧ (PrefixText "2001:db8::/32".toList p ↔ p = netDoc) := by
  have h1 : parsePrefix "10.0.0.0/8".toList = some net10 := by decide +kernel
  have h2 : parsePrefix "192.168.0.0/24".toList = some net192 := by decide +kernel
  have h3 : parsePrefix "2001:db8::/32".toList = some netDoc := by decide +kernel
  rw [← prefixText_iff, ← prefixText_iff, ← prefixText_iff, h1, h2, h3]
  simp only [Option.some.injEq, eq_comm, and_self]

/-- **C166** (partial: without the superfluous commas). The sample is read, and does what its comments say, to every cache file: all VRPs inside 10.0.0.0/8 are removed, all of AS65001, and those of AS65002 inside 192.168.0.0/24;
2001:db8::/32-48 AS65001 is added; router keys are left alone. -/
theorem C166_slurm_partial : ∃ x, decodeSlurmFile (utf8Str (slurmSample "")) = some x ∧ ∀ (wide : WideFloat) (now : Int) (l : RPKIList),
    (∀ p m a, FileWants wide now (some x) l (.vrp p m a) ↔
      (FileWants wide now none l (.vrp p m a) ∧ ¬ Covers net10 p ∧ a ≠ 65001 ∧ ¬ (Covers net192 p ∧ a = 65002)) ∨ (p = netDoc ∧ m = 48 ∧ a = 65001)) ∧
    (∀ a ski key, FileWants wide now (some x) l (.brk a ski key) ↔ FileWants wide now none l (.brk a ski key)) := by
  refine ⟨_, sample_good, fun wide now l => ⟨fun p m a => ?_, fun a ski key => ?_⟩⟩
  · rw [C115_exceptions]
    simp only [sampleSlurm, List.mem_cons, List.not_mem_nil, or_false, forall_eq_or_imp, forall_eq, exists_eq_left, PrefixFilterMatches, Asserts, (sample_prefixes _).1, (sample_prefixes _).2.1, (sample_prefixes _).2.2,
      not_prefixText_nil, Option.some.injEq, reduceCtorEq, false_imp_iff, implies_true, and_true, true_and, forall_eq']
    refine or_congr Iff.rfl ?_
    constructor
    · rintro ⟨rfl, rfl, rfl, -⟩
      exact ⟨rfl, by decide, rfl⟩
    · rintro ⟨rfl, rfl, rfl⟩
      exact ⟨rfl, rfl, by decide, by decide, by decide, by decide⟩
  · rw [C115_exceptions]
    simp [sampleSlurm]

/-- The instance of the README: 10.0.0.0/24-24 AS65001 is removed (for two reasons) from every file. -/
theorem C166_instance_partial : ∃ x, decodeSlurmFile (utf8Str (slurmSample "")) = some x ∧ ∀ (wide : WideFloat) (now : Int) (l : RPKIList), ¬ FileWants wide now (some x) l instanceVrp := by
  obtain ⟨x, hx, h⟩ := C166_slurm_partial
  refine ⟨x, hx, fun wide now l hw => ?_⟩
  rcases ((h wide now l).1 _ _ _).1 hw with ⟨_, _, ha, _⟩ | ⟨hp, _⟩
  · exact ha rfl
  · exact absurd hp (by decide)

/-! ## The schema of cache files -/

/-- What the schema says. -/
def schemaList : RPKIList := ⟨⟨0, [], none⟩, some [⟨"10.0.0.0/24".toList, 24, .float 65001, [], none⟩], none⟩

theorem schema_good : decodeFile (utf8Str schemaSample) = some schemaList := by decide +kernel

theorem schema_loads {e : Env} (hd : e.decode = decodeFile) {s : UState} {f : Fetched} (hn : NewFiles e s f (utf8Str schemaSample) none) (t : Times) :
    (fetchBoth e t f s).2 = true ∧ ((startup e t f s).lastdata = schemaList ∧ (startup e t f s).slurm = none) ∧ (refresh e t f s).lastdata = schemaList ∧ (refresh e t f s).slurm = none := by
  obtain ⟨h1, h2, h3⟩ := newFiles_load hn (by rw [hd]; exact schema_good) (sl := none) rfl t
  refine ⟨h1, ?_, ?_⟩
  · unfold startup
    simp only
    rw [(startup_keeps ..).1, (startup_keeps ..).2.1]
    exact ⟨h2, h3⟩
  · unfold refresh
    simp only
    rw [(afterFetch_keeps ..).1, (afterFetch_keeps ..).2.1]
    exact ⟨h2, h3⟩

/-- **C166 (fails)** A file that follows the schema has no build time and is never served with the check of the build time, which is on by default: at no time, neither at the start nor at a refresh.
(That the empty text is no time is an assumption on `time.Parse`.) -/
theorem C166_schema_false (e : Env) (hs : e.sort.Ok) (hc : e.checktime = true) (hp : e.parseTime [] = none) (hd : e.decode = decodeFile) (t : Times) (f : Fetched) {s : UState} (h : Reached e s)
    (hn : NewFiles e s f (utf8Str schemaSample) none) :
    (startup e t f s).store = s.store ∧ ((refresh e t f s).store = s.store ∨ (refresh e t f s).store.current = []) := by
  obtain ⟨-, ⟨h1, -⟩, h2, -⟩ := schema_loads hd hn t
  have hf : ¬ Fresh e schemaList t.check := by
    rintro ⟨b, hb, -⟩
    cases hb with
    | generated g h => cases h
    | text b h hp' => rw [show schemaList.metadata.buildtime = [] from rfl, hp] at hp'; cases hp'
  obtain ⟨k1, k2⟩ := C50_stale e hs hc t f h
  exact ⟨k2 (by rw [h1]; exact hf), k1 (by rw [h2]; exact hf)⟩

/-- **C166** (partial: without the check of the build time). The file of the schema is served: exactly its VRP. -/
theorem C166_schema_partial (e : Env) (hs : e.sort.Ok) (hc : e.checktime = false) (hd : e.decode = decodeFile) (t : Times) (f : Fetched) {s s' : UState} (h : Reached e s) (hs' : s' = startup e t f s ∨ s' = refresh e t f s)
    (hn : NewFiles e s f (utf8Str schemaSample) none) (r : Rec) : Served s' r ↔ r = instanceVrp := by
  obtain ⟨hb, ⟨h1, h1'⟩, h2, h2'⟩ := schema_loads hd hn t
  have hw : FileWants e.wide (seconds t.proc) none schemaList r ↔ r = instanceVrp := by
    have hpx : ∀ p, PrefixText "10.0.0.0/24".toList p ↔ p = ⟨.v4 0x0a000000, 25⟩ := by
      intro p
      rw [← prefixText_iff, (by decide +kernel : parsePrefix "10.0.0.0/24".toList = some ⟨.v4 0x0a000000, 25⟩)]
      simp only [Option.some.injEq, eq_comm]
    cases r with
    | vrp p m a =>
      simp only [FileWants, withExceptions, Wanted, schemaList, Option.getD_some, List.mem_cons, List.not_mem_nil, or_false, exists_eq_left, hpx, instanceVrp, Rec.vrp.injEq]
      constructor
      · rintro ⟨rfl, ha, rfl, -⟩
        have h3 : (65001 : Int) = a.toNat := ha.1 ⟨by decide, by decide⟩
        exact ⟨rfl, rfl, BitVec.eq_of_toNat_eq (by show a.toNat = 65001; omega)⟩
      · rintro ⟨rfl, rfl, rfl⟩
        exact ⟨rfl, ⟨fun _ => rfl, fun h => absurd ⟨by decide, by decide⟩ h⟩, rfl, by decide, by decide, by decide, fun e he => by cases he⟩
    | brk a ski key => simp [FileWants, withExceptions, Wanted, schemaList, instanceVrp]
  rcases hs' with rfl | rfl
  · rw [C53_start_partial e hs t f h (by rw [h1]; simp [schemaList]) (fun h => by rw [hc] at h; cases h) r, h1, h1', hw]
  · rw [C53_served_partial e hs t f h hb (by rw [h2]; simp [schemaList]) (fun h => by rw [hc] at h; cases h) r, h2, h2', hw]

/-! ## The hypotheses can be met -/

/-- The schema and the sample, fetched by a server that starts. -/
def exSamples (slurm : Option Str) : Fetched := ⟨exFile, .file (some (utf8Str schemaSample)), slurm.map fun x => ("slurm.json".toList, .file (some (utf8Str x)))⟩

example : NewFiles exWholeEnv exInit (exSamples none) (utf8Str schemaSample) none ∧ delivered exInit.fetch "slurm.json".toList (.file (some (utf8Str (slurmSample ",")))) = some (utf8Str (slurmSample ",")) :=
  ⟨⟨by decide +kernel, by simp [exInit, UState.init], fun _ => ⟨rfl, rfl⟩, fun y h => by cases h⟩, by decide +kernel⟩

/-- With the sample as printed the VRP of the schema is served, with the commas removed the assertion alone. -/
example : records (startup { exWholeEnv with checktime := false } (exAt 0) (exSamples (some (slurmSample ","))) exInit).store.current = [instanceVrp] ∧
    records (startup { exWholeEnv with checktime := false } (exAt 0) (exSamples (some (slurmSample ""))) exInit).store.current = [.vrp netDoc 48 65001] := by decide +kernel

/-- A VRP that the corrected sample keeps. -/
example : ¬ Covers net10 ⟨.v4 0x0b000000, 9⟩ ∧ Covers net10 ⟨.v4 0x0a010000, 17⟩ := by
  refine ⟨fun h => ?_, ?_⟩
  · have := h.2 7 (by decide)
    exact absurd this (by decide)
  · refine ⟨by decide, ?_⟩
    intro i hi
    have : i < 8 := by simp only [net10] at hi; omega
    clear hi
    revert i
    decide

end StayRTR
