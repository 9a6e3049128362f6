import Verif.Props.Chain

/-!
C175: local exceptions, as sets of records; and with local exceptions on several servers behind each other (README.md:241-243; prefixfile/slurm.go:93-264).
-/

namespace StayRTR
open Spec Slurm

namespace Spec

/-- A filter of the local exceptions matches the record. -/
def RemovedBy (c : Slurm) : Rec → Prop
  | .vrp p _ a => ∃ f ∈ c.prefixFilters, PrefixFilterMatches f.pfx f.asn p a
  | .brk a ski _ => ∃ f ∈ c.bgpsecFilters, KeyFilterMatches f.asn f.ski a ski

/-- The local exceptions assert the record: the maximum length is the larger of the two lengths (of which eight bits are kept), and the lengths are right. -/
def AssertedBy (c : Slurm) : Rec → Prop
  | .vrp p m a => ∃ x ∈ c.prefixAssertions, PrefixText x.pfx p ∧ x.asn = a ∧ m = BitVec.ofInt 8 (max x.maxPrefixLength p.bits) ∧ 1 ≤ p.bits ∧ p.bits ≤ (m.toNat : Int) ∧ m.toNat ≤ p.ip.bitLen
  | .brk a ski key => ∃ x ∈ c.bgpsecAssertions, x.asn = a ∧ x.ski = ski ∧ x.routerPublicKey = key

/-- The local exceptions of both. -/
def bothExceptions (c d : Slurm) : Slurm :=
  ⟨c.prefixFilters ++ d.prefixFilters, c.bgpsecFilters ++ d.bgpsecFilters, c.prefixAssertions ++ d.prefixAssertions, c.bgpsecAssertions ++ d.bgpsecAssertions⟩

end Spec

theorem wanted_append (wide : WideFloat) (now : Int) (vs ws : List VRPJson) (ks ls : List BgpSecKeyJson) (r : Rec) :
    Wanted wide now (vs ++ ws) (ks ++ ls) r ↔ Wanted wide now vs ks r ∨ Wanted wide now ws ls r := by
  cases r <;> simp only [Wanted, List.mem_append, or_and_right, exists_or]

theorem wanted_kept (wide : WideFloat) (now : Int) (c : Slurm) (vs : List VRPJson) (ks : List BgpSecKeyJson) (r : Rec) :
    Wanted wide now (filterOnVRPs wide c.prefixFilters vs).1 (filterOnBRKs c.bgpsecFilters ks).1 r ↔ Wanted wide now vs ks r ∧ ¬ RemovedBy c r := by
  cases r with
  | vrp p m a =>
    constructor
    · rintro ⟨v, hv, h1, h2, h3⟩
      obtain ⟨hin, hno⟩ := (C38_exact_partial wide c.prefixFilters vs v p a h1 h2).2.1 hv
      exact ⟨⟨v, hin, h1, h2, h3⟩, fun ⟨f, hf, hm⟩ => hno f hf hm⟩
    · rintro ⟨⟨v, hv, h1, h2, h3⟩, hno⟩
      exact ⟨v, (C38_exact_partial wide c.prefixFilters vs v p a h1 h2).2.2 ⟨hv, fun f hf hm => hno ⟨f, hf, hm⟩⟩, h1, h2, h3⟩
  | brk a ski key =>
    constructor
    · rintro ⟨k, hk, h1, h2, h3⟩
      simp only at h1 h2
      obtain ⟨hin, hno⟩ := (C40_exact_partial c.bgpsecFilters ks k ski h2).2.1 hk
      exact ⟨⟨k, hin, h1, h2, h3⟩, fun ⟨f, hf, hm⟩ => hno f hf (by rw [h1]; exact hm)⟩
    · rintro ⟨⟨k, hk, h1, h2, h3⟩, hno⟩
      simp only at h1 h2
      exact ⟨k, (C40_exact_partial c.bgpsecFilters ks k ski h2).2.2 ⟨hk, fun f hf hm => hno ⟨f, hf, by rw [← h1]; exact hm⟩⟩, h1, h2, h3⟩

theorem wanted_asserted (wide : WideFloat) (now : Int) (c : Slurm) (r : Rec) : Wanted wide now (assertVRPs c.prefixAssertions) (assertBRKs c.bgpsecAssertions) r ↔ AssertedBy c r := by
  have hmax : ∀ (x : PrefixAssertion) (p : Prefix), PrefixText x.pfx p → assertVRP x = some ⟨x.pfx, BitVec.ofInt 8 (max x.maxPrefixLength p.bits), .uint32 x.asn, x.comment, none⟩ := by
    intro x p hp
    have hp' := (prefixText_iff ..).2 hp
    have hc := parsePrefix_parseCIDR hp'
    have hv := parsePrefix_valid hp'
    have h0 : p.bitsPlusOne ≠ 0 := by simpa [Prefix.isValid] using hv.2
    unfold assertVRP
    rw [hc]
    simp only [Prefix.bits, Option.some.injEq, VRPJson.mk.injEq, true_and, and_true]
    congr 1
    split <;> omega
  cases r with
  | vrp p m a =>
    constructor
    · rintro ⟨v, hv, h1, h2, h3, h4, h5, h6, -⟩
      obtain ⟨x, hx, he⟩ := List.mem_filterMap.1 hv
      have hpf : v.pfx = x.pfx := by
        unfold assertVRP at he
        split at he
        · cases he
        · rw [← Option.some.inj he]
      have := hmax x p (by rw [← hpf]; exact h1)
      rw [he] at this
      obtain rfl := Option.some.inj this
      refine ⟨x, hx, h1, ?_, h3.symm, h4, h5, h6⟩
      have := (asnReads_iff wide ⟨x.pfx, 0, .uint32 x.asn, x.comment, none⟩ a).2 h2
      simpa [VRPJson.getASN2] using this
    · rintro ⟨x, hx, h1, h2, h3, h4, h5, h6⟩
      refine ⟨_, List.mem_filterMap.2 ⟨x, hx, hmax x p h1⟩, h1, ?_, h3.symm, h4, h5, h6, by simp⟩
      have := (asnReads_iff wide ⟨x.pfx, 0, .uint32 x.asn, x.comment, none⟩ a).1 (by simp [VRPJson.getASN2, h2])
      exact this
  | brk a ski key =>
    unfold assertBRKs
    constructor
    · rintro ⟨k, hk, h1, h2, h3, -⟩
      obtain ⟨x, hx, rfl⟩ := List.mem_map.1 hk
      refine ⟨x, hx, h1, ?_, h3⟩
      have := (hexText_iff ..).2 h2
      rw [hexDecode_hexBytes] at this
      exact (Prod.mk.inj this).1
    · rintro ⟨x, hx, h1, rfl, h3⟩
      exact ⟨_, List.mem_map.2 ⟨x, hx, rfl⟩, h1, (hexText_iff ..).1 (hexDecode_hexBytes x.ski), h3, by simp⟩

/-- **C175.** For all files and all local exceptions, at any time: a record is asked for by the file with the local exceptions exactly if the file asks for it and no filter matches it, or if it is asserted. Filters and assertions are about
records: it does not matter how the entry is written, where it stands and what else is there. -/
theorem C175_records (wide : WideFloat) (now : Int) (c : Slurm) (l : RPKIList) (r : Rec) : FileWants wide now (some c) l r ↔ (Asks wide l now r ∧ ¬ RemovedBy c r) ∨ AssertedBy c r := by
  unfold FileWants withExceptions filterAssert Asks
  rw [wanted_append, wanted_kept, wanted_asserted]

/-- **C175.** The same local exceptions twice are the same as once. -/
theorem C175_again (wide : WideFloat) (now : Int) (c : Slurm) (l l' : RPKIList) (h : ∀ r, Asks wide l' now r ↔ FileWants wide now (some c) l r) (r : Rec) :
    FileWants wide now (some c) l' r ↔ FileWants wide now (some c) l r := by
  rw [C175_records, h, C175_records]
  tauto

theorem removed_both (c d : Slurm) (r : Rec) : RemovedBy (bothExceptions c d) r ↔ RemovedBy c r ∨ RemovedBy d r := by
  cases r <;> simp only [RemovedBy, bothExceptions, List.mem_append, or_and_right, exists_or]

theorem asserted_both (c d : Slurm) (r : Rec) : AssertedBy (bothExceptions c d) r ↔ AssertedBy c r ∨ AssertedBy d r := by
  cases r <;> simp only [AssertedBy, bothExceptions, List.mem_append, or_and_right, exists_or]

theorem exceptions_twice (A R S : Prop) : (((A ∧ ¬ R) ∨ S) ∧ ¬ R) ∨ S ↔ (A ∧ ¬ R) ∨ S := by tauto

theorem exceptions_merged {A R S R' S' : Prop} (h : S → R' → S') : (((A ∧ ¬ R) ∨ S) ∧ ¬ R') ∨ S' ↔ (A ∧ ¬ (R ∨ R')) ∨ S ∨ S' := by tauto

/-- **C175** (partial: entries without expiry times, and an export that is not too old). A server with local exceptions that has loaded the export of another one serves what that one serves and its own filters do not match, and what
it asserts itself: what the other one asserts is filtered too. -/
theorem C175_behind_partial {e : Env} (hd : e.decode = decodeFile) (hs : e.sort.Ok) {p : UState} (h : Reached e p) (hx : NoExpiry p.exported) (hlen : (p.exported.roas.getD []).length < 2 ^ 63) (hne : ∃ r, Served p r)
    {e' : Env} (hs' : e'.sort.Ok) (hw : e'.wide = e.wide) {s : UState} (h' : Reached e' s) (first : Bool) (t : Times) (f : Fetched) (hn : first = false → (fetchBoth e' t f s).2 = true)
    (hl : decodeFile (exportFile p) = some (loadOnce first e' t f s).lastdata) {c : Slurm} (hc : (loadOnce first e' t f s).slurm = some c)
    (hage : e'.checktime = true → ∃ b, e'.parseTime p.exported.metadata.buildtime = some b ∧ t.check ≤ b + 24 * 3600 * 1000000000) (r : Rec) :
    Served (loadOnce first e' t f s) r ↔ (Served p r ∧ ¬ RemovedBy c r) ∨ AssertedBy c r := by
  obtain ⟨k1, k2⟩ := reread_export hd h hlen e.wide
  rw [k1] at hl
  have hlast := (Option.some.inj hl).symm
  obtain ⟨-, -, -, hg, hnil⟩ := reached_read hd h
  have hlisted : ∃ now, ∀ r, Served p r ↔ Asks e.wide p.exported now r := by
    rcases C71_listed_partial hs h with h0 | hnow
    · obtain ⟨r, hr⟩ := hne
      unfold Served at hr
      rw [h0] at hr
      simp [records] at hr
    · exact hnow
  obtain ⟨now, hnow⟩ := hlisted
  have hroas : p.exported.roas ≠ none := by
    intro h0
    have hk := hnil h0
    obtain ⟨r, hr⟩ := hne
    have := (hnow r).1 hr
    unfold Asks at this
    rw [h0, hk] at this
    cases r <;> simp [Wanted] at this
  have hr' : (loadOnce first e' t f s).lastdata.roas ≠ none := by rw [hlast]; unfold rereadList; simp [hroas]
  have hfresh : e'.checktime = true → Fresh e' (loadOnce first e' t f s).lastdata t.check := by
    intro hct
    obtain ⟨b, hb, hle⟩ := hage hct
    rw [hlast]
    exact ⟨b, .text b hg hb, hle⟩
  have hserved : Served (loadOnce first e' t f s) r ↔ FileWants e'.wide (seconds t.proc) (loadOnce first e' t f s).slurm (loadOnce first e' t f s).lastdata r := by
    cases first with
    | false => exact C53_served_partial e' hs' t f h' (hn rfl) hr' hfresh r
    | true => exact C53_start_partial e' hs' t f h' hr' hfresh r
  have hask : Asks e.wide p.exported (seconds t.proc) r ↔ Asks e.wide p.exported now r := ⟨wanted_no_expiry _ _ _ _ _ hx.1 hx.2 r, wanted_no_expiry _ _ _ _ _ hx.1 hx.2 r⟩
  rw [hserved, hc, hlast, hw, C175_records, k2, hask, ← hnow]

/-- **C175** (partial, as before). Servers that are given the same local exceptions serve the same, one behind the other. -/
theorem C175_twice_partial {e : Env} (hd : e.decode = decodeFile) (hs : e.sort.Ok) {p : UState} (h : Reached e p) (hx : NoExpiry p.exported) (hlen : (p.exported.roas.getD []).length < 2 ^ 63) (hne : ∃ r, Served p r)
    {c : Slurm} {now : Int} {l : RPKIList} (hp : ∀ r, Served p r ↔ FileWants e.wide now (some c) l r)
    {e' : Env} (hs' : e'.sort.Ok) (hw : e'.wide = e.wide) {s : UState} (h' : Reached e' s) (first : Bool) (t : Times) (f : Fetched) (hn : first = false → (fetchBoth e' t f s).2 = true)
    (hl : decodeFile (exportFile p) = some (loadOnce first e' t f s).lastdata) (hc : (loadOnce first e' t f s).slurm = some c)
    (hage : e'.checktime = true → ∃ b, e'.parseTime p.exported.metadata.buildtime = some b ∧ t.check ≤ b + 24 * 3600 * 1000000000) (r : Rec) :
    Served (loadOnce first e' t f s) r ↔ Served p r := by
  rw [C175_behind_partial hd hs h hx hlen hne hs' hw h' first t f hn hl hc hage, hp, C175_records]
  exact exceptions_twice _ _ _

/-- **C175** (partial, as before; and for filters that match nothing the other server asserts). Local exceptions given to two servers, one behind the other, are the same as both given to one. -/
theorem C175_merged_partial {e : Env} (hd : e.decode = decodeFile) (hs : e.sort.Ok) {p : UState} (h : Reached e p) (hx : NoExpiry p.exported) (hlen : (p.exported.roas.getD []).length < 2 ^ 63) (hne : ∃ r, Served p r)
    {c : Slurm} {now : Int} {l : RPKIList} (hp : ∀ r, Served p r ↔ FileWants e.wide now (some c) l r)
    {e' : Env} (hs' : e'.sort.Ok) (hw : e'.wide = e.wide) {s : UState} (h' : Reached e' s) (first : Bool) (t : Times) (f : Fetched) (hn : first = false → (fetchBoth e' t f s).2 = true)
    (hl : decodeFile (exportFile p) = some (loadOnce first e' t f s).lastdata) {d : Slurm} (hc : (loadOnce first e' t f s).slurm = some d)
    (hage : e'.checktime = true → ∃ b, e'.parseTime p.exported.metadata.buildtime = some b ∧ t.check ≤ b + 24 * 3600 * 1000000000) (hcd : ∀ r, AssertedBy c r → RemovedBy d r → AssertedBy d r) (r : Rec) :
    Served (loadOnce first e' t f s) r ↔ FileWants e.wide now (some (bothExceptions c d)) l r := by
  rw [C175_behind_partial hd hs h hx hlen hne hs' hw h' first t f hn hl hc hage, hp, C175_records, C175_records, removed_both, asserted_both]
  exact exceptions_merged (hcd r)

/-! ## Concrete servers -/

/-- The settings of `chainEnv`, with local exceptions from a JSON file. -/
def exceptionsEnv : Env := { chainEnv with decodeSlurm := decodeSlurmFile }
/-- Assert another VRP of AS 1, and filter one. -/
def exceptionsFile1 : Bytes := utf8Str (["{\"validationOutputFilters\":{\"prefixFilters\":", "[{\"prefix\":\"10.0.0.0/8\"}]},", "\"locallyAddedAssertions\":{\"prefixAssertions\":", "[{\"asn\":1,\"prefix\":\"12.0.0.0/8\"}]}}"].flatMap String.toList)
/-- Filter AS 1 and assert a VRP of AS 2. -/
def exceptionsFile2 : Bytes := utf8Str (["{\"validationOutputFilters\":{\"prefixFilters\":", "[{\"asn\":1}]},", "\"locallyAddedAssertions\":{\"prefixAssertions\":", "[{\"asn\":2,\"prefix\":\"13.0.0.0/8\"}]}}"].flatMap String.toList)
/-- What they contain. -/
def exceptions1 : Slurm := ⟨[⟨"10.0.0.0/8".toList, none⟩], [], [⟨"12.0.0.0/8".toList, 1, 0, []⟩], []⟩
/-- What they contain. -/
def exceptions2 : Slurm := ⟨[⟨[], some 1⟩], [], [⟨"13.0.0.0/8".toList, 2, 0, []⟩], []⟩
/-- A cache file and a file with local exceptions. -/
def exceptionsGet (b x : Bytes) : Fetched := ⟨exFile, .file (some b), some (exFile, .file (some x))⟩
/-- A server with the first exceptions. -/
def exceptionsLeader : UState := startup exceptionsEnv (exAt 0) (exceptionsGet chainFile1 exceptionsFile1) exInit
/-- A server behind it with the same. -/
def exceptionsSame : UState := startup exceptionsEnv (exAt 0) (exceptionsGet (exportFile exceptionsLeader) exceptionsFile1) exInit
/-- A server behind it with the others. -/
def exceptionsOther : UState := startup exceptionsEnv (exAt 0) (exceptionsGet (exportFile exceptionsLeader) exceptionsFile2) exInit
/-- The asserted VRPs. -/
def exceptionsRecord1 : Rec := .vrp ⟨.v4 0x0c000000, 9⟩ 8 1
/-- The asserted VRPs. -/
def exceptionsRecord2 : Rec := .vrp ⟨.v4 0x0d000000, 9⟩ 8 2

/-- **C175, false for what is asserted.** RFC 8416 has filters apply to the validated data, not to assertions. With two servers, one behind the other, the second one's filters also remove what the first one asserts: with both local
exceptions on one server, the assertion is served. -/
theorem C175_asserted_false :
    records exceptionsOther.store.current = [exceptionsRecord2] ∧ exceptionsOther.slurm = some exceptions2 ∧ exceptionsLeader.slurm = some exceptions1 ∧ records exceptionsLeader.store.current = [exceptionsRecord1] ∧
    FileWants exceptionsEnv.wide 0 (some (bothExceptions exceptions1 exceptions2)) exceptionsLeader.lastdata exceptionsRecord1 := by
  refine ⟨by decide +kernel, by decide +kernel, by decide +kernel, by decide +kernel, ?_⟩
  rw [C175_records, asserted_both]
  refine .inr (.inl ⟨⟨"12.0.0.0/8".toList, 1, 0, []⟩, List.mem_singleton.2 rfl, (prefixText_iff ..).1 (by decide +kernel), rfl, by decide +kernel, by decide +kernel, by decide +kernel, by decide +kernel⟩)

/-- The situation of `C175_behind_partial` and `C175_twice_partial`: the first server serves what its file and local exceptions ask for, and the second one with the same serves the same. -/
example : Reached exceptionsEnv exceptionsLeader ∧ NoExpiry exceptionsLeader.exported ∧ (exceptionsLeader.exported.roas.getD []).length = 1 ∧ Served exceptionsLeader exceptionsRecord1 ∧
    (∀ r, Served exceptionsLeader r ↔ FileWants exceptionsEnv.wide 0 (some exceptions1) exceptionsLeader.lastdata r) ∧
    exceptionsSame = loadOnce true exceptionsEnv (exAt 0) (exceptionsGet (exportFile exceptionsLeader) exceptionsFile1) exInit ∧ decodeFile (exportFile exceptionsLeader) = some exceptionsSame.lastdata ∧
    exceptionsSame.slurm = some exceptions1 ∧ (∃ b, exceptionsEnv.parseTime exceptionsLeader.exported.metadata.buildtime = some b ∧ (exAt 0).check ≤ b + 24 * 3600 * 1000000000) ∧
    records exceptionsSame.store.current = [exceptionsRecord1] := by
  refine ⟨.startup _ _ _ (.init true true), by unfold NoExpiry; decide +kernel, by decide +kernel, by unfold Served; decide +kernel, fun r => ?_, by rw [loadOnce, if_pos rfl, exceptionsSame], by decide +kernel, by decide +kernel,
    ⟨0, by decide +kernel, by decide +kernel⟩, by decide +kernel⟩
  have hc : exceptionsLeader.slurm = some exceptions1 := by decide +kernel
  rw [← hc]
  refine C53_start_partial exceptionsEnv insertionSorter_ok (exAt 0) (exceptionsGet chainFile1 exceptionsFile1) (.init true true) ?_ (fun _ => ⟨0, .text 0 ?_ ?_, ?_⟩) r
  all_goals decide +kernel

/-- Exceptions that fit those of the first server, as `C175_merged_partial` asks: a filter for another AS. -/
example (r : Rec) : AssertedBy exceptions1 r → RemovedBy ⟨[⟨[], some 3⟩], [], [], []⟩ r → AssertedBy ⟨[⟨[], some 3⟩], [], [], []⟩ r := by
  cases r with
  | vrp p m a =>
    rintro ⟨x, hx, -, rfl, -⟩ ⟨f, hf, -, hf'⟩
    simp only [exceptions1, List.mem_singleton] at hx hf
    subst hx hf
    exact absurd (hf' 3 rfl) (by decide)
  | brk a ski key => rintro ⟨x, hx, -⟩; simp [exceptions1] at hx

end StayRTR
