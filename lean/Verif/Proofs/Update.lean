import Verif.Spec.Update
import Verif.Proofs.Store
import Verif.Props.Process
import Verif.Props.Store

/-!
# Facts about refreshes
-/

namespace StayRTR
open Spec

theorem wanted_serves (wide : WideFloat) (now : Int) (vs : List VRPJson) (ks : List BgpSecKeyJson) (hr : ∀ v ∈ vs, AsnInRange v.asn) (p : Prefix) (m : U8) (a : U32) :
    Wanted wide now vs ks (.vrp p m a) ↔ ∃ v ∈ vs, Serves now v (p, m, a) := by
  constructor
  · rintro ⟨v, hv, h1, h2, h3⟩
    exact ⟨v, hv, h1, (getASN2_iff wide v (hr v hv) a).mp ((asnReads_iff ..).mpr h2), h3⟩
  · rintro ⟨v, hv, h1, h2, h3⟩
    exact ⟨v, hv, h1, (asnReads_iff ..).mp ((getASN2_iff wide v (hr v hv) a).mpr h2), h3⟩

/-- What `processData` hands over is exactly what is asked for. -/
theorem records_sds (wide : WideFloat) {sort : Sorter} (hs : sort.Ok) (now : Int) (vs : List VRPJson) (ks : List BgpSecKeyJson) (r : Rec) :
    r ∈ records (processData wide sort now vs ks).sds ↔ Wanted wide now vs ks r := by
  unfold records Processed.sds
  rw [List.map_append, List.mem_append, List.map_map, List.map_map, List.mem_map, List.mem_map]
  cases r with
  | vrp p m a =>
    constructor
    · rintro (⟨x, hx, he⟩ | ⟨x, _, he⟩)
      · simp only [Function.comp_apply, SD.record, Rec.vrp.injEq] at he
        obtain ⟨rfl, rfl, rfl⟩ := he
        obtain ⟨_, v, hv, hc, hl⟩ := (processData_mem wide hs now vs ks x).mp hx
        obtain ⟨h1, h2, h3, h4, h5, h6⟩ := (checkVRP_iff ..).mp hc
        exact ⟨v, hv, (prefixText_iff ..).mp h1, (asnReads_iff ..).mp h2, hl, h3, hl ▸ h4, hl ▸ h5, h6⟩
      · simp [SD.record] at he
    · rintro ⟨v, hv, h1, h2, h3, h4, h5, h6, h7⟩
      left
      refine ⟨⟨p, a, m, 0⟩, (processData_mem wide hs now vs ks _).mpr ⟨rfl, v, hv, ?_, h3⟩, rfl⟩
      exact (checkVRP_iff ..).mpr ⟨(prefixText_iff ..).mpr h1, (asnReads_iff ..).mpr h2, h4, by rw [h3]; exact h5, by rw [h3]; exact h6, h7⟩
  | brk a ski key =>
    constructor
    · rintro (⟨x, _, he⟩ | ⟨x, hx, he⟩)
      · simp [SD.record] at he
      · simp only [Function.comp_apply, SD.record, Rec.brk.injEq] at he
        obtain ⟨rfl, rfl, rfl⟩ := he
        exact ((C48_keys wide sort now vs ks x).mp hx).2
    · rintro ⟨k, hk, h⟩
      right
      exact ⟨⟨a, key, ski, 0⟩, (C48_keys wide sort now vs ks _).mpr ⟨rfl, k, hk, h⟩, rfl⟩

theorem allValid_sds (wide : WideFloat) {sort : Sorter} (hs : sort.Ok) (now : Int) (vs : List VRPJson) (ks : List BgpSecKeyJson) :
    AllValid (processData wide sort now vs ks).sds := by
  intro x hx
  unfold Processed.sds at hx
  rcases List.mem_append.mp hx with h | h
  · obtain ⟨v, hv, rfl⟩ := List.mem_map.mp h
    obtain ⟨_, j, _, hc, _⟩ := (processData_mem wide hs now vs ks v).mp hv
    have := valid_of_parse ((checkVRP_iff ..).mp hc).1
    exact ⟨this.1, by simpa [Prefix.isValid, Nat.pos_iff_ne_zero] using this.2⟩
  · obtain ⟨k, _, rfl⟩ := List.mem_map.mp h
    trivial

/-- Asking for less later: expiry only removes. -/
theorem wanted_anti {wide : WideFloat} {t t' : Int} (h : t ≤ t') {vs : List VRPJson} {ks : List BgpSecKeyJson} {r : Rec} (hw : Wanted wide t' vs ks r) : Wanted wide t vs ks r := by
  cases r with
  | vrp p m a =>
    obtain ⟨v, hv, h1, h2, h3, h4, h5, h6, h7⟩ := hw
    exact ⟨v, hv, h1, h2, h3, h4, h5, h6, fun e he => Int.le_trans h (h7 e he)⟩
  | brk a ski key =>
    obtain ⟨k, hk, h1, h2, h3, h4⟩ := hw
    exact ⟨k, hk, h1, h2, h3, fun e he => Int.le_trans h (h4 e he)⟩

theorem applySlurm_eq (e : Env) (slurm : Option Slurm) (l : RPKIList) (vs : List VRPJson) (h : l.roas = some vs) :
    applySlurm e slurm vs l.keys = withExceptions e.wide slurm l := by
  unfold applySlurm withExceptions
  rw [h]
  cases slurm <;> rfl

/-! ## Fetching touches only what was fetched -/

/-- The parts of the state that fetching leaves alone. -/
structure SameServing (s s' : UState) : Prop where
  store : s'.store = s.store
  exported : s'.exported = s.exported
  notified : s'.notified = s.notified
  gauges : s'.gauges = s.gauges
  serialGauge : s'.serialGauge = s.serialGauge

theorem SameServing.refl (s : UState) : SameServing s s := ⟨rfl, rfl, rfl, rfl, rfl⟩

theorem SameServing.trans {a b c : UState} (h1 : SameServing a b) (h2 : SameServing b c) : SameServing a c :=
  ⟨h2.1.trans h1.1, h2.2.trans h1.2, h2.3.trans h1.3, h2.4.trans h1.4, h2.5.trans h1.5⟩

theorem readAll_quiet (b : Option Bytes) : (FetchConfig.readAll b).lastRefresh = false ∧ (FetchConfig.readAll b).code = -1 := by
  cases b <;> exact ⟨rfl, rfl⟩

/-- `FetchFile` without an error reports neither a refresh nor a status code. -/
theorem fetchFile_quiet (c : FetchConfig) (file : Str) (o : Outcome) (h : (c.fetchFile file o).2.err = none) :
    (c.fetchFile file o).2.lastRefresh = false ∧ (c.fetchFile file o).2.code = -1 := by
  cases o with
  | failed => simp [FetchConfig.fetchFile] at h
  | file b =>
    simp only [FetchConfig.fetchFile] at h ⊢
    split at h
    · simp at h
    · rename_i hu; rw [if_neg hu]; exact readAll_quiet b
  | response status etag lm b =>
    simp only [FetchConfig.fetchFile, FetchConfig.onResponse] at h ⊢
    split at h
    · rename_i hu
      rw [if_pos hu]
      split at h
      · simp at h
      · rename_i h3
        rw [if_neg h3]
        split at h
        · simp at h
        · rename_i h2
          rw [if_neg h2]
          split at h
          · rename_i h1; rw [if_pos h1]; exact readAll_quiet b
          · simp at h
    · simp at h

/-- The fetch step in full. -/
theorem fetchStep_eq (file : Str) (o : Outcome) (s : UState) :
    fetchStep file o s = ({ s with fetch := (s.fetch.fetchFile file o).1 },
      if (s.fetch.fetchFile file o).2.err = none then some (s.fetch.fetchFile file o).2.data else none) := by
  unfold fetchStep
  simp only
  cases h : (s.fetch.fetchFile file o).2.err with
  | some x => simp
  | none =>
    have := fetchFile_quiet s.fetch file o h
    simp [this.1, this.2]

/-- `updateFile` in full. -/
theorem updateFile_eq (e : Env) (start change : Int) (file : Str) (o : Outcome) (s : UState) :
    updateFile e start change file o s = (
      let s' := { s with lastts := start, fetch := (s.fetch.fetchFile file o).1 }
      match delivered s.fetch file o with
      | none => (s', false)
      | some d =>
        if s.hashCache = some (e.sha d) then (s', false)
        else match e.decode d with
          | none => ({ s' with hashCache := some (e.sha d) }, false)
          | some l => ({ s' with hashCache := some (e.sha d), lastchange := some change, lastdata := l }, true)) := by
  unfold updateFile
  rw [fetchStep_eq]
  simp only [delivered]
  all_goals
    split
    · rename_i h; rw [h]
    · rename_i d h
      rw [h]
      simp only
      split
      · rfl
      · cases e.decode d <;> rfl

/-- `updateSlurm` in full. -/
theorem updateSlurm_eq (e : Env) (file : Str) (o : Outcome) (s : UState) :
    updateSlurm e file o s = (
      let s' := { s with fetch := (s.fetch.fetchFile file o).1 }
      match delivered s.fetch file o with
      | none => (s', false)
      | some d =>
        if s.hashSlurm = some (e.sha d) then (s', false)
        else match e.decodeSlurm d with
          | none => ({ s' with hashSlurm := some (e.sha d) }, false)
          | some c => ({ s' with hashSlurm := some (e.sha d), slurm := some c }, true)) := by
  unfold updateSlurm
  rw [fetchStep_eq]
  simp only [delivered]
  all_goals
    split
    · rename_i h; rw [h]
    · rename_i d h
      rw [h]
      simp only
      split
      · rfl
      · cases e.decodeSlurm d <;> rfl

theorem updateFile_frame (e : Env) (start change : Int) (file : Str) (o : Outcome) (s : UState) :
    SameServing s (updateFile e start change file o s).1 ∧ (updateFile e start change file o s).1.slurm = s.slurm ∧
    ((updateFile e start change file o s).2 = false → (updateFile e start change file o s).1.lastdata = s.lastdata) ∧
    (updateFile e start change file o s).1.lastRefresh = s.lastRefresh ∧ (updateFile e start change file o s).1.statusCodes = s.statusCodes := by
  rw [updateFile_eq]
  simp only
  split
  · exact ⟨⟨rfl, rfl, rfl, rfl, rfl⟩, rfl, fun _ => rfl, rfl, rfl⟩
  · split
    · exact ⟨⟨rfl, rfl, rfl, rfl, rfl⟩, rfl, fun _ => rfl, rfl, rfl⟩
    · split
      · exact ⟨⟨rfl, rfl, rfl, rfl, rfl⟩, rfl, fun _ => rfl, rfl, rfl⟩
      · exact ⟨⟨rfl, rfl, rfl, rfl, rfl⟩, rfl, nofun, rfl, rfl⟩

theorem updateSlurm_frame (e : Env) (file : Str) (o : Outcome) (s : UState) :
    SameServing s (updateSlurm e file o s).1 ∧ (updateSlurm e file o s).1.lastdata = s.lastdata ∧
    ((updateSlurm e file o s).2 = false → (updateSlurm e file o s).1.slurm = s.slurm) ∧
    (updateSlurm e file o s).1.lastRefresh = s.lastRefresh ∧ (updateSlurm e file o s).1.statusCodes = s.statusCodes := by
  rw [updateSlurm_eq]
  simp only
  split
  · exact ⟨⟨rfl, rfl, rfl, rfl, rfl⟩, rfl, fun _ => rfl, rfl, rfl⟩
  · split
    · exact ⟨⟨rfl, rfl, rfl, rfl, rfl⟩, rfl, fun _ => rfl, rfl, rfl⟩
    · split
      · exact ⟨⟨rfl, rfl, rfl, rfl, rfl⟩, rfl, fun _ => rfl, rfl, rfl⟩
      · exact ⟨⟨rfl, rfl, rfl, rfl, rfl⟩, rfl, nofun, rfl, rfl⟩

theorem fetchBoth_frame (e : Env) (t : Times) (f : Fetched) (s : UState) :
    SameServing s (fetchBoth e t f s).1 ∧
    ((fetchBoth e t f s).2 = false → (fetchBoth e t f s).1.lastdata = s.lastdata ∧ (fetchBoth e t f s).1.slurm = s.slurm) ∧
    (fetchBoth e t f s).1.lastRefresh = s.lastRefresh ∧ (fetchBoth e t f s).1.statusCodes = s.statusCodes := by
  unfold fetchBoth
  cases f.slurm with
  | none =>
    obtain ⟨h1, h2, h3, h4, h5⟩ := updateFile_frame e t.start t.change f.file f.cache s
    simp only [Bool.or_false]
    exact ⟨h1, fun h => ⟨h3 h, h2⟩, h4, h5⟩
  | some x =>
    obtain ⟨g1, g2, g3, g4, g5⟩ := updateSlurm_frame e x.1 x.2 s
    obtain ⟨h1, h2, h3, h4, h5⟩ := updateFile_frame e t.start t.change f.file f.cache (updateSlurm e x.1 x.2 s).1
    simp only [Bool.or_eq_false_iff]
    exact ⟨g1.trans h1, fun h => ⟨(h3 h.1).trans g2, h2.trans (g3 h.2)⟩, h4.trans g4, h5.trans g5⟩

/-! ## Applying -/

theorem applyUpdate_store (e : Env) (r : Processed) (vs : List VRPJson) (ks : List BgpSecKeyJson) (s : UState) : (applyUpdate e r vs ks s).store = (s.store.addData r.sds).1 := by
  unfold applyUpdate
  simp only
  split <;> rfl

theorem applyUpdate_rest (e : Env) (r : Processed) (vs : List VRPJson) (ks : List BgpSecKeyJson) (s : UState) :
    (applyUpdate e r vs ks s).lastdata = s.lastdata ∧ (applyUpdate e r vs ks s).slurm = s.slurm ∧ (applyUpdate e r vs ks s).lastRefresh = s.lastRefresh ∧
    (applyUpdate e r vs ks s).statusCodes = s.statusCodes := by
  unfold applyUpdate
  simp only
  split <;> exact ⟨rfl, rfl, rfl, rfl⟩

/-- An update that changes nothing leaves everything. -/
theorem applyUpdate_false (e : Env) (r : Processed) (vs : List VRPJson) (ks : List BgpSecKeyJson) (s : UState) (h : (s.store.addData r.sds).2 = false) :
    applyUpdate e r vs ks s = s := by
  unfold applyUpdate
  simp only [h, if_true, addData_false h]

/-- The list that is to be served for the loaded file. -/
def pending (e : Env) (proc : Int) (s : UState) : Processed :=
  processData e.wide e.sort (seconds proc) (withExceptions e.wide s.slurm s.lastdata).1 (withExceptions e.wide s.slurm s.lastdata).2

/-- The update with the loaded file. -/
def applied (e : Env) (proc : Int) (s : UState) : UState :=
  applyUpdate e (pending e proc s) (withExceptions e.wide s.slurm s.lastdata).1 (withExceptions e.wide s.slurm s.lastdata).2 s

theorem unix_eq (t : Int) : unix t = seconds t := rfl

/-- `updateFromNewState` in short. -/
theorem updateFromNewState_eq (e : Env) (check proc : Int) (s : UState) :
    updateFromNewState e check proc s = if s.lastdata.roas = none then (s, .fine) else
      if ageCheck e check s.lastdata.metadata = .fine then (applied e proc s, .fine) else (s, ageCheck e check s.lastdata.metadata) := by
  unfold updateFromNewState applied pending
  cases h : s.lastdata.roas with
  | none => simp
  | some vs =>
    simp only [applySlurm_eq e s.slurm s.lastdata vs h, unix_eq]
    cases ageCheck e check s.lastdata.metadata <;> simp

/-- `reloadFromCurrentState` in short. -/
theorem reloadFromCurrentState_eq (e : Env) (check proc : Int) (s : UState) :
    reloadFromCurrentState e check proc s = if s.lastdata.roas = none then (s, .fine) else
      if ageCheck e check s.lastdata.metadata = .fine then
        (if s.store.countSDs ≠ (pending e proc s).sds.length then applied e proc s else s, .fine) else (s, ageCheck e check s.lastdata.metadata) := by
  unfold reloadFromCurrentState applied pending
  cases h : s.lastdata.roas with
  | none => simp
  | some vs =>
    simp only [applySlurm_eq e s.slurm s.lastdata vs h, unix_eq]
    cases ageCheck e check s.lastdata.metadata
    · simp only [Processed.sds, List.length_append, List.length_map, if_true, reduceCtorEq, if_false]
      split <;> rfl
    · simp
    · simp

/-- Everything dropped. -/
def dropped (s : UState) : UState := { s with store := (s.store.addData []).1 }

/-- The four things that can follow the fetches. -/
theorem afterFetch_cases (e : Env) (t : Times) (fresh : Bool) (s : UState) :
    (afterFetch e t fresh s = s) ∨
    (afterFetch e t fresh s = applied e t.proc s ∧ s.lastdata.roas ≠ none ∧ ageCheck e t.check s.lastdata.metadata = .fine) ∨
    (afterFetch e t fresh s = dropped s ∧ fresh = true ∧ s.lastdata.roas ≠ none ∧ ageCheck e t.check s.lastdata.metadata = .tooOld ∧
      ∃ b, exportedBuildTime e s = some b ∧ t.drop - b > day) := by
  unfold afterFetch
  cases fresh with
  | false =>
    simp only [Bool.false_eq_true, if_false]
    rw [reloadFromCurrentState_eq]
    by_cases h1 : s.lastdata.roas = none
    · left; simp [h1]
    · by_cases h2 : ageCheck e t.check s.lastdata.metadata = .fine
      · by_cases h3 : s.store.countSDs ≠ (pending e t.proc s).sds.length
        · right; left; simp [h1, h2, h3]
        · left; simp [h2, h3]
      · left; simp [h1, h2]
  | true =>
    simp only [if_true]
    rw [updateFromNewState_eq]
    by_cases h1 : s.lastdata.roas = none
    · left; simp [h1]
    · cases h2 : ageCheck e t.check s.lastdata.metadata with
      | fine => right; left; simp [h1]
      | unreadable => left; simp [h1]
      | tooOld =>
        simp only [h1, if_false, reduceCtorEq]
        cases hb : exportedBuildTime e s with
        | none => left; rfl
        | some b =>
          simp only
          by_cases hd : t.drop - b > day
          · right; right; rw [if_pos hd]; exact ⟨rfl, trivial, h1, trivial, b, rfl, hd⟩
          · left; rw [if_neg hd]

theorem applied_sameSet (e : Env) (hs : e.sort.Ok) (proc : Int) (s : UState) (hok : StoreOk s.store) (r : Rec) :
    Served (applied e proc s) r ↔ FileWants e.wide (seconds proc) s.slurm s.lastdata r := by
  unfold Served applied
  rw [applyUpdate_store]
  refine (addData_sameSet hok (allValid_sds e.wide hs _ _ _) r).trans ?_
  exact records_sds e.wide hs _ _ _ r

theorem applied_ok (e : Env) (hs : e.sort.Ok) (proc : Int) (s : UState) (hok : StoreOk s.store) : StoreOk (applied e proc s).store := by
  unfold applied
  rw [applyUpdate_store]
  exact hok.addData (allValid_sds e.wide hs _ _ _)

theorem allValid_nil : AllValid [] := by intro x hx; cases hx

theorem dropped_empty (s : UState) (hok : StoreOk s.store) : (dropped s).store.current = [] := by
  have h := addData_sameSet hok allValid_nil
  unfold dropped
  simp only
  cases hc : (s.store.addData []).1.current with
  | nil => rfl
  | cons x l =>
    have := (h x.record).mp (by rw [hc]; simp [records])
    simp [records] at this

/-- The store is well-formed in every reached state. -/
theorem Spec.Reached.ok {e : Env} (hs : e.sort.Ok) {s : UState} (h : Reached e s) : StoreOk s.store := by
  induction h with
  | init a b => exact StoreOk.init 3
  | startup s t f _ ih =>
    unfold StayRTR.startup
    simp only
    have h0 : StoreOk (fetchBoth e t f s).1.store := by rw [(fetchBoth_frame e t f s).1.store]; exact ih
    rw [updateFromNewState_eq]
    split
    · exact h0
    · split
      · exact applied_ok e hs _ _ h0
      · exact h0
  | refresh s t f _ ih =>
    unfold StayRTR.refresh
    simp only
    have h0 : StoreOk (fetchBoth e t f s).1.store := by rw [(fetchBoth_frame e t f s).1.store]; exact ih
    rcases afterFetch_cases e t (fetchBoth e t f s).2 (fetchBoth e t f s).1 with h | ⟨h, _⟩ | ⟨h, _⟩
    · rw [h]; exact h0
    · rw [h]; exact applied_ok e hs _ _ h0
    · rw [h]; exact h0.addData allValid_nil

/-- With the check of the build time on, the age is fine exactly for a fresh file. -/
theorem ageCheck_fine (e : Env) (hc : e.checktime = true) (now : Int) (l : RPKIList) : ageCheck e now l.metadata = .fine ↔ Fresh e l now := by
  unfold ageCheck
  rw [if_pos hc]
  constructor
  · intro h
    unfold buildTime at h
    cases hg : l.metadata.generated with
    | some g =>
      rw [hg] at h
      simp only at h
      split at h
      · simp at h
      · exact ⟨_, .generated g hg, by unfold day at *; omega⟩
    | none =>
      rw [hg] at h
      simp only at h
      cases hp : e.parseTime l.metadata.buildtime with
      | none => rw [hp] at h; simp at h
      | some b =>
        rw [hp] at h
        simp only at h
        split at h
        · simp at h
        · exact ⟨_, .text b hg hp, by unfold day at *; omega⟩
  · rintro ⟨b, hb, hle⟩
    have : buildTime e l.metadata = some b := by
      unfold buildTime
      cases hb with
      | generated g h => rw [h]
      | text b h hp => rw [h]; exact hp
    rw [this]
    simp only
    rw [if_neg (by unfold day; omega)]

end StayRTR
