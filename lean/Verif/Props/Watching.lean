import Verif.Props.Update

/-!
# C164: watching the server does not change it

Neither the metrics (-metrics.addr) nor the notifications (-notifications) have an influence on what is fetched, loaded, served and exported.
-/

namespace StayRTR
open Spec

/-- The same settings but for the metrics and the notifications. -/
def Env.watched (e : Env) (metrics sendNotifs : Bool) : Env := { e with metrics := metrics, sendNotifs := sendNotifs }

/-- The same state but for the gauges and the announced serials. -/
def UState.watched (s : UState) (g : Option Gauges) (n : List U32) : UState := { s with gauges := g, notified := n }

/-- The two states differ in the gauges and the announced serials only. -/
def Spec.SameButWatched (s s' : UState) : Prop :=
  s'.lastdata = s.lastdata ∧ s'.hashCache = s.hashCache ∧ s'.hashSlurm = s.hashSlurm ∧ s'.lastchange = s.lastchange ∧ s'.lastts = s.lastts ∧ s'.exported = s.exported ∧ s'.slurm = s.slurm ∧
    s'.store = s.store ∧ s'.fetch = s.fetch ∧ s'.lastRefresh = s.lastRefresh ∧ s'.statusCodes = s.statusCodes ∧ s'.serialGauge = s.serialGauge

theorem sameButWatched_iff (s s' : UState) : SameButWatched s s' ↔ ∃ g n, s' = s.watched g n := by
  constructor
  · rintro ⟨h1, h2, h3, h4, h5, h6, h7, h8, h9, h10, h11, h12⟩
    refine ⟨s'.gauges, s'.notified, ?_⟩
    cases s; cases s'
    simp only at *
    subst h1 h2 h3 h4 h5 h6 h7 h8 h9 h10 h11 h12
    rfl
  · rintro ⟨g, n, rfl⟩
    exact ⟨rfl, rfl, rfl, rfl, rfl, rfl, rfl, rfl, rfl, rfl, rfl, rfl⟩

theorem applyUpdate_watched (e : Env) (m b : Bool) (r : Processed) (vs : List VRPJson) (ks : List BgpSecKeyJson) (s : UState) (g : Option Gauges) (n : List U32) :
    ∃ g' n', applyUpdate (e.watched m b) r vs ks (s.watched g n) = (applyUpdate e r vs ks s).watched g' n' := by
  unfold applyUpdate
  have : (s.watched g n).store = s.store := rfl
  rw [this]
  obtain ⟨st, ch⟩ := s.store.addData r.sds
  simp only
  cases ch
  · exact ⟨g, n, rfl⟩
  · exact ⟨_, _, rfl⟩

theorem updateFromNewState_watched (e : Env) (m b : Bool) (check proc : Int) (s : UState) (g : Option Gauges) (n : List U32) :
    ∃ g' n', updateFromNewState (e.watched m b) check proc (s.watched g n) = ((updateFromNewState e check proc s).1.watched g' n', (updateFromNewState e check proc s).2) := by
  unfold updateFromNewState
  have h1 : (s.watched g n).lastdata = s.lastdata := rfl
  have h2 : ageCheck (e.watched m b) check s.lastdata.metadata = ageCheck e check s.lastdata.metadata := rfl
  have h3 : ∀ v k, applySlurm (e.watched m b) (s.watched g n).slurm v k = applySlurm e s.slurm v k := fun _ _ => rfl
  rw [h1]
  split
  · exact ⟨g, n, rfl⟩
  · rw [h2]
    split
    · rw [h3]
      obtain ⟨vs, ks⟩ := applySlurm e s.slurm _ s.lastdata.keys
      obtain ⟨g', n', h⟩ := applyUpdate_watched e m b (processData e.wide e.sort (unix proc) vs ks) vs ks s g n
      exact ⟨g', n', congrArg (·, AgeCheck.fine) h⟩
    · exact ⟨g, n, rfl⟩

theorem reload_watched (e : Env) (m b : Bool) (check proc : Int) (s : UState) (g : Option Gauges) (n : List U32) :
    ∃ g' n', (reloadFromCurrentState (e.watched m b) check proc (s.watched g n)).1 = (reloadFromCurrentState e check proc s).1.watched g' n' := by
  unfold reloadFromCurrentState
  have h1 : (s.watched g n).lastdata = s.lastdata := rfl
  have h2 : ageCheck (e.watched m b) check s.lastdata.metadata = ageCheck e check s.lastdata.metadata := rfl
  have h3 : ∀ v k, applySlurm (e.watched m b) (s.watched g n).slurm v k = applySlurm e s.slurm v k := fun _ _ => rfl
  have h4 : (s.watched g n).store = s.store := rfl
  have h5 : (e.watched m b).wide = e.wide ∧ (e.watched m b).sort = e.sort := ⟨rfl, rfl⟩
  rw [h1]
  split
  · exact ⟨g, n, rfl⟩
  · rw [h2]
    split
    · rw [h3, h4, h5.1, h5.2]
      obtain ⟨vs, ks⟩ := applySlurm e s.slurm _ s.lastdata.keys
      simp only
      split
      · exact applyUpdate_watched ..
      · exact ⟨g, n, rfl⟩
    · exact ⟨g, n, rfl⟩

theorem fetchStep_watched (file : Str) (o : Outcome) (s : UState) (g : Option Gauges) (n : List U32) : fetchStep file o (s.watched g n) = ((fetchStep file o s).1.watched g n, (fetchStep file o s).2) := by
  unfold fetchStep
  have : (s.watched g n).fetch = s.fetch := rfl
  rw [this]
  obtain ⟨cfg, r⟩ := s.fetch.fetchFile file o
  simp only
  split
  · rfl
  · split <;> split <;> rfl

theorem updateFile_watched (e : Env) (m b : Bool) (start change : Int) (file : Str) (o : Outcome) (s : UState) (g : Option Gauges) (n : List U32) :
    updateFile (e.watched m b) start change file o (s.watched g n) = ((updateFile e start change file o s).1.watched g n, (updateFile e start change file o s).2) := by
  unfold updateFile
  have : ({ (s.watched g n) with lastts := start } : UState) = UState.watched { s with lastts := start } g n := rfl
  rw [this, fetchStep_watched]
  obtain ⟨s1, data⟩ := fetchStep file o { s with lastts := start }
  cases data with
  | none => rfl
  | some data =>
    simp only
    have : (s1.watched g n).hashCache = s1.hashCache := rfl
    have h2 : (e.watched m b).sha = e.sha ∧ (e.watched m b).decode = e.decode := ⟨rfl, rfl⟩
    rw [this, h2.1, h2.2]
    split
    · rfl
    · cases e.decode data <;> rfl

theorem updateSlurm_watched (e : Env) (m b : Bool) (file : Str) (o : Outcome) (s : UState) (g : Option Gauges) (n : List U32) :
    updateSlurm (e.watched m b) file o (s.watched g n) = ((updateSlurm e file o s).1.watched g n, (updateSlurm e file o s).2) := by
  unfold updateSlurm
  rw [fetchStep_watched]
  obtain ⟨s1, data⟩ := fetchStep file o s
  cases data with
  | none => rfl
  | some data =>
    simp only
    have : (s1.watched g n).hashSlurm = s1.hashSlurm := rfl
    have h2 : (e.watched m b).sha = e.sha ∧ (e.watched m b).decodeSlurm = e.decodeSlurm := ⟨rfl, rfl⟩
    rw [this, h2.1, h2.2]
    split
    · rfl
    · cases e.decodeSlurm data <;> rfl

theorem fetchBoth_watched (e : Env) (m b : Bool) (t : Times) (f : Fetched) (s : UState) (g : Option Gauges) (n : List U32) :
    fetchBoth (e.watched m b) t f (s.watched g n) = ((fetchBoth e t f s).1.watched g n, (fetchBoth e t f s).2) := by
  unfold fetchBoth
  obtain ⟨file, cache, sl⟩ := f
  cases sl with
  | none =>
    simp only
    rw [updateFile_watched]
  | some x =>
    obtain ⟨sf, so⟩ := x
    simp only
    rw [updateSlurm_watched]
    simp only
    rw [updateFile_watched]

theorem afterFetch_watched (e : Env) (m b : Bool) (t : Times) (fresh : Bool) (s : UState) (g : Option Gauges) (n : List U32) :
    ∃ g' n', afterFetch (e.watched m b) t fresh (s.watched g n) = (afterFetch e t fresh s).watched g' n' := by
  unfold afterFetch
  cases fresh with
  | false => exact reload_watched ..
  | true =>
    rw [if_pos rfl, if_pos rfl]
    obtain ⟨g', n', h⟩ := updateFromNewState_watched e m b t.check t.proc s g n
    rw [h]
    obtain ⟨s1, res⟩ := updateFromNewState e t.check t.proc s
    simp only
    cases res with
    | fine => exact ⟨g', n', rfl⟩
    | unreadable => exact ⟨g', n', rfl⟩
    | tooOld =>
      have h1 : exportedBuildTime (e.watched m b) (s1.watched g' n') = exportedBuildTime e s1 := rfl
      simp only [h1]
      cases exportedBuildTime e s1 with
      | none => exact ⟨g', n', rfl⟩
      | some x =>
        simp only
        split
        · exact ⟨g', n', rfl⟩
        · exact ⟨g', n', rfl⟩

theorem refresh_watched (e : Env) (m b : Bool) (t : Times) (f : Fetched) (s : UState) (g : Option Gauges) (n : List U32) : ∃ g' n', refresh (e.watched m b) t f (s.watched g n) = (refresh e t f s).watched g' n' := by
  unfold refresh
  rw [fetchBoth_watched]
  exact afterFetch_watched ..

theorem startup_watched (e : Env) (m b : Bool) (t : Times) (f : Fetched) (s : UState) (g : Option Gauges) (n : List U32) : ∃ g' n', startup (e.watched m b) t f (s.watched g n) = (startup e t f s).watched g' n' := by
  unfold startup
  rw [fetchBoth_watched]
  obtain ⟨g', n', h⟩ := updateFromNewState_watched e m b t.check t.proc (fetchBoth e t f s).1 g n
  exact ⟨g', n', congrArg Prod.fst h⟩

theorem refreshes_watched (e : Env) (m b : Bool) (rs : List (Times × Fetched)) (s : UState) (g : Option Gauges) (n : List U32) :
    ∃ g' n', refreshes (e.watched m b) (s.watched g n) rs = (refreshes e s rs).watched g' n' := by
  induction rs generalizing s g n with
  | nil => exact ⟨g, n, rfl⟩
  | cons x rs ih =>
    obtain ⟨g', n', h⟩ := refresh_watched e m b x.1 x.2 s g n
    show ∃ g' n', refreshes (e.watched m b) (refresh (e.watched m b) x.1 x.2 (s.watched g n)) rs = _
    rw [h]
    exact ih ..

/-- **C164** Whatever is fetched and whenever, with and without metrics and with and without notifications the same is loaded, served and exported. -/
theorem C164_same (e : Env) (m b : Bool) (etags lastModified : Bool) (t : Times) (f : Fetched) (rs : List (Times × Fetched)) :
    SameButWatched (refreshes e (startup e t f (UState.init etags lastModified)) rs)
      (refreshes { e with metrics := m, sendNotifs := b } (startup { e with metrics := m, sendNotifs := b } t f (UState.init etags lastModified)) rs) := by
  rw [sameButWatched_iff]
  obtain ⟨g, n, h⟩ := startup_watched e m b t f (UState.init etags lastModified) none []
  obtain ⟨g', n', h'⟩ := refreshes_watched e m b rs (startup e t f (UState.init etags lastModified)) g n
  refine ⟨g', n', ?_⟩
  rw [← h', ← h]
  rfl

theorem fetchBoth_watch (e : Env) (t : Times) (f : Fetched) (s : UState) : (fetchBoth e t f s).1.gauges = s.gauges ∧ (fetchBoth e t f s).1.notified = s.notified := by
  have h := fetchBoth_watched e e.metrics e.sendNotifs t f s s.gauges s.notified
  have e1 : e.watched e.metrics e.sendNotifs = e := rfl
  have e2 : s.watched s.gauges s.notified = s := rfl
  rw [e1, e2] at h
  rw [h]
  exact ⟨rfl, rfl⟩

theorem applyUpdate_off (e : Env) (r : Processed) (vs : List VRPJson) (ks : List BgpSecKeyJson) (s : UState) :
    (e.metrics = false → (applyUpdate e r vs ks s).gauges = s.gauges) ∧ (e.sendNotifs = false → (applyUpdate e r vs ks s).notified = s.notified) := by
  unfold applyUpdate
  obtain ⟨st, ch⟩ := s.store.addData r.sds
  simp only
  split
  · exact ⟨fun _ => rfl, fun _ => rfl⟩
  · exact ⟨fun h => by simp [h], fun h => by simp [h]⟩

theorem updateFromNewState_off (e : Env) (check proc : Int) (s : UState) :
    (e.metrics = false → (updateFromNewState e check proc s).1.gauges = s.gauges) ∧ (e.sendNotifs = false → (updateFromNewState e check proc s).1.notified = s.notified) := by
  unfold updateFromNewState
  split
  · exact ⟨fun _ => rfl, fun _ => rfl⟩
  · split
    · exact applyUpdate_off ..
    · exact ⟨fun _ => rfl, fun _ => rfl⟩

theorem reload_off (e : Env) (check proc : Int) (s : UState) :
    (e.metrics = false → (reloadFromCurrentState e check proc s).1.gauges = s.gauges) ∧ (e.sendNotifs = false → (reloadFromCurrentState e check proc s).1.notified = s.notified) := by
  unfold reloadFromCurrentState
  split
  · exact ⟨fun _ => rfl, fun _ => rfl⟩
  · split
    · simp only
      split
      · exact applyUpdate_off ..
      · exact ⟨fun _ => rfl, fun _ => rfl⟩
    · exact ⟨fun _ => rfl, fun _ => rfl⟩

theorem afterFetch_off (e : Env) (t : Times) (fresh : Bool) (s : UState) : (e.metrics = false → (afterFetch e t fresh s).gauges = s.gauges) ∧ (e.sendNotifs = false → (afterFetch e t fresh s).notified = s.notified) := by
  unfold afterFetch
  cases fresh with
  | false => exact reload_off ..
  | true =>
    rw [if_pos rfl]
    have h := updateFromNewState_off e t.check t.proc s
    generalize updateFromNewState e t.check t.proc s = x at h ⊢
    obtain ⟨s1, res⟩ := x
    simp only at h ⊢
    cases res with
    | fine => exact h
    | unreadable => exact h
    | tooOld =>
      simp only
      split
      · split <;> exact h
      · exact h

/-- **C164** Without metrics no gauge is ever set, without notifications no serial number is ever announced. -/
theorem C164_off {e : Env} {s : UState} (h : Reached e s) : (e.metrics = false → s.gauges = none) ∧ (e.sendNotifs = false → s.notified = []) := by
  induction h with
  | init => exact ⟨fun _ => rfl, fun _ => rfl⟩
  | startup s t f _ ih =>
    have h := updateFromNewState_off e t.check t.proc (fetchBoth e t f s).1
    have hb := fetchBoth_watch e t f s
    rw [hb.1, hb.2] at h
    exact ⟨fun hm => (h.1 hm).trans (ih.1 hm), fun hn => (h.2 hn).trans (ih.2 hn)⟩
  | refresh s t f _ ih =>
    have h := afterFetch_off e t (fetchBoth e t f s).2 (fetchBoth e t f s).1
    have hb := fetchBoth_watch e t f s
    rw [hb.1, hb.2] at h
    exact ⟨fun hm => (h.1 hm).trans (ih.1 hm), fun hn => (h.2 hn).trans (ih.2 hn)⟩

/-- A file with a change: metrics and announced serials differ, what is served does not. -/
example : (startup (exEnv false) (exAt 0) (exGet [3]) exInit).gauges ≠ none ∧ (startup (exEnv false) (exAt 0) (exGet [3]) exInit).notified ≠ [] ∧
    (startup { exEnv false with metrics := false, sendNotifs := false } (exAt 0) (exGet [3]) exInit).gauges = none ∧
    (startup { exEnv false with metrics := false, sendNotifs := false } (exAt 0) (exGet [3]) exInit).notified = [] ∧
    (startup { exEnv false with metrics := false, sendNotifs := false } (exAt 0) (exGet [3]) exInit).store = (startup (exEnv false) (exAt 0) (exGet [3]) exInit).store ∧
    (startup (exEnv false) (exAt 0) (exGet [3]) exInit).store.countSDs ≠ 0 := by decide +kernel

end StayRTR
