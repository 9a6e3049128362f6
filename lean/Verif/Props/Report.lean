import Verif.Props.Update

/-!
# C56, C71, C80-C82: what the program reports about itself
-/

namespace StayRTR
open Spec

/-! ## C56: refresh metrics -/

/-- The last-refresh gauge and the status code counter are never set: `FetchFile` gives them only together with an error. -/
theorem C56_never_false {e : Env} {s : UState} (h : Reached e s) : (∀ file, s.lastRefresh file = none) ∧ s.statusCodes = [] := by
  induction h with
  | init a b => exact ⟨fun _ => rfl, rfl⟩
  | startup s t f _ ih =>
    obtain ⟨_, _, h3, h4⟩ := refresh_metrics e t f s
    rw [h3, h4]; exact ih
  | refresh s t f _ ih =>
    obtain ⟨h1, h2, _⟩ := refresh_metrics e t f s
    rw [h1, h2]; exact ih

/-- For instance after a download with status 200 that is served. -/
example :
    let s := startup (exEnv false) (exAt 0) ⟨"https://x/y".toList, .response 200 ['a'] none (some [8]), none⟩ exInit
    s.lastchange = some 0 ∧ s.lastRefresh "https://x/y".toList = none ∧ s.statusCodes = [] := by
  decide +kernel

/-! ## What one refresh does to everything that is reported -/

/-- The cases of an update: nothing at all, or the store changed and everything was set. -/
theorem applied_cases (e : Env) (proc : Int) (s : UState) :
    applied e proc s = s ∨
    ((s.store.addData (pending e proc s).sds).2 = true ∧ (applied e proc s).store = (s.store.addData (pending e proc s).sds).1 ∧
      (applied e proc s).notified = (if e.sendNotifs then s.notified ++ [(applied e proc s).store.serial] else s.notified) ∧
      (applied e proc s).serialGauge = (applied e proc s).store.serial ∧
      (applied e proc s).exported = ⟨⟨(withExceptions e.wide s.slurm s.lastdata).1.length, s.lastdata.metadata.buildtime, none⟩,
        some (withExceptions e.wide s.slurm s.lastdata).1, some (withExceptions e.wide s.slurm s.lastdata).2⟩ ∧
      (e.metrics = true → (applied e proc s).gauges = some
        (let r := pending e proc s
         let v4 := (r.vrps.filter (fun v => v.pfx.ip.is4)).length
         let v6 := (r.vrps.filter (fun v => !v.pfx.ip.is4 && v.pfx.ip.is6)).length
         ⟨r.brks.length, r.countv4 + r.countv6, v4 + v6, v4, r.countv4, v6, r.countv6, s.lastchange.map (· / 1000000000)⟩)) ∧
      (e.metrics = false → (applied e proc s).gauges = s.gauges)) := by
  cases h : (s.store.addData (pending e proc s).sds).2 with
  | false => left; exact applyUpdate_false e _ _ _ s h
  | true =>
    right
    unfold applied applyUpdate
    simp only [h, Bool.true_eq_false, if_false, Store.getCurrentSerial]
    refine ⟨trivial, trivial, trivial, trivial, trivial, ?_, ?_⟩
    · intro hm; rw [if_pos hm]
    · intro hm; rw [hm]; rfl

/-- The cases of a refresh, for what is reported: nothing, an update, or everything dropped. -/
theorem refresh_cases (e : Env) (t : Times) (f : Fetched) (s : UState) :
    ∃ s1, SameServing s s1 ∧ (refresh e t f s = s1 ∨ refresh e t f s = applied e t.proc s1 ∨ refresh e t f s = dropped s1) := by
  refine ⟨(fetchBoth e t f s).1, (fetchBoth_frame e t f s).1, ?_⟩
  unfold refresh
  simp only
  rcases afterFetch_cases e t (fetchBoth e t f s).2 (fetchBoth e t f s).1 with h | ⟨h, _⟩ | ⟨h, _⟩
  · exact .inl h
  · exact .inr (.inl h)
  · exact .inr (.inr h)

theorem startup_cases (e : Env) (t : Times) (f : Fetched) (s : UState) :
    ∃ s1, SameServing s s1 ∧ (startup e t f s = s1 ∨ startup e t f s = applied e t.proc s1) := by
  refine ⟨(fetchBoth e t f s).1, (fetchBoth_frame e t f s).1, ?_⟩
  unfold startup
  simp only [updateFromNewState_eq]
  split
  · exact .inl rfl
  · split
    · exact .inr rfl
    · exact .inl rfl

/-! ## C16: the retention of the program -/

/-- The records of the running program are a history of the store with retention 3, so everything said about such histories holds of it. -/
theorem reached_evolves {e : Env} (hs : e.sort.Ok) {s : UState} (h : Reached e s) : ∃ t, Evolves 3 s.store t := by
  have app : ∀ (s1 : UState) (proc : Int), (∃ t, Evolves 3 s1.store t) → ∃ t, Evolves 3 (applied e proc s1).store t := by
    rintro s1 proc ⟨t, ht⟩
    rcases applied_cases e proc s1 with hc | ⟨_, hst, _⟩
    · rw [hc]; exact ⟨t, ht⟩
    · rw [hst]; exact ⟨_, .add _ ht (allValid_sds e.wide hs _ _ _)⟩
  induction h with
  | init a b => exact ⟨_, .init⟩
  | startup s t f hr ih =>
    obtain ⟨s1, hsame, hc⟩ := startup_cases e t f s
    rw [← hsame.store] at ih
    rcases hc with hc | hc <;> rw [hc]
    · exact ih
    · exact app s1 _ ih
  | refresh s t f hr ih =>
    obtain ⟨s1, hsame, hc⟩ := refresh_cases e t f s
    rw [← hsame.store] at ih
    rcases hc with hc | hc | hc <;> rw [hc]
    · exact ih
    · exact app s1 _ ih
    · obtain ⟨t', ht⟩ := ih
      exact ⟨_, .add [] ht (by intro x hx; cases hx)⟩

/-- The running program never keeps more than three change sets: a router that is more than three serials behind gets a Cache Reset. -/
theorem C16_program {e : Env} (hs : e.sort.Ok) {s : UState} (h : Reached e s) :
    s.store.listDiff.length ≤ 3 ∧ ∀ n : U32, n.toNat + 3 < s.store.serial.toNat → s.store.getSDsSerialDiff n = .ok none := by
  obtain ⟨t, ht⟩ := reached_evolves hs h
  obtain ⟨_, _, _, _, h5, h6, _⟩ := C16_unknown_serials ht 0
  refine ⟨by have := h5 (by decide); omega, fun n hn => ?_⟩
  obtain ⟨_, _, _, _, _, h6, _⟩ := C16_unknown_serials ht n
  exact h6 (by decide) (by omega) (by omega)

/-- It keeps three, not fewer. -/
example :
    let e := exEnv false
    let s := refresh e (exAt 0) (exGet [2]) (refresh e (exAt 0) (exGet [1]) (startup e (exAt 0) (exGet [5]) exInit))
    s.store.listDiff.length = 3 := by
  decide +kernel

/-! ## C71: the export -/

/-- In every state: nothing is served, or the served records are exactly what the exported entries ask for at some time. So everything that is served is in the export.
Missing: the export also lists entries that are not served (`C71_invalid_false`, `C71_dropped_false`). -/
theorem C71_listed_partial {e : Env} (hs : e.sort.Ok) {s : UState} (h : Reached e s) :
    s.store.current = [] ∨ ∃ now, ∀ r, Served s r ↔ Wanted e.wide now (s.exported.roas.getD []) (s.exported.keys.getD []) r := by
  have step : ∀ (s s1 : UState) (proc : Int), SameServing s s1 → StoreOk s.store →
      (s.store.current = [] ∨ ∃ now, ∀ r, Served s r ↔ Wanted e.wide now (s.exported.roas.getD []) (s.exported.keys.getD []) r) →
      (s1.store.current = [] ∨ ∃ now, ∀ r, Served s1 r ↔ Wanted e.wide now (s1.exported.roas.getD []) (s1.exported.keys.getD []) r) ∧
      ((applied e proc s1).store.current = [] ∨
        ∃ now, ∀ r, Served (applied e proc s1) r ↔ Wanted e.wide now ((applied e proc s1).exported.roas.getD []) ((applied e proc s1).exported.keys.getD []) r) := by
    intro s s1 proc hsame hok ih
    have ih1 : s1.store.current = [] ∨ ∃ now, ∀ r, Served s1 r ↔ Wanted e.wide now (s1.exported.roas.getD []) (s1.exported.keys.getD []) r := by
      unfold Served
      rw [hsame.store, hsame.exported]
      exact ih
    refine ⟨ih1, ?_⟩
    rcases applied_cases e proc s1 with hc | ⟨_, _, _, _, hx, _⟩
    · rw [hc]; exact ih1
    · right
      refine ⟨seconds proc, fun r => ?_⟩
      rw [hx, applied_sameSet e hs _ _ (by rw [hsame.store]; exact hok)]
      rfl
  induction h with
  | init a b => exact .inl rfl
  | startup s t f hr ih =>
    obtain ⟨s1, hsame, hc⟩ := startup_cases e t f s
    obtain ⟨h1, h2⟩ := step s s1 t.proc hsame (hr.ok hs) ih
    rcases hc with hc | hc <;> rw [hc]
    · exact h1
    · exact h2
  | refresh s t f hr ih =>
    obtain ⟨s1, hsame, hc⟩ := refresh_cases e t f s
    obtain ⟨h1, h2⟩ := step s s1 t.proc hsame (hr.ok hs) ih
    rcases hc with hc | hc | hc <;> rw [hc]
    · exact h1
    · exact h2
    · exact .inl (dropped_empty _ (by rw [hsame.store]; exact hr.ok hs))

/-- The export lists entries that are not served, and entries twice. -/
theorem C71_invalid_false :
    let s := startup (exEnv false) (exAt 0) (exGet [5]) exInit
    s.exported.roas = some [exVrp1, exVrp1, exBad] ∧ records s.store.current = [.vrp ⟨.v4 0x0a000000, 9⟩ 8 1] := by
  decide +kernel

/-- After everything was dropped the export still lists it. -/
theorem C71_dropped_false :
    let s := refresh (exEnv true) (exAt 90000) (exGet [3]) (refresh (exEnv true) (exAt 72000) (exGet [7]) (startup (exEnv true) (exAt 0) (exGet [8]) exInit))
    s.exported.roas = some [exVrp1] ∧ s.store.current = [] := by
  simp only [exS8_eq_checked, exS7_eq_checked, exS9_eq_checked]
  exact ⟨rfl, rfl⟩

/-! ## C80: notifications -/

/-- A refresh that changes the served set either announces the new serial, or drops everything. Missing: dropping is not announced (`C80_dropped_false`). -/
theorem C80_announced_partial (e : Env) (hs : e.sort.Ok) (hn : e.sendNotifs = true) (t : Times) (f : Fetched) {s : UState} (h : Reached e s) (r : Rec)
    (hd : ¬ (Served (refresh e t f s) r ↔ Served s r)) :
    (refresh e t f s).notified = s.notified ++ [(refresh e t f s).store.serial] ∨ (refresh e t f s).store.current = [] := by
  obtain ⟨s1, hsame, hc⟩ := refresh_cases e t f s
  rcases hc with hc | hc | hc <;> rw [hc] at hd ⊢
  · unfold Served at hd; rw [hsame.store] at hd; exact absurd Iff.rfl hd
  · rcases applied_cases e t.proc s1 with ha | ⟨_, _, ha, _⟩
    · rw [ha] at hd; unfold Served at hd; rw [hsame.store] at hd; exact absurd Iff.rfl hd
    · left; rw [ha, if_pos hn, hsame.notified]
  · exact .inr (dropped_empty _ (by rw [hsame.store]; exact h.ok hs))

/-- Notifications are sent only for changes: if one was sent, it was one, with the current serial, and some record is served now that was not, or the other way round. -/
theorem C80_only_changes (e : Env) (hs : e.sort.Ok) (t : Times) (f : Fetched) {s : UState} (h : Reached e s) (hd : (refresh e t f s).notified ≠ s.notified) :
    (refresh e t f s).notified = s.notified ++ [(refresh e t f s).store.serial] ∧ ∃ r, ¬ (Served (refresh e t f s) r ↔ Served s r) := by
  obtain ⟨s1, hsame, hc⟩ := refresh_cases e t f s
  rcases hc with hc | hc | hc <;> rw [hc] at hd ⊢
  · exact absurd hsame.notified hd
  · rcases applied_cases e t.proc s1 with ha | ⟨he, hst, ha, _⟩
    · rw [ha] at hd; exact absurd hsame.notified hd
    · have hok : StoreOk s1.store := by rw [hsame.store]; exact h.ok hs
      cases hsn : e.sendNotifs with
      | false => rw [ha, hsn, hsame.notified] at hd; exact absurd rfl hd
      | true =>
        refine ⟨by rw [ha, if_pos hsn, hsame.notified], ?_⟩
        apply Classical.byContradiction
        intro hall
        simp only [not_exists, Decidable.not_not] at hall
        rw [addData_effective] at he
        apply he
        refine (curDiff_nil_iff (allValid_sds e.wide hs _ _ _) hok.valid).mpr ?_
        have h1 := addData_sameSet hok (allValid_sds e.wide hs (seconds t.proc) (withExceptions e.wide s1.slurm s1.lastdata).1 (withExceptions e.wide s1.slurm s1.lastdata).2)
        intro r
        have h2 := Classical.not_not.mp (hall r)
        unfold Served at h2
        rw [hst, ← hsame.store] at h2
        exact h2.symm.trans (h1 r)
  · exact absurd hsame.notified hd

/-- Nobody is told when everything is dropped. -/
theorem C80_dropped_false :
    let s := refresh (exEnv true) (exAt 72000) (exGet [7]) (startup (exEnv true) (exAt 0) (exGet [8]) exInit)
    let s' := refresh (exEnv true) (exAt 90000) (exGet [3]) s
    s.store.current.length = 1 ∧ s'.store.current = [] ∧ s'.store.serial = s.store.serial + 1 ∧ s'.notified = s.notified := by
  simp only [exS8_eq_checked, exS7_eq_checked, exS9_eq_checked]
  exact ⟨rfl, rfl, rfl, rfl⟩

example : (exEnv true).sendNotifs = true ∧ ¬ (Served exS9 (.vrp ⟨.v4 0x0a000000, 9⟩ 8 1) ↔ Served exS7 (.vrp ⟨.v4 0x0a000000, 9⟩ 8 1)) := by
  unfold Served
  decide

/-! ## C81: gauges -/

/-- An IPv4 VRP. -/
def Spec.IsV4 : Rec → Prop
  | .vrp ⟨.v4 _, _⟩ _ _ => True
  | _ => False

/-- An IPv6 VRP. -/
def Spec.IsV6 : Rec → Prop
  | .vrp ⟨.v6 _, _⟩ _ _ => True
  | _ => False

theorem card_vrps (wide : WideFloat) {sort : Sorter} (hs : sort.Ok) (now : Int) (vs : List VRPJson) (ks : List BgpSecKeyJson) (p : VRP → Bool) (P : Rec → Prop)
    (hp : ∀ v : VRP, v.pfx.Valid → (p v = true ↔ P (SD.vrp v).record)) (hb : ∀ a b c, ¬ P (.brk a b c)) :
    Card (fun r => Wanted wide now vs ks r ∧ P r) ((processData wide sort now vs ks).vrps.filter p).length := by
  refine ⟨((processData wide sort now vs ks).vrps.filter p).map (fun v => (SD.vrp v).record), ?_, ?_, List.length_map _⟩
  · have hn := List.pairwise_map.mp (C44_nodup wide hs now vs ks)
    refine List.pairwise_map.mpr ((hn.filter p).imp ?_)
    intro a b hab he
    simp only [SD.record, Rec.vrp.injEq] at he
    exact hab (by rw [he.1, he.2.1, he.2.2])
  · intro r
    rw [List.mem_map]
    constructor
    · rintro ⟨v, hv, rfl⟩
      rw [List.mem_filter] at hv
      have hw : Wanted wide now vs ks (SD.vrp v).record := by
        rw [← records_sds wide hs]
        unfold records Processed.sds
        rw [List.map_append, List.mem_append, List.map_map]
        left
        exact List.mem_map.mpr ⟨v, hv.1, rfl⟩
      obtain ⟨_, _, h1, _⟩ := id hw
      exact ⟨hw, (hp v (valid_of_parse ((prefixText_iff ..).mpr h1))).mp hv.2⟩
    · rintro ⟨hw, hP⟩
      have hm := (records_sds wide hs now vs ks r).mpr hw
      unfold records Processed.sds at hm
      rw [List.map_append, List.mem_append, List.map_map, List.map_map] at hm
      rcases hm with hm | hm
      · obtain ⟨v, hv, rfl⟩ := List.mem_map.mp hm
        obtain ⟨_, _, h1, _⟩ := hw
        exact ⟨v, List.mem_filter.mpr ⟨hv, (hp v (valid_of_parse ((prefixText_iff ..).mpr h1))).mpr hP⟩, rfl⟩
      · obtain ⟨k, _, rfl⟩ := List.mem_map.mp hm
        exact absurd hP (hb _ _ _)

theorem is4_iff (v : VRP) (h : v.pfx.Valid) : (v.pfx.ip.is4 = true ↔ IsV4 (SD.vrp v).record) ∧ ((!v.pfx.ip.is4 && v.pfx.ip.is6) = true ↔ IsV6 (SD.vrp v).record) := by
  have hne := h.ip_ne
  obtain ⟨⟨ip, n⟩, a, m, fl⟩ := v
  cases ip with
  | zero => exact absurd rfl hne
  | v4 x => exact ⟨by simp [IsV4, SD.record, Addr.is4], by simp [IsV6, SD.record, Addr.is4]⟩
  | v6 x => exact ⟨by simp [IsV4, SD.record, Addr.is4], by simp [IsV6, SD.record, Addr.is4, Addr.is6]⟩

theorem card_congr {P Q : Rec → Prop} (h : ∀ r, P r ↔ Q r) {n : Nat} (hc : Card P n) : Card Q n := by
  obtain ⟨l, h1, h2, h3⟩ := hc
  exact ⟨l, h1, fun r => (h2 r).trans (h r), h3⟩

/-- With metrics on, in every state in which something is served, the serial gauge is the current serial, and the "filtered" gauges are the numbers of distinct IPv4 and IPv6 VRPs that are served, with their sum
as effective VRPs. Missing: when everything was dropped (`C81_dropped_false`), and router keys (`C81_keys_false`). -/
theorem C81_gauges_partial {e : Env} (hs : e.sort.Ok) (hm : e.metrics = true) {s : UState} (h : Reached e s) :
    s.store.current = [] ∨ ∃ g, s.gauges = some g ∧ s.serialGauge = s.store.serial ∧ Card (fun r => Served s r ∧ IsV4 r) g.v4filtered ∧ Card (fun r => Served s r ∧ IsV6 r) g.v6filtered ∧
      g.effective = g.v4filtered + g.v6filtered := by
  have step : ∀ (s s1 : UState) (proc : Int), SameServing s s1 → StoreOk s.store →
      (s.store.current = [] ∨ ∃ g, s.gauges = some g ∧ s.serialGauge = s.store.serial ∧ Card (fun r => Served s r ∧ IsV4 r) g.v4filtered ∧ Card (fun r => Served s r ∧ IsV6 r) g.v6filtered ∧
        g.effective = g.v4filtered + g.v6filtered) →
      (s1.store.current = [] ∨ ∃ g, s1.gauges = some g ∧ s1.serialGauge = s1.store.serial ∧ Card (fun r => Served s1 r ∧ IsV4 r) g.v4filtered ∧ Card (fun r => Served s1 r ∧ IsV6 r) g.v6filtered ∧
        g.effective = g.v4filtered + g.v6filtered) ∧
      ((applied e proc s1).store.current = [] ∨ ∃ g, (applied e proc s1).gauges = some g ∧ (applied e proc s1).serialGauge = (applied e proc s1).store.serial ∧
        Card (fun r => Served (applied e proc s1) r ∧ IsV4 r) g.v4filtered ∧ Card (fun r => Served (applied e proc s1) r ∧ IsV6 r) g.v6filtered ∧ g.effective = g.v4filtered + g.v6filtered) := by
    intro s s1 proc hsame hok ih
    have ih1 : s1.store.current = [] ∨ ∃ g, s1.gauges = some g ∧ s1.serialGauge = s1.store.serial ∧ Card (fun r => Served s1 r ∧ IsV4 r) g.v4filtered ∧ Card (fun r => Served s1 r ∧ IsV6 r) g.v6filtered ∧
        g.effective = g.v4filtered + g.v6filtered := by
      unfold Served
      rw [hsame.store, hsame.gauges, hsame.serialGauge]
      exact ih
    refine ⟨ih1, ?_⟩
    rcases applied_cases e proc s1 with hc | ⟨_, _, _, hser, _, hg, _⟩
    · rw [hc]; exact ih1
    · right
      have hset := applied_sameSet e hs proc s1 (by rw [hsame.store]; exact hok)
      refine ⟨_, hg hm, hser, ?_, ?_, rfl⟩
      · exact card_congr (fun r => by rw [hset r]; rfl)
          (card_vrps e.wide hs (seconds proc) (withExceptions e.wide s1.slurm s1.lastdata).1 (withExceptions e.wide s1.slurm s1.lastdata).2 (fun v => v.pfx.ip.is4) IsV4 (fun v hv => (is4_iff v hv).1)
            (fun _ _ _ => id))
      · exact card_congr (fun r => by rw [hset r]; rfl)
          (card_vrps e.wide hs (seconds proc) (withExceptions e.wide s1.slurm s1.lastdata).1 (withExceptions e.wide s1.slurm s1.lastdata).2 (fun v => !v.pfx.ip.is4 && v.pfx.ip.is6) IsV6
            (fun v hv => (is4_iff v hv).2) (fun _ _ _ => id))
  induction h with
  | init a b => exact .inl rfl
  | startup s t f hr ih =>
    obtain ⟨s1, hsame, hc⟩ := startup_cases e t f s
    obtain ⟨h1, h2⟩ := step s s1 t.proc hsame (hr.ok hs) ih
    rcases hc with hc | hc <;> rw [hc]
    · exact h1
    · exact h2
  | refresh s t f hr ih =>
    obtain ⟨s1, hsame, hc⟩ := refresh_cases e t f s
    obtain ⟨h1, h2⟩ := step s s1 t.proc hsame (hr.ok hs) ih
    rcases hc with hc | hc | hc <;> rw [hc]
    · exact h1
    · exact h2
    · exact .inl (dropped_empty _ (by rw [hsame.store]; exact hr.ok hs))

example : Reached (exEnv true) exS8 ∧ exS8.store.current ≠ [] ∧ (exEnv true).metrics = true := by
  refine ⟨?_, by decide, rfl⟩
  rw [← exS8_eq_checked]
  exact .startup _ _ _ (.init _ _)

/-- After everything was dropped the gauges still tell of one VRP, and of the old serial. -/
theorem C81_dropped_false :
    let s := refresh (exEnv true) (exAt 90000) (exGet [3]) (refresh (exEnv true) (exAt 72000) (exGet [7]) (startup (exEnv true) (exAt 0) (exGet [8]) exInit))
    s.store.current = [] ∧ s.gauges = some ⟨0, 1, 1, 1, 1, 0, 0, some 0⟩ ∧ s.store.serial = 1 ∧ s.serialGauge = 0 := by
  simp only [exS8_eq_checked, exS7_eq_checked, exS9_eq_checked]
  exact ⟨rfl, rfl, rfl, rfl⟩

/-- A router key twice in the file is counted twice though it is served once. -/
theorem C81_keys_false :
    let s := refresh (exEnv false) (exAt 0) (exGet [2]) (startup (exEnv false) (exAt 0) (exGet [1]) exInit)
    s.gauges = some ⟨3, 0, 0, 0, 0, 0, 0, some 0⟩ ∧ records s.store.current = [.brk 1 [0xAB] [7], .brk 2 [0xCD] [8]] := by
  simp only [exS1_eq, exS2_eq]
  decide

/-- `n` is the number of elements of the list with a property. -/
def Spec.CountIs {α : Type} (l : List α) (P : α → Prop) (n : Nat) : Prop := ∃ p : α → Bool, (∀ x, p x = true ↔ P x) ∧ l.countP p = n

theorem checkVRP_wanted (wide : WideFloat) (now : Int) (v : VRPJson) (p : Prefix) (a : U32) :
    checkVRP wide now v = some (p, a) ↔ Wanted wide now [v] [] (.vrp p v.length a) := by
  rw [checkVRP_iff]
  constructor
  · rintro ⟨h1, h2, h3, h4, h5, h6⟩
    exact ⟨v, List.mem_singleton.mpr rfl, (prefixText_iff ..).mp h1, (asnReads_iff ..).mp h2, rfl, h3, h4, h5, h6⟩
  · rintro ⟨w, hw, h1, h2, _, h3, h4, h5, h6⟩
    obtain rfl := List.mem_singleton.mp hw
    exact ⟨(prefixText_iff ..).mpr h1, (asnReads_iff ..).mpr h2, h3, h4, h5, h6⟩

theorem count_family (wide : WideFloat) (now : Int) (vs : List VRPJson) (q : Addr → Bool) (P : Rec → Prop)
    (hq : ∀ (p : Prefix) (m : U8) (a : U32), p.Valid → (q p.ip = true ↔ P (.vrp p m a))) (hb : ∀ a b c, ¬ P (.brk a b c)) :
    CountIs vs (fun v => ∃ r, Wanted wide now [v] [] r ∧ P r) (vs.filter (fun v => match checkVRP wide now v with | some (p, _) => q p.ip | none => false)).length := by
  refine ⟨fun v => match checkVRP wide now v with | some (p, _) => q p.ip | none => false, ?_, List.countP_eq_length_filter⟩
  intro v
  show (match checkVRP wide now v with | some (p, _) => q p.ip | none => false) = true ↔ _
  constructor
  · intro h
    cases hc : checkVRP wide now v with
    | none => rw [hc] at h; cases h
    | some pa =>
      rw [hc] at h
      have hv : pa.1.Valid := valid_of_parse ((checkVRP_iff wide now v pa.1 pa.2).mp hc).1
      exact ⟨_, (checkVRP_wanted wide now v pa.1 pa.2).mp hc, (hq _ _ _ hv).mp h⟩
  · rintro ⟨r, hw, hP⟩
    cases r with
    | brk a b c => exact absurd hP (hb _ _ _)
    | vrp p m a =>
      obtain ⟨w, hm, _, _, hl, _⟩ := id hw
      obtain rfl := List.mem_singleton.mp hm
      subst hl
      have hc := (checkVRP_wanted wide now w p a).mpr hw
      have hv : p.Valid := valid_of_parse ((checkVRP_iff wide now w p a).mp hc).1
      rw [hc]
      exact (hq _ _ _ hv).mpr hP

theorem count_keys (wide : WideFloat) (sort : Sorter) (now : Int) (vs : List VRPJson) (ks : List BgpSecKeyJson) :
    CountIs ks (fun k => ∃ r, Wanted wide now [] [k] r) (processData wide sort now vs ks).brks.length := by
  refine ⟨fun k => !(processKeys now [k]).isEmpty, ?_, ?_⟩
  · intro k
    rw [Bool.not_eq_true', List.isEmpty_eq_false_iff_exists_mem]
    constructor
    · rintro ⟨x, hx⟩
      obtain ⟨_, h⟩ := (C48_keys wide sort now [] [k] x).mp hx
      exact ⟨.brk x.asn x.ski x.pubkey, h⟩
    · rintro ⟨r, hw⟩
      cases r with
      | vrp p m a => obtain ⟨v, hv, _⟩ := hw; cases hv
      | brk a b c => exact ⟨⟨a, c, b, 0⟩, (C48_keys wide sort now [] [k] _).mpr ⟨rfl, hw⟩⟩
  · show _ = (processKeys now ks).length
    induction ks with
    | nil => rfl
    | cons k ks ih =>
      have happ : processKeys now (k :: ks) = processKeys now [k] ++ processKeys now ks := by
        unfold processKeys
        rw [← List.filterMap_append]; rfl
      rw [happ, List.length_append, List.countP_cons, ih]
      have : (processKeys now [k]).length = if (!(processKeys now [k]).isEmpty) = true then 1 else 0 := by
        unfold processKeys
        simp only [List.filterMap_cons, List.filterMap_nil]
        split
        · rfl
        · split <;> rfl
      omega

/-- With metrics on, in every state: no gauge was set yet, or the "unfiltered" gauges are the numbers of entries of the exported list that ask, at the time of the update, for an IPv4 and an IPv6 VRP,
with their sum as the gauge of all VRPs, and the gauge of router keys is the number of exported entries that ask for a router key. -/
theorem C81_entries {e : Env} (hm : e.metrics = true) {s : UState} (h : Reached e s) :
    s.gauges = none ∨ ∃ g vs ks now, s.gauges = some g ∧ s.exported.roas = some vs ∧ s.exported.keys = some ks ∧
      CountIs vs (fun v => ∃ r, Wanted e.wide now [v] [] r ∧ IsV4 r) g.v4unfiltered ∧ CountIs vs (fun v => ∃ r, Wanted e.wide now [v] [] r ∧ IsV6 r) g.v6unfiltered ∧
      g.vrps = g.v4unfiltered + g.v6unfiltered ∧ CountIs ks (fun k => ∃ r, Wanted e.wide now [] [k] r) g.brks := by
  have step : ∀ (s1 : UState) (proc : Int),
      (s1.gauges = none ∨ ∃ g vs ks now, s1.gauges = some g ∧ s1.exported.roas = some vs ∧ s1.exported.keys = some ks ∧
        CountIs vs (fun v => ∃ r, Wanted e.wide now [v] [] r ∧ IsV4 r) g.v4unfiltered ∧ CountIs vs (fun v => ∃ r, Wanted e.wide now [v] [] r ∧ IsV6 r) g.v6unfiltered ∧
        g.vrps = g.v4unfiltered + g.v6unfiltered ∧ CountIs ks (fun k => ∃ r, Wanted e.wide now [] [k] r) g.brks) →
      ((applied e proc s1).gauges = none ∨ ∃ g vs ks now, (applied e proc s1).gauges = some g ∧ (applied e proc s1).exported.roas = some vs ∧ (applied e proc s1).exported.keys = some ks ∧
        CountIs vs (fun v => ∃ r, Wanted e.wide now [v] [] r ∧ IsV4 r) g.v4unfiltered ∧ CountIs vs (fun v => ∃ r, Wanted e.wide now [v] [] r ∧ IsV6 r) g.v6unfiltered ∧
        g.vrps = g.v4unfiltered + g.v6unfiltered ∧ CountIs ks (fun k => ∃ r, Wanted e.wide now [] [k] r) g.brks) := by
    intro s1 proc ih
    rcases applied_cases e proc s1 with hc | ⟨_, _, _, _, hx, hg, _⟩
    · rw [hc]; exact ih
    · right
      have inv := procInv e.wide (seconds proc) (withExceptions e.wide s1.slurm s1.lastdata).1
      refine ⟨_, _, _, seconds proc, hg hm, by rw [hx], by rw [hx], ?_, ?_, rfl, count_keys _ _ _ _ _⟩
      · show CountIs _ _ (ProcState.countv4 (List.foldl _ _ _))
        rw [inv.v4]
        refine count_family e.wide (seconds proc) _ Addr.is4 IsV4 ?_ (fun _ _ _ => id)
        exact fun p m a hv => (is4_iff ⟨p, a, m, 0⟩ hv).1
      · show CountIs _ _ (ProcState.countv6 (List.foldl _ _ _))
        rw [inv.v6]
        refine count_family e.wide (seconds proc) _ (fun a => !a.is4) IsV6 ?_ (fun _ _ _ => id)
        intro p m a hv
        refine Iff.trans ?_ (is4_iff ⟨p, a, m, 0⟩ hv).2
        have hne := hv.ip_ne
        obtain ⟨ip, n⟩ := p
        cases ip with
        | zero => exact absurd rfl hne
        | v4 x => simp [Addr.is4]
        | v6 x => simp [Addr.is4, Addr.is6]
  induction h with
  | init a b => exact .inl rfl
  | startup s t f hr ih =>
    obtain ⟨s1, hsame, hc⟩ := startup_cases e t f s
    rw [← hsame.gauges, ← hsame.exported] at ih
    rcases hc with hc | hc <;> rw [hc]
    · exact ih
    · exact step s1 t.proc ih
  | refresh s t f hr ih =>
    obtain ⟨s1, hsame, hc⟩ := refresh_cases e t f s
    rw [← hsame.gauges, ← hsame.exported] at ih
    rcases hc with hc | hc | hc <;> rw [hc]
    · exact ih
    · exact step s1 t.proc ih
    · exact ih

/-- For instance two entries for one VRP are two for the unfiltered gauge. -/
example :
    let s := startup (exEnv true) (exAt 0) (exGet [5]) exInit
    (s.gauges.map (fun g => (g.v4unfiltered, g.v4filtered))) = some (2, 1) ∧ s.exported.roas = some [exVrp1, exVrp1, exBad] := by
  decide +kernel

/-! ## C132: the time of the last change -/

/-- **C132** in full: once data was served, the gauge `rpki_change` is the time at which the file that is loaded was found to have changed. -/
def ChangeExact : Prop := ∀ (e : Env) (s : UState), e.sort.Ok → e.metrics = true → Reached e s → ∀ g, s.gauges = some g → g.change = s.lastchange.map (· / 1000000000)

/-- The code does not have this property: a file that changed, but not in what is to be served, does not move the gauge. -/
theorem C132_same_records_false : ¬ ChangeExact ∧
    let s := refresh (exEnv true) (exAt 72000) (exGet [7]) (startup (exEnv true) (exAt 0) (exGet [8]) exInit)
    s.lastchange = some (72000 * 1000000000) ∧ s.gauges = some ⟨0, 1, 1, 1, 1, 0, 0, some 0⟩ := by
  refine ⟨?_, ?_⟩
  · intro h
    have hr : Reached (exEnv true) exS7 := by
      rw [← exS7_eq_checked, ← exS8_eq_checked]
      exact .refresh _ _ _ (.startup _ _ _ (.init _ _))
    have := h (exEnv true) exS7 insertionSorter_ok rfl hr _ rfl
    exact absurd this (by decide)
  · simp only [exS8_eq_checked, exS7_eq_checked]
    exact ⟨rfl, rfl⟩

/-- Nor if everything is dropped: then the gauge is the time of the file before. -/
theorem C132_dropped_false :
    let s := refresh (exEnv true) (exAt 90000) (exGet [3]) (refresh (exEnv true) (exAt 72000) (exGet [7]) (startup (exEnv true) (exAt 0) (exGet [8]) exInit))
    s.store.current = [] ∧ s.lastchange = some (90000 * 1000000000) ∧ s.gauges = some ⟨0, 1, 1, 1, 1, 0, 0, some 0⟩ := by
  simp only [exS8_eq_checked, exS7_eq_checked, exS9_eq_checked]
  exact ⟨rfl, rfl, rfl⟩

theorem applied_lastchange (e : Env) (proc : Int) (s : UState) : (applied e proc s).lastchange = s.lastchange := by
  unfold applied applyUpdate
  simp only
  split <;> rfl

/-- **C132**, partial: a refresh that changes what is served, other than by dropping it, sets the gauge to the time at which the loaded file was found to have changed; a refresh that does not change what is
served leaves the gauge. Missing: that the gauge follows files that do not change what is served, refuted above. -/
theorem C132_change_partial (e : Env) (hs : e.sort.Ok) (hm : e.metrics = true) (t : Times) (f : Fetched) {s : UState} (hr : Reached e s) :
    ((refresh e t f s).gauges = s.gauges ∨ ∃ g, (refresh e t f s).gauges = some g ∧ g.change = (refresh e t f s).lastchange.map (· / 1000000000)) ∧
    ((refresh e t f s).store ≠ s.store → (refresh e t f s).store.current ≠ [] → ∃ g, (refresh e t f s).gauges = some g ∧ g.change = (refresh e t f s).lastchange.map (· / 1000000000)) := by
  obtain ⟨s1, hsame, h | h | h⟩ := refresh_cases e t f s
  · rw [h]
    exact ⟨.inl hsame.gauges, fun hne => absurd hsame.store hne⟩
  · rw [h]
    rcases applied_cases e t.proc s1 with ha | ⟨_, _, _, _, _, hg, _⟩
    · rw [ha]
      exact ⟨.inl hsame.gauges, fun hne => absurd hsame.store hne⟩
    · have hg := hg hm
      have : ∃ g, (applied e t.proc s1).gauges = some g ∧ g.change = (applied e t.proc s1).lastchange.map (· / 1000000000) := ⟨_, hg, by rw [applied_lastchange]⟩
      exact ⟨.inr this, fun _ _ => this⟩
  · rw [h]
    refine ⟨.inl ?_, fun _ hne => absurd ?_ hne⟩
    · exact hsame.gauges
    · exact dropped_empty s1 (by rw [hsame.store]; exact hr.ok hs)

/-- A refresh that changes what is served, with the gauge. -/
example : let s := startup (exEnv false) (exAt 0) (exGet [1]) exInit
    (refresh (exEnv false) (exAt 60) (exGet [2]) s).store ≠ s.store ∧ (refresh (exEnv false) (exAt 60) (exGet [2]) s).store.current ≠ [] ∧
    (refresh (exEnv false) (exAt 60) (exGet [2]) s).gauges = some ⟨3, 0, 0, 0, 0, 0, 0, some 60⟩ := by
  simp only [exS1_eq]
  decide +kernel

/-! ## C82: the SLURM file -/

/-- A SLURM file that is configured but cannot be fetched at the start does not hold anything back: what it would filter out is served. -/
theorem C82_open_false :
    let f : Fetched := ⟨exFile, .file (some [8]), some ("slurm.json".toList, .failed)⟩
    let s := startup (exEnv false) (exAt 0) f exInit
    s.slurm = none ∧ records s.store.current = [.vrp ⟨.v4 0x0a000000, 9⟩ 8 1] ∧
    ((startup (exEnv false) (exAt 0) { f with slurm := some ("slurm.json".toList, .file (some [1])) } exInit).store.current = []) := by
  decide +kernel

theorem refresh_slurm_none (e : Env) (t : Times) (f : Fetched) (h : f.slurm = none) (s : UState) : (refresh e t f s).slurm = s.slurm := by
  unfold refresh
  simp only
  rw [(afterFetch_keeps ..).2.1]
  unfold fetchBoth
  rw [h]
  exact (updateFile_frame e t.start t.change f.file f.cache s).2.1

/-- And if the SLURM file is not refreshed (`-slurm.refresh=false`), it is never tried again. -/
theorem C82_never_again_false (e : Env) (s : UState) (h0 : s.slurm = none) (rs : List (Times × Fetched)) (h : ∀ x ∈ rs, x.2.slurm = none) : (refreshes e s rs).slurm = none := by
  induction rs generalizing s with
  | nil => exact h0
  | cons x rs ih =>
    have : refreshes e s (x :: rs) = refreshes e (refresh e x.1 x.2 s) rs := rfl
    rw [this]
    exact ih _ ((refresh_slurm_none e x.1 x.2 (h x List.mem_cons_self) s).trans h0) (fun y hy => h y (List.mem_cons_of_mem _ hy))

/-- Once a SLURM file was loaded, there is one at all later times (then `C53_served_partial` says that it is applied). Missing: before the first one was loaded. -/
theorem C82_kept_partial (e : Env) (s : UState) (h0 : s.slurm ≠ none) (rs : List (Times × Fetched)) : (refreshes e s rs).slurm ≠ none := by
  induction rs generalizing s with
  | nil => exact h0
  | cons x rs ih =>
    have : refreshes e s (x :: rs) = refreshes e (refresh e x.1 x.2 s) rs := rfl
    rw [this]
    refine ih _ ?_
    unfold refresh
    simp only
    rw [(afterFetch_keeps ..).2.1]
    unfold fetchBoth
    cases hf : x.2.slurm with
    | none => simp only; rw [(updateFile_frame ..).2.1]; exact h0
    | some y =>
      simp only
      rw [(updateFile_frame ..).2.1, updateSlurm_eq]
      simp only
      split
      · exact h0
      · split
        · exact h0
        · split
          · exact h0
          · nofun

example : (startup (exEnv false) (exAt 0) ⟨exFile, .file (some [8]), some ("slurm.json".toList, .file (some [1]))⟩ exInit).slurm ≠ none := by decide +kernel

end StayRTR
