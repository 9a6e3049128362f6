import Verif.Model.Registry
import Verif.Proofs.Json
import Verif.Props.Metrics
import Verif.Props.Report

/-!
C169: recording a metric does not end the program, and every series has the labels it is documented with.
-/

namespace StayRTR
open Spec

namespace Spec

/-- A text in UTF-8. -/
def IsText (b : Bytes) : Prop := ∃ s, Utf8 b s

/-- A series by its name and its labels. -/
def series (name : String) (labels : List (String × Bytes)) : Labelled := ⟨name.toList, labels.map fun x => (x.1.toList, x.2)⟩

/-- A word of the program as the value of a label. -/
def word (s : String) : Bytes := utf8Str s.toList

/-- The series of a load from the file `path`. -/
def LoadSeries (path : Bytes) : List Labelled :=
  [series "rpki_objects" [("type", word "bgpsec_pubkeys")], series "rpki_objects" [("type", word "vrps")], series "rpki_objects" [("type", word "effective_vrps")],
   series "rpki_vrps" [("ip_version", word "ipv4"), ("filtered", word "filtered"), ("path", path)], series "rpki_vrps" [("ip_version", word "ipv4"), ("filtered", word "unfiltered"), ("path", path)],
   series "rpki_vrps" [("ip_version", word "ipv6"), ("filtered", word "filtered"), ("path", path)], series "rpki_vrps" [("ip_version", word "ipv6"), ("filtered", word "unfiltered"), ("path", path)],
   series "rpki_change" [("path", path)]]

/-- The series of a comparison of two sources, started by the first or the second, for the thresholds `ts`. -/
def ComparisonSeries (second : Bool) (url1 url2 : Bytes) (ts : List Int) : List Labelled :=
  [series "rpki_vrps" [("server", word "primary"), ("url", url1), ("type", word "total")], series "rpki_vrps" [("server", word "primary"), ("url", url1), ("type", word "diff")],
   series "rpki_vrps" [("server", word "secondary"), ("url", url2), ("type", word "total")], series "rpki_vrps" [("server", word "secondary"), ("url", url2), ("type", word "diff")]] ++
  (ts.flatMap fun t =>
    [series "vrp_diff" [("lhs_url", url1), ("rhs_url", url2), ("visibility_seconds", utf8Str (intStr t))], series "vrp_diff" [("lhs_url", url2), ("rhs_url", url1), ("visibility_seconds", utf8Str (intStr t))]]) ++
  [series "rtr_serial" [("server", word "primary"), ("url", url1)], series "rtr_serial" [("server", word "secondary"), ("url", url2)],
   series "rtr_session" [("server", word "primary"), ("url", url1)], series "rtr_session" [("server", word "secondary"), ("url", url2)],
   if second then series "update" [("server", word "secondary"), ("url", url2)] else series "update" [("server", word "primary"), ("url", url1)]]

end Spec

/-! ## Texts -/

theorem utf8Char_len {x : U8} {r r' : Bytes} {c c' : Char} (h : Utf8Char (x :: r) c) (h' : Utf8Char (x :: r') c') : r.length = r'.length := by
  cases h <;> cases h' <;> first | rfl | (exfalso; omega)

theorem validUtf8_skip (a l : Bytes) : validUtf8 a.length (a ++ l) = validUtf8 0 l := by
  induction a with
  | nil => rfl
  | cons x a ih => exact ih

theorem validUtf8_char {b : Bytes} {c : Char} (h : Utf8Char b c) (l : Bytes) : validUtf8 0 (b ++ l) = validUtf8 0 l := by
  cases b with
  | nil => cases h
  | cons x r =>
    rw [List.cons_append, validUtf8]
    rcases decodeRune_sound x (r ++ l) with h1 | ⟨r', l', he, hl, hc⟩
    · exact absurd h (decodeRune_bad h1 (x :: r) l c rfl)
    · obtain ⟨rfl, rfl⟩ := List.append_inj he (utf8Char_len h hc)
      have hb : decodeRune x (r ++ l) ≠ (runeError, 0) := fun h1 => decodeRune_bad h1 (x :: r) l c rfl h
      rw [← hl, validUtf8_skip, decide_eq_true hb, Bool.true_and]

/-- `utf8.ValidString` tells whether a string is in UTF-8. -/
theorem validUtf8_iff (b : Bytes) : validUtf8 0 b = true ↔ IsText b := by
  constructor
  · intro h
    generalize hn : b.length = n
    induction n using Nat.strongRecOn generalizing b with
    | _ n ih =>
      cases b with
      | nil => exact ⟨[], .nil⟩
      | cons x l =>
        rw [validUtf8, Bool.and_eq_true, decide_eq_true_eq] at h
        rcases decodeRune_sound x l with h1 | ⟨r, l', rfl, hl, hc⟩
        · exact absurd h1 h.1
        · rw [← hl, validUtf8_skip] at h
          obtain ⟨s, hs⟩ := ih l'.length (by simp at hn; omega) l' h.2 rfl
          exact ⟨_, .cons (b := x :: r) hc hs⟩
  · rintro ⟨s, h⟩
    induction h with
    | nil => rfl
    | cons hc _ ih => rw [validUtf8_char hc, ih]

theorem validUtf8_str (s : Str) : validUtf8 0 (utf8Str s) = true := (validUtf8_iff _).2 ⟨s, utf8_str s⟩

/-! ## C169 -/

/-- All metrics of both programs can be registered: their names are allowed and different. -/
theorem C169_registered : mustRegisterAll [] stayrtrMetrics = .ok stayrtrMetrics ∧ mustRegisterAll [] rtrmonMetrics = .ok rtrmonMetrics :=
  ⟨by decide +kernel, by decide +kernel⟩

theorem withOne (n l : Str) {v : Bytes} (h : validUtf8 0 v = true) : (MetricDesc.mk n [l]).withLabelValues [v] = .ok ⟨n, [(l, v)]⟩ := by simp [MetricDesc.withLabelValues, h]

theorem withTwo (n l1 l2 : Str) {v1 v2 : Bytes} (h1 : validUtf8 0 v1 = true) (h2 : validUtf8 0 v2 = true) : (MetricDesc.mk n [l1, l2]).withLabelValues [v1, v2] = .ok ⟨n, [(l1, v1), (l2, v2)]⟩ := by
  simp [MetricDesc.withLabelValues, h1, h2]

theorem withThree (n l1 l2 l3 : Str) {v1 v2 v3 : Bytes} (h1 : validUtf8 0 v1 = true) (h2 : validUtf8 0 v2 = true) (h3 : validUtf8 0 v3 = true) :
    (MetricDesc.mk n [l1, l2, l3]).withLabelValues [v1, v2, v3] = .ok ⟨n, [(l1, v1), (l2, v2), (l3, v3)]⟩ := by
  simp [MetricDesc.withLabelValues, h1, h2, h3]

theorem recordAll_ok {cs : List (GoRes Labelled)} {l : List Labelled} (h : cs = l.map .ok) : recordAll cs = .ok l := by
  subst h
  induction l with
  | nil => rfl
  | cons x l ih => rw [List.map_cons, recordAll, ih]; rfl

theorem updateMetrics_ok {path : Bytes} (h : validUtf8 0 path = true) : recordAll (updateMetricsCalls path) = .ok (LoadSeries path) := by
  apply recordAll_ok
  unfold updateMetricsCalls numberOfObjects numberOfVRPs lastChangeMetric
  rw [withOne _ _ (validUtf8_str _), withOne _ _ (validUtf8_str _), withOne _ _ (validUtf8_str _), withThree _ _ _ _ (validUtf8_str _) (validUtf8_str _) h, withThree _ _ _ _ (validUtf8_str _) (validUtf8_str _) h,
    withThree _ _ _ _ (validUtf8_str _) (validUtf8_str _) h, withThree _ _ _ _ (validUtf8_str _) (validUtf8_str _) h, withOne _ _ h]
  rfl

theorem fetchCalls_ok {path : Bytes} (h : validUtf8 0 path = true) (r : FetchResult) : ∃ l, recordAll (fetchCalls path r) = .ok l := by
  unfold fetchCalls lastRefreshMetric refreshStatusCode
  rw [withOne _ _ h, withTwo _ _ _ h (validUtf8_str _)]
  split
  · exact ⟨_, rfl⟩
  · split <;> split <;> exact ⟨_, rfl⟩

theorem zip_fst_snd {α β : Type} : ∀ l : List (α × β), (l.map Prod.fst).zip (l.map Prod.snd) = l
  | [] => rfl
  | a :: l => by simp [zip_fst_snd l]

/-- **C169.** Values are taken if there is one for each label and all are UTF-8, and belong to the labels in the order of the declaration; anything else is a panic. -/
theorem C169_values (d : MetricDesc) (vals : List Bytes) (x : Labelled) :
    (d.withLabelValues vals = .ok x ↔ (∀ v ∈ vals, IsText v) ∧ x.name = d.name ∧ x.labels.map Prod.fst = d.labels ∧ x.labels.map Prod.snd = vals) ∧ (d.withLabelValues vals = .panic ↔ vals.length ≠ d.labels.length ∨ ∃ v ∈ vals, ¬ IsText v) := by
  have hall : vals.all (validUtf8 0) = true ↔ ∀ v ∈ vals, IsText v := by simp [List.all_eq_true, validUtf8_iff]
  have hd : d.withLabelValues vals = .ok ⟨d.name, d.labels.zip vals⟩ ∧ vals.length = d.labels.length ∧ (∀ v ∈ vals, IsText v) ∨ d.withLabelValues vals = .panic ∧ ¬ (vals.length = d.labels.length ∧ ∀ v ∈ vals, IsText v) := by
    unfold MetricDesc.withLabelValues
    by_cases hc : vals.length = d.labels.length ∧ vals.all (validUtf8 0) = true
    · exact .inl ⟨if_pos hc, hc.1, hall.1 hc.2⟩
    · exact .inr ⟨if_neg hc, fun h => hc ⟨h.1, hall.2 h.2⟩⟩
  rcases hd with ⟨hd, hl, ht⟩ | ⟨hd, hn⟩
  · rw [hd]
    refine ⟨⟨fun h => ?_, fun ⟨_, h2, h3, h4⟩ => ?_⟩, (fun h => by cases h), ?_⟩
    · injection h with h
      rw [← h]
      exact ⟨ht, rfl, List.map_fst_zip (by omega), List.map_snd_zip (by omega)⟩
    · obtain ⟨n, ls⟩ := x
      simp only at h2 h3 h4
      subst h2
      rw [← h3, ← h4]
      congr 2
      exact zip_fst_snd ls
    · rintro (h | ⟨v, hv, h⟩)
      · exact absurd hl h
      · exact absurd (ht v hv) h
  · rw [hd]
    refine ⟨⟨(fun h => by cases h), fun ⟨h1, _, h3, h4⟩ => absurd ⟨?_, h1⟩ hn⟩, fun _ => ?_, fun _ => rfl⟩
    · rw [← h3, ← h4]; simp
    · by_contra h0
      rw [not_or, not_not] at h0
      exact hn ⟨h0.1, fun v hv => by by_contra h1; exact h0.2 ⟨v, hv, h1⟩⟩

/-- **C169.** What a fetch is to record, if it does: the time and the HTTP status, with the name of the file and the status under the labels that are declared for them. -/
theorem C169_fetch_partial {path : Bytes} (h : IsText path) (r : FetchResult) : recordAll (fetchCalls path r) = .ok (if r.err = none then
    (if r.lastRefresh then [series "rpki_refresh" [("path", path)]] else []) ++ (if r.code = -1 then [] else [series "refresh_requests_total" [("path", path), ("code", utf8Str (intStr r.code))]]) else []) := by
  have h := (validUtf8_iff _).2 h
  unfold fetchCalls lastRefreshMetric refreshStatusCode
  rw [withOne _ _ h, withTwo _ _ _ h (validUtf8_str _)]
  cases r.err with
  | some _ => rfl
  | none =>
    simp only [if_true]
    by_cases h1 : r.lastRefresh = true <;> by_cases h2 : r.code = -1 <;> simp only [h1, h2, if_true, if_false, ne_eq, not_true, not_false_eq_true] <;> rfl

theorem fetchCalls_none (c : FetchConfig) (file : Str) (o : Outcome) (path : Bytes) : recordAll (fetchCalls path (c.fetchFile file o).2) = .ok [] := by
  unfold fetchCalls
  cases h : (c.fetchFile file o).2.err with
  | some _ => rfl
  | none =>
    obtain ⟨h1, h2⟩ := fetchFile_quiet c file o h
    simp only [h1, h2]
    rfl

theorem fetchBothM_ok (e : Env) (cache slurm : Bytes) (t : Times) (f : Fetched) (s : UState) : fetchBothM e cache slurm t f s = .ok (fetchBoth e t f s) := by
  unfold fetchBothM
  cases f.slurm with
  | none => simp only [fetchCalls_none, bind, GoRes.bind, pure]
  | some x => simp only [fetchCalls_none, bind, GoRes.bind, pure]

theorem applyUpdateM_ok {e : Env} {cache : Bytes} (h : IsText cache ∨ e.metrics = false) (r : Processed) (vs : List VRPJson) (ks : List BgpSecKeyJson) (s : UState) :
    applyUpdateM e cache r vs ks s = .ok (applyUpdate e r vs ks s) := by
  unfold applyUpdateM
  rcases h with h | h
  · rw [updateMetrics_ok ((validUtf8_iff _).2 h)]
    split <;> rfl
  · rw [h, Bool.and_false]; rfl

theorem updateFromNewStateM_ok {e : Env} {cache : Bytes} (h : IsText cache ∨ e.metrics = false) (check proc : Int) (s : UState) :
    updateFromNewStateM e cache check proc s = .ok (updateFromNewState e check proc s) := by
  unfold updateFromNewStateM updateFromNewState
  cases s.lastdata.roas with
  | none => rfl
  | some vs =>
    dsimp only
    cases ageCheck e check s.lastdata.metadata with
    | fine => dsimp only; rw [applyUpdateM_ok h]; rfl
    | unreadable => rfl
    | tooOld => rfl

theorem reloadFromCurrentStateM_ok {e : Env} {cache : Bytes} (h : IsText cache ∨ e.metrics = false) (check proc : Int) (s : UState) :
    reloadFromCurrentStateM e cache check proc s = .ok (reloadFromCurrentState e check proc s) := by
  unfold reloadFromCurrentStateM reloadFromCurrentState
  cases s.lastdata.roas with
  | none => rfl
  | some vs =>
    dsimp only
    cases ageCheck e check s.lastdata.metadata with
    | fine =>
      dsimp only
      rw [applyUpdateM_ok h]
      split <;> rfl
    | unreadable => rfl
    | tooOld => rfl

/-- Whatever is fetched: loading and refreshing go on as if no metrics were recorded, if the name of the cache file is UTF-8 or there are no metrics; and the series are these. The name of the SLURM file does not matter.
Missing: other names of the cache file, see `C169_path_false`. -/
theorem C169_server_partial {e : Env} {cache : Bytes} (h : IsText cache ∨ e.metrics = false) (slurm : Bytes) (t : Times) (f : Fetched) (s : UState) :
    startupM e cache slurm t f s = .ok (startup e t f s) ∧ refreshM e cache slurm t f s = .ok (refresh e t f s) ∧
    (IsText cache → recordAll (updateMetricsCalls cache) = .ok (LoadSeries cache)) := by
  refine ⟨?_, ?_, fun h => updateMetrics_ok ((validUtf8_iff _).2 h)⟩
  · unfold startupM startup
    rw [fetchBothM_ok]
    simp only [bind, GoRes.bind, updateFromNewStateM_ok h]
    rfl
  · unfold refreshM refresh afterFetchM afterFetch
    rw [fetchBothM_ok]
    simp only [bind, GoRes.bind, updateFromNewStateM_ok h, reloadFromCurrentStateM_ok h]
    split <;> rfl

theorem updateMetrics_panic {path : Bytes} (h : ¬ IsText path) : recordAll (updateMetricsCalls path) = .panic := by
  have h' : validUtf8 0 path = false := by
    cases hv : validUtf8 0 path with
    | false => rfl
    | true => exact absurd ((validUtf8_iff _).1 hv) h
  unfold updateMetricsCalls numberOfObjects numberOfVRPs
  rw [withOne _ _ (validUtf8_str _), withOne _ _ (validUtf8_str _), withOne _ _ (validUtf8_str _)]
  have : ∀ (n l1 l2 l3 : Str) (v1 v2 : Bytes), (MetricDesc.mk n [l1, l2, l3]).withLabelValues [v1, v2, path] = .panic := by
    intro n l1 l2 l3 v1 v2
    simp [MetricDesc.withLabelValues, h']
  rw [this]
  rfl

/-- A cache file whose name is not UTF-8: with metrics the first load that is to be served ends the program; without metrics the same load is served. -/
theorem C169_path_false {e : Env} {cache : Bytes} (h : ¬ IsText cache) (slurm : Bytes) (t : Times) (f : Fetched) (s : UState) (hs : (startup e t f s).store ≠ s.store) :
    (e.metrics = true → startupM e cache slurm t f s = .panic) ∧ startupM { e with metrics := false } cache slurm t f s = .ok (startup { e with metrics := false } t f s) := by
  refine ⟨fun hm => ?_, (C169_server_partial (.inr rfl) slurm t f s).1⟩
  unfold startupM
  rw [fetchBothM_ok]
  have hst : (fetchBoth e t f s).1.store = s.store := (fetchBoth_frame e t f s).1.1
  have : (updateFromNewState e t.check t.proc (fetchBoth e t f s).1).1.store ≠ (fetchBoth e t f s).1.store := by
    rw [hst]; exact hs
  simp only [bind, GoRes.bind]
  generalize (fetchBoth e t f s).1 = s1 at *
  unfold updateFromNewState at this
  unfold updateFromNewStateM
  cases hr : s1.lastdata.roas with
  | none => rw [hr] at this; exact absurd rfl this
  | some vs =>
    rw [hr] at this
    dsimp only at this ⊢
    cases ha : ageCheck e t.check s1.lastdata.metadata with
    | fine =>
      rw [ha] at this
      dsimp only at this ⊢
      rw [applyUpdate_store] at this
      have hc : (s1.store.addData (processData e.wide e.sort (unix t.proc) (applySlurm e s1.slurm vs s1.lastdata.keys).1 (applySlurm e s1.slurm vs s1.lastdata.keys).2).sds).2 = true := by
        generalize (processData e.wide e.sort (unix t.proc) (applySlurm e s1.slurm vs s1.lastdata.keys).1 (applySlurm e s1.slurm vs s1.lastdata.keys).2).sds = l at this ⊢
        unfold Store.addData at this ⊢
        dsimp only at this ⊢
        split
        · rename_i h0; rw [if_pos h0] at this; exact absurd rfl this
        · rfl
      unfold applyUpdateM
      rw [hc, hm, updateMetrics_panic h]
      rfl
    | unreadable => rw [ha] at this; exact absurd rfl this
    | tooOld => rw [ha] at this; exact absurd rfl this

example : ¬ IsText [0xff] ∧ (startup (exEnv false) (exAt 0) (exGet [1]) exInit).store ≠ exInit.store ∧ (exEnv false).metrics = true ∧ IsText (word "rpki.json") := by
  refine ⟨fun h => absurd ((validUtf8_iff _).2 h) (by decide), ?_, rfl, _, utf8_str _⟩
  rw [exS1_eq]
  intro h
  exact absurd (congrArg (fun s => s.current.length) h) (by decide)

/-- Nothing that a router sends ends the program: every PDU of every type is counted under the name of its type. -/
theorem C169_routers (p : Pdu) : handlePduCall p.getType = .ok (series "rtr_pdus" [("type", utf8Str (pduLabel p.getType))]) := by
  unfold handlePduCall pdusRecv
  rw [withOne _ _ (validUtf8_str _)]
  rfl

/-- Connections are counted under the local address. Missing: addresses whose text is not UTF-8 (the zone of an IPv6 address is the name of an interface). -/
theorem C169_clients_partial {addr : Bytes} (h : IsText addr) : clientCall addr = .ok (series "rtr_clients" [("bind", addr)]) := by
  unfold clientCall clientsMetric
  rw [withOne _ _ ((validUtf8_iff _).2 h)]
  rfl

example : IsText (word "[fe80::1%eth0]:8282") := ⟨_, utf8_str _⟩

/-! ## rtrmon -/

theorem labelsOne (n l : Str) {v : Bytes} (h : validUtf8 0 v = true) : (MetricDesc.mk n [l]).withLabels [(l, v)] = .ok ⟨n, [(l, v)]⟩ := by
  simp [MetricDesc.withLabels, h, List.lookup]

theorem labelsTwo (n : Str) {l1 l2 : Str} {v1 v2 : Bytes} (hl : l2 ≠ l1) (h1 : validUtf8 0 v1 = true) (h2 : validUtf8 0 v2 = true) :
    (MetricDesc.mk n [l1, l2]).withLabels [(l1, v1), (l2, v2)] = .ok ⟨n, [(l1, v1), (l2, v2)]⟩ := by
  simp [MetricDesc.withLabels, h1, h2, List.lookup, beq_false_of_ne hl]

theorem labelsThree (n : Str) {l1 l2 l3 : Str} {v1 v2 v3 : Bytes} (h21 : l2 ≠ l1) (h31 : l3 ≠ l1) (h32 : l3 ≠ l2) (h1 : validUtf8 0 v1 = true) (h2 : validUtf8 0 v2 = true) (h3 : validUtf8 0 v3 = true) :
    (MetricDesc.mk n [l1, l2, l3]).withLabels [(l1, v1), (l2, v2), (l3, v3)] = .ok ⟨n, [(l1, v1), (l2, v2), (l3, v3)]⟩ := by
  simp [MetricDesc.withLabels, h1, h2, h3, List.lookup, beq_false_of_ne h21, beq_false_of_ne h31, beq_false_of_ne h32]

theorem compareCalls_eq {id : Int} (hid : id = 1 ∨ id = 2) {url1 url2 : Bytes} (h1 : validUtf8 0 url1 = true) (h2 : validUtf8 0 url2 = true) (ts : List Int) :
    compareCalls id url1 url2 ts = (ComparisonSeries (decide (id = 2)) url1 url2 ts).map .ok := by
  have src : ∀ (n w : Str) {u : Bytes}, validUtf8 0 u = true → (MetricDesc.mk n ["server".toList, "url".toList]).withLabels (sourceLabels w u) = .ok ⟨n, [("server".toList, utf8Str w), ("url".toList, u)]⟩ :=
    fun n w u h => labelsTwo n (by decide) (validUtf8_str w) h
  have cnt : ∀ (w k : Str) {u : Bytes}, validUtf8 0 u = true → vrpCount.withLabels (sourceLabels w u ++ [("type".toList, utf8Str k)]) =
      .ok ⟨"rpki_vrps".toList, [("server".toList, utf8Str w), ("url".toList, u), ("type".toList, utf8Str k)]⟩ :=
    fun w k u h => labelsThree _ (by decide) (by decide) (by decide) (validUtf8_str w) h (validUtf8_str k)
  have dif : ∀ (t : Int) {u u' : Bytes}, validUtf8 0 u = true → validUtf8 0 u' = true →
      vrpDifferenceForDuration.withLabels [("lhs_url".toList, u), ("rhs_url".toList, u'), ("visibility_seconds".toList, utf8Str (intStr t))] =
      .ok ⟨"vrp_diff".toList, [("lhs_url".toList, u), ("rhs_url".toList, u'), ("visibility_seconds".toList, utf8Str (intStr t))]⟩ :=
    fun t u u' h h' => labelsThree _ (by decide) (by decide) (by decide) h h' (validUtf8_str _)
  unfold compareCalls rtrSerialMetric rtrSessionMetric lastUpdateMetric
  simp only [cnt _ _ h1, cnt _ _ h2, dif _ h1 h2, dif _ h2 h1, src _ _ h1, src _ _ h2]
  unfold ComparisonSeries
  rw [List.map_append, List.map_append, List.map_flatMap, List.append_assoc, List.append_assoc, List.append_assoc]
  congr 1
  congr 1
  rcases hid with rfl | rfl <;> rfl

/-- Every comparison of rtrmon, started by either source, records these series, whatever the thresholds; likewise the entries in the grace period and the states of the sessions.
Missing: names of sources that are not UTF-8, see `C169_source_false`. -/
theorem C169_rtrmon_partial {url1 url2 : Bytes} (h1 : IsText url1) (h2 : IsText url2) (second : Bool) (ts : List Int) :
    recordAll (compareCalls (if second then 2 else 1) url1 url2 ts) = .ok (ComparisonSeries second url1 url2 ts) ∧
    graceCall url1 = .ok (series "rpki_grace_period_vrps" [("url", url1)]) ∧
    stateCall (if second then 2 else 1) url1 = .ok (series "rtr_state" [("server", word (if second then "secondary" else "primary")), ("url", url1)]) := by
  have h1 := (validUtf8_iff _).2 h1
  have h2 := (validUtf8_iff _).2 h2
  refine ⟨?_, labelsOne _ _ h1, ?_⟩
  · apply recordAll_ok
    rw [compareCalls_eq (by cases second <;> simp) h1 h2]
    cases second <;> rfl
  · cases second
    · exact labelsTwo _ (by decide) (validUtf8_str _) h1
    · exact labelsTwo _ (by decide) (validUtf8_str _) h1

/-- A source whose name is not UTF-8 ends rtrmon: with its first file, its first session, or the first comparison. -/
theorem C169_source_false {url : Bytes} (h : ¬ IsText url) : graceCall url = .panic ∧ (∀ id, stateCall id url = .panic) ∧ ∀ id other ts, recordAll (compareCalls id url other ts) = .panic := by
  have h' : validUtf8 0 url = false := by
    cases hv : validUtf8 0 url with
    | false => rfl
    | true => exact absurd ((validUtf8_iff _).1 hv) h
  have bad : ∀ (d : MetricDesc) (m : List (Str × Bytes)), (∃ x ∈ m, x.2 = url) → d.withLabels m = .panic := by
    rintro d m ⟨x, hx, he⟩
    unfold MetricDesc.withLabels
    rw [if_neg]
    rintro ⟨_, ha, _⟩
    have := List.all_eq_true.1 ha x hx
    rw [he, h'] at this
    cases this
  refine ⟨bad _ _ ⟨_, List.mem_singleton_self _, rfl⟩, fun id => bad _ _ ⟨_, List.mem_cons_of_mem _ (List.mem_singleton_self _), rfl⟩, fun id other ts => ?_⟩
  unfold compareCalls
  rw [bad vrpCount (sourceLabels "primary".toList url ++ _) ⟨("url".toList, url), by simp [sourceLabels], rfl⟩]
  rfl

example : ¬ IsText [0xc3] ∧ IsText (word "tcp://rtr.example.org:8282") ∧ IsText (word "https://example.org/rpki.json") :=
  ⟨fun h => absurd ((validUtf8_iff _).2 h) (by decide), ⟨_, utf8_str _⟩, ⟨_, utf8_str _⟩⟩

end StayRTR
