import Verif.Model.MonMetrics
import Verif.Proofs.ParsePrint
import Verif.Props.MonSys
import Verif.Props.MonGo

/-! C140, C141: the metrics of rtrmon. -/

namespace StayRTR

open Spec MonMap RefMap

/-! ## C140: the series of a comparison -/

theorem intStr_inj {a b : Int} (h : intStr a = intStr b) : a = b := by
  have dec : ∀ {n m : Nat}, decStr n = decStr m → n = m := by
    intro n m e
    have := parseDec_decStr n
    rw [e, parseDec_decStr] at this
    exact (Option.some.inj this).symm
  have minus : ∀ {n m : Nat}, '-' :: decStr n ≠ decStr m := by
    intro n m e
    have := decStr_digits m '-' (by rw [← e]; exact List.mem_cons_self)
    revert this; unfold IsDigit; decide
  unfold intStr at h
  split at h <;> split at h
  · have := dec (List.cons.inj h).2; omega
  · exact absurd h minus
  · exact absurd h.symm minus
  · have := dec h; omega

theorem MonGauges.setAll_other {l : List (MonSeries × Int)} {s : MonSeries} (h : ∀ v, (s, v) ∉ l) (g : MonGauges) : g.setAll l s = g s := by
  induction l generalizing g with
  | nil => rfl
  | cons x l ih =>
    unfold MonGauges.setAll
    rw [List.foldl_cons]
    show (g.set x.1 x.2).setAll l s = g s
    rw [ih (fun v hv => h v (List.mem_cons_of_mem _ hv))]
    unfold MonGauges.set
    rw [if_neg]
    rintro rfl
    exact h x.2 List.mem_cons_self

theorem MonGauges.setAll_get {l : List (MonSeries × Int)} {s : MonSeries} {v : Int} (hm : (s, v) ∈ l) (h : ∀ v', (s, v') ∈ l → v' = v) (g : MonGauges) : g.setAll l s = some v := by
  induction l generalizing g with
  | nil => cases hm
  | cons x l ih =>
    show (g.set x.1 x.2).setAll l s = some v
    by_cases hl : ∃ v', (s, v') ∈ l
    · obtain ⟨v', hv'⟩ := hl
      have := h v' (List.mem_cons_of_mem _ hv')
      subst this
      exact ih hv' (fun v hv => h v (List.mem_cons_of_mem _ hv)) _
    · rw [MonGauges.setAll_other (fun v hv => hl ⟨v, hv⟩)]
      rcases List.mem_cons.1 hm with rfl | hm
      · simp [MonGauges.set]
      · exact absurd ⟨v, hm⟩ hl

/-- A source keeps its URL. -/
def KeepsPath (work : Work) : Prop := ∀ h c h' c', work h c h' c' → c'.path = c.path

theorem codeWork_path (wide : WideFloat) (grace : Int) : KeepsPath (CodeWork wide grace) := by
  intro h c h' c' hw
  rcases hw with hw | ⟨now, p, e⟩
  · cases hw <;> rfl
  · have : c' = (refPdu now h c p).2 := by rw [← e]
    subst this
    unfold refPdu
    split <;> (try unfold refRecord) <;> (try split) <;> rfl

/-- What the metadata of a comparison under way say. -/
def CompUrls (path : Bool → Str) : CompPhase → Prop
  | .waiting => True
  | .got _ => True
  | .one _ _ md1 => md1.url = path false
  | .diff1 _ _ md1 _ md2 _ _ => md1.url = path false ∧ md2.url = path true
  | .diff2 _ _ md1 _ md2 _ _ _ => md1.url = path false ∧ md2.url = path true

/-- The series of a report. -/
structure SeriesOf (path : Bool → Str) (g : MonGauges) (r : RefReport) : Prop where
  total1 : g (.vrps (serverName false) (path false) "total".toList) = some (r.total1 : Int)
  diff1 : g (.vrps (serverName false) (path false) "diff".toList) = some (r.diff1 : Int)
  total2 : g (.vrps (serverName true) (path true) "total".toList) = some (r.total2 : Int)
  diff2 : g (.vrps (serverName true) (path true) "diff".toList) = some (r.diff2 : Int)
  serial1 : g (.rtrSerial (serverName false) (path false)) = some (r.md1.serial.toNat : Int)
  serial2 : g (.rtrSerial (serverName true) (path true)) = some (r.md2.serial.toNat : Int)
  session1 : g (.rtrSession (serverName false) (path false)) = some (r.md1.sessionID.toNat : Int)
  session2 : g (.rtrSession (serverName true) (path true)) = some (r.md2.sessionID.toNat : Int)
  unmatched1 : path false ≠ path true → ∀ u ∈ r.unmatched, g (.vrpDiff (path false) (path true) (intStr u.1)) = some (u.2.1 : Int)
  unmatched2 : ∀ u ∈ r.unmatched, g (.vrpDiff (path true) (path false) (intStr u.1)) = some (u.2.2 : Int)

theorem serverName_ne : serverName false ≠ serverName true := by decide

theorem seriesOf_writes {path : Bool → Str} {r : RefReport} (h1 : r.md1.url = path false) (h2 : r.md2.url = path true) (hf : ∀ u ∈ r.unmatched, ∀ u' ∈ r.unmatched, u.1 = u'.1 → u = u') (id : Bool) (g : MonGauges) :
    SeriesOf path (g.setAll (compareWrites id r)) r := by
  have n1 := serverName_ne
  unfold compareWrites
  rw [h1, h2]
  have n1' := n1.symm
  constructor
  case unmatched1 =>
    intro hne u hu
    have hne' := hne.symm
    refine MonGauges.setAll_get ?_ ?_ g
    · refine List.mem_append_left _ (List.mem_append_right _ (List.mem_flatMap.2 ⟨u, hu, ?_⟩))
      exact List.mem_cons_self
    · intro v' hv'
      rcases List.mem_append.1 hv' with hv' | hv'
      · rcases List.mem_append.1 hv' with hv' | hv'
        · simp at hv'
        · obtain ⟨u', hu', e⟩ := List.mem_flatMap.1 hv'
          simp only [List.mem_cons, Prod.mk.injEq, MonSeries.vrpDiff.injEq, true_and, List.not_mem_nil, or_false, hne, false_and] at e
          rw [hf u hu u' hu' (intStr_inj e.1)]
          exact e.2
      · cases id <;> simp at hv'
  case unmatched2 =>
    intro u hu
    -- the second of the two settings for a threshold is the last
    have key : ∀ (l : List (Int × Nat × Nat)) (g : MonGauges), (∀ x ∈ l, x ∈ r.unmatched) → (u ∈ l ∨ g (.vrpDiff (path true) (path false) (intStr u.1)) = some (u.2.2 : Int)) →
        g.setAll (l.flatMap fun u => [(MonSeries.vrpDiff (path false) (path true) (intStr u.1), (u.2.1 : Int)), (MonSeries.vrpDiff (path true) (path false) (intStr u.1), (u.2.2 : Int))])
          (.vrpDiff (path true) (path false) (intStr u.1)) = some (u.2.2 : Int) := by
      intro l
      induction l with
      | nil => intro g _ hg; rcases hg with hg | hg; cases hg; exact hg
      | cons x l ih =>
        intro g hl hg
        rw [List.flatMap_cons]
        show ((g.set _ _).set _ _).setAll _ _ = _
        refine ih _ (fun y hy => hl y (List.mem_cons_of_mem _ hy)) ?_
        by_cases hx : intStr u.1 = intStr x.1
        · have := hf u hu x (hl x List.mem_cons_self) (intStr_inj hx)
          subst this
          right
          simp [MonGauges.set]
        · rcases hg with hg | hg
          · rcases List.mem_cons.1 hg with e | hg
            · exact absurd (by rw [e]) hx
            · exact .inl hg
          · right; simp [MonGauges.set, hx, hg]
    have split : ∀ (g : MonGauges) (l1 l2 : List (MonSeries × Int)), g.setAll (l1 ++ l2) = (g.setAll l1).setAll l2 := by intro g l1 l2; unfold MonGauges.setAll; rw [List.foldl_append]
    rw [split, split, MonGauges.setAll_other]
    · exact key r.unmatched _ (fun x hx => hx) (.inl hu)
    · intro v hv
      cases id <;> simp at hv
  all_goals
    refine MonGauges.setAll_get (by simp) ?_ g
    intro v' hv'
    cases id <;> simp [n1, n1'] at hv' <;> assumption

theorem after_same {g : MonGauges} {s s' : MonSys} (h : s'.comp = s.comp) : g.after s s' = g := by
  unfold MonGauges.after
  rw [h]
  cases s.comp <;> rfl

theorem after_start {g : MonGauges} {s s' : MonSys} (h : ∀ id m1 md1 m2 md2 o t a, s.comp ≠ .diff2 id m1 md1 m2 md2 o t a) : g.after s s' = g := by
  unfold MonGauges.after
  cases hc : s.comp with
  | diff2 id m1 md1 m2 md2 o t a => exact absurd hc (h _ _ _ _ _ _ _ _)
  | _ => rfl

theorem after_mid {g : MonGauges} {s s' : MonSys} (h : s'.comp ≠ .waiting) : g.after s s' = g := by
  unfold MonGauges.after
  cases hc : s.comp <;> cases hc' : s'.comp <;> first | rfl | exact absurd hc' h

/-- The invariant of runs with gauges. -/
structure GaugeInv (path : Bool → Str) (s : MonSys) (g : MonGauges) : Prop where
  paths : ∀ i, (s.src i).path = path i
  comp : CompUrls path s.comp
  none : s.published = none → g = .init ∧ s.lastUpdate = fun _ => none
  some : ∀ r, s.published = some r → SeriesOf path g r
  update : ∀ i, g (.update (serverName i) (path i)) = s.lastUpdate i

theorem gauge_inv {work : Work} (hw : KeepsPath work) {startedAt : Int} {thresholds : List Int} {path : Bool → Str} {s : MonSys} {g : MonGauges} (h : MonSys.GaugeReach work startedAt thresholds path s g) :
    GaugeInv path s g := by
  induction h with
  | start => exact ⟨fun _ => rfl, trivial, fun _ => ⟨rfl, rfl⟩, fun r hr => by simp [MonSys.start] at hr, fun _ => rfl⟩
  | @step s s' g hr hs ih =>
    obtain ⟨hp, hc, hn, hso, hu⟩ := ih
    cases hs with
    | begin => rw [after_same (by rfl)]; exact ⟨hp, hc, hn, hso, hu⟩
    | work i _ h' c' hx =>
      rw [after_same (by rfl)]
      refine ⟨fun j => ?_, hc, hn, hso, hu⟩
      show (setAt s.src i c' j).path = path j
      unfold setAt
      split
      · rename_i e; rw [hw _ _ _ _ hx, hp, e]
      · exact hp j
    | finish => rw [after_same (by rfl)]; exact ⟨hp, hc, hn, hso, hu⟩
    | meet i _ hw' => rw [after_start (by simp [hw'])]; exact ⟨hp, trivial, hn, hso, hu⟩
    | data1 id hw' => rw [after_start (by simp [hw'])]; exact ⟨hp, hp false, hn, hso, hu⟩
    | data2 id m1 md1 hw' => rw [after_start (by simp [hw'])]; rw [hw'] at hc; exact ⟨hp, ⟨hc, hp true⟩, hn, hso, hu⟩
    | scan1 id m1 md1 m2 md2 x todo acc hw' => rw [after_start (by simp [hw'])]; rw [hw'] at hc; exact ⟨hp, hc, hn, hso, hu⟩
    | next id m1 md1 m2 md2 acc hw' => rw [after_start (by simp [hw'])]; rw [hw'] at hc; exact ⟨hp, hc, hn, hso, hu⟩
    | scan2 id m1 md1 m2 md2 o x todo acc hw' => rw [after_mid (by simp)]; rw [hw'] at hc; exact ⟨hp, hc, hn, hso, hu⟩
    | publish id m1 md1 m2 md2 o1 o2 clock hw' =>
      rw [hw'] at hc
      have hg : g.after s { s with
          comp := .waiting
          published := Option.some (refReport startedAt clock thresholds s.heap m1 md1 m2 md2 o1 o2)
          lastUpdate := setAt s.lastUpdate id (Option.some (if id then md2.lastFetch else md1.lastFetch)) } =
          g.setAll (compareWrites id (refReport startedAt clock thresholds s.heap m1 md1 m2 md2 o1 o2)) := by
        unfold MonGauges.after
        rw [hw']
      rw [hg]
      refine ⟨hp, trivial, by simp, fun r hr => ?_, fun i => ?_⟩
      · simp only [Option.some.injEq] at hr
        subst hr
        refine seriesOf_writes hc.1 hc.2 ?_ id g
        intro u hu u' hu' e
        simp only [refReport, List.mem_map] at hu hu'
        obtain ⟨v, _, rfl⟩ := hu
        obtain ⟨v', _, rfl⟩ := hu'
        simp only at e
        rw [e]
      · have n1 := serverName_ne
        have n1' := n1.symm
        show _ = setAt s.lastUpdate id _ i
        have e1 : (refReport startedAt clock thresholds s.heap m1 md1 m2 md2 o1 o2).md1 = md1 := rfl
        have e2 : (refReport startedAt clock thresholds s.heap m1 md1 m2 md2 o1 o2).md2 = md2 := rfl
        by_cases hi : i = id
        · subst hi
          unfold setAt
          rw [if_pos rfl]
          refine MonGauges.setAll_get ?_ ?_ g
          · unfold compareWrites
            rw [e1, e2, hc.1, hc.2]
            cases i <;> simp
          · intro v' hv'
            unfold compareWrites at hv'
            rw [e1, e2, hc.1, hc.2] at hv'
            cases i <;> simp at hv' <;> simpa using hv'
        · unfold setAt
          rw [if_neg hi, ← hu i]
          refine MonGauges.setAll_other ?_ g
          intro v hv
          unfold compareWrites at hv
          rw [e1, e2, hc.1, hc.2] at hv
          cases i <;> cases id <;> first | exact hi rfl | (simp [n1, n1'] at hv)

theorem gaugeReach_reach {work : Work} {startedAt : Int} {thresholds : List Int} {path : Bool → Str} {s : MonSys} {g : MonGauges} (h : MonSys.GaugeReach work startedAt thresholds path s g) :
    MonSys.Reach work startedAt thresholds path s := by
  induction h with
  | start => exact .start
  | step _ hs ih => exact .step ih hs

/-- Before the first comparison no series exists; after it, in every state of every run, every series of a source shows what the last comparison found for that source, and `update` the time of the last fetch that was compared.
The two series `vrp_diff` of a threshold need two different URLs. -/
theorem C140_series_partial (wide : WideFloat) (grace : Int) {startedAt : Int} {thresholds : List Int} {path : Bool → Str} {s : MonSys} {g : MonGauges}
    (h : MonSys.GaugeReach (CodeWork wide grace) startedAt thresholds path s g) :
    (s.published = none → ∀ x, g x = none) ∧
    (∀ r, s.published = some r →
      g (.vrps "primary".toList (path false) "total".toList) = some (r.total1 : Int) ∧ g (.vrps "primary".toList (path false) "diff".toList) = some (r.diff1 : Int) ∧
      g (.vrps "secondary".toList (path true) "total".toList) = some (r.total2 : Int) ∧ g (.vrps "secondary".toList (path true) "diff".toList) = some (r.diff2 : Int) ∧
      g (.rtrSerial "primary".toList (path false)) = some (r.md1.serial.toNat : Int) ∧ g (.rtrSerial "secondary".toList (path true)) = some (r.md2.serial.toNat : Int) ∧
      g (.rtrSession "primary".toList (path false)) = some (r.md1.sessionID.toNat : Int) ∧ g (.rtrSession "secondary".toList (path true)) = some (r.md2.sessionID.toNat : Int) ∧
      (path false ≠ path true → ∀ u ∈ r.unmatched, g (.vrpDiff (path false) (path true) (intStr u.1)) = some (u.2.1 : Int) ∧ g (.vrpDiff (path true) (path false) (intStr u.1)) = some (u.2.2 : Int))) ∧
    g (.update "primary".toList (path false)) = s.lastUpdate false ∧ g (.update "secondary".toList (path true)) = s.lastUpdate true := by
  have hi := gauge_inv (codeWork_path wide grace) h
  refine ⟨fun hn x => by rw [(hi.none hn).1]; rfl, fun r hr => ?_, hi.update false, hi.update true⟩
  have hs := hi.some r hr
  exact ⟨hs.total1, hs.diff1, hs.total2, hs.diff2, hs.serial1, hs.serial2, hs.session1, hs.session2, fun hne u hu => ⟨hs.unmatched1 hne u hu, hs.unmatched2 u hu⟩⟩

/-- When nothing is going on the gauges describe what the sources show now: the entries, the records that only one of them lists, and the two counts for every threshold that is reported. -/
theorem C140_quiet_partial (wide : WideFloat) (grace : Int) {startedAt : Int} {thresholds : List Int} {path : Bool → Str} {s : MonSys} {g : MonGauges}
    (h : MonSys.GaugeReach (CodeWork wide grace) startedAt thresholds path s g) (hq : Quiet s) (hp : s.published ≠ none) :
    g (.vrps "primary".toList (path false) "total".toList) = some ((shown s false).length : Int) ∧
    g (.vrps "secondary".toList (path true) "total".toList) = some ((shown s true).length : Int) ∧
    g (.rtrSerial "primary".toList (path false)) = some ((s.src false).serial.toNat : Int) ∧ g (.rtrSerial "secondary".toList (path true)) = some ((s.src true).serial.toNat : Int) ∧
    g (.rtrSession "primary".toList (path false)) = some ((s.src false).sessionID.toNat : Int) ∧ g (.rtrSession "secondary".toList (path true)) = some ((s.src true).sessionID.toNat : Int) ∧
    ∃ d1 d2 : MonMap, (∀ k e, d1.get k = some e ↔ OnlyIn (shown s false) (shown s true) k e) ∧ (∀ k e, d2.get k = some e ↔ OnlyIn (shown s true) (shown s false) k e) ∧
      g (.vrps "primary".toList (path false) "diff".toList) = some (d1.length : Int) ∧ g (.vrps "secondary".toList (path true) "diff".toList) = some (d2.length : Int) ∧
      ∃ clock : Int → Int, path false ≠ path true → ∀ v ∈ thresholds, clock v - v ≥ startedAt →
        g (.vrpDiff (path false) (path true) (intStr v)) = some (countUnmatched d1 (shown s true) (clock v - v) : Int) ∧
        g (.vrpDiff (path true) (path false) (intStr v)) = some (countUnmatched d2 (shown s false) (clock v - v) : Int) := by
  rcases C110_quiet (code_sound wide grace) (gaugeReach_reach h) hq with ⟨hn, _⟩ | ⟨r, hr, m1, m2, o1, o2, t1, t2, e1, e2, clock, hun⟩
  · exact absurd hn hp
  · obtain ⟨a1, a2, a3, a4, a5, a6, a7, a8, a9⟩ := (C140_series_partial wide grace h).2.1 r hr
    refine ⟨by rw [a1, t1], by rw [a3, t2], by rw [a5, m1.2.1], by rw [a6, m2.2.1], by rw [a7, m1.2.2.1], by rw [a8, m2.2.2.1], _, _, o1, o2, by rw [a2, e1], by rw [a4, e2], clock, fun hne v hv hc => ?_⟩
    exact a9 hne (v, _, _) (by rw [hun]; exact List.mem_map.2 ⟨v, List.mem_filter.2 ⟨hv, by simpa using hc⟩, rfl⟩)

theorem reach_gauged {work : Work} {startedAt : Int} {thresholds : List Int} {path : Bool → Str} {s : MonSys} (h : MonSys.Reach work startedAt thresholds path s) :
    ∃ g, MonSys.GaugeReach work startedAt thresholds path s g := by
  induction h with
  | start => exact ⟨_, .start⟩
  | step _ hs ih => obtain ⟨g, hg⟩ := ih; exact ⟨_, .step hg hs⟩

/-- The same URL twice. -/
def onePath : Bool → Str := fun _ => exPath false

/-- A run with the same URL twice: the primary source has fetched a file with one VRP, the secondary source none yet, and they have been compared. -/
theorem onePath_run : ∃ s r, MonSys.Reach (CodeWork (fun _ => 0) 3600) 50 [0] onePath s ∧ s.published = some r ∧ r.unmatched = [(0, 1, 0)] := by
  obtain ⟨x, hx⟩ := exSrc_vrps
  have hw : CodeWork (fun _ => 0) 3600 [] (MonSrc.new (exPath false)) exBuilt.1 exSrc := .inl (.file [] (MonSrc.new (exPath false)) [exFileA] [] 100)
  have s1 := MonSys.Reach.step (.start (work := CodeWork (fun _ => 0) 3600) (startedAt := 50) (thresholds := [0]) (path := onePath)) (.begin (MonSys.start onePath) false rfl)
  have s2 := MonSys.Reach.step s1 (.work _ false rfl exBuilt.1 exSrc hw)
  have s3 := MonSys.Reach.step s2 (.finish _ false rfl)
  have s4 := MonSys.Reach.step s3 (.meet _ false rfl rfl)
  have s5 := MonSys.Reach.step s4 (.data1 _ false rfl)
  have s6 := MonSys.Reach.step s5 (.data2 _ false _ _ rfl)
  have hm : (setAt (MonSys.start onePath).src false exSrc false).getData.1 = [x] := hx
  have s7 := MonSys.Reach.step s6 (.scan1 _ false _ _ _ _ x [] [] (by simp only; rw [hm]))
  have s8 := MonSys.Reach.step s7 (.next _ false _ _ _ _ _ rfl)
  have s9 := MonSys.Reach.step s8 (.publish _ false _ _ _ _ _ _ (fun _ => 200) rfl)
  refine ⟨_, _, s9, rfl, ?_⟩
  have hd : refDiffStep exBuilt.1 [] [] x = refDiff exBuilt.1 exSrc.vrps [] := by rw [hx]; rfl
  show (refReport 50 (fun _ => 200) [0] exBuilt.1 exSrc.vrps exSrc.getData.2 [] (MonSrc.new (exPath false)).getData.2 (refDiffStep exBuilt.1 [] [] x) []).unmatched = _
  rw [hd]
  decide +kernel

/-- With the same URL for both sources the two series `vrp_diff` of a threshold are one, which has the count of the second direction, also when the first one differs; and the two counts of entries in the grace period are one
series, too, which has the count of whoever wrote last. -/
theorem C140_same_url_false :
    (∀ (wide : WideFloat) (grace startedAt : Int) (thresholds : List Int) (path : Bool → Str) (s : MonSys) (g : MonGauges) (r : RefReport),
      MonSys.GaugeReach (CodeWork wide grace) startedAt thresholds path s g → path false = path true → s.published = some r → ∀ u ∈ r.unmatched,
      g (.vrpDiff (path false) (path true) (intStr u.1)) = some (u.2.2 : Int)) ∧
    (∃ (wide : WideFloat) (grace startedAt : Int) (thresholds : List Int) (path : Bool → Str) (s : MonSys) (g : MonGauges) (r : RefReport),
      MonSys.GaugeReach (CodeWork wide grace) startedAt thresholds path s g ∧ path false = path true ∧ s.published = some r ∧ ∃ u ∈ r.unmatched, u.2.1 ≠ u.2.2) ∧
    ∀ (g : MonGauges) (path : Bool → Str) (n1 n2 : Nat), path false = path true → ((g.graceSet (path false) n1).graceSet (path true) n2) (.grace (path false)) = some (n2 : Int) := by
  refine ⟨?_, ?_, ?_⟩
  · intro wide grace startedAt thresholds path s g r h he hr u hu
    have := ((gauge_inv (codeWork_path wide grace) h).some r hr).unmatched2 u hu
    rw [he] at this ⊢
    exact this
  · obtain ⟨s, r, h1, h2, h3⟩ := onePath_run
    obtain ⟨g, hg⟩ := reach_gauged h1
    exact ⟨_, _, _, _, _, s, g, r, hg, rfl, h2, (0, 1, 0), by rw [h3]; simp, by decide⟩
  · intro g path n1 n2 he
    rw [he]
    simp [MonGauges.graceSet, MonGauges.set]

/-! ## C141: `rtr_state` -/

/-- The session is up: the monitor reads from it, handles a PDU, or has not yet told anybody that it ends it. -/
def SessionUp (s : MonGo) : Prop :=
  match s.main with
  | .check => s.conn.connected = true
  | .reading => True
  | .handling _ => True
  | .disc .drop _ => True
  | .disc .look _ => True
  | .disc .closing _ => True
  | _ => False

/-- What `connected` must be in a phase of `Start`'s goroutine. -/
def phaseConnected : MainPhase → Option Bool
  | .unlocking | .hello | .reading | .handling _ | .disc .drop _ => some true
  | .disc _ _ => some false
  | _ => none

/-- The invariant of `rtr_state`. -/
structure StateInv (s : MonGo) (g : Option Int) : Prop where
  up : s.main ≠ .crashed → (g = some 1 ↔ SessionUp s)
  conn : ∀ b, phaseConnected s.main = some b → s.conn.connected = b
  value : g = some 1 ∨ g = some 0 ∨ g = none
  first : g = none → s.cur ≤ 1 ∧ (s.main = .sleeping → s.cur = 0) ∧ (s.main = .sleeping ∨ s.main = .dialing ∨ s.main = .unlocking ∨ s.main = .hello ∨ s.main = .exited ∨ s.main = .crashed)
  asked : g = some 1 → ∃ v, Pdu.resetQuery v ∈ s.conn.queued

theorem conn_upd_cur (s : MonGo) (c : CConn) : (s.upd s.cur c).conn = c := by simp [MonGo.upd, MonGo.conn]

/-- A move of the other goroutines: `Start`'s goroutine stays where it is. -/
structure SideMove (s s' : MonGo) : Prop where
  main : s'.main = s.main
  cur : s'.cur = s.cur
  connected : ∀ k, (s'.conns k).connected = (s.conns k).connected
  queued : ∀ k p, p ∈ (s.conns k).queued → p ∈ (s'.conns k).queued

theorem sideMove_upd {s : MonGo} {k : Nat} {c : CConn} (h1 : c.connected = (s.conns k).connected) (h2 : ∀ p, p ∈ (s.conns k).queued → p ∈ c.queued) : SideMove s (s.upd k c) := by
  refine ⟨rfl, rfl, fun j => ?_, fun j p hp => ?_⟩ <;> unfold MonGo.upd <;> by_cases hj : j = k <;> simp_all

theorem enqueue_side {p : Pdu} {c c' : CConn} (h : c.enqueue p = some c') : c'.connected = c.connected ∧ c'.queued = c.queued ++ [p] := by
  unfold CConn.enqueue at h
  split at h
  · cases h; exact ⟨rfl, rfl⟩
  · split at h
    · cases h; exact ⟨rfl, rfl⟩
    · cases h

theorem sendStep_side {f : Bool} {c c' : CConn} (h : c.sendStep f = some c') : c'.connected = c.connected ∧ c'.queued = c.queued := by
  unfold CConn.sendStep at h
  split at h
  · cases h; exact ⟨rfl, rfl⟩
  · split at h <;> cases h <;> exact ⟨rfl, rfl⟩
  · cases h
  · split at h <;> cases h <;> exact ⟨rfl, rfl⟩
  · cases h

theorem sideMove_send {b f : Bool} {s s' : MonGo} {k : Nat} (e : s.exec b (.send k f) = some s') : SideMove s s' := by
  unfold MonGo.exec at e
  split at e
  · cases e
  · simp only [Option.map_eq_some_iff] at e
    obtain ⟨c, hc, rfl⟩ := e
    exact sideMove_upd (sendStep_side hc).1 fun p hp => by rw [(sendStep_side hc).2]; exact hp

theorem sideMove_tick {b : Bool} {s s' : MonGo} {k : Nat} (e : s.exec b (.tick k) = some s') : SideMove s s' := by
  unfold MonGo.exec at e
  split at e
  · cases e
  · simp only at e
    unfold MonGo.tickStep at e
    split at e
    · cases e; exact sideMove_upd rfl fun _ h => h
    · split at e
      · cases e; exact sideMove_upd rfl fun _ h => h
      · cases e
    · cases e; exact sideMove_upd rfl fun _ h => h
    · cases e; exact sideMove_upd rfl fun _ h => h
    · cases e; exact sideMove_upd rfl fun _ h => h
    · cases e; exact sideMove_upd rfl fun _ h => h
    · simp only [Option.map_eq_some_iff] at e
      obtain ⟨c, hc, rfl⟩ := e
      exact sideMove_upd (enqueue_side hc).1 fun p hp => by
        show p ∈ c.queued
        rw [(enqueue_side hc).2]; exact List.mem_append_left _ hp
    · cases e

theorem sideMove_timer {b : Bool} {s s' : MonGo} {k : Nat} (e : s.exec b (.timer k) = some s') : SideMove s s' := by
  unfold MonGo.exec at e
  split at e
  · cases e
  · simp only at e
    split at e
    · cases e; exact sideMove_upd rfl fun _ h => h
    · cases e

theorem sideMove_stop {b : Bool} {s s' : MonGo} {k : Nat} (e : s.exec b (.stop k) = some s') : SideMove s s' := by
  unfold MonGo.exec at e
  split at e
  · cases e
  · simp only at e
    split at e
    · split at e
      · cases e; exact sideMove_upd rfl fun _ h => h
      · cases e
    · split at e
      · cases e; exact sideMove_upd rfl fun _ h => h
      · cases e
    · cases e

theorem stateGauge_same {g : Option Int} {s s' : MonGo} (h : s'.main = s.main) : stateGauge g s s' = g := by
  unfold stateGauge
  rw [h]
  split <;> simp_all

theorem stateInv_side {g : Option Int} {s s' : MonGo} (h : StateInv s g) (m : SideMove s s') : StateInv s' (stateGauge g s s') := by
  rw [stateGauge_same m.main]
  have hc : s'.conn.connected = s.conn.connected := by unfold MonGo.conn; rw [m.cur, m.connected]
  refine ⟨fun hn => ?_, fun b hb => ?_, h.value, fun hg => ?_, fun hg => ?_⟩
  · rw [h.up (by rw [← m.main]; exact hn)]
    unfold SessionUp
    rw [m.main, hc]
  · rw [hc]; exact h.conn b (by rw [← m.main]; exact hb)
  · rw [m.main, m.cur]; exact h.first hg
  · obtain ⟨v, hv⟩ := h.asked hg
    exact ⟨v, by unfold MonGo.conn; rw [m.cur]; exact m.queued _ _ hv⟩

theorem stateInv_main {b : Bool} {g : Option Int} {s s' : MonGo} (h : StateInv s g) (e : s.mainStep b = some s') : StateInv s' (stateGauge g s s') := by
  obtain ⟨hu, hc, hv, hf, ha⟩ := h
  unfold MonGo.mainStep at e
  unfold stateGauge
  split at e
  case h_1 hm =>
    cases e
    rw [hm] at hu hc hf ⊢
    simp only [SessionUp, hm] at hu
    refine ⟨fun _ => ?_, by simp [phaseConnected], hv, fun hg => ?_, fun hg => ?_⟩
    · simpa [SessionUp] using hu
    · simp [(hf hg).2.1 rfl]
    · exact absurd hg (by simpa using hu)
  case h_2 hm =>
    rw [hm] at hu hc hf ⊢
    simp only [SessionUp, hm] at hu
    split at e <;> cases e
    · exact ⟨by simp, by simp [phaseConnected], hv, fun hg => by simpa [MonGo.upd] using (hf hg).1, fun hg => ha hg⟩
    · refine ⟨fun _ => by simpa [SessionUp] using hu, fun b hb => ?_, hv, fun hg => by simpa [MonGo.upd] using (hf hg).1, fun hg => ?_⟩
      · simp only [phaseConnected, Option.some.injEq] at hb hc
        have := hc b hb
        simpa [MonGo.conn, MonGo.upd] using this
      · exact absurd hg (by simpa using hu)
  case h_3 hm =>
    rw [hm] at hc ⊢
    simp only [Option.map_eq_some_iff] at e
    obtain ⟨c, hcq, rfl⟩ := e
    have hcon := hc true rfl
    have hk : ({ s.upd s.cur c with main := MainPhase.check } : MonGo).conn = c := conn_upd_cur s c
    refine ⟨fun _ => ?_, by simp [phaseConnected], Or.inl rfl, by simp, fun _ => ?_⟩
    · simp only [SessionUp, hk, (enqueue_side hcq).1, hcon]
    · rw [hk, (enqueue_side hcq).2]
      exact ⟨s.conn.version, by simp⟩
  case h_4 hm =>
    cases e
    rw [hm] at hf ⊢
    have hu := hu (by rw [hm]; simp)
    simp only [SessionUp, hm] at hu
    have hk : ∀ x, ({ s with main := x } : MonGo).conn = s.conn := fun _ => rfl
    cases hcc : s.conn.connected
    · rw [hcc] at hu
      refine ⟨fun _ => by simpa [SessionUp] using hu, by simp [phaseConnected], hv, fun hg => ?_, ha⟩
      have := (hf hg).2.2; simp at this
    · rw [hcc] at hu
      refine ⟨fun _ => by simpa [SessionUp] using hu, fun b hb => ?_, hv, fun hg => ?_, ha⟩
      · cases hb; rw [hk, hcc]
      · have := (hf hg).2.2; simp at this
  case h_5 r hm =>
    cases e
    rw [hm] at hf ⊢
    have hu := hu (by rw [hm]; simp)
    simp only [SessionUp, hm] at hu
    refine ⟨fun _ => by simpa [SessionUp] using hu, fun b hb => ?_, hv, fun hg => ?_, fun hg => ?_⟩
    · cases hb; simp [MonGo.conn, MonGo.upd]
    · have := (hf hg).2.2; simp at this
    · simpa [MonGo.conn, MonGo.upd] using ha hg
  case h_6 r hm =>
    cases e
    rw [hm] at hf hc ⊢
    have hu := hu (by rw [hm]; simp)
    simp only [SessionUp, hm] at hu
    have hcc := hc false rfl
    have hkk : ∀ x, ({ s with main := x } : MonGo).conn = s.conn := fun _ => rfl
    cases hq : s.conn.qrtrClosed
    · refine ⟨fun _ => by simpa [SessionUp] using hu, fun b hb => ?_, hv, fun hg => ?_, ha⟩
      · cases hb; exact hcc
      · have := (hf hg).2.2; simp at this
    · refine ⟨fun _ => by simp [SessionUp], fun b hb => ?_, by simp, by simp, by simp⟩
      cases hb; exact hcc
  case h_7 r hm =>
    rw [hm] at hf hc ⊢
    have hu := hu (by rw [hm]; simp)
    simp only [SessionUp, hm] at hu
    have hcc := hc false rfl
    split at e <;> cases e
    · exact ⟨by simp, by simp [phaseConnected], hv, fun hg => by have := (hf hg).2.2; simp at this, ha⟩
    · refine ⟨fun _ => by simp [SessionUp], fun b hb => ?_, by simp, by simp, by simp⟩
      cases hb; simpa [MonGo.conn, MonGo.upd] using hcc
  case h_8 r hm =>
    cases e
    rw [hm] at hf hc ⊢
    have hu := hu (by rw [hm]; simp)
    simp only [SessionUp, hm] at hu
    have hcc := hc false rfl
    refine ⟨fun _ => by simpa [SessionUp] using hu, fun b hb => ?_, hv, fun hg => ?_, fun hg => ?_⟩
    · cases hb; simpa [MonGo.conn, MonGo.upd] using hcc
    · have := (hf hg).2.2; simp at this
    · exact absurd hg (by simpa using hu)
  case h_9 r hm =>
    cases e
    rw [hm] at hf hc ⊢
    have hu := hu (by rw [hm]; simp)
    simp only [SessionUp, hm] at hu
    have hcc := hc false rfl
    refine ⟨fun _ => ?_, fun b hb => ?_, hv, fun hg => ?_, fun hg => ?_⟩
    · cases r
      · simpa [SessionUp, MonGo.conn, MonGo.upd, show (s.conns s.cur).connected = false from hcc] using hu
      · simpa [SessionUp] using hu
    · cases r <;> simp [phaseConnected] at hb
    · have := (hf hg).2.2; simp at this
    · exact absurd hg (by simpa using hu)
  case h_10 hm =>
    rw [hm] at hf ⊢
    have hu := hu (by rw [hm]; simp)
    simp only [SessionUp, hm] at hu
    split at e <;> cases e
    refine ⟨fun _ => by simpa [SessionUp] using hu, by simp [phaseConnected], hv, fun hg => ?_, fun hg => absurd hg (by simpa using hu)⟩
    have := (hf hg).2.2; simp at this
  case h_11 => cases e

theorem state_inv {b : Bool} {s : MonGo} {g : Option Int} (h : MonGo.StateRuns b s g) : StateInv s g := by
  induction h with
  | start => exact ⟨by simp [SessionUp, MonGo.init], by simp [phaseConnected, MonGo.init], by simp, by simp [MonGo.init], by simp⟩
  | @step s s' g hr m e ih =>
    cases m with
    | send k f => exact stateInv_side ih (sideMove_send e)
    | tick k => exact stateInv_side ih (sideMove_tick e)
    | timer k => exact stateInv_side ih (sideMove_timer e)
    | stop k => exact stateInv_side ih (sideMove_stop e)
    | main =>
      unfold MonGo.exec at e
      split at e
      · cases e
      · exact stateInv_main ih e
    | dialOk =>
      unfold MonGo.exec at e
      split at e
      · cases e
      simp only at e
      split at e
      case isFalse => cases e
      case isTrue hm =>
        cases e
        obtain ⟨hu, hc, hv, hf, ha⟩ := ih
        have hu := hu (by rw [hm]; simp)
        simp only [SessionUp, hm] at hu
        unfold stateGauge
        rw [hm]
        refine ⟨fun _ => by simpa [SessionUp] using hu, fun b hb => ?_, hv, fun hg => by simpa [MonGo.upd] using (hf hg).1, fun hg => absurd hg (by simpa using hu)⟩
        cases hb; simp [MonGo.conn, MonGo.upd]
    | dialFails =>
      unfold MonGo.exec at e
      split at e
      · cases e
      simp only at e
      split at e
      case isFalse => cases e
      case isTrue hm =>
        cases e
        obtain ⟨hu, hc, hv, hf, ha⟩ := ih
        have hu := hu (by rw [hm]; simp)
        simp only [SessionUp, hm] at hu
        unfold stateGauge
        rw [hm]
        exact ⟨fun _ => by simpa [SessionUp] using hu, by simp [phaseConnected], hv, fun hg => by simpa [MonGo.upd] using (hf hg).1, fun hg => absurd hg (by simpa using hu)⟩
    | pdu p =>
      unfold MonGo.exec at e
      split at e
      · cases e
      simp only at e
      split at e
      case isFalse => cases e
      case isTrue hm =>
        cases e
        obtain ⟨hu, hc, hv, hf, ha⟩ := ih
        have hu := hu (by rw [hm]; simp)
        simp only [SessionUp, hm] at hu
        have hcc := hc true (by rw [hm]; rfl)
        unfold stateGauge
        rw [hm]
        refine ⟨fun _ => by simpa [SessionUp] using hu, fun b hb => ?_, hv, fun hg => ?_, fun hg => ?_⟩
        · cases hb; simpa [MonGo.conn, MonGo.upd] using hcc
        · have := (hf hg).2.2; simp [hm] at this
        · simpa [MonGo.conn, MonGo.upd] using ha hg
    | lost =>
      unfold MonGo.exec at e
      split at e
      · cases e
      simp only at e
      split at e
      case isFalse => cases e
      case isTrue hm =>
        cases e
        obtain ⟨hu, hc, hv, hf, ha⟩ := ih
        have hu := hu (by rw [hm]; simp)
        simp only [SessionUp, hm] at hu
        have hcc := hc true (by rw [hm]; rfl)
        unfold stateGauge
        rw [hm]
        refine ⟨fun _ => by simpa [SessionUp] using hu, fun b hb => ?_, hv, fun hg => ?_, ha⟩
        · cases hb; exact hcc
        · have := (hf hg).2.2; simp [hm] at this
    | handle now =>
      unfold MonGo.exec at e
      split at e
      · cases e
      simp only at e
      split at e
      case h_2 => cases e
      case h_1 p hm =>
        cases e
        obtain ⟨hu, hc, hv, hf, ha⟩ := ih
        have hu := hu (by rw [hm]; simp)
        simp only [SessionUp, hm] at hu
        have hcc : (s.conns s.cur).connected = true := hc true (by rw [hm]; rfl)
        unfold stateGauge
        rw [hm]
        by_cases hd : CAct.disconnect ∈ (monPdu now b s.client p).2
        · simp only [if_pos hd]
          refine ⟨fun _ => by simpa [SessionUp] using hu, fun b hb => ?_, hv, fun hg => ?_, ha⟩
          · cases hb; exact hcc
          · have := (hf hg).2.2; simp [hm] at this
        · simp only [if_neg hd]
          refine ⟨fun _ => ?_, by simp [phaseConnected], hv, fun hg => ?_, ha⟩
          · simpa [SessionUp, MonGo.conn, hcc] using hu
          · have := (hf hg).2.2; simp [hm] at this

theorem stateRuns_runs {b : Bool} {s : MonGo} {g : Option Int} (h : MonGo.StateRuns b s g) : MonGo.Runs b MonGo.init s := by
  induction h with
  | start => exact .refl
  | step _ m e ih => exact .tail ih m e

theorem runs_state {b : Bool} {s : MonGo} (h : MonGo.Runs b MonGo.init s) : ∃ g, MonGo.StateRuns b s g := by
  generalize hi : MonGo.init = i at h
  induction h with
  | refl => subst hi; exact ⟨_, .start⟩
  | tail _ m e ih => obtain ⟨g, hg⟩ := ih; exact ⟨_, .step hg m e⟩

/-- In every state of every run `rtr_state` is 1 exactly while the monitor has a session: from the sending of the Reset Query to the end of `ClientDisconnected`. It is never anything but 1 and 0. While it is 1 the session has asked for
all data. It does not exist exactly until the first session has got that far: no earlier session has ended. -/
theorem C141_state_partial {b : Bool} {s : MonGo} {g : Option Int} (h : MonGo.StateRuns b s g) :
    (g = some 1 ↔ SessionUp s) ∧ (g = some 1 ∨ g = some 0 ∨ g = none) ∧ (g = some 1 → ∃ v, Pdu.resetQuery v ∈ s.conn.queued) ∧ (g = none → s.cur ≤ 1) := by
  have hi := state_inv h
  exact ⟨hi.up (C116_no_panic (stateRuns_runs h)), hi.value, hi.asked, fun hg => (hi.first hg).1⟩

/-- What an alarm on `rtr_state` sees: 1 while the monitor waits for the cache or handles what it sent; 0 when a session was ended and the monitor sleeps, or dials again. -/
theorem C141_phases {b : Bool} {s : MonGo} {g : Option Int} (h : MonGo.StateRuns b s g) :
    (s.main = .reading → g = some 1) ∧ (∀ p, s.main = .handling p → g = some 1) ∧ (s.main = .returned → g = some 0) ∧
    (s.main = .sleeping → 1 ≤ s.cur → g = some 0) ∧ (s.main = .dialing → 2 ≤ s.cur → g = some 0) := by
  have hi := state_inv h
  have hu := hi.up (C116_no_panic (stateRuns_runs h))
  refine ⟨fun hm => hu.2 (by simp [SessionUp, hm]), fun p hm => hu.2 (by simp [SessionUp, hm]), fun hm => ?_, fun hm hc => ?_, fun hm hc => ?_⟩
  · have h1 : g ≠ some 1 := fun e => by simpa [SessionUp, hm] using hu.1 e
    rcases hi.value with e | e | e
    · exact absurd e h1
    · exact e
    · have := (hi.first e).2.2; simp [hm] at this
  · have h1 : g ≠ some 1 := fun e => by simpa [SessionUp, hm] using hu.1 e
    rcases hi.value with e | e | e
    · exact absurd e h1
    · exact e
    · have := (hi.first e).2.1 hm; omega
  · have h1 : g ≠ some 1 := fun e => by simpa [SessionUp, hm] using hu.1 e
    rcases hi.value with e | e | e
    · exact absurd e h1
    · exact e
    · have := (hi.first e).1; omega

/-- A run given by its moves, with `rtr_state`. -/
def stateSched (b : Bool) (s : MonGo) (g : Option Int) : List GoMove → Option (MonGo × Option Int)
  | [] => some (s, g)
  | m :: ms => (s.exec b m).bind fun t => stateSched b t (stateGauge g s t) ms

theorem stateSched_runs {b : Bool} {ms : List GoMove} : ∀ {s : MonGo} {g : Option Int} {r : MonGo × Option Int}, MonGo.StateRuns b s g → stateSched b s g ms = some r → MonGo.StateRuns b r.1 r.2 := by
  induction ms with
  | nil => intro s g r h e; cases e; exact h
  | cons m ms ih =>
    intro s g r h e
    unfold stateSched at e
    rw [Option.bind_eq_some_iff] at e
    obtain ⟨t, ht, e⟩ := e
    exact ih (.step h m ht) e

theorem stateSched_ex {b : Bool} {ms : List GoMove} {p : MonGo × Option Int → Bool} (h : (stateSched b MonGo.init none ms).any p = true) : ∃ s g, MonGo.StateRuns b s g ∧ p (s, g) = true := by
  cases hs : stateSched b MonGo.init none ms with
  | none => rw [hs] at h; cases h
  | some r => rw [hs] at h; exact ⟨r.1, r.2, stateSched_runs .start hs, h⟩

/-- **C141 is false at the edges.** A monitor that is connected may show nothing at all (before the Reset Query), and one that has dropped its session still shows 1; if the cache cannot be reached at the start there is never a series,
for the program ends; and when the cache closes the connection the program ends too, so that the 0 of a lost session is shown only until then. -/
theorem C141_edges_false :
    (∃ s g, MonGo.StateRuns false s g ∧ s.conn.connected = true ∧ g = none) ∧ (∃ s g, MonGo.StateRuns false s g ∧ s.conn.connected = false ∧ g = some 1) ∧
    (∃ s g, MonGo.StateRuns false s g ∧ s.main = .exited ∧ g = none) ∧
    (∃ s g, MonGo.StateRuns false s g ∧ s.main = .exited ∧ g = some 0) := by
  refine ⟨?_, ?_, ?_, ?_⟩
  · obtain ⟨s, g, h, hp⟩ := stateSched_ex (b := false) (ms := [.main, .dialOk]) (p := fun r => r.1.conn.connected && r.2.isNone) (by decide +kernel)
    exact ⟨s, g, h, by simpa using hp⟩
  · obtain ⟨s, g, h, hp⟩ := stateSched_ex (b := false) (ms := [.main, .dialOk, .main, .main, .main, .lost, .main]) (p := fun r => !r.1.conn.connected && r.2 == some 1) (by decide +kernel)
    exact ⟨s, g, h, by simpa using hp⟩
  · obtain ⟨s, g, h, hp⟩ := stateSched_ex (b := false) (ms := [.main, .dialFails]) (p := fun r => decide (r.1.main = .exited) && r.2.isNone) (by decide +kernel)
    exact ⟨s, g, h, by simpa using hp⟩
  · obtain ⟨s, g, h, hp⟩ := stateSched_ex (b := false) (ms := [.main, .dialOk, .main, .main, .main, .lost, .main, .main, .main, .main, .main]) (p := fun r => decide (r.1.main = .exited) && r.2 == some 0) (by decide +kernel)
    exact ⟨s, g, h, by simpa using hp⟩

/-- The situations of `C141_phases`: a session that ended with `-break` after its first End of Data, and the dialing of the next one. -/
example : (∃ s g, MonGo.StateRuns true s g ∧ s.main = .returned) ∧ ∃ s g, MonGo.StateRuns true s g ∧ s.main = .dialing ∧ 2 ≤ s.cur := by
  refine ⟨?_, ?_⟩
  · obtain ⟨s, g, h, hp⟩ := stateSched_ex (b := true) (ms := [.main, .dialOk, .main, .main, .main, .pdu (.endOfData 1 5 1 3600 600 7200), .handle 100, .main, .main, .main, .main, .main, .main])
      (p := fun r => decide (r.1.main = .returned)) (by decide +kernel)
    exact ⟨s, g, h, by simpa using hp⟩
  · obtain ⟨s, g, h, hp⟩ := stateSched_ex (b := true) (ms := [.main, .dialOk, .main, .main, .main, .pdu (.endOfData 1 5 1 3600 600 7200), .handle 100, .main, .main, .main, .main, .main, .main, .main, .main])
      (p := fun r => decide (r.1.main = .dialing ∧ 2 ≤ r.1.cur)) (by decide +kernel)
    exact ⟨s, g, h, by simpa using hp⟩

/-- The situation of `C140_series_partial` and `C140_quiet_partial`: two URLs, and a comparison that found a record in one source only. -/
example : ∃ g, MonSys.GaugeReach (CodeWork (fun _ => 0) 3600) 50 [0] exPath exCompared g ∧ exPath false ≠ exPath true ∧ Quiet exCompared ∧ (exCompared.published.map (·.unmatched)) = some [(0, 1, 0)] := by
  obtain ⟨g, hg⟩ := reach_gauged exCompared_reach
  exact ⟨g, hg, by decide, ⟨rfl, rfl, rfl⟩, by decide +kernel⟩

end StayRTR
