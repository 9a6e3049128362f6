import Verif.Proofs.MonPage
import Verif.Props.Mon

/-!
# rtrmon: the comparator and its page: C110 to C113, and C61, C63, C97 with shared entries
-/

namespace StayRTR

open Spec MonMap RefMap

/-! ## C61, C63, C97 with shared entries -/

/-- Only a working source changes the entries, and only its own. -/
theorem step_shown {work : Work} (hw : Sound work) (hl : Local work) {startedAt : Int} {thresholds : List Int} {path : Bool → Str} {s s' : MonSys} (h : MonSys.Reach work startedAt thresholds path s)
    (hs : MonSys.Step work startedAt thresholds s s') (j : Bool) (hj : s.phase j ≠ .working) : s'.src j = s.src j ∧ shown s' j = shown s j ∧ (s.src j).vrpsRtr.deref s'.heap = (s.src j).vrpsRtr.deref s.heap := by
  have hin := reach_inside hw h
  cases hs with
  | work i hp h' c' hx =>
    have hij : j ≠ i := by rintro rfl; exact hj hp
    have hfr : ∀ r ∈ owns (s.src j), h'[r]? = s.heap[r]? := fun r hr => by
      refine hl.frame hx (hin.vrps i) r ?_ (reach_apart hw hl h j i hij r hr)
      rcases List.mem_append.1 hr with hr | hr
      · obtain ⟨x, hx, rfl⟩ := List.mem_map.1 hr; exact (hin.vrps j).inside x hx
      · obtain ⟨x, hx, rfl⟩ := List.mem_map.1 hr; exact (hin.rtr j).inside x hx
    unfold shown
    simp only [setAt_ne _ _ hij]
    exact ⟨trivial, deref_congr fun x hx => hfr _ (List.mem_append_left _ (List.mem_map.2 ⟨x, hx, rfl⟩)), deref_congr fun x hx => hfr _ (List.mem_append_right _ (List.mem_map.2 ⟨x, hx, rfl⟩))⟩
  | _ => exact ⟨rfl, rfl, rfl⟩

/-- **C97.** Entries are shared between the maps of one source, never between the sources: whatever step is taken, a source that is not working on an update shows what it showed. -/
theorem C97_shared (wide : WideFloat) (grace : Int) {startedAt : Int} {thresholds : List Int} {path : Bool → Str} {s s' : MonSys} (h : MonSys.Reach (CodeWork wide grace) startedAt thresholds path s)
    (hs : MonSys.Step (CodeWork wide grace) startedAt thresholds s s') (j : Bool) (hj : s.phase j ≠ .working) : shown s' j = shown s j :=
  (step_shown (code_sound wide grace) (code_local wide grace) h hs j hj).2.1

/-- **C61.** Entries being shared does not matter for what a source with a file shows: in every step it shows the same, or what `buildNewVrpMap` makes of it with a file, or what `updateCurrentVrpMap` makes of it, and then the time of its
last update is the time of that. So the histories of `C61_history` are those of the program. -/
theorem C61_shared (wide : WideFloat) (grace : Int) {startedAt : Int} {thresholds : List Int} {path : Bool → Str} {s s' : MonSys} (h : MonSys.Reach (FileWork wide grace) startedAt thresholds path s)
    (hs : MonSys.Step (FileWork wide grace) startedAt thresholds s s') (j : Bool) :
    (shown s' j = shown s j ∧ (s'.src j).lastUpdate = (s.src j).lastUpdate) ∨
    (∃ vrps keys now, shown s' j = (buildNewVrpMap wide grace (shown s j) vrps keys now).1 ∧ (s'.src j).lastUpdate = some now) ∨
    ∃ now, shown s' j = (updateCurrentVrpMap grace (shown s j) now).1 ∧ (s'.src j).lastUpdate = some now := by
  by_cases hj : s.phase j = .working
  · have hin := reach_inside (file_sound wide grace) h
    have hx := step_shown (file_sound wide grace) (file_local wide grace) h hs j
    cases hs with
    | work i hp h' c' hw =>
      by_cases hij : j = i
      · subst hij
        right
        have hv := hin.vrps j
        unfold shown
        simp only [setAt_same]
        generalize s.src j = c at hw hv
        generalize s.heap = hh at hw hv
        cases hw with
        | file _ _ vrps keys now =>
          left
          obtain ⟨-, he, -⟩ := refBuild_eq wide grace hv vrps keys now
          exact ⟨vrps, keys, now, by rw [← he], rfl⟩
        | unchanged _ _ now =>
          right
          obtain ⟨-, he, -⟩ := refUpdate_eq grace hv now
          exact ⟨now, by rw [← he], rfl⟩
      · left
        have hfr : ∀ r ∈ owns (s.src j), h'[r]? = s.heap[r]? := fun r hr => by
          refine (file_local wide grace).frame hw (hin.vrps i) r ?_ (reach_apart (file_sound wide grace) (file_local wide grace) h j i hij r hr)
          rcases List.mem_append.1 hr with hr | hr
          · obtain ⟨x, hx, rfl⟩ := List.mem_map.1 hr; exact (hin.vrps j).inside x hx
          · obtain ⟨x, hx, rfl⟩ := List.mem_map.1 hr; exact (hin.rtr j).inside x hx
        unfold shown
        simp only [setAt_ne _ _ hij]
        exact ⟨deref_congr fun x hx => hfr _ (List.mem_append_left _ (List.mem_map.2 ⟨x, hx, rfl⟩)), trivial⟩
    | _ => exact .inl ⟨rfl, rfl⟩
  · have hx := step_shown (file_sound wide grace) (file_local wide grace) h hs j hj
    exact .inl ⟨hx.2.1, by rw [hx.1]⟩

/-- **C63.** Likewise for RTR: handling a PDU on pointers does to what the source has what `monPdu` does on values. -/
theorem C63_shared {startedAt : Int} {thresholds : List Int} {path : Bool → Str} {s : MonSys} (h : MonSys.Reach RtrWork startedAt thresholds path s) (i : Bool) (now : Int) (breakRTR : Bool) (p : Pdu) :
    asClient (refPdu now s.heap (s.src i) p).1 (refPdu now s.heap (s.src i) p).2 0 = (monPdu now breakRTR (asClient s.heap (s.src i) 0) p).1 :=
  have hin := reach_inside rtr_sound h
  refPdu_eq (hin.vrps i) (hin.rtr i) now breakRTR 0 p

/-! ## C110: no update is missed -/

/-- **C110.** However the goroutines interleave, and however an update is divided into steps: when both sources have told their last update and the comparator waits, what is published is the comparison of what the two
sources show now. (Before the first comparison nothing is published, and the sources are new.) -/
theorem C110_quiet {work : Work} (hw : Sound work) {startedAt : Int} {thresholds : List Int} {path : Bool → Str} {s : MonSys} (h : MonSys.Reach work startedAt thresholds path s) (hq : Quiet s) :
    (s.published = none ∧ ∀ i, s.src i = MonSrc.new (path i)) ∨
    ∃ r, s.published = some r ∧ MetaSays r.md1 (s.src false) ∧ MetaSays r.md2 (s.src true) ∧
      (∀ k e, (r.onlyIn1.deref s.heap).get k = some e ↔ OnlyIn (shown s false) (shown s true) k e) ∧
      (∀ k e, (r.onlyIn2.deref s.heap).get k = some e ↔ OnlyIn (shown s true) (shown s false) k e) ∧
      r.total1 = (shown s false).length ∧ r.total2 = (shown s true).length ∧ r.diff1 = (r.onlyIn1.deref s.heap).length ∧ r.diff2 = (r.onlyIn2.deref s.heap).length ∧
      ∃ clock : Int → Int, r.unmatched = (thresholds.filter fun v => decide (clock v - v ≥ startedAt)).map fun v =>
        (v, countUnmatched (r.onlyIn1.deref s.heap) (shown s true) (clock v - v), countUnmatched (r.onlyIn2.deref s.heap) (shown s false) (clock v - v)) := by
  obtain ⟨h1, h2, hc⟩ := hq
  have hr := reach_right h h1 h2
  have hin := reach_inside hw h
  unfold Right at hr
  rw [hc] at hr
  rcases hr with hn | ⟨clock, hp⟩
  · exact .inl ⟨hn, fun i => reach_new h hc hn i (by cases i; exacts [h1, h2])⟩
  · have hok : ∀ i, (shown s i).Ok := fun i => by
      unfold Ok shown
      rw [deref_keys (hin.vrps i).inside]
      exact (hin.vrps i).keys
    obtain ⟨d1, i1⟩ := refDiff_eq (hin.vrps false).inside (hin.vrps true).inside
    obtain ⟨d2, i2⟩ := refDiff_eq (hin.vrps true).inside (hin.vrps false).inside
    refine .inr ⟨_, hp, ⟨rfl, rfl, rfl, rfl, rfl, rfl, rfl⟩, ⟨rfl, rfl, rfl, rfl, rfl, rfl, rfl⟩, fun k e => ?_, fun k e => ?_, ?_, ?_, ?_, ?_, clock, rfl⟩
    · show ((refDiff s.heap (s.src false).vrps (s.src true).vrps).deref s.heap).get k = some e ↔ _
      rw [d1]
      exact (C60_exact _ (hok false)).2 k e
    · show ((refDiff s.heap (s.src true).vrps (s.src false).vrps).deref s.heap).get k = some e ↔ _
      rw [d2]
      exact (C60_exact _ (hok true)).2 k e
    · exact (deref_length (hin.vrps false).inside).symm
    · exact (deref_length (hin.vrps true).inside).symm
    · exact (deref_length i1).symm
    · exact (deref_length i2).symm

/-- **C110.** In the same situation, and even if only one source is idle and the comparator waits, the gauge of its last update is that of its last update. -/
theorem C110_gauge {work : Work} {startedAt : Int} {thresholds : List Int} {path : Bool → Str} {s : MonSys} (h : MonSys.Reach work startedAt thresholds path s) (i : Bool) (hi : s.phase i = .idle) (hc : s.comp = .waiting) :
    (s.lastUpdate i = none ∧ s.src i = MonSrc.new (path i)) ∨ s.lastUpdate i = some (lastFetchOf (s.src i).lastUpdate) :=
  (reach_gauge h i hi).2 (by rw [hc]; simp [CompPhase.id])

/-- A number of steps. -/
inductive MonSys.Steps (work : Work) (startedAt : Int) (thresholds : List Int) : MonSys → MonSys → Prop
  | refl (s : MonSys) : Steps work startedAt thresholds s s
  | cons {s s' s'' : MonSys} (h : MonSys.Step work startedAt thresholds s s') (hs : Steps work startedAt thresholds s' s'') : Steps work startedAt thresholds s s''

theorem finish_diff2 (work : Work) (startedAt : Int) (thresholds : List Int) (id : Bool) (m1 : RefMap) (md1 : DiffMeta) (m2 : RefMap) (md2 : DiffMeta) (only1 : RefMap) :
    ∀ (todo acc : RefMap) (s : MonSys), s.comp = .diff2 id m1 md1 m2 md2 only1 todo acc → ∃ s', MonSys.Steps work startedAt thresholds s s' ∧ s'.comp = .waiting ∧ s'.phase = s.phase := by
  intro todo
  induction todo with
  | nil => intro acc s hc; exact ⟨_, .cons (.publish s id m1 md1 m2 md2 only1 acc (fun _ => 0) hc) (.refl _), rfl, rfl⟩
  | cons x todo ih =>
    intro acc s hc
    obtain ⟨s', h1, h2, h3⟩ := ih (refDiffStep s.heap m1 acc x) { s with comp := .diff2 id m1 md1 m2 md2 only1 todo (refDiffStep s.heap m1 acc x) } rfl
    exact ⟨s', .cons (.scan2 s id m1 md1 m2 md2 only1 x todo acc hc) h1, h2, h3⟩

theorem finish_diff1 (work : Work) (startedAt : Int) (thresholds : List Int) (id : Bool) (m1 : RefMap) (md1 : DiffMeta) (m2 : RefMap) (md2 : DiffMeta) :
    ∀ (todo acc : RefMap) (s : MonSys), s.comp = .diff1 id m1 md1 m2 md2 todo acc → ∃ s', MonSys.Steps work startedAt thresholds s s' ∧ s'.comp = .waiting ∧ s'.phase = s.phase := by
  intro todo
  induction todo with
  | nil =>
    intro acc s hc
    obtain ⟨s', h1, h2, h3⟩ := finish_diff2 work startedAt thresholds id m1 md1 m2 md2 acc m2 [] { s with comp := .diff2 id m1 md1 m2 md2 acc m2 [] } rfl
    exact ⟨s', .cons (.next s id m1 md1 m2 md2 acc hc) h1, h2, h3⟩
  | cons x todo ih =>
    intro acc s hc
    obtain ⟨s', h1, h2, h3⟩ := ih (refDiffStep s.heap m2 acc x) { s with comp := .diff1 id m1 md1 m2 md2 todo (refDiffStep s.heap m2 acc x) } rfl
    exact ⟨s', .cons (.scan1 s id m1 md1 m2 md2 x todo acc hc) h1, h2, h3⟩

/-- **C110.** A source never waits in vain: from every state the comparator comes back to the `select` by itself, and then takes the id of a source that is sending. -/
theorem C110_progress (work : Work) (startedAt : Int) (thresholds : List Int) (s : MonSys) (i : Bool) (hi : s.phase i = .sending) :
    ∃ s' s'', MonSys.Steps work startedAt thresholds s s' ∧ MonSys.Step work startedAt thresholds s' s'' ∧ s''.comp = .got i ∧ s''.phase i = .idle := by
  have key : ∃ s', MonSys.Steps work startedAt thresholds s s' ∧ s'.comp = .waiting ∧ s'.phase = s.phase := by
    cases hc : s.comp with
    | waiting => exact ⟨s, .refl s, hc, rfl⟩
    | got id =>
      obtain ⟨s', h1, h2, h3⟩ := finish_diff1 work startedAt thresholds id (s.src false).getData.1 (s.src false).getData.2 (s.src true).getData.1 (s.src true).getData.2 (s.src false).getData.1 []
        { s with comp := .diff1 id (s.src false).getData.1 (s.src false).getData.2 (s.src true).getData.1 (s.src true).getData.2 (s.src false).getData.1 [] } rfl
      exact ⟨s', .cons (.data1 s id hc) (.cons (.data2 { s with comp := .one id (s.src false).getData.1 (s.src false).getData.2 } id _ _ rfl) h1), h2, h3⟩
    | one id m1 md1 =>
      obtain ⟨s', h1, h2, h3⟩ := finish_diff1 work startedAt thresholds id m1 md1 (s.src true).getData.1 (s.src true).getData.2 m1 []
        { s with comp := .diff1 id m1 md1 (s.src true).getData.1 (s.src true).getData.2 m1 [] } rfl
      exact ⟨s', .cons (.data2 s id m1 md1 hc) h1, h2, h3⟩
    | diff1 id m1 md1 m2 md2 todo acc => exact finish_diff1 work startedAt thresholds id m1 md1 m2 md2 todo acc s hc
    | diff2 id m1 md1 m2 md2 only1 todo acc => exact finish_diff2 work startedAt thresholds id m1 md1 m2 md2 only1 todo acc s hc
  obtain ⟨s', h1, h2, h3⟩ := key
  exact ⟨s', _, h1, .meet s' i (by rw [h3]; exact hi) h2, rfl, setAt_same _ _ _⟩

/-! ## A run for the examples -/

/-- The paths. -/
def exPath : Bool → Str := fun i => if i then "https://b.example/".toList else "https://a.example/".toList

/-- The heap and the map after a file with one VRP. -/
def exBuilt : MonHeap × RefMap × Nat := refBuild (fun _ => 0) 3600 [] [] [exFileA] [] 100

/-- The primary source after it. -/
def exSrc : MonSrc := { MonSrc.new (exPath false) with vrps := exBuilt.2.1, lastUpdate := some 100 }

/-- The primary source fetched a file and it was compared: at 200, started at 50, with the threshold 0. -/
def exCompared : MonSys :=
  ⟨exBuilt.1, setAt (fun i => MonSrc.new (exPath i)) false exSrc, fun _ => .idle, .waiting,
    some (refReport 50 (fun _ => 200) [0] exBuilt.1 exSrc.vrps exSrc.getData.2 [] (MonSrc.new (exPath true)).getData.2 (refDiff exBuilt.1 exSrc.vrps []) []),
    setAt (fun _ => none) false (some 100)⟩

theorem setAt_setAt {α : Type} (f : Bool → α) (i : Bool) (x y : α) : setAt (setAt f i x) i y = setAt f i y := by
  funext j
  unfold setAt
  split <;> rfl

theorem setAt_idle {α : Type} (f : Bool → α) (i : Bool) : setAt f i (f i) = f := by
  funext j
  unfold setAt
  split
  · rename_i h; rw [h]
  · rfl

theorem exSrc_vrps : ∃ x, exSrc.vrps = [x] := ⟨("10.0.0.0/8-8-1".toList, 0), by decide +kernel⟩

/-- The run. -/
theorem exCompared_any {work : Work} (hw : work [] (MonSrc.new (exPath false)) exBuilt.1 exSrc) : MonSys.Reach work 50 [0] exPath exCompared := by
  obtain ⟨x, hx⟩ := exSrc_vrps
  have s1 := MonSys.Reach.step (.start (work := work) (startedAt := 50) (thresholds := [0]) (path := exPath)) (.begin (MonSys.start exPath) false rfl)
  have s2 := MonSys.Reach.step s1 (.work _ false rfl exBuilt.1 exSrc hw)
  have s3 := MonSys.Reach.step s2 (.finish _ false rfl)
  have s4 := MonSys.Reach.step s3 (.meet _ false rfl rfl)
  have s5 := MonSys.Reach.step s4 (.data1 _ false rfl)
  have s6 := MonSys.Reach.step s5 (.data2 _ false _ _ rfl)
  have hm : (setAt (MonSys.start exPath).src false exSrc false).getData.1 = [x] := hx
  have s7 := MonSys.Reach.step s6 (.scan1 _ false _ _ _ _ x [] [] (by simp only; rw [hm]))
  have s8 := MonSys.Reach.step s7 (.next _ false _ _ _ _ _ rfl)
  have s9 := MonSys.Reach.step s8 (.publish _ false _ _ _ _ _ _ (fun _ => 200) rfl)
  have hd : refDiff exBuilt.1 exSrc.vrps [] = refDiffStep exBuilt.1 [] [] x := by rw [hx]; rfl
  unfold exCompared
  rw [hd]
  have hph : (fun _ => SrcPhase.idle) = setAt (setAt (setAt (MonSys.start exPath).phase false .working) false .sending) false .idle := by
    rw [setAt_setAt, setAt_setAt]
    exact (setAt_idle (fun _ => SrcPhase.idle) false).symm
  rw [hph]
  exact s9

/-- The run with the code's sources. -/
theorem exCompared_reach : MonSys.Reach (CodeWork (fun _ => 0) 3600) 50 [0] exPath exCompared := exCompared_any (.inl (.file [] (MonSrc.new (exPath false)) [exFileA] [] 100))

/-- The situation of `C61_shared` and of `C97_shared`: the primary source has something to show, and the secondary begins to work. -/
example : MonSys.Reach (FileWork (fun _ => 0) 3600) 50 [0] exPath exCompared ∧ shown exCompared false ≠ [] ∧ exCompared.phase false ≠ .working ∧ ∃ s', MonSys.Step (FileWork (fun _ => 0) 3600) 50 [0] exCompared s' := by
  refine ⟨exCompared_any (.file [] (MonSrc.new (exPath false)) [exFileA] [] 100), ?_, by decide, _, .begin exCompared true rfl⟩
  show exSrc.vrps.deref exBuilt.1 ≠ []
  decide +kernel

/-- The sources of the code are sound. -/
example : Sound (CodeWork (fun _ => 0) 3600) := code_sound _ _

/-- The situation of `C110_quiet`, with something published: the record that only the primary source has. -/
example : Quiet exCompared ∧ exCompared.published ≠ none ∧ (shown exCompared false).map (·.1) = ["10.0.0.0/8-8-1".toList] ∧
    (exCompared.published.map fun r => (r.onlyIn1.map (·.1), r.total1, r.diff1, r.total2, r.diff2)) = some (["10.0.0.0/8-8-1".toList], 1, 1, 0, 0) := by
  refine ⟨⟨rfl, rfl, rfl⟩, by simp [exCompared], ?_, ?_⟩ <;> decide +kernel

/-- The situation of `C110_progress`. -/
example : ∃ s : MonSys, s.phase true = .sending := ⟨{ exCompared with phase := fun _ => .sending }, rfl⟩

/-! ## C111: what is published stays until the next comparison -/

/-- The heap after the primary source read an empty file at 300. -/
def exHidden : MonHeap × RefMap × Nat := refBuild (fun _ => 0) 3600 exCompared.heap exSrc.vrps [] [] 300

/-- **C111 is false.** The primary source reads a new file without a record of the published difference, and before the comparator has run again the difference says that the record is only in the primary source and is not
visible there. -/
theorem C111_stays_false : ¬ ∀ (wide : WideFloat) (grace startedAt : Int) (thresholds : List Int) (path : Bool → Str) (s s' : MonSys) (r : RefReport),
    MonSys.Reach (CodeWork wide grace) startedAt thresholds path s → MonSys.Step (CodeWork wide grace) startedAt thresholds s s' → s.published = some r → s'.published = some r →
    r.onlyIn1.deref s'.heap = r.onlyIn1.deref s.heap := by
  intro hall
  have s1 := MonSys.Reach.step exCompared_reach (.begin exCompared false rfl)
  have st := MonSys.Step.work (work := CodeWork (fun _ => 0) 3600) (startedAt := 50) (thresholds := [0]) { exCompared with phase := setAt exCompared.phase false .working } false rfl exHidden.1
    { exSrc with vrps := exHidden.2.1, lastUpdate := some 300 } (.inl (.file exCompared.heap exSrc [] [] 300))
  have := hall _ _ _ _ _ _ _ _ s1 st rfl rfl
  revert this
  show ¬ (refDiff exBuilt.1 exSrc.vrps []).deref exHidden.1 = (refDiff exBuilt.1 exSrc.vrps []).deref exCompared.heap
  decide +kernel

theorem forall2_hidden {h h' : MonHeap} (m : RefMap) (hm : ∀ x ∈ m, h'[x.2]? = h[x.2]? ∨ ∃ e, h[x.2]? = some e ∧ h'[x.2]? = some { e with visible := false }) :
    List.Forall₂ SameOrHidden (m.deref h) (m.deref h') := by
  induction m with
  | nil => exact .nil
  | cons x m ih =>
    have ih := ih fun y hy => hm y (List.mem_cons_of_mem _ hy)
    unfold RefMap.deref at ih ⊢
    rw [List.filterMap_cons, List.filterMap_cons]
    rcases hm x List.mem_cons_self with he | ⟨e, he, he'⟩
    · rw [he]
      cases h[x.2]? with
      | none => exact ih
      | some e => exact .cons (.inl rfl) ih
    · rw [he, he']
      exact .cons (.inr rfl) ih

/-- The pointers of what is published and of what is being compared are to entries. -/
def HeldIn (s : MonSys) : Prop :=
  (∀ r, s.published = some r → (∀ x ∈ r.onlyIn1, x.2 < s.heap.length) ∧ ∀ x ∈ r.onlyIn2, x.2 < s.heap.length) ∧
  match s.comp with
  | .waiting => True
  | .got _ => True
  | .one _ m1 _ => ∀ x ∈ m1, x.2 < s.heap.length
  | .diff1 _ m1 _ m2 _ todo acc => (∀ x ∈ m1, x.2 < s.heap.length) ∧ (∀ x ∈ m2, x.2 < s.heap.length) ∧ (∀ x ∈ todo, x.2 < s.heap.length) ∧ ∀ x ∈ acc, x.2 < s.heap.length
  | .diff2 _ m1 _ m2 _ only1 todo acc => (∀ x ∈ m1, x.2 < s.heap.length) ∧ (∀ x ∈ m2, x.2 < s.heap.length) ∧ (∀ x ∈ only1, x.2 < s.heap.length) ∧ (∀ x ∈ todo, x.2 < s.heap.length) ∧ ∀ x ∈ acc, x.2 < s.heap.length

theorem diffStep_in {h : MonHeap} {b res : RefMap} {x : Str × MonRef} {n : Nat} (hr : ∀ y ∈ res, y.2 < n) (hx : x.2 < n) : ∀ y ∈ refDiffStep h b res x, y.2 < n := by
  intro y hy
  unfold refDiffStep at hy
  split at hy
  · exact hr y hy
  · generalize (_ && _) = q at hy
    cases q
    · exact hr y hy
    · rcases mem_put hy with hy | hy
      · rw [hy]; exact hx
      · exact hr y hy

theorem reach_held {work : Work} (hw : Sound work) {startedAt : Int} {thresholds : List Int} {path : Bool → Str} {s : MonSys} (h : MonSys.Reach work startedAt thresholds path s) : HeldIn s := by
  induction h with
  | start => exact ⟨fun r hr => (by simp [MonSys.start] at hr), trivial⟩
  | @step s s' hr hs ih =>
    have hin := reach_inside hw hr
    unfold HeldIn at ih ⊢
    cases hs with
    | begin => exact ih
    | finish => exact ih
    | work i hp h' c' hx =>
      have hg := hw.grow hx (hin.vrps i)
      have up : ∀ {m : RefMap}, (∀ x ∈ m, x.2 < s.heap.length) → ∀ x ∈ m, x.2 < h'.length := fun hm x hx => Nat.lt_of_lt_of_le (hm x hx) hg
      refine ⟨fun r hp => ⟨up (ih.1 r hp).1, up (ih.1 r hp).2⟩, ?_⟩
      have ih2 := ih.2
      simp only
      cases hc : s.comp with
      | waiting => trivial
      | got => trivial
      | one => rw [hc] at ih2; exact up ih2
      | diff1 => rw [hc] at ih2; exact ⟨up ih2.1, up ih2.2.1, up ih2.2.2.1, up ih2.2.2.2⟩
      | diff2 => rw [hc] at ih2; exact ⟨up ih2.1, up ih2.2.1, up ih2.2.2.1, up ih2.2.2.2.1, up ih2.2.2.2.2⟩
    | meet => exact ⟨ih.1, trivial⟩
    | data1 => exact ⟨ih.1, (hin.vrps false).inside⟩
    | data2 id m1 md1 hc => rw [hc] at ih; exact ⟨ih.1, ih.2, (hin.vrps true).inside, ih.2, by simp⟩
    | scan1 id m1 md1 m2 md2 x todo acc hc =>
      rw [hc] at ih
      exact ⟨ih.1, ih.2.1, ih.2.2.1, fun y hy => ih.2.2.2.1 y (List.mem_cons_of_mem _ hy), diffStep_in ih.2.2.2.2 (ih.2.2.2.1 x List.mem_cons_self)⟩
    | next id m1 md1 m2 md2 acc hc => rw [hc] at ih; exact ⟨ih.1, ih.2.1, ih.2.2.1, ih.2.2.2.2, ih.2.2.1, by simp⟩
    | scan2 id m1 md1 m2 md2 only1 x todo acc hc =>
      rw [hc] at ih
      exact ⟨ih.1, ih.2.1, ih.2.2.1, ih.2.2.2.1, fun y hy => ih.2.2.2.2.1 y (List.mem_cons_of_mem _ hy), diffStep_in ih.2.2.2.2.2 (ih.2.2.2.2.1 x List.mem_cons_self)⟩
    | publish id m1 md1 m2 md2 only1 only2 clock hc =>
      rw [hc] at ih
      refine ⟨fun r hp => ?_, trivial⟩
      cases hp
      exact ⟨ih.2.2.2.1, ih.2.2.2.2.2⟩

/-- What one step of a source may do to an entry that is there. -/
theorem code_entry {wide : WideFloat} {grace : Int} {h h' : MonHeap} {c c' : MonSrc} (hw : CodeWork wide grace h c h' c') (hc : Wf h c.vrps) (r : MonRef) (hr : r < h.length) :
    h'[r]? = h[r]? ∨ ∃ e, h[r]? = some e ∧ h'[r]? = some { e with visible := false } := by
  rcases hw with hw | ⟨now, p, hp⟩
  · cases hw with
    | file _ _ vrps keys now =>
      obtain ⟨-, -, l, hh⟩ := refBuild_eq wide grace hc vrps keys now
      rcases hh.2 r with h1 | ⟨-, e, h1, h2⟩
      · left; rw [h1, List.getElem?_append_left hr]
      · right; rw [List.getElem?_append_left hr] at h1; exact ⟨e, h1, h2⟩
    | unchanged _ _ now =>
      obtain ⟨-, -, l, hh⟩ := refUpdate_eq grace hc now
      left; rw [hh, List.getElem?_append_left hr]
  · left
    have : (refPdu now h c p).1[r]? = h[r]? :=
      refPdu_cases (P := fun x => x.1[r]? = h[r]?) now p (fun k e => List.getElem?_append_left hr) (fun k => rfl) (fun _ _ _ _ => rfl) (fun _ => rfl) rfl
    rw [← hp] at this
    exact this

/-- A step publishes, or it leaves what is published. -/
theorem step_published {work : Work} {startedAt : Int} {thresholds : List Int} {s s' : MonSys} (hs : MonSys.Step work startedAt thresholds s s') :
    s'.published = s.published ∨ (s'.comp = .waiting ∧ s'.heap = s.heap ∧ s'.src = s.src) := by
  cases hs with
  | publish => exact .inr ⟨rfl, rfl, rfl⟩
  | _ => exact .inl rfl

/-- **C111**, partly. Until the comparator publishes again, the published difference has the same names, and of every entry everything but `visible` stays, which may become `false`. Missing: that it stays `true`, which is false
(`C111_stays_false`). -/
theorem C111_stays_partial {wide : WideFloat} {grace startedAt : Int} {thresholds : List Int} {path : Bool → Str} {s s' : MonSys} {r : RefReport} (h : MonSys.Reach (CodeWork wide grace) startedAt thresholds path s)
    (hs : MonSys.Step (CodeWork wide grace) startedAt thresholds s s') (hp : s.published = some r) :
    List.Forall₂ SameOrHidden (r.onlyIn1.deref s.heap) (r.onlyIn1.deref s'.heap) ∧ List.Forall₂ SameOrHidden (r.onlyIn2.deref s.heap) (r.onlyIn2.deref s'.heap) ∧
      (s'.published = some r ∨ s'.comp = .waiting) := by
  have hin := reach_inside (code_sound wide grace) h
  obtain ⟨h1, h2⟩ := (reach_held (code_sound wide grace) h).1 r hp
  have key : ∀ r, r < s.heap.length → s'.heap[r]? = s.heap[r]? ∨ ∃ e, s.heap[r]? = some e ∧ s'.heap[r]? = some { e with visible := false } := by
    intro r hr
    cases hs with
    | work i hpi h' c' hw => exact code_entry hw (hin.vrps i) r hr
    | _ => exact .inl rfl
  refine ⟨forall2_hidden _ fun x hx => key _ (h1 x hx), forall2_hidden _ fun x hx => key _ (h2 x hx), ?_⟩
  rcases step_published hs with he | he
  · exact .inl (he.trans hp)
  · exact .inr he.1

/-- **C111**, partly. If both sources are RTR sources, the published difference stays as it was. Missing: sources with files (`C111_stays_false`). -/
theorem C111_rtr_partial {startedAt : Int} {thresholds : List Int} {path : Bool → Str} {s s' : MonSys} {r : RefReport} (h : MonSys.Reach RtrWork startedAt thresholds path s) (hs : MonSys.Step RtrWork startedAt thresholds s s')
    (hp : s.published = some r) : r.onlyIn1.deref s'.heap = r.onlyIn1.deref s.heap ∧ r.onlyIn2.deref s'.heap = r.onlyIn2.deref s.heap := by
  obtain ⟨h1, h2⟩ := (reach_held rtr_sound h).1 r hp
  have key : ∀ r, r < s.heap.length → s'.heap[r]? = s.heap[r]? := by
    intro r hr
    cases hs with
    | work i hpi h' c' hw =>
      obtain ⟨now, p, hw⟩ := hw
      have : (refPdu now s.heap (s.src i) p).1[r]? = s.heap[r]? :=
        refPdu_cases (P := fun x => x.1[r]? = s.heap[r]?) now p (fun k e => List.getElem?_append_left hr) (fun k => rfl) (fun _ _ _ _ => rfl) (fun _ => rfl) rfl
      rw [← hw] at this
      exact this
    | _ => rfl
  exact ⟨deref_congr fun x hx => key _ (h1 x hx), deref_congr fun x hx => key _ (h2 x hx)⟩

/-- The situation of `C111_stays_partial`. -/
example : MonSys.Reach (CodeWork (fun _ => 0) 3600) 50 [0] exPath exCompared ∧ (∃ r, exCompared.published = some r ∧ r.onlyIn1 ≠ []) ∧
    ∃ s', MonSys.Step (CodeWork (fun _ => 0) 3600) 50 [0] exCompared s' :=
  ⟨exCompared_reach, ⟨_, rfl, by show refDiff exBuilt.1 exSrc.vrps [] ≠ []; decide +kernel⟩, _, .begin exCompared false rfl⟩

/-- An RTR source, before any PDU. -/
example : MonSys.Reach RtrWork 50 [0] exPath (MonSys.start exPath) := .start

/-! ## C112: the page -/

/-- **C112.** The body is one JSON text in UTF-8 with a line end, no object has a name twice, and it has the metadata and the entries of the two published differences, each entry once and in full; before the first comparison
the metadata is `null` and the lists are empty. -/
theorem C112_page {s : MonSys} {b : Bytes} (h : ServesDiff s b) :
    ∃ t o, IsJsonFile b t o ∧ Given o "metadata-primary" PageMetaPtr (s.published.map (·.md1)) ∧ Given o "metadata-secondary" PageMetaPtr (s.published.map (·.md2)) ∧
      Given o "only-primary" PageList (RefMap.deref s.heap ((s.published.map (·.onlyIn1)).getD [])) ∧ Given o "only-secondary" PageList (RefMap.deref s.heap ((s.published.map (·.onlyIn2)).getD [])) := by
  obtain ⟨d1, d2, h1, h2, rfl⟩ := h
  refine ⟨_, _, ⟨_, print_text _ _ (encDiff_printable _ _ d1 d2), rfl, utf8_str _, encDiff_noRepeats _ _ d1 d2⟩, ⟨_, by simp, encDiffMetaPtr_page _⟩, ⟨_, by simp, encDiffMetaPtr_page _⟩,
    ⟨_, by simp, _, d1, rfl, entries_page d1, h1⟩, ⟨_, by simp, _, d2, rfl, entries_page d2, h2⟩⟩

/-- **C112.** When nothing is going on, the lists of the page are exactly the records visible in one source and not in the other. -/
theorem C112_quiet {work : Work} (hw : Sound work) {startedAt : Int} {thresholds : List Int} {path : Bool → Str} {s : MonSys} (h : MonSys.Reach work startedAt thresholds path s) (hq : Quiet s) {b : Bytes} (hb : ServesDiff s b) :
    ∃ t o m1 m2, IsJsonFile b t o ∧ Given o "only-primary" PageList m1 ∧ Given o "only-secondary" PageList m2 ∧
      (∀ k e, m1.get k = some e ↔ OnlyIn (shown s false) (shown s true) k e) ∧ (∀ k e, m2.get k = some e ↔ OnlyIn (shown s true) (shown s false) k e) := by
  obtain ⟨t, o, hf, -, -, g1, g2⟩ := C112_page hb
  refine ⟨t, o, _, _, hf, g1, g2, ?_⟩
  rcases C110_quiet hw h hq with ⟨hn, hs⟩ | ⟨r, hp, -, -, k1, k2, -⟩
  · have hempty : ∀ i, shown s i = [] := fun i => by unfold shown; rw [hs i]; rfl
    simp only [hn, hempty]
    constructor <;> intro k e <;> simp [OnlyIn, RefMap.deref, MonMap.get]
  · rw [hp]
    exact ⟨k1, k2⟩

/-- A page for the examples, as text. -/
def exPage : Str := ["{\"metadata-primary\":{\"last-fetch\":100,\"u", "rl\":\"https://a.example/\",\"serial\":0,\"ses", "sion-id\":0,\"count\":1,\"rtr-refresh\":0,\"rt", "r-retry\":0,\"rtr-expire\":0},\"metadata-sec", "ondary\":{\"last-fetch\":-6795364578,\"url\":", "\"https://b.example/\",\"serial\":0,\"session", "-id\":0,\"count\":0,\"rtr-refresh\":0,\"rtr-re", "try\":0,\"rtr-expire\":0},\"only-primary\":[{", "\"asn\":1,\"max-length\":8,\"prefix\":\"10.0.0.", "0/8\",\"first-seen\":100,\"last-seen\":100,\"v", "isible\":true}],\"only-secondary\":[]}\n"].flatMap String.toList

/-- A page is served: this one. -/
example : ServesDiff exCompared (utf8Str exPage) := by
  refine ⟨((refDiff exBuilt.1 exSrc.vrps []).deref exBuilt.1).map (fun x : Str × MonEntry => x.2), [], ?_, ?_, ?_⟩
  · exact List.Perm.refl (((refDiff exBuilt.1 exSrc.vrps []).deref exBuilt.1).map (fun x : Str × MonEntry => x.2))
  · exact List.Perm.refl []
  have h : (exPage == printJson (encDiff (some exSrc.getData.2) (some (MonSrc.new (exPath true)).getData.2) (((refDiff exBuilt.1 exSrc.vrps []).deref exBuilt.1).map (·.2)) []) ++ ['\n']) = true := by decide +kernel
  show _ = utf8Str _
  rw [show exPage = _ from eq_of_beq h]
  rfl

/-! ## C113: the time of the last fetch -/

theorem lastFetch_small {t : Int} (h0 : 0 ≤ t) (h1 : t < 9223372036) : lastFetchOf (some t) = t := by
  unfold lastFetchOf
  simp only [Option.getD_some]
  rw [BitVec.toInt_ofInt, Int.bmod_eq_of_le (by omega) (by omega), Int.mul_tdiv_cancel_left _ (by decide)]

/-- **C113**, partly. When nothing is going on, the page and the gauge have the time of the last update of each source that has been updated (at a time until the year 2262). Missing: a source not updated yet (`C113_never_false`). -/
theorem C113_fetched_partial {work : Work} (hw : Sound work) {startedAt : Int} {thresholds : List Int} {path : Bool → Str} {s : MonSys} (h : MonSys.Reach work startedAt thresholds path s) (hq : Quiet s) {r : RefReport}
    (hp : s.published = some r) (i : Bool) {t : Int} (ht : (s.src i).lastUpdate = some t) (h0 : 0 ≤ t) (h1 : t < 9223372036) :
    (if i then r.md2 else r.md1).lastFetch = t ∧ s.lastUpdate i = some t := by
  obtain ⟨q1, q2, qc⟩ := hq
  have hr := reach_right h q1 q2
  unfold Right at hr
  rw [qc] at hr
  rcases hr with hn | ⟨clock, hp'⟩
  · rw [hp] at hn; cases hn
  · rw [hp] at hp'
    cases hp'
    constructor
    · cases i
      · show lastFetchOf (s.src false).lastUpdate = t
        rw [ht, lastFetch_small h0 h1]
      · show lastFetchOf (s.src true).lastUpdate = t
        rw [ht, lastFetch_small h0 h1]
    · rcases C110_gauge h i (by cases i; exacts [q1, q2]) qc with ⟨-, hn⟩ | hg
      · rw [hn] at ht; cases ht
      · rw [hg, ht, lastFetch_small h0 h1]

theorem mem_monPut {m : MonMap} {k : Str} {e : MonEntry} {x : Str × MonEntry} (h : x ∈ m.put k e) : x = (k, e) ∨ x ∈ m := by
  rcases List.mem_cons.1 h with h | h
  · exact .inl h
  · exact .inr (List.mem_filter.1 h).1

/-- What is visible was seen at that time. -/
def SeenAt (now : Int) (m : MonMap) : Prop := ∀ x ∈ m, x.2.visible = true → x.2.lastSeen = now

theorem SeenAt.foldl {α β : Type} {now : Int} (p : β → MonMap) (f : β → α → β) (hf : ∀ b a, SeenAt now (p b) → SeenAt now (p (f b a))) (l : List α) (b : β) (h : SeenAt now (p b)) : SeenAt now (p (l.foldl f b)) := by
  induction l generalizing b with
  | nil => exact h
  | cons a l ih => exact ih _ (hf b a h)

theorem SeenAt.put {now : Int} {m : MonMap} (h : SeenAt now m) (k : Str) {e : MonEntry} (he : e.visible = true → e.lastSeen = now) : SeenAt now (m.put k e) := by
  intro x hx
  rcases mem_monPut hx with rfl | hx
  · exact he
  · exact h x hx

theorem build_seen (wide : WideFloat) (grace : Int) (cur : MonMap) (vrps : List VRPJson) (keys : List BgpSecKeyJson) (now : Int) : SeenAt now (buildNewVrpMap wide grace cur vrps keys now).1 := by
  refine SeenAt.foldl Prod.fst _ (fun b a h => ?_) _ _ (SeenAt.foldl id (monAddKey cur now) (fun b a h => SeenAt.put h _ fun _ => rfl) keys _ (SeenAt.foldl id (monAddVrp wide cur now) (fun b a h => ?_) vrps [] (by intro x hx; cases hx)))
  · unfold monGrace
    split
    · exact h.put _ fun h => by cases h
    · exact h
  · show SeenAt now (monAddVrp wide cur now b a)
    unfold monAddVrp
    split
    · exact h
    · split
      · exact h
      · exact h.put _ fun _ => rfl

theorem unchanged_seen (grace : Int) (cur : MonMap) (now : Int) : SeenAt now (updateCurrentVrpMap grace cur now).1 := by
  refine SeenAt.foldl Prod.fst _ (fun b a h => ?_) _ _ (by intro x hx; cases hx)
  unfold monKeep
  split
  · exact h
  · split
    · exact h.put _ fun _ => rfl
    · rename_i hv; exact h.put _ fun h => absurd h hv

/-- **C113**, partly. The time of the last update of a source with a file is the time at which every record that it shows as visible was last seen, in every state of every run. Missing: as for `C113_fetched_partial`. -/
theorem C113_seen_partial (wide : WideFloat) (grace : Int) {startedAt : Int} {thresholds : List Int} {path : Bool → Str} {s : MonSys} (h : MonSys.Reach (FileWork wide grace) startedAt thresholds path s) (i : Bool) :
    ∀ x ∈ shown s i, x.2.visible = true → (s.src i).lastUpdate = some x.2.lastSeen := by
  induction h with
  | start => intro x hx; cases hx
  | step h hs ih =>
    intro x hx hv
    rcases C61_shared wide grace h hs i with ⟨h1, h2⟩ | ⟨vrps, keys, now, h1, h2⟩ | ⟨now, h1, h2⟩
    · rw [h1] at hx; rw [h2]; exact ih x hx hv
    · rw [h1] at hx; rw [h2, build_seen wide grace _ vrps keys now x hx hv]
    · rw [h1] at hx; rw [h2, unchanged_seen grace _ now x hx hv]

/-- A source with a visible record. -/
example : MonSys.Reach (FileWork (fun _ => 0) 3600) 50 [0] exPath exCompared ∧ (shown exCompared false).map (fun x => (x.2.visible, x.2.lastSeen)) = [(true, 100)] :=
  ⟨exCompared_any (.file [] (MonSrc.new (exPath false)) [exFileA] [] 100), by decide +kernel⟩

/-- **C113 is false.** A source that was never fetched is published with a time in the year 1754: the zero time does not fit 64 bits of nanoseconds. -/
theorem C113_never_false : ∃ (s : MonSys) (r : RefReport), MonSys.Reach (CodeWork (fun _ => 0) 3600) 50 [0] exPath s ∧ Quiet s ∧ s.published = some r ∧ (s.src true).lastUpdate = none ∧ r.md2.lastFetch = -6795364578 :=
  ⟨exCompared, _, exCompared_reach, ⟨rfl, rfl, rfl⟩, rfl, rfl, by decide⟩

/-- The situation of `C113_fetched_partial`. -/
example : (exCompared.src false).lastUpdate = some 100 ∧ (exCompared.published.map fun r => r.md1.lastFetch) = some 100 ∧ exCompared.lastUpdate false = some 100 := by decide +kernel

end StayRTR
