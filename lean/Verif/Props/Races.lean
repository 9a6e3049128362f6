import Verif.Proofs.Races

/-!
# C147, C148: data races

A data race is two goroutines at once about to access the same field, one of them writing it. For each field of stayrtr and of rtrmon that changes while the
goroutines run, whether there can be one.
-/

namespace StayRTR

/-- **Spec.** Goroutine `g` is about to read or to write `f`. -/
def Spec.AboutTo {G L F : Type} (s : RSys G L F) (g : G) (f : F) (writes : Bool) : Prop :=
  ∃ rest, s.todo g = (if writes then .write f else .read f) :: rest

/-- **Spec.** A data race on `f`: two goroutines are about to access it, one of them to write. -/
def Spec.DataRace {G L F : Type} (s : RSys G L F) (f : F) : Prop :=
  ∃ g h, g ≠ h ∧ Spec.AboutTo s g f true ∧ ∃ w, Spec.AboutTo s h f w

open Spec

section generic

set_option linter.unusedSectionVars false

variable {G L F : Type} [DecidableEq G] [DecidableEq L] [DecidableEq F]

theorem no_race_guarded {prog : G → List (ROp L F) → Prop} {child : G → Bool} (f : F) (l : L) (r w : G → Bool) (how : ∀ g h, r g = true → w h = true → g = h)
    (hp : ∀ g seg, prog g seg → guardedBy f l (r g) (w g) .no seg = true) {s : RSys G L F} (hs : RSteps prog child RSys.init s) : ¬ DataRace s f := by
  rintro ⟨g, h, hne, ⟨rest, hg⟩, wr, rest', hh⟩
  obtain ⟨i1, i2⟩ := guarded_inv hp (guard_init f l r w) hs
  have hg1 := i1 g
  rw [hg] at hg1
  simp only [if_true, guardedBy, ne_eq, not_true_eq_false, decide_false, Bool.false_or, Bool.and_eq_true, decide_eq_true_eq] at hg1
  have hn := i2 g h hg1.1.2 (Ne.symm hne)
  have hh1 := i1 h
  rw [hh, hn] at hh1
  cases wr with
  | true => simp [guardedBy] at hh1
  | false =>
    simp only [Bool.false_eq_true, if_false, guardedBy, ne_eq, not_true_eq_false, decide_false, Bool.false_or, Bool.or_false, Bool.and_eq_true] at hh1
    exact hne (how h g hh1.1 hg1.1.1).symm

/-- The code `seg` reads or writes `f`. -/
def Touches (seg : List (ROp L F)) (f : F) : Prop := .read f ∈ seg ∨ .write f ∈ seg

theorem about_touches {prog : G → List (ROp L F) → Prop} {s : RSys G L F} (hi : SuffixInv prog s) {g : G} {f : F} {wr : Bool} (h : AboutTo s g f wr) :
    ∃ seg, prog g seg ∧ Touches seg f := by
  obtain ⟨rest, hr⟩ := h
  obtain ⟨pre, hpre⟩ := hi g (by rw [hr]; simp)
  refine ⟨_, hpre, ?_⟩
  rw [hr]
  cases wr <;> simp [Touches]

theorem no_race_sole {prog : G → List (ROp L F) → Prop} {child : G → Bool} (f : F) (o : G) (hp : ∀ g seg, prog g seg → Touches seg f → g = o) {s : RSys G L F}
    (hs : RSteps prog child RSys.init s) : ¬ DataRace s f := by
  rintro ⟨g, h, hne, hg, wr, hh⟩
  have hi := suffix_inv hs
  obtain ⟨_, h1, h2⟩ := about_touches hi hg
  obtain ⟨_, h3, h4⟩ := about_touches hi hh
  exact hne ((hp _ _ h1 h2).trans (hp _ _ h3 h4).symm)

theorem no_race_unwritten {prog : G → List (ROp L F) → Prop} {child : G → Bool} (f : F) (hp : ∀ g seg, prog g seg → .write f ∉ seg) {s : RSys G L F}
    (hs : RSteps prog child RSys.init s) : ¬ DataRace s f := by
  rintro ⟨g, h, hne, ⟨rest, hr⟩, wr, hh⟩
  obtain ⟨pre, hpre⟩ := suffix_inv hs g (by rw [hr]; simp)
  refine hp _ _ hpre ?_
  rw [hr]; simp

theorem no_race_phased {prog : G → List (ROp L F) → Prop} {child : G → Bool} {p : G} (hu : GroupUse prog p child) (f : F) (o : G) (ho : child o = true)
    (hp : ∀ g seg, prog g seg → Touches seg f → g = p ∨ g = o) {s : RSys G L F} (hs : RSteps prog child RSys.init s) : ¬ DataRace s f := by
  rintro ⟨g, h, hne, hg, wr, hh⟩
  obtain ⟨hi, h1, h2⟩ := phase_inv hu hs
  have key : ∀ w1 w2, AboutTo s p f w1 → AboutTo s o f w2 → False := by
    rintro w1 w2 ⟨r1, e1⟩ ⟨r2, e2⟩
    have hb := h2 o ho (by rw [e2]; simp)
    rw [(h1 o hb).2] at e1
    cases w1 <;> simp at e1
  obtain ⟨_, a1, a2⟩ := about_touches hi hg
  obtain ⟨_, b1, b2⟩ := about_touches hi hh
  rcases hp _ _ a1 a2 with e | e <;> rcases hp _ _ b1 b2 with e' | e' <;> subst e <;> subst e'
  · exact hne rfl
  · exact key _ _ hg hh
  · exact key _ _ hh hg
  · exact hne rfl

end generic

/-! ### stayrtr -/

theorem stay_group (ssh : Nat → Bool) : GroupUse (StayProg ssh) .updater stayChild := by
  have split : ∀ (op : ROp StayLock StayField) pre rest seg, pre ++ op :: rest = seg → op ∈ seg := by
    rintro op pre rest _ rfl; simp
  refine ⟨rfl, ?_, ?_, ?_, ?_⟩
  · intro g pre rest h
    generalize e : pre ++ ROp.fork :: rest = seg at h
    have hm := split _ _ _ _ e
    cases h with
    | fetch =>
      refine ⟨rfl, ?_⟩
      match pre, e with
      | [], e => simpa using e
      | [_], e => simp at e
      | _ :: _ :: _, e => simp at e
    | conn h => cases h <;> simp at hm
    | _ => simp at hm
  · intro g pre rest h
    generalize e : pre ++ ROp.join :: rest = seg at h
    have hm := split _ _ _ _ e
    cases h with
    | fetch =>
      refine ⟨rfl, ?_⟩
      match pre, e with
      | [], e => simp at e
      | [_], e => simpa using e
      | _ :: _ :: _, e => simp at e
    | conn h => cases h <;> simp at hm
    | _ => simp at hm
  · intro g pre rest h
    generalize e : pre ++ ROp.done :: rest = seg at h
    have hm := split _ _ _ _ e
    cases h with
    | fileFails => exact ⟨rfl, last_done _ _ [_] (by simp) e⟩
    | fileSame => exact ⟨rfl, last_done _ _ [_, _, _] (by simp) e⟩
    | fileBad => exact ⟨rfl, last_done _ _ [_, _, _, _, _] (by simp) e⟩
    | fileOk => exact ⟨rfl, last_done _ _ [_, _, _, _, _, _, _] (by simp) e⟩
    | slurmFails => exact ⟨rfl, last_done _ _ [] (by simp) e⟩
    | slurmSame => exact ⟨rfl, last_done _ _ [_, _] (by simp) e⟩
    | slurmBad => exact ⟨rfl, last_done _ _ [_, _, _, _] (by simp) e⟩
    | slurmOk => exact ⟨rfl, last_done _ _ [_, _, _, _, _] (by simp) e⟩
    | conn h => cases h <;> simp at hm
    | _ => simp at hm
  · intro g seg h hc
    cases h with
    | fileFails => exact ⟨[_], rfl⟩
    | fileSame => exact ⟨[_, _, _], rfl⟩
    | fileBad => exact ⟨[_, _, _, _, _], rfl⟩
    | fileOk => exact ⟨[_, _, _, _, _, _, _], rfl⟩
    | slurmFails => exact ⟨[], rfl⟩
    | slurmSame => exact ⟨[_, _], rfl⟩
    | slurmBad => exact ⟨[_, _, _, _], rfl⟩
    | slurmOk => exact ⟨[_, _, _, _, _], rfl⟩
    | _ => cases hc

/-- **Spec.** The fields of stayrtr on which the code has data races. -/
def Spec.Racy : StayField → Prop
  | .connCount => True
  | .connected _ => True
  | .version _ => True
  | .lastts => True
  | .lasthashCache => True
  | _ => False

/-- **C147, what holds.** However many clients there are and however all goroutines interleave: there is never a data race on the served data, the diffs and the serial, the list
of clients, the export, the loaded files and the time of the last change, nor on what else a connection keeps about its client. -/
theorem C147_safe_partial (ssh : Nat → Bool) {s : RSys StayGo StayLock StayField} (hs : RSteps (StayProg ssh) stayChild RSys.init s) (f : StayField) (hf : ¬ Racy f) : ¬ DataRace s f := by
  cases f with
  | connCount => exact absurd trivial hf
  | connected i => exact absurd trivial hf
  | version i => exact absurd trivial hf
  | lastts => exact absurd trivial hf
  | lasthashCache => exact absurd trivial hf
  | clients =>
    refine no_race_guarded _ .clientlock (fun _ => false) (fun _ => true) (by simp) ?_ hs
    intro g seg h
    cases h with
    | conn h => cases h <;> rfl
    | _ => rfl
  | sdListDiff =>
    refine no_race_guarded _ .sdlock (fun _ => false) (fun _ => true) (by simp) ?_ hs
    intro g seg h
    cases h with
    | conn h => cases h <;> rfl
    | _ => rfl
  | sdCurrent =>
    refine no_race_guarded _ .sdlock (fun _ => false) (fun _ => true) (by simp) ?_ hs
    intro g seg h
    cases h with
    | conn h => cases h <;> rfl
    | _ => rfl
  | sdCurrentSerial =>
    refine no_race_guarded _ .sdlock (fun _ => false) (fun _ => true) (by simp) ?_ hs
    intro g seg h
    cases h with
    | conn h => cases h <;> rfl
    | _ => rfl
  | exported =>
    refine no_race_guarded _ .lockJson (fun g => decide (g = .updater)) (fun g => decide (g = .updater)) (by simp) ?_ hs
    intro g seg h
    cases h with
    | conn h => cases h <;> rfl
    | _ => rfl
  | versionset i =>
    refine no_race_sole _ (.conn i) ?_ hs
    intro g seg h ht
    cases h with
    | conn h => cases h <;> simp [Touches] at ht <;> rw [ht]
    | _ => simp [Touches] at ht
  | curserial i =>
    refine no_race_sole _ (.conn i) ?_ hs
    intro g seg h ht
    cases h with
    | conn h => cases h <;> simp [Touches] at ht <;> rw [ht]
    | _ => simp [Touches] at ht
  | lasthashSlurm =>
    refine no_race_sole _ .fetchSlurm ?_ hs
    intro g seg h ht
    cases h with
    | conn h => cases h <;> simp [Touches] at ht
    | _ => first | rfl | simp [Touches] at ht
  | lastdata =>
    refine no_race_phased (stay_group ssh) _ .fetchCache rfl ?_ hs
    intro g seg h ht
    cases h with
    | conn h => cases h <;> simp [Touches] at ht
    | _ => first | exact .inl rfl | exact .inr rfl | simp [Touches] at ht
  | lastchange =>
    refine no_race_phased (stay_group ssh) _ .fetchCache rfl ?_ hs
    intro g seg h ht
    cases h with
    | conn h => cases h <;> simp [Touches] at ht
    | _ => first | exact .inl rfl | exact .inr rfl | simp [Touches] at ht
  | slurm =>
    refine no_race_phased (stay_group ssh) _ .fetchSlurm rfl ?_ hs
    intro g seg h ht
    cases h with
    | conn h => cases h <;> simp [Touches] at ht
    | _ => first | exact .inl rfl | exact .inr rfl | simp [Touches] at ht

/-- **C147, what fails: the number of connections.** An accept loop compares it with the limit without the lock (lib/server.go:587), while a connection that has come or gone changes it. -/
theorem C147_count_false (ssh : Nat → Bool) : ∃ s, RSteps (StayProg ssh) stayChild RSys.init s ∧ DataRace s .connCount := by
  have h1 := walk (prog := StayProg ssh) (child := stayChild) RSys.init (.conn 0) [.write (.connected 0)] _ (.conn .start) rfl rfl (by simp [stayChild])
  have h2 := RSteps.step h1 (.lock (.conn 0) .clientlock _ rfl (fun _ => rfl))
  have h3 := h2.trans' (walkOn _ (.conn 0) [.read .clients, .write .clients, .read .connCount] [.write .connCount, .unlock .clientlock] rfl (by simp [RSys.goOn]))
  have h4 := h3.trans' (walk _ (.accept 0) [] _ (.accept 0) rfl (by simp [RSys.goOn, RSys.hold, RSys.init]) (by simp [stayChild]))
  exact ⟨_, h4, .conn 0, .accept 0, by simp, ⟨[.unlock .clientlock], by simp [RSys.goOn]⟩, false, _, by simp [RSys.goOn]; rfl⟩

/-- On SSH two goroutines change it at once, both without the lock (lib/server.go:517, 569; C121 says what that does). -/
theorem C147_count_ssh_false (ssh : Nat → Bool) (i j : Nat) (hij : i ≠ j) (hi : ssh i = true) (hj : ssh j = true) :
    ∃ s, RSteps (StayProg ssh) stayChild RSys.init s ∧ AboutTo s (.conn i) .connCount true ∧ AboutTo s (.conn j) .connCount true := by
  have h1 := walk (prog := StayProg ssh) (child := stayChild) RSys.init (.conn i) [.read .connCount] _ (.sshUp i hi) rfl rfl (by simp [stayChild])
  have h2 := h1.trans' (walk _ (.conn j) [.read .connCount] _ (.sshUp j hj) rfl (by simp [RSys.goOn, RSys.init, hij.symm]) (by simp [stayChild]))
  exact ⟨_, h2, ⟨[], by simp [RSys.goOn, hij]⟩, [], by simp [RSys.goOn]⟩

/-- **C147, what fails: the version of a client.** `NotifyClientsLatest` reads it without a lock (lib/server.go:635, 1016), while the connection settles it with the first PDU (721) or lowers it (460); C124 says what that does. -/
theorem C147_version_false (ssh : Nat → Bool) (i : Nat) : ∃ s, RSteps (StayProg ssh) stayChild RSys.init s ∧ DataRace s (.version i) := by
  have h1 := walk (prog := StayProg ssh) (child := stayChild) RSys.init (.conn i) [.read (.versionset i), .read (.version i), .write (.versionset i)] _ (.conn .versionOk) rfl rfl (by simp [stayChild])
  have h2 := h1.trans' (walk _ .updater [] _ (.notify i) rfl (by simp [RSys.goOn, RSys.init]) (by simp [stayChild]))
  exact ⟨_, h2, .conn i, .updater, by simp, ⟨[], by simp [RSys.goOn]⟩, false, _, by simp [RSys.goOn]; rfl⟩

/-- **C147, what fails: whether a client is connected.** `Disconnect` writes it (lib/server.go:1021) while `sendLoop` reads it (747). -/
theorem C147_connected_false (ssh : Nat → Bool) (i : Nat) : ∃ s, RSteps (StayProg ssh) stayChild RSys.init s ∧ DataRace s (.connected i) := by
  have h1 := walk (prog := StayProg ssh) (child := stayChild) RSys.init (.conn i) [] _ (.conn .disconnect) rfl rfl (by simp [stayChild])
  have h2 := h1.trans' (walk _ (.sender i) [] _ (.sender i) rfl (by simp [RSys.goOn, RSys.init]) (by simp [stayChild]))
  exact ⟨_, h2, .conn i, .sender i, by simp, ⟨_, by simp [RSys.goOn]; rfl⟩, false, _, by simp [RSys.goOn]; rfl⟩

/-- The two fetching goroutines have been started. -/
theorem stay_forked (ssh : Nat → Bool) : ∃ s, RSteps (StayProg ssh) stayChild RSys.init s ∧ s.todo .fetchCache = [] ∧ s.todo .fetchSlurm = [] ∧ s.busy .fetchCache = true ∧ s.busy .fetchSlurm = true := by
  have h1 := walk (prog := StayProg ssh) (child := stayChild) RSys.init .updater [] _ .fetch rfl rfl (by simp [stayChild])
  have h2 := RSteps.step h1 (.fork .updater [.join] rfl)
  exact ⟨_, h2, rfl, rfl, rfl, rfl⟩

/-- **C147, what fails: the time of the last refresh.** `updateFile` sets it (cmd/stayrtr/stayrtr.go:464) while `updateSlurm` reads it for its metric (505); a `time.Time` is three words, and what is read may be made of two times. -/
theorem C147_lastts_false (ssh : Nat → Bool) : ∃ s, RSteps (StayProg ssh) stayChild RSys.init s ∧ DataRace s .lastts := by
  obtain ⟨s, h0, e1, e2, e3, e4⟩ := stay_forked ssh
  have h1 := h0.trans' (walk _ .fetchCache [] _ .fileOk rfl e1 (fun _ => e3))
  have h2 := h1.trans' (walk _ .fetchSlurm [] _ .slurmOk rfl (by simp [RSys.goOn, e2]) (by intro _; exact e4))
  exact ⟨_, h2, .fetchCache, .fetchSlurm, by simp, ⟨_, by simp [RSys.goOn]; rfl⟩, false, _, by simp [RSys.goOn]; rfl⟩

/-- **C147, what fails: the hash of the cache file.** `updateSlurm` logs it in place of its own (cmd/stayrtr/stayrtr.go:518), while `updateFile` replaces it (485). -/
theorem C147_hash_false (ssh : Nat → Bool) : ∃ s, RSteps (StayProg ssh) stayChild RSys.init s ∧ DataRace s .lasthashCache := by
  obtain ⟨s, h0, e1, e2, e3, e4⟩ := stay_forked ssh
  have h1 := h0.trans' (walk _ .fetchCache [.write .lastts, .read .lastts, .read .lasthashCache, .read .lasthashCache] _ .fileOk rfl e1 (fun _ => e3))
  have h2 := h1.trans' (walk _ .fetchSlurm [.read .lastts, .read .lasthashSlurm] _ .slurmOk rfl (by simp [RSys.goOn, e2]) (by intro _; exact e4))
  exact ⟨_, h2, .fetchCache, .fetchSlurm, by simp, ⟨_, by simp [RSys.goOn]; rfl⟩, false, _, by simp [RSys.goOn]; rfl⟩

/-- **C147, exactly**: the fields on which there can be a data race are these five. -/
theorem C147_exact (ssh : Nat → Bool) (f : StayField) : (∃ s, RSteps (StayProg ssh) stayChild RSys.init s ∧ DataRace s f) ↔ Racy f := by
  constructor
  · rintro ⟨s, hs, hr⟩
    exact Classical.byContradiction fun hf => C147_safe_partial ssh hs f hf hr
  · intro h
    cases f with
    | connCount => exact C147_count_false ssh
    | connected i => exact C147_connected_false ssh i
    | version i => exact C147_version_false ssh i
    | lastts => exact C147_lastts_false ssh
    | lasthashCache => exact C147_hash_false ssh
    | _ => exact h.elim

/-- Such a state: an update is about to replace the served data, with the lock, and a connection that wants to read them waits. -/
example (ssh : Nat → Bool) : ∃ s, RSteps (StayProg ssh) stayChild RSys.init s ∧ AboutTo s .updater .sdCurrent true ∧ s.held .updater .sdlock = .excl ∧
    s.todo (.conn 7) = [.rlock .sdlock, .read .sdCurrent, .runlock .sdlock] := by
  have h1 := walk (prog := StayProg ssh) (child := stayChild) RSys.init .updater [] _ .addDiff rfl rfl (by simp [stayChild])
  have h2 := RSteps.step h1 (.rlock .updater .sdlock _ rfl rfl (by intro g; simp [RSys.goOn, RSys.init]))
  have h3 := h2.trans' (walkOn _ .updater [.read .sdListDiff, .read .sdCurrent] _ rfl (by simp [RSys.goOn]; rfl))
  have h4 := RSteps.step h3 (.runlock .updater .sdlock _ rfl)
  have h5 := RSteps.step h4 (.lock .updater .sdlock _ rfl (by intro g; by_cases e : g = .updater <;> simp [RSys.goOn, RSys.hold, RSys.init, e]))
  have h6 := h5.trans' (walkOn _ .updater [.read .sdCurrentSerial, .read .sdCurrent, .write .sdListDiff] _ rfl (by simp [RSys.goOn]; rfl))
  have h7 := h6.trans' (walk _ (.conn 7) [] _ (.conn .currentSDs) rfl rfl (by simp [stayChild]))
  exact ⟨_, h7, ⟨_, rfl⟩, rfl, rfl⟩

/-! ### rtrmon -/

/-- **Spec.** The fields of rtrmon on which the code has data races: those of an RTR source that `continuousRTR`, `sendLoop` or the comparator look at without the lock of the writer, and the records of a file. -/
def Spec.MonRacy (rtr : Bool → Bool) : MonField → Prop
  | .serial k => rtr k = true
  | .sessionID k => rtr k = true
  | .qrtr k => rtr k = true
  | .unlock k => rtr k = true
  | .sessVersion k _ => rtr k = true
  | .sessConnected k _ => rtr k = true
  | .visible k => rtr k = false
  | _ => False

/-- **C148, what holds.** However the goroutines of rtrmon interleave, over any number of sessions and requests: there is never a data race on the maps of a source, the time of its last update, the intervals, and the published
difference; with a file as source none on any field of the RTR part, and with an RTR server none on the records. -/
theorem C148_safe_partial (rtr : Bool → Bool) {s : RSys MonGoro MonLock MonField} (hs : RSteps (MonProg rtr) monChild RSys.init s) (f : MonField) (hf : ¬ MonRacy rtr f) : ¬ DataRace s f := by
  have file : ∀ k, ¬ rtr k = true → rtr k = false := fun k h => by simpa using h
  cases f with
  | serial k =>
    have hk := file k hf
    refine no_race_unwritten _ ?_ hs
    intro g seg h
    cases h <;> simp <;> rintro rfl <;> simp_all
  | sessionID k =>
    have hk := file k hf
    refine no_race_unwritten _ ?_ hs
    intro g seg h
    cases h <;> simp <;> rintro rfl <;> simp_all
  | qrtr k =>
    have hk := file k hf
    refine no_race_unwritten _ ?_ hs
    intro g seg h
    cases h <;> simp <;> rintro rfl <;> simp_all
  | unlock k =>
    have hk := file k hf
    refine no_race_unwritten _ ?_ hs
    intro g seg h
    cases h <;> simp <;> rintro rfl <;> simp_all
  | sessVersion k n =>
    have hk := file k hf
    refine no_race_unwritten _ ?_ hs
    intro g seg h
    cases h <;> simp <;> rintro rfl <;> simp_all
  | sessConnected k n =>
    have hk := file k hf
    refine no_race_unwritten _ ?_ hs
    intro g seg h
    cases h <;> simp <;> rintro rfl <;> simp_all
  | visible k =>
    have hk : rtr k = true := by
      have : ¬ rtr k = false := hf
      simpa using this
    refine no_race_unwritten _ ?_ hs
    intro g seg h
    cases h <;> simp <;> rintro rfl <;> simp_all
  | vrps k =>
    refine no_race_guarded _ (.comp k) (fun g => decide (g = .source k)) (fun g => decide (g = .source k)) (by simp) ?_ hs
    intro g seg h
    cases h with
    | endOfData k' => by_cases e : k' = k <;> simp [guardedBy, e]
    | build k' => by_cases e : k' = k <;> simp [guardedBy, e]
    | same k' => by_cases e : k' = k <;> simp [guardedBy, e]
    | getData k' => by_cases e : k' = k <;> simp [guardedBy, e]
    | _ => simp [guardedBy]
  | lastUpdate k =>
    refine no_race_guarded _ (.comp k) (fun _ => false) (fun _ => true) (by simp) ?_ hs
    intro g seg h
    cases h with
    | endOfData k' => by_cases e : k' = k <;> simp [guardedBy, e]
    | build k' => by_cases e : k' = k <;> simp [guardedBy, e]
    | same k' => by_cases e : k' = k <;> simp [guardedBy, e]
    | getData k' => by_cases e : k' = k <;> simp [guardedBy, e]
    | _ => simp [guardedBy]
  | intervals k =>
    refine no_race_guarded _ (.comp k) (fun _ => false) (fun _ => true) (by simp) ?_ hs
    intro g seg h
    cases h with
    | endOfData k' => by_cases e : k' = k <;> simp [guardedBy, e]
    | build k' => by_cases e : k' = k <;> simp [guardedBy, e]
    | same k' => by_cases e : k' = k <;> simp [guardedBy, e]
    | getData k' => by_cases e : k' = k <;> simp [guardedBy, e]
    | _ => simp [guardedBy]
  | vrpsRtr k =>
    refine no_race_guarded _ (.compRtr k) (fun _ => false) (fun _ => true) (by simp) ?_ hs
    intro g seg h
    cases h with
    | data k' => by_cases e : k' = k <;> simp [guardedBy, e]
    | endOfData k' => by_cases e : k' = k <;> simp [guardedBy, e]
    | _ => simp [guardedBy]
  | published =>
    refine no_race_guarded _ .diff (fun _ => false) (fun _ => true) (by simp) ?_ hs
    intro g seg h
    cases h <;> simp [guardedBy]

/-- Such a state: the new map of a source is about to be stored, with the lock, and the comparator waits for it. -/
example : ∃ s, RSteps (MonProg (fun _ => false)) monChild RSys.init s ∧ AboutTo s (.source true) (.vrps true) true ∧ s.held (.source true) (.comp true) = .excl ∧
    ∃ rest, s.todo .comparator = .rlock (.comp true) :: rest := by
  have h1 := walk (prog := MonProg (fun _ => false)) (child := monChild) RSys.init (.source true) [.read (.vrps true), .read (.visible true), .write (.visible true)] _ (.build true rfl) rfl rfl (by simp [monChild])
  have h2 := RSteps.step h1 (.lock (.source true) (.comp true) _ rfl (fun _ => rfl))
  have h3 := h2.trans' (walk _ .comparator [] _ (.getData true) rfl rfl (by simp [monChild]))
  exact ⟨_, h3, ⟨_, rfl⟩, rfl, _, rfl⟩

/-- **C148, what fails: the serial.** End of Data stores it under one lock (cmd/rtrmon/rtrmon.go:533), `continuousRTR` reads it under none (610), the comparator under another (622). -/
theorem C148_serial_false (rtr : Bool → Bool) (k : Bool) (hk : rtr k = true) : ∃ s, RSteps (MonProg rtr) monChild RSys.init s ∧ DataRace s (.serial k) := by
  have h1 := walk (prog := MonProg rtr) (child := monChild) RSys.init (.source k) [] _ (.endOfData k hk) rfl rfl (by simp [monChild])
  have h2 := RSteps.step h1 (.lock (.source k) (.compRtr k) _ (by simp [RSys.goOn]; rfl) (fun _ => rfl))
  have h3 := h2.trans' (walk _ (.ticker k 0) [.read (.sessionID k)] _ (.query k 0 hk) rfl (by simp [RSys.goOn, RSys.hold, RSys.init]) (by simp [monChild]))
  exact ⟨_, h3, .source k, .ticker k 0, by simp, ⟨_, by simp [RSys.goOn]; rfl⟩, false, _, by simp [RSys.goOn]; rfl⟩

/-- The lock of the comparator is another one, and does not help. -/
theorem C148_serial_page_false (rtr : Bool → Bool) (k : Bool) (hk : rtr k = true) :
    ∃ s, RSteps (MonProg rtr) monChild RSys.init s ∧ AboutTo s (.source k) (.serial k) true ∧ AboutTo s .comparator (.serial k) false ∧ s.held (.source k) (.compRtr k) = .excl ∧ s.held .comparator (.comp k) = .shared := by
  have h1 := walk (prog := MonProg rtr) (child := monChild) RSys.init (.source k) [] _ (.endOfData k hk) rfl rfl (by simp [monChild])
  have h2 := RSteps.step h1 (.lock (.source k) (.compRtr k) _ (by simp [RSys.goOn]; rfl) (fun _ => rfl))
  have h3 := h2.trans' (walk _ .comparator [] _ (.getData k) rfl (by simp [RSys.goOn, RSys.hold, RSys.init]) (by simp [monChild]))
  have h4 := RSteps.step h3 (.rlock .comparator (.comp k) _ (by simp [RSys.goOn]; rfl) (by simp [RSys.goOn, RSys.hold, RSys.init]) (by intro g; simp [RSys.goOn, RSys.hold, RSys.init]))
  have h5 := h4.trans' (walkOn _ .comparator [.read (.vrps k)] _ rfl (by simp [RSys.goOn]; rfl))
  exact ⟨_, h5, ⟨_, by simp [RSys.goOn]; rfl⟩, ⟨_, by simp [RSys.goOn]; rfl⟩, by simp [RSys.goOn, RSys.hold], by simp [RSys.goOn, RSys.hold]⟩

/-- **C148, what fails: the session id.** It is stored without any lock (cmd/rtrmon/rtrmon.go:558). -/
theorem C148_session_false (rtr : Bool → Bool) (k : Bool) (hk : rtr k = true) : ∃ s, RSteps (MonProg rtr) monChild RSys.init s ∧ DataRace s (.sessionID k) := by
  have h1 := walk (prog := MonProg rtr) (child := monChild) RSys.init (.source k) [] _ (.response k hk) rfl rfl (by simp [monChild])
  have h2 := h1.trans' (walk _ (.ticker k 0) [] _ (.query k 0 hk) rfl (by simp [RSys.goOn, RSys.init]) (by simp [monChild]))
  exact ⟨_, h2, .source k, .ticker k 0, by simp, ⟨_, by simp [RSys.goOn]; rfl⟩, false, _, by simp [RSys.goOn]; rfl⟩

/-- **C148, what fails: the channels of a session.** They are fields, replaced for the next session (cmd/rtrmon/rtrmon.go:313-314), while a `continuousRTR` of the session before still reads them (600-607). -/
theorem C148_channels_false (rtr : Bool → Bool) (k : Bool) (hk : rtr k = true) : (∃ s, RSteps (MonProg rtr) monChild RSys.init s ∧ DataRace s (.qrtr k)) ∧ ∃ s, RSteps (MonProg rtr) monChild RSys.init s ∧ DataRace s (.unlock k) := by
  constructor
  · have h1 := walk (prog := MonProg rtr) (child := monChild) RSys.init (.source k) [] _ (.session k hk) rfl rfl (by simp [monChild])
    have h2 := h1.trans' (walk _ (.ticker k 0) [] _ (.wait k 0 hk) rfl (by simp [RSys.goOn, RSys.init]) (by simp [monChild]))
    exact ⟨_, h2, .source k, .ticker k 0, by simp, ⟨_, by simp [RSys.goOn]; rfl⟩, false, _, by simp [RSys.goOn]; rfl⟩
  · have h1 := walk (prog := MonProg rtr) (child := monChild) RSys.init (.source k) [.write (.qrtr k)] _ (.session k hk) rfl rfl (by simp [monChild])
    have h2 := h1.trans' (walk _ (.ticker k 0) [] _ (.first k 0 hk) rfl (by simp [RSys.goOn, RSys.init]) (by simp [monChild]))
    exact ⟨_, h2, .source k, .ticker k 0, by simp, ⟨_, by simp [RSys.goOn]; rfl⟩, false, _, by simp [RSys.goOn]; rfl⟩

/-- **C148, what fails: the version and the state of a session** (lib/client.go:69 against 123, 78 against 91). -/
theorem C148_client_false (rtr : Bool → Bool) (k : Bool) (n : Nat) (hk : rtr k = true) :
    (∃ s, RSteps (MonProg rtr) monChild RSys.init s ∧ DataRace s (.sessVersion k n)) ∧ ∃ s, RSteps (MonProg rtr) monChild RSys.init s ∧ DataRace s (.sessConnected k n) := by
  constructor
  · have h1 := walk (prog := MonProg rtr) (child := monChild) RSys.init (.source k) [.read (.sessVersion k n)] _ (.downgrade k n hk) rfl rfl (by simp [monChild])
    have h2 := h1.trans' (walk _ (.ticker k n) [.read (.sessionID k), .read (.serial k)] _ (.query k n hk) rfl (by simp [RSys.goOn, RSys.init]) (by simp [monChild]))
    exact ⟨_, h2, .source k, .ticker k n, by simp, ⟨_, by simp [RSys.goOn]; rfl⟩, false, _, by simp [RSys.goOn]; rfl⟩
  · have h1 := walk (prog := MonProg rtr) (child := monChild) RSys.init (.source k) [] _ (.disconnect k n hk) rfl rfl (by simp [monChild])
    have h2 := h1.trans' (walk _ (.sender k n) [] _ (.sender k n hk) rfl (by simp [RSys.goOn, RSys.init]) (by simp [monChild]))
    exact ⟨_, h2, .source k, .sender k n, by simp, ⟨_, by simp [RSys.goOn]; rfl⟩, false, _, by simp [RSys.goOn]; rfl⟩

/-- **C148, what fails: the records of a file.** A record that has left the file is marked in place (cmd/rtrmon/rtrmon.go:434), without a lock, while the comparator looks at it (694-695) or a page with it is written (760); C111 says what that does. -/
theorem C148_visible_false (rtr : Bool → Bool) (k : Bool) (hk : rtr k = false) : (∃ s, RSteps (MonProg rtr) monChild RSys.init s ∧ AboutTo s (.source k) (.visible k) true ∧ AboutTo s .comparator (.visible k) false) ∧
    ∃ s, RSteps (MonProg rtr) monChild RSys.init s ∧ AboutTo s (.source k) (.visible k) true ∧ AboutTo s (.http 0) (.visible k) false := by
  have h1 := walk (prog := MonProg rtr) (child := monChild) RSys.init (.source k) [.read (.vrps k), .read (.visible k)] _ (.build k hk) rfl rfl (by simp [monChild])
  constructor
  · cases k with
    | true =>
      have h2 := h1.trans' (walk _ .comparator [] _ .compare rfl (by simp [RSys.goOn, RSys.init]) (by simp [monChild]))
      exact ⟨_, h2, ⟨_, by simp [RSys.goOn]; rfl⟩, _, by simp [RSys.goOn]; rfl⟩
    | false =>
      have h2 := h1.trans' (walk _ .comparator [.read (.visible true)] _ .compare rfl (by simp [RSys.goOn, RSys.init]) (by simp [monChild]))
      exact ⟨_, h2, ⟨_, by simp [RSys.goOn]; rfl⟩, _, by simp [RSys.goOn]; rfl⟩
  · cases k with
    | true =>
      have h2 := h1.trans' (walk _ (.http 0) [] _ (.encode 0) rfl (by simp [RSys.goOn, RSys.init]) (by simp [monChild]))
      exact ⟨_, h2, ⟨_, by simp [RSys.goOn]; rfl⟩, _, by simp [RSys.goOn]; rfl⟩
    | false =>
      have h2 := h1.trans' (walk _ (.http 0) [.read (.visible true)] _ (.encode 0) rfl (by simp [RSys.goOn, RSys.init]) (by simp [monChild]))
      exact ⟨_, h2, ⟨_, by simp [RSys.goOn]; rfl⟩, _, by simp [RSys.goOn]; rfl⟩

/-- **C148, exactly**: the fields of rtrmon on which there can be a data race, for each kind of source. -/
theorem C148_exact (rtr : Bool → Bool) (f : MonField) : (∃ s, RSteps (MonProg rtr) monChild RSys.init s ∧ DataRace s f) ↔ MonRacy rtr f := by
  constructor
  · rintro ⟨s, hs, hr⟩
    exact Classical.byContradiction fun hf => C148_safe_partial rtr hs f hf hr
  · intro h
    cases f with
    | serial k => exact C148_serial_false rtr k h
    | sessionID k => exact C148_session_false rtr k h
    | qrtr k => exact (C148_channels_false rtr k h).1
    | unlock k => exact (C148_channels_false rtr k h).2
    | sessVersion k n => exact (C148_client_false rtr k n h).1
    | sessConnected k n => exact (C148_client_false rtr k n h).2
    | visible k =>
      obtain ⟨s, h1, h2, h3⟩ := (C148_visible_false rtr k h).1
      exact ⟨s, h1, _, _, by simp, h2, _, h3⟩
    | _ => exact h.elim

end StayRTR
