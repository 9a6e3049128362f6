import Verif.Model.Ticker
import Verif.Props.Update

/-!
# C133-C135: the times of the refreshes
-/

namespace StayRTR

open Spec

/-- Seconds from one refresh to the next at most, according to the manual: the flag `-refresh`, or 30 before the first cache file was loaded. -/
def Spec.pause (interval : Nat) (loaded : Prop) [Decidable loaded] : Int := if loaded then interval * 1000000000 else 30 * 1000000000

theorem refreshDelay_eq (interval : BitVec 64) (h : interval.toNat ≤ 9223372036) : refreshDelay interval = interval.toNat * 1000000000 := by
  unfold refreshDelay tickerDuration
  rw [BitVec.toInt_eq_toNat_cond, BitVec.toNat_mul]
  have : (1000000000#64).toNat = 1000000000 := by decide
  rw [this, Nat.mod_eq_of_lt (by omega), if_pos (by omega)]
  rw [Int.natCast_mul]
  rfl

/-- After a tick the next one is ahead, at most a period away. -/
theorem GoTicker.receive_due (t : GoTicker) (now : Int) (hp : 0 < t.period) : now < (t.receive now).due ∧ (t.receive now).due ≤ now + t.period := by
  unfold GoTicker.receive
  have h1 := Int.emod_add_mul_ediv (now - t.due) t.period
  have h2 := Int.emod_nonneg (now - t.due) (by omega : t.period ≠ 0)
  have h3 := Int.emod_lt_of_pos (now - t.due) hp
  simp only [Int.mul_add, Int.mul_one]
  omega

theorem GoTicker.receive_later (t : GoTicker) (now : Int) (hp : 0 < t.period) (h : t.due ≤ now) : t.due + t.period ≤ (t.receive now).due := by
  unfold GoTicker.receive
  have h1 := Int.mul_nonneg (Int.le_of_lt hp) (Int.ediv_nonneg (by omega : 0 ≤ now - t.due) (Int.le_of_lt hp))
  simp only [Int.mul_add, Int.mul_one]
  omega

/-- What holds of the ticker at all times. -/
theorem ticker_inv (e : Env) (delay : Int) (hd : 0 < delay) {a : RoutineAt} {since : Int} {r : Routine} (h : RoutineRun e delay a since r) :
    (r.incomplete = false → r.state.lastchange ≠ none ∧ r.ticker.period = delay ∧ r.ticker.due ≤ since + delay) ∧
    (a = .waiting → r.ticker.due ≤ since + (if r.state.lastchange = none then initialDelay else delay)) := by
  have top_inv : ∀ (r : Routine) (since now : Int), since ≤ now → (r.incomplete = false → r.ticker.period = delay ∧ r.ticker.due ≤ since + delay) →
      ((r.top delay now).incomplete = false → (r.top delay now).state.lastchange ≠ none ∧ (r.top delay now).ticker.period = delay ∧
        (r.top delay now).ticker.due ≤ now + delay) ∧
      ((r.top delay now).ticker.due ≤ now + (if (r.top delay now).state.lastchange = none then initialDelay else delay)) := by
    intro r since now hle hr
    unfold Routine.top
    by_cases hl : r.state.lastchange = none
    · rw [if_pos hl]
      simp [hl, GoTicker.reset]
    · rw [if_neg hl]
      cases hi : r.incomplete with
      | true => simp [hl, GoTicker.reset]
      | false =>
        obtain ⟨hp, hdue⟩ := hr hi
        simp only [Bool.false_eq_true, if_false, hl, hi, true_implies, not_false_eq_true, ne_eq, true_and]
        exact ⟨⟨hp, by omega⟩, by omega⟩
  induction h with
  | enter a b t f now =>
    have := top_inv (Routine.enter delay now (startup e t f (UState.init a b))) now now (Int.le_refl _) (fun _ => ⟨rfl, by simp [Routine.enter, GoTicker.new]⟩)
    exact ⟨this.1, fun _ => this.2⟩
  | @wake since r h w now hnow hw ih =>
    refine ⟨?_, fun h => nomatch h⟩
    obtain ⟨ih1, _⟩ := ih
    cases w with
    | tick =>
      intro hi
      obtain ⟨hl, hp, hdue⟩ := ih1 hi
      have := GoTicker.receive_due r.ticker now (by rw [hp]; omega)
      refine ⟨hl, hp, ?_⟩
      have h3 := this.2
      rw [hp] at h3
      exact h3
    | asked =>
      intro hi
      unfold Routine.wake Routine.updateDelay at hi ⊢
      by_cases hl : r.state.lastchange = none
      · rw [if_pos hl] at hi
        exact absurd hl (ih1 hi).1
      · rw [if_neg hl]
        exact ⟨hl, rfl, Int.le_refl _⟩
  | @refreshed since r h t f now hnow ih =>
    have := top_inv { r with state := refresh e t f r.state } since now hnow (fun hi => (ih.1 hi).2)
    exact ⟨this.1, fun _ => this.2⟩

/-! ## C133: refreshes are not further apart than the interval -/

/-- While the loop waits, the next refresh is due at most the refresh interval after the end of the one before, or 30 seconds if no cache file has been loaded yet, whatever triggers and signals came. -/
theorem C133_due (e : Env) (interval : BitVec 64) (h1 : 1 ≤ interval.toNat) (h2 : interval.toNat ≤ 9223372036) {since : Int} {r : Routine} (h : RoutineRun e (refreshDelay interval) .waiting since r) :
    r.ticker.due ≤ since + pause interval.toNat (r.state.lastchange ≠ none) := by
  have := (ticker_inv e (refreshDelay interval) (by rw [refreshDelay_eq interval h2]; omega) h).2 rfl
  rw [refreshDelay_eq interval h2] at this
  unfold pause
  unfold initialDelay at this
  split_ifs at this ⊢ <;> simp_all

/-- Without a cache file, and with a refresh interval of a minute: the next attempt is due after 30 seconds. -/
theorem startup_failed (e : Env) (a b : Bool) (t : Times) (file : Str) : (startup e t ⟨file, .failed, none⟩ (UState.init a b)).lastchange = none := by
  unfold startup fetchBoth
  simp only
  rw [updateFile_eq]
  simp [delivered, FetchConfig.fetchFile, updateFromNewState, UState.init, RPKIList.empty]

example : ∃ r, RoutineRun (exEnv true) (refreshDelay 60) .waiting 0 r ∧ r.ticker.due = 30 * 1000000000 := by
  refine ⟨_, .enter true true (exAt 0) ⟨exFile, .failed, none⟩ 0, ?_⟩
  unfold Routine.top
  rw [if_pos (show (Routine.enter _ _ (startup (exEnv true) (exAt 0) ⟨exFile, .failed, none⟩ (UState.init true true))).state.lastchange = none from startup_failed (exEnv true) true true (exAt 0) exFile)]
  rfl

/-- Before the first cache file was loaded, the next attempt is due after 30 seconds, even if the flag says 10. -/
theorem C133_short_false : ∃ r, RoutineRun (exEnv true) (refreshDelay 10) .waiting 0 r ∧ r.ticker.due = 30 * 1000000000 := by
  refine ⟨_, .enter true true (exAt 0) ⟨exFile, .failed, none⟩ 0, ?_⟩
  unfold Routine.top
  rw [if_pos (show (Routine.enter _ _ (startup (exEnv true) (exAt 0) ⟨exFile, .failed, none⟩ (UState.init true true))).state.lastchange = none from startup_failed (exEnv true) true true (exAt 0) exFile)]
  rfl

theorem period_inv (e : Env) (delay : Int) (hd : 0 < delay) {a : RoutineAt} {since : Int} {r : Routine} (h : RoutineRun e delay a since r) : r.ticker.period = delay ∨ r.incomplete = true ∧ r.ticker.period = initialDelay := by
  have top_inv : ∀ (r : Routine) (now : Int), (r.ticker.period = delay ∨ r.incomplete = true ∧ r.ticker.period = initialDelay) →
      (r.top delay now).ticker.period = delay ∨ (r.top delay now).incomplete = true ∧ (r.top delay now).ticker.period = initialDelay := by
    intro r now h
    unfold Routine.top
    split_ifs
    · exact .inr ⟨rfl, rfl⟩
    · exact .inl rfl
    · exact h
  induction h with
  | enter a b t f now => exact top_inv _ now (.inl rfl)
  | @wake since r h w now hnow hw ih =>
    cases w with
    | tick => exact ih
    | asked =>
      simp only [Routine.wake, Routine.updateDelay]
      split_ifs with h1
      · exact .inr ⟨by by_contra hi; exact (ticker_inv e delay hd h).1 (by simpa using hi) |>.1 h1, rfl⟩
      · exact .inl rfl
  | refreshed h t f now hnow ih => exact top_inv _ now ih

/-! ## C134: the timer starts at most one refresh per interval -/

theorem ticks_inv (e : Env) (delay : Int) (hd : 0 < delay) {a : RoutineAt} {since : Int} {r : Routine} (h : RoutineRun e delay a since r) (m : Int) (hm : 0 < m) (hmd : m ≤ delay)
    (hmi : r.incomplete = true → m ≤ initialDelay) :
    r.entered + r.ticks * m ≤ since ∧ r.entered + (r.ticks + 1) * m ≤ r.ticker.due := by
  have key : ∀ (r : Routine) (since now : Int), since ≤ now → ((r.top delay now).incomplete = true → m ≤ initialDelay) → r.entered + r.ticks * m ≤ since → (r.entered + (r.ticks + 1) * m ≤ r.ticker.due) →
      (r.top delay now).entered + (r.top delay now).ticks * m ≤ now ∧ (r.top delay now).entered + ((r.top delay now).ticks + 1) * m ≤ (r.top delay now).ticker.due := by
    intro r since now hle
    unfold Routine.top
    split_ifs with h1 h2
    · intro hi h3 h4
      have := hi rfl
      simp only [GoTicker.reset, Int.add_mul, Int.one_mul] at *
      omega
    · intro hi h3 h4
      simp only [GoTicker.reset, Int.add_mul, Int.one_mul] at *
      omega
    · intro hi h3 h4
      omega
  have mono : ∀ (r : Routine) (now : Int), r.incomplete = true → (r.top delay now).incomplete = true := by
    intro r now h
    unfold Routine.top
    split_ifs <;> simp_all
  have wmono : ∀ (r : Routine) (now : Int) (w : Wake), (r.wake delay now w).incomplete = r.incomplete := by
    intro r now w
    cases w with
    | tick => rfl
    | asked => simp only [Routine.wake, Routine.updateDelay]; split_ifs <;> rfl
  have loaded : ∀ {a : RoutineAt} {since : Int} {r : Routine}, RoutineRun e delay a since r → r.state.lastchange = none → r.incomplete = true := by
    intro a since r h hl
    by_contra hi
    exact (ticker_inv e delay hd h).1 (by simpa using hi) |>.1 hl
  induction h with
  | enter a b t f now =>
    refine key _ now now (Int.le_refl _) hmi ?_ ?_
    · simp [Routine.enter]
    · simp [Routine.enter, GoTicker.new, hmd]
  | @wake since r h w now hnow hw ih =>
    obtain ⟨i1, i2⟩ := ih (by rw [← wmono r now w]; exact hmi)
    cases w with
    | tick =>
      have hdue := hw rfl
      simp only [Routine.wake] at hmi ⊢
      have hp : m ≤ r.ticker.period := by
        cases hi : r.incomplete with
        | false => rw [((ticker_inv e delay hd h).1 hi).2.1]; exact hmd
        | true =>
          have := hmi hi
          rcases period_inv e delay hd h with hp | ⟨_, hp⟩ <;> rw [hp] <;> assumption
      have hl := GoTicker.receive_later r.ticker now (by omega) hdue
      simp only [Int.add_mul, Int.one_mul, Int.natCast_add, Int.natCast_one] at *
      omega
    | asked =>
      simp only [Routine.wake, Routine.updateDelay] at hmi ⊢
      have hl := loaded h
      split_ifs at hmi ⊢ with h1
      · have := hmi (hl h1)
        simp only [GoTicker.reset, Int.add_mul, Int.one_mul] at *
        omega
      · simp only [GoTicker.reset, Int.add_mul, Int.one_mul] at *
        omega
  | @refreshed since r h t f now hnow ih =>
    obtain ⟨i1, i2⟩ := ih (fun hi => hmi (mono _ _ hi))
    exact key { r with state := refresh e t f r.state } since now hnow hmi i1 i2

/-- The timer never starts more refreshes than there were intervals since the loop was entered; if the first load failed, the intervals are of 30 seconds if that is less. -/
theorem C134_rate (e : Env) (interval : BitVec 64) (h1 : 1 ≤ interval.toNat) (h2 : interval.toNat ≤ 9223372036) {a : RoutineAt} {since : Int} {r : Routine}
    (h : RoutineRun e (refreshDelay interval) a since r) :
    r.ticks * (min interval.toNat (if r.incomplete then 30 else interval.toNat) : Int) * 1000000000 ≤ since - r.entered := by
  have hd := refreshDelay_eq interval h2
  have := (ticks_inv e (refreshDelay interval) (by omega) h ((min interval.toNat (if r.incomplete then 30 else interval.toNat) : Int) * 1000000000) (by split_ifs <;> omega) (by split_ifs <;> omega)
    (by intro hi; rw [hi, if_pos rfl]; unfold initialDelay; omega)).1
  rw [Int.mul_assoc]
  omega

/-! ## C135: how long after its expiry a VRP can be served -/

/-- A file has been loaded only if the time of the last change is known. -/
theorem lastchange_inv {e : Env} {s : UState} (h : Reached e s) : s.lastchange = none → s.lastdata = .empty := by
  have file : ∀ (t : Times) (f : Fetched) (s : UState), (s.lastchange = none → s.lastdata = .empty) → ((fetchBoth e t f s).1.lastchange = none → (fetchBoth e t f s).1.lastdata = .empty) := by
    intro t f s h
    have hu : ∀ s : UState, (s.lastchange = none → s.lastdata = .empty) → ((updateFile e t.start t.change f.file f.cache s).1.lastchange = none → (updateFile e t.start t.change f.file f.cache s).1.lastdata = .empty) := by
      intro s h
      rw [updateFile_eq]
      simp only
      split
      · exact h
      · split
        · exact h
        · split
          · exact h
          · simp
    unfold fetchBoth
    cases f.slurm with
    | none => exact hu s h
    | some x =>
      apply hu
      simp only [updateSlurm, fetchStep_eq]
      split
      · exact h
      · split
        · exact h
        · split
          · exact h
          · exact h
  have app : ∀ (s : UState) (proc : Int), (applied e proc s).lastchange = s.lastchange ∧ (applied e proc s).lastdata = s.lastdata := by
    intro s proc
    unfold applied applyUpdate
    simp only
    split <;> exact ⟨rfl, rfl⟩
  induction h with
  | init a b => exact fun _ => rfl
  | startup s t f _ ih =>
    have := file t f s ih
    unfold startup
    simp only
    rw [updateFromNewState_eq]
    split
    · exact this
    · split
      · rw [(app _ _).1, (app _ _).2]; exact this
      · exact this
  | refresh s t f _ ih =>
    have := file t f s ih
    show (afterFetch e t (fetchBoth e t f s).2 (fetchBoth e t f s).1).lastchange = none → (afterFetch e t (fetchBoth e t f s).2 (fetchBoth e t f s).1).lastdata = _
    rcases afterFetch_cases e t (fetchBoth e t f s).2 (fetchBoth e t f s).1 with h | ⟨h, _⟩ | ⟨h, _⟩ <;> rw [h]
    · exact this
    · rw [(app _ _).1, (app _ _).2]; exact this
    · exact this

/-- Runs in which every loaded file is good (`GoodFile`), the loop is woken at most `lag` after it could have been, and a refresh takes at most `dur`; with the time at which the file was last processed. -/
inductive Spec.TimelyRun (e : Env) (delay lag dur : Int) : RoutineAt → Int → Int → Routine → Prop
  | enter (etags lastModified : Bool) (t : Times) (f : Fetched) (now : Int) (hg : GoodFile e t.check (startup e t f (UState.init etags lastModified))) (hproc : t.proc ≤ now) (hdur : now ≤ t.proc + dur) :
      TimelyRun e delay lag dur .waiting now t.proc ((Routine.enter delay now (startup e t f (UState.init etags lastModified))).top delay now)
  | wake {since p : Int} {r : Routine} (h : TimelyRun e delay lag dur .waiting since p r) (w : Wake) (now : Int) (hnow : since ≤ now) (hw : w = .tick → r.ticker.due ≤ now)
      (hlag : now ≤ max since r.ticker.due + lag) : TimelyRun e delay lag dur .refreshing now p (r.wake delay now w)
  | refreshed {since p : Int} {r : Routine} (h : TimelyRun e delay lag dur .refreshing since p r) (t : Times) (f : Fetched) (now : Int) (hnow : since ≤ now) (hdur : now ≤ since + dur)
      (hproc : since ≤ t.proc ∧ t.proc ≤ now) (hg : GoodFile e t.check (refresh e t f r.state)) :
      TimelyRun e delay lag dur .waiting now t.proc ({ r with state := refresh e t f r.state }.top delay now)

/-- The loop is still where it was at time `T`. -/
def Spec.Still (lag dur : Int) (a : RoutineAt) (since : Int) (r : Routine) (T : Int) : Prop :=
  match a with
  | .waiting => T ≤ max since r.ticker.due + lag
  | .refreshing => T ≤ since + dur

theorem top_state (delay now : Int) (r : Routine) : (r.top delay now).state = r.state := by
  unfold Routine.top
  split_ifs <;> rfl

theorem wake_state (delay now : Int) (r : Routine) (w : Wake) : (r.wake delay now w).state = r.state := by
  cases w with
  | tick => rfl
  | asked => simp only [Routine.wake, Routine.updateDelay]; split_ifs <;> rfl

theorem timely_inv {e : Env} {delay lag dur : Int} (hd : 0 < delay) {a : RoutineAt} {since p : Int} {r : Routine} (h : TimelyRun e delay lag dur a since p r) :
    RoutineRun e delay a since r ∧ GoodRun e r.state (seconds p) ∧ r.state.lastchange ≠ none ∧ p ≤ since ∧
      since ≤ p + dur + (if a = .waiting then 0 else delay + lag) := by
  have loaded : ∀ s : UState, Reached e s → s.lastdata.roas ≠ none → s.lastchange ≠ none := by
    intro s h hr hl
    rw [lastchange_inv h hl] at hr
    exact hr rfl
  induction h with
  | enter a b t f now hg hproc hdur =>
    refine ⟨.enter a b t f now, ?_, ?_, hproc, by rw [if_pos rfl]; omega⟩
    · rw [top_state]; exact .startup t f (.init a b (seconds t.proc)) hg
    · rw [top_state]; exact loaded _ (.startup _ t f (.init a b)) hg.1
  | @wake since p r h w now hnow hw hlag ih =>
    obtain ⟨i1, i2, i3, i4, i5⟩ := ih
    have := (ticker_inv e delay hd i1).2 rfl
    rw [if_neg i3] at this
    refine ⟨.wake i1 w now hnow hw, by rw [wake_state]; exact i2, by rw [wake_state]; exact i3, by omega, ?_⟩
    rw [if_pos rfl] at i5
    rw [if_neg (by decide)]
    omega
  | @refreshed since p r h t f now hnow hdur hproc hg ih =>
    obtain ⟨i1, i2, i3, i4, i5⟩ := ih
    refine ⟨.refreshed i1 t f now hnow, ?_, ?_, by omega, by rw [if_pos rfl]; omega⟩
    · rw [top_state]
      exact .refresh t f i2 hg
    · rw [top_state]
      exact loaded _ (.refresh _ t f i2.reached) hg.1

/-- When it was still possible that a record of expiry `x` (seconds) is served: a refresh interval, the delay of the loop and the time of two refreshes after the end of that second. -/
def Spec.lastServed (interval : Nat) (lag dur x : Int) : Int := (x + 1 + interval) * 1000000000 + lag + 2 * dur

theorem timely_late {e : Env} {interval : BitVec 64} (h1 : 1 ≤ interval.toNat) (h2 : interval.toNat ≤ 9223372036) {lag dur : Int} (hdur : 0 ≤ dur) {a : RoutineAt} {since p : Int} {r : Routine}
    (h : TimelyRun e (refreshDelay interval) lag dur a since p r) {T : Int} (hT : Still lag dur a since r T) {x : Int} (hx : seconds p ≤ x) : T < lastServed interval.toNat lag dur x := by
  have hd := refreshDelay_eq interval h2
  obtain ⟨i1, i2, i3, i4, i5⟩ := timely_inv (by omega) h
  have hdue : a = .waiting → r.ticker.due ≤ since + refreshDelay interval := by
    intro ha
    have := (ticker_inv e _ (by omega) i1).2 ha
    rwa [if_neg i3] at this
  unfold seconds at hx
  unfold lastServed
  rw [hd] at i5 hdue
  cases a with
  | waiting =>
    have := hdue rfl
    rw [if_pos rfl] at i5
    simp only [Still] at hT
    omega
  | refreshing =>
    rw [if_neg (by decide)] at i5
    simp only [Still] at hT
    omega

/-- In such runs a record is served at time `T` only if the loaded file, with the local exceptions, has an entry for it that had not expired one refresh interval, the delay of the loop and the time of two refreshes before.
Missing: files with a router key twice, and stale files, whose entries are served without end (`C51_expired_false`). -/
theorem C135_expiry_partial (e : Env) (hs : e.sort.Ok) (interval : BitVec 64) (h1 : 1 ≤ interval.toNat) (h2 : interval.toNat ≤ 9223372036) (lag dur : Int) (hdur : 0 ≤ dur)
    {a : RoutineAt} {since p : Int} {r : Routine} (h : TimelyRun e (refreshDelay interval) lag dur a since p r) (T : Int) (hT : Still lag dur a since r T) :
    (∀ q m n, Served r.state (.vrp q m n) → ∃ v ∈ (withExceptions e.wide r.state.slurm r.state.lastdata).1, PrefixText v.pfx q ∧ v.length = m ∧ AsnReads e.wide v.asn n ∧
      ∀ x, v.expires = some x → T < lastServed interval.toNat lag dur x) ∧
    (∀ n ski key, Served r.state (.brk n ski key) → ∃ k ∈ (withExceptions e.wide r.state.slurm r.state.lastdata).2, k.asn = n ∧ HexText k.ski ski ∧ k.pubkey = key ∧
      ∀ x, k.expires = some x → T < lastServed interval.toNat lag dur x) := by
  have hd := refreshDelay_eq interval h2
  obtain ⟨i1, i2, i3, i4, i5⟩ := timely_inv (by omega) h
  refine ⟨fun q m n hserved => ?_, fun n ski key hserved => ?_⟩
  · obtain ⟨v, hv, g1, g2, g3, _, _, _, g7⟩ := (C52_served_partial hs i2 _).mp hserved
    exact ⟨v, hv, g1, g3, g2, fun x hx => timely_late h1 h2 hdur h hT (g7 x hx)⟩
  · obtain ⟨k, hk, g1, g2, g3, g4⟩ := (C52_served_partial hs i2 _).mp hserved
    exact ⟨k, hk, g1, g2, g3, fun x hx => timely_late h1 h2 hdur h hT (g4 x hx)⟩

theorem exTimely (n : BitVec 64) : TimelyRun (exEnv true) (refreshDelay n) 0 0 .waiting 0 0 ((Routine.enter (refreshDelay n) 0 (startup (exEnv true) (exAt 0) (exGet [3]) (UState.init true true))).top (refreshDelay n) 0) := by
  refine .enter true true (exAt 0) (exGet [3]) 0 ?_ (by decide) (by decide)
  have := exS3_eq_checked
  unfold exInit at this
  rw [this]
  refine ⟨by decide, fun _ => ⟨0, .text _ rfl (by decide), by decide⟩, by decide⟩

/-- A VRP that has expired after 100 seconds is still served after 149 seconds, with a refresh interval of 150 seconds. -/
theorem C135_late_false : ∃ r, TimelyRun (exEnv true) (refreshDelay 150) 0 0 .waiting 0 0 r ∧ Still 0 0 .waiting 0 r (149 * 1000000000) ∧ Served r.state (.vrp ⟨.v4 0x0b000000, 9⟩ 9 2) ∧
    r.state.slurm = none ∧ r.state.lastdata.roas = some [exVrp1, exVrp2] ∧ exVrp2.expires = some 100 := by
  refine ⟨_, exTimely 150, ?_⟩
  have := exS3_eq_checked
  unfold exInit at this
  rw [this, top_state]
  refine ⟨?_, (by decide : Rec.vrp ⟨.v4 0x0b000000, 9⟩ 9 2 ∈ records exS3.store.current), rfl, rfl, rfl⟩
  have hd := refreshDelay_eq 150 (by decide)
  have h150 : ((150 : BitVec 64).toNat : Int) = 150 := rfl
  rw [h150] at hd
  show (149 * 1000000000 : Int) ≤ max 0 (0 + refreshDelay 150) + 0
  omega

/-- A run in which the timer has started a refresh: at its beginning the VRP that expires after 100 seconds is served. -/
example : ∃ r, TimelyRun (exEnv true) (refreshDelay 60) 0 0 .refreshing (60 * 1000000000) 0 r ∧ r.ticks = 1 ∧ Served r.state (.vrp ⟨.v4 0x0b000000, 9⟩ 9 2) := by
  have hd := refreshDelay_eq 60 (by decide)
  have h60 : ((60 : BitVec 64).toNat : Int) = 60 := rfl
  rw [h60] at hd
  have hE := exS3_eq_checked
  unfold exInit at hE
  have hr := exTimely 60
  rw [hE] at hr
  have hdue : ((Routine.enter (refreshDelay 60) 0 exS3).top (refreshDelay 60) 0).ticker.due = 0 + refreshDelay 60 := rfl
  refine ⟨_, .wake hr .tick (60 * 1000000000) (by decide) (fun _ => by rw [hdue]; omega) (by rw [hdue]; omega), rfl, ?_⟩
  rw [wake_state, top_state]
  exact (by decide : Rec.vrp ⟨.v4 0x0b000000, 9⟩ 9 2 ∈ records exS3.store.current)

end StayRTR
