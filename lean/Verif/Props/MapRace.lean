import Verif.Model.MapRace

/-!
# C83: the maps of the fetcher
-/

namespace StayRTR

/-- Accesses to the map of tags. -/
def Spec.ReadsTags (a : FetchAt) : Prop := a = .conditions ∨ a = .comparing
/-- Writes to the map of tags. -/
def Spec.WritesTags (a : FetchAt) : Prop := a = .storing ∨ a = .forgetting
/-- Reads of the map of dates. -/
def Spec.ReadsDates (a : FetchAt) : Prop := a = .conditions
/-- Writes to the map of dates. -/
def Spec.WritesDates (a : FetchAt) : Prop := a = .dating ∨ a = .forgetting

open Spec

/-- Go stops the program ("concurrent map read and map write") when a map is written while it is read or written: with both files at URLs one goroutine can compare tags while the other stores or forgets one. -/
theorem C83_race_false (dates : Bool) :
    RaceReached true dates true true .comparing .storing ∧ RaceReached true dates true true .comparing .forgetting := by
  have h1 : RaceReached true dates true true .start .asked := .second (.second .init rfl (.lockRead rfl)) rfl .unlockRead
  have h2 : RaceReached true dates true true .asked .asked := .first (.first h1 rfl (.lockRead rfl)) rfl .unlockRead
  have h3 : RaceReached true dates true true .comparing .asked := .first (.first h2 rfl .ok) rfl (.compare rfl)
  exact ⟨.second (.second (.second h3 rfl .ok) rfl .skip) rfl (.lockStore rfl), .second h3 rfl (.error rfl)⟩

theorem race_locks {etags dates url1 url2 : Bool} {a b : FetchAt} (h : RaceReached etags dates url1 url2 a b) :
    (a.writes = true → b.writes = false ∧ b.reads = false) ∧ (b.writes = true → a.writes = false ∧ a.reads = false) ∧
    (etags = false → a ≠ .comparing ∧ b ≠ .comparing) ∧ (url1 = false → a = .start) ∧ (url2 = false → b = .start) := by
  induction h with
  | init => simp [FetchAt.writes]
  | first _ hu hs ih =>
    obtain ⟨i1, i2, i3, i4, i5⟩ := ih
    refine ⟨?_, ?_, ?_, by simp [hu], i5⟩ <;> cases hs <;> simp_all [FetchAt.writes, FetchAt.reads, FetchAt.canRead, FetchAt.canWrite]
  | second _ hu hs ih =>
    obtain ⟨i1, i2, i3, i4, i5⟩ := ih
    refine ⟨?_, ?_, ?_, i4, by simp [hu]⟩ <;> cases hs <;> simp_all [FetchAt.writes, FetchAt.reads, FetchAt.canRead, FetchAt.canWrite]

/-- Apart from the comparison of tags no access to a map overlaps a write: all accesses to the dates, all writes to the tags, and the reading for a request. -/
theorem C83_locked_partial {etags dates url1 url2 : Bool} {a b : FetchAt} (h : RaceReached etags dates url1 url2 a b) :
    ¬ (WritesDates a ∧ (ReadsDates b ∨ WritesDates b)) ∧ ¬ (WritesDates b ∧ (ReadsDates a ∨ WritesDates a)) ∧ ¬ (WritesTags a ∧ (WritesTags b ∨ b = .conditions)) ∧
    ¬ (WritesTags b ∧ (WritesTags a ∨ a = .conditions)) := by
  obtain ⟨h1, h2, _⟩ := race_locks h
  unfold WritesDates ReadsDates WritesTags
  refine ⟨?_, ?_, ?_, ?_⟩ <;> rintro ⟨h | h, h' | h'⟩ <;> simp_all [FetchAt.writes, FetchAt.reads]
  all_goals (first | (rcases h' with h' | h' <;> simp_all [FetchAt.writes, FetchAt.reads]))

/-- Without ETags, or with at most one file at a URL, no access to a map overlaps a write. Missing: ETags with two URLs (`C83_race_false`). -/
theorem C83_no_race_partial {etags dates url1 url2 : Bool} {a b : FetchAt} (h : RaceReached etags dates url1 url2 a b) (hno : etags = false ∨ url1 = false ∨ url2 = false) :
    ¬ (WritesTags a ∧ (ReadsTags b ∨ WritesTags b)) ∧ ¬ (WritesTags b ∧ (ReadsTags a ∨ WritesTags a)) := by
  obtain ⟨h1, h2, h3, h4, h5⟩ := race_locks h
  unfold WritesTags ReadsTags
  constructor <;> rintro ⟨h | h, (h' | h') | (h' | h')⟩ <;> rcases hno with hno | hno | hno <;> simp_all [FetchAt.writes, FetchAt.reads]

example : RaceReached false true true true .storing .compared := by
  have h1 : RaceReached false true true true .start .asked := .second (.second .init rfl (.lockRead rfl)) rfl .unlockRead
  have h2 : RaceReached false true true true .asked .asked := .first (.first h1 rfl (.lockRead rfl)) rfl .unlockRead
  exact .second (.second (.first (.first (.first h2 rfl .ok) rfl .skip) rfl (.lockStore rfl)) rfl .ok) rfl .skip

end StayRTR
