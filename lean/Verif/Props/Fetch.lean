import Verif.Model.Fetch

/-!
# Fetching: C54, C55
-/

namespace StayRTR

/-- A history of attempts for one file. -/
def FetchConfig.runFile (c : FetchConfig) (file : Str) : List Outcome → FetchConfig
  | [] => c
  | o :: os => ((c.fetchFile file o).1).runFile file os

/-- A history: the latest attempt last. -/
theorem FetchConfig.runFile_snoc (c : FetchConfig) (file : Str) (os : List Outcome) (o : Outcome) :
    c.runFile file (os ++ [o]) = ((c.runFile file os).fetchFile file o).1 := by
  induction os generalizing c with
  | nil => rfl
  | cons a os ih => exact ih _

/-! ## Specification -/

namespace Spec

/-- The tag of the version seen last, from the answers (latest first): a 200 tells it (a missing `ETag` is the empty text), any other status but 304 makes it unknown. -/
def lastTag : List Outcome → Option Str
  | [] => none
  | .response status etag _ _ :: os => if status = 200 then some etag else if status = 304 then lastTag os else none
  | _ :: os => lastTag os

/-- A correct server whose current version has tag `etag`, date `date` and content `content` answers a request with conditions `q`: 304 if the tag matches, or, if no tag was sent, if the date is
not later; otherwise 200 with everything, where `whole = false` cuts the body off. -/
def answer (etag : Str) (date : Int) (content : Bytes) (q : Conditions) (whole : Bool) : Outcome :=
  let unchanged : Bool := match q.ifNoneMatch with
    | some t => t != [] && t == etag
    | none => match q.ifModifiedSince with
      | some d => decide (date ≤ d)
      | none => false
  if unchanged then .response 304 etag (some date) (some []) else .response 200 etag (some date) (if whole then some content else none)

end Spec
open Spec

/-! ## C55: conditional requests -/

theorem isURL_example : isURL "https://x/rpki.json".toList = true := by decide

/-- One attempt, for the tag. -/
theorem fetchFile_etags (c : FetchConfig) (file : Str) (hu : isURL file = true) (o : Outcome) :
    ((c.fetchFile file o).1).etags file = (match o with
      | .response status etag _ _ => if status = 200 then some etag else if status = 304 then c.etags file else none
      | _ => c.etags file) := by
  cases o with
  | failed => rfl
  | file b => simp [FetchConfig.fetchFile, hu]
  | response status etag lm b =>
    simp only [FetchConfig.fetchFile, hu, if_true, FetchConfig.onResponse]
    by_cases h3 : status = 304
    · simp [h3]
    · by_cases h2 : status = 200
      · simp only [h2, ne_eq, not_true_eq_false, if_false, if_true, Nat.reduceEqDiff]
        split
        · simp only
          split <;> simp [FetchConfig.setEtag, FetchConfig.setLastModified]
        · rename_i hn
          simp only [not_or, Decidable.not_not] at hn
          obtain ⟨_, hne, he⟩ := hn
          cases hc : c.etags file with
          | none => rw [hc] at he; exact absurd he hne
          | some x => rw [hc] at he; simp only [Option.getD_some] at he; rw [he]
      · simp [h3, h2, FetchConfig.setEtag, FetchConfig.setLastModified]

theorem fetchFile_switches (c : FetchConfig) (file : Str) (o : Outcome) :
    ((c.fetchFile file o).1).enableEtags = c.enableEtags ∧ ((c.fetchFile file o).1).enableLastModified = c.enableLastModified := by
  cases o with
  | failed => exact ⟨rfl, rfl⟩
  | file b => simp only [FetchConfig.fetchFile]; split <;> exact ⟨rfl, rfl⟩
  | response status etag lm b =>
    simp only [FetchConfig.fetchFile, FetchConfig.onResponse]
    split
    · split
      · exact ⟨rfl, rfl⟩
      · split
        · exact ⟨rfl, rfl⟩
        · split
          · simp only; split <;> exact ⟨rfl, rfl⟩
          · exact ⟨rfl, rfl⟩
    · exact ⟨rfl, rfl⟩

theorem runFile_switches (c : FetchConfig) (file : Str) (os : List Outcome) :
    (c.runFile file os).enableEtags = c.enableEtags ∧ (c.runFile file os).enableLastModified = c.enableLastModified := by
  induction os generalizing c with
  | nil => exact ⟨rfl, rfl⟩
  | cons o os ih =>
    have := ih (c.fetchFile file o).1
    rw [(fetchFile_switches c file o).1, (fetchFile_switches c file o).2] at this
    exact this

theorem runFile_etags (en el : Bool) (file : Str) (hu : isURL file = true) (os : List Outcome) :
    ((FetchConfig.new en el).runFile file os.reverse).etags file = lastTag os := by
  induction os with
  | nil => rfl
  | cons o os ih =>
    rw [List.reverse_cons, FetchConfig.runFile_snoc, fetchFile_etags _ _ hu, ih]
    cases o with
    | failed => rfl
    | file b => rfl
    | response status etag lm b =>
      simp only [lastTag]

/-- With ETags on, every request carries exactly the tag of the version seen last, and none after an HTTP error; with ETags off, none (`os`: the answers so far, latest first). -/
theorem C55_tag (en el : Bool) (file : Str) (hu : isURL file = true) (os : List Outcome) :
    (((FetchConfig.new en el).runFile file os.reverse).conditions file).ifNoneMatch = if en then lastTag os else none := by
  unfold FetchConfig.conditions
  simp only [(runFile_switches _ _ _).1, runFile_etags en el file hu os]
  rfl

/-- The date: the one of the latest 200 that was taken; with the switch off, none. -/
theorem C55_date (c : FetchConfig) (file : Str) (hu : isURL file = true) (status : Nat) (etag : Str) (lm : Option Int) (b : Option Bytes) :
    (c.enableLastModified = false → (c.conditions file).ifModifiedSince = none) ∧
    (status = 200 → c.enableLastModified = true → (c.enableEtags = false ∨ etag = [] ∨ some etag ≠ c.etags file) →
      (((c.fetchFile file (.response status etag lm b)).1).conditions file).ifModifiedSince = lm) ∧
    (status ≠ 200 → status ≠ 304 → (((c.fetchFile file (.response status etag lm b)).1).conditions file) = ⟨none, none⟩) ∧
    (status = 304 → (c.fetchFile file (.response status etag lm b)).1 = c) := by
  refine ⟨fun h => by simp [FetchConfig.conditions, h], ?_, ?_, ?_⟩
  · intro hs hl hc
    have hc' : c.enableEtags = false ∨ etag = [] ∨ etag ≠ (c.etags file).getD [] := by
      rcases hc with h | h | h
      · exact .inl h
      · exact .inr (.inl h)
      · by_cases he : etag = []
        · exact .inr (.inl he)
        · right; right
          intro e
          cases hce : c.etags file with
          | none => rw [hce] at e; exact he e
          | some x => rw [hce] at e h; simp only [Option.getD_some] at e; exact h (by rw [e])
    simp only [FetchConfig.fetchFile, hu, if_true, FetchConfig.onResponse, hs, ne_eq, not_true_eq_false, if_false, Nat.reduceEqDiff]
    rw [if_pos hc']
    simp [FetchConfig.conditions, FetchConfig.setEtag, FetchConfig.setLastModified, hl]
  · intro h2 h3
    simp only [FetchConfig.fetchFile, hu, if_true, FetchConfig.onResponse, h2, h3, ne_eq, not_false_eq_true, if_false, FetchConfig.conditions, FetchConfig.setEtag,
      FetchConfig.setLastModified, ite_self]
  · intro h3
    simp [FetchConfig.fetchFile, hu, FetchConfig.onResponse, h3]

/-- With both switches off nothing is ever suppressed: every request is unconditional and every complete 200 is delivered. -/
theorem C55_disabled (file : Str) (hu : isURL file = true) (os : List Outcome) (etag : Str) (lm : Option Int) (b : Bytes) :
    ((FetchConfig.new false false).runFile file os).conditions file = ⟨none, none⟩ ∧
    (((FetchConfig.new false false).runFile file os).fetchFile file (.response 200 etag lm (some b))).2 = ⟨b, -1, false, none⟩ := by
  have h := runFile_switches (FetchConfig.new false false) file os
  constructor
  · have h1 : ((FetchConfig.new false false).runFile file os).enableEtags = false := h.1
    have h2 : ((FetchConfig.new false false).runFile file os).enableLastModified = false := h.2
    simp [FetchConfig.conditions, h1, h2]
  · simp only [FetchConfig.fetchFile, hu, if_true, FetchConfig.onResponse, h.1]
    simp [FetchConfig.new, FetchConfig.readAll]

/-- A 200 is suppressed only for a non-empty tag that was seen last and with ETags on. -/
theorem C55_suppressed (c : FetchConfig) (file : Str) (o : Outcome) (h : (c.fetchFile file o).2.err = some .identicalEtag) :
    c.enableEtags = true ∧ ∃ etag lm b, o = .response 200 etag lm b ∧ etag ≠ [] ∧ c.etags file = some etag := by
  cases o with
  | failed => simp [FetchConfig.fetchFile] at h
  | file b => simp only [FetchConfig.fetchFile] at h; split at h <;> cases b <;> simp [FetchConfig.readAll] at h
  | response status etag lm b =>
    simp only [FetchConfig.fetchFile, FetchConfig.onResponse] at h
    split at h
    · split at h
      · simp at h
      · split at h
        · simp at h
        · rename_i h200
          split at h
          · cases b <;> simp [FetchConfig.readAll] at h
          · rename_i hn
            simp only [not_or, Decidable.not_not, Bool.not_eq_false] at hn
            refine ⟨hn.1, etag, lm, b, by rw [Decidable.not_not.mp h200], hn.2.1, ?_⟩
            cases hc : c.etags file with
            | none => rw [hc] at hn; exact absurd hn.2.2 hn.2.1
            | some x => rw [hc] at hn; simp only [Option.getD_some] at hn; rw [hn.2.2]
    · simp at h

/-- Other files are not affected. -/
theorem C55_other_files (c : FetchConfig) (file other : Str) (hne : other ≠ file) (o : Outcome) :
    ((c.fetchFile file o).1).conditions other = c.conditions other := by
  cases o with
  | failed => rfl
  | file b => simp only [FetchConfig.fetchFile]; split <;> rfl
  | response status etag lm b =>
    simp only [FetchConfig.fetchFile, FetchConfig.onResponse]
    split
    · split
      · rfl
      · split
        · simp [FetchConfig.conditions, FetchConfig.setEtag, FetchConfig.setLastModified, hne]
        · split
          · simp only
            split <;> simp [FetchConfig.conditions, FetchConfig.setEtag, FetchConfig.setLastModified, hne] <;> rfl
          · rfl
    · rfl

/-- If the server sends no `ETag`, the next request carries an empty `If-None-Match` header. -/
theorem C55_empty_tag_false :
    let file := "https://x/rpki.json".toList
    (((FetchConfig.new true true).runFile file [.response 200 [] (some 5) (some [1])]).conditions file) = ⟨some [], some 5⟩ := by decide

example :
    let file := "https://x/rpki.json".toList
    let c := (FetchConfig.new true true).runFile file [.response 200 ['a'] (some 5) (some [1]), .response 304 [] none none, .failed]
    c.conditions file = ⟨some ['a'], some 5⟩ ∧ (c.fetchFile file (.response 200 ['a'] (some 6) (some [1]))).2.err = some .identicalEtag ∧
    ((c.fetchFile file (.response 503 [] none none)).1).conditions file = ⟨none, none⟩ := by decide

/-! ## C54: every version is loaded -/

/-- After one download that was cut off, a correct server that keeps offering that version is never asked for it again: every later request is answered 304, and nothing changes any more. -/
theorem C54_cut_off_false (el : Bool) (file : Str) (hu : isURL file = true) (etag : Str) (hne : etag ≠ []) (date : Int) (content : Bytes) (n : Nat) :
    let c0 := FetchConfig.new true el
    let first := c0.fetchFile file (answer etag date content (c0.conditions file) false)
    let later (c : FetchConfig) : FetchConfig × FetchResult := c.fetchFile file (answer etag date content (c.conditions file) true)
    first.2.err = some .other ∧
    (later (Nat.repeat (fun c => (later c).1) n first.1)).2.err = some .notModified := by
  intro c0 first later
  have hq : c0.conditions file = ⟨none, none⟩ := by cases el <;> rfl
  have ha : answer etag date content (c0.conditions file) false = .response 200 etag (some date) none := by rw [hq]; rfl
  have hf : first.2.err = some .other ∧ first.1.etags file = some etag ∧ first.1.enableEtags = true := by
    refine ⟨?_, ?_, ?_⟩
    · simp only [first, ha]
      cases el <;> simp [FetchConfig.fetchFile, hu, FetchConfig.onResponse, c0, FetchConfig.new, FetchConfig.readAll, hne]
    · simp only [first, ha]; rw [fetchFile_etags _ _ hu]; simp
    · exact (fetchFile_switches c0 file _).1
  have stuck : ∀ c : FetchConfig, c.etags file = some etag → c.enableEtags = true → later c = (c, ⟨[], 304, true, some .notModified⟩) := by
    intro c h1 h2
    have : answer etag date content (c.conditions file) true = .response 304 etag (some date) (some []) := by
      simp [answer, FetchConfig.conditions, h1, h2, hne]
    simp only [later, this, FetchConfig.fetchFile, hu, if_true, FetchConfig.onResponse]
    rfl
  have hrep : Nat.repeat (fun c => (later c).1) n first.1 = first.1 := by
    induction n with
    | zero => rfl
    | succ n ih => simp only [Nat.repeat, ih, stuck first.1 hf.2.1 hf.2.2]
  refine ⟨hf.1, ?_⟩
  rw [hrep, stuck first.1 hf.2.1 hf.2.2]

/-- If no download was cut off so far (`os`, oldest first), a correct server's current version, if it has a tag, is delivered by the next complete request, or it was delivered before: some earlier attempt saw
that tag and returned the content it came with. Missing: histories with a cut-off download (`C54_cut_off_false`). -/
theorem C54_complete_partial (file : Str) (hu : isURL file = true) (os : List Outcome)
    (hwhole : ∀ o ∈ os, ∀ tag lm, o ≠ .response 200 tag lm none) (etag : Str) (hne : etag ≠ []) (date : Int) (content : Bytes) :
    let c := (FetchConfig.new true false).runFile file os
    (c.fetchFile file (answer etag date content (c.conditions file) true)).2 = ⟨content, -1, false, none⟩ ∨
    ∃ os1 os2 lm b, os = os1 ++ .response 200 etag lm (some b) :: os2 ∧
      (((FetchConfig.new true false).runFile file os1).fetchFile file (.response 200 etag lm (some b))).2 = ⟨b, -1, false, none⟩ := by
  intro c
  by_cases hs : c.etags file = some etag
  · right
    have key : ∀ os : List Outcome, (∀ o ∈ os, ∀ tag lm, o ≠ .response 200 tag lm none) → ((FetchConfig.new true false).runFile file os.reverse).etags file = some etag →
        ∃ os1 os2 lm b, os.reverse = os1 ++ .response 200 etag lm (some b) :: os2 ∧
          (((FetchConfig.new true false).runFile file os1).fetchFile file (.response 200 etag lm (some b))).2 = ⟨b, -1, false, none⟩ := by
      intro os
      induction os with
      | nil => intro _ h; simp [FetchConfig.runFile, FetchConfig.new] at h
      | cons o os ih =>
        intro hw h
        have ih' := ih (fun o ho => hw o (by simp [ho]))
        have ext : (((FetchConfig.new true false).runFile file os.reverse).etags file = some etag) →
            ∃ os1 os2 lm b, (o :: os).reverse = os1 ++ .response 200 etag lm (some b) :: os2 ∧
            (((FetchConfig.new true false).runFile file os1).fetchFile file (.response 200 etag lm (some b))).2 = ⟨b, -1, false, none⟩ := by
          intro h'
          obtain ⟨os1, os2, lm, b, he, hd⟩ := ih' h'
          exact ⟨os1, os2 ++ [o], lm, b, by rw [List.reverse_cons, he]; simp, hd⟩
        rw [List.reverse_cons, FetchConfig.runFile_snoc, fetchFile_etags _ _ hu] at h
        cases o with
        | failed => exact ext h
        | file b => exact ext h
        | response status tag lm body =>
          simp only at h
          by_cases h2 : status = 200
          · subst h2
            simp only [if_true, Option.some.injEq] at h
            subst h
            by_cases hbefore : ((FetchConfig.new true false).runFile file os.reverse).etags file = some tag
            · exact ext hbefore
            · cases body with
              | none => exact absurd rfl (hw _ List.mem_cons_self tag lm)
              | some b =>
                refine ⟨os.reverse, [], lm, b, by rw [List.reverse_cons], ?_⟩
                simp only [FetchConfig.fetchFile, hu, if_true, FetchConfig.onResponse, Nat.reduceEqDiff, ne_eq, not_true_eq_false, if_false]
                rw [if_pos]
                · rfl
                · right; right
                  intro e
                  cases hc : ((FetchConfig.new true false).runFile file os.reverse).etags file with
                  | none => rw [hc] at e; exact hne e
                  | some x => rw [hc] at e hbefore; simp only [Option.getD_some] at e; exact hbefore (by rw [e])
          · by_cases h3 : status = 304
            · subst h3
              exact ext (by simpa using h)
            · simp [h2, h3] at h
    have hwr : ∀ o ∈ os.reverse, ∀ tag lm, o ≠ Outcome.response 200 tag lm none := fun o ho => hwhole o (List.mem_reverse.mp ho)
    obtain ⟨os1, os2, lm, b, he, hd⟩ := key os.reverse hwr (by rw [List.reverse_reverse]; exact hs)
    exact ⟨os1, os2, lm, b, by rw [List.reverse_reverse] at he; exact he, hd⟩
  · left
    have hen : c.enableEtags = true := (runFile_switches _ _ _).1
    have hel : c.enableLastModified = false := (runFile_switches _ _ _).2
    have ha : answer etag date content (c.conditions file) true = .response 200 etag (some date) (some content) := by
      unfold answer FetchConfig.conditions
      simp only [hen, hel, if_true]
      cases hc : c.etags file with
      | none => simp
      | some x =>
        have : x ≠ etag := fun e => hs (by rw [hc, e])
        simp [this]
    rw [ha]
    simp only [FetchConfig.fetchFile, hu, if_true, FetchConfig.onResponse, Nat.reduceEqDiff, ne_eq, not_true_eq_false, if_false]
    rw [if_pos]
    · rfl
    · right; right
      intro e
      cases hc : c.etags file with
      | none => rw [hc] at e; exact hne e
      | some x => rw [hc] at e hs; simp only [Option.getD_some] at e; exact hs (by rw [e])

example :
    let file := "https://x/rpki.json".toList
    let os : List Outcome := [.response 200 ['a'] (some 5) (some [1]), .failed, .response 500 [] none none, .response 200 ['b'] none (some [2])]
    (∀ o ∈ os, ∀ tag lm, o ≠ .response 200 tag lm none) ∧
    (((FetchConfig.new true false).runFile file os).fetchFile file (answer ['c'] 9 [3] (((FetchConfig.new true false).runFile file os).conditions file) true)).2 = ⟨[3], -1, false, none⟩ := by
  refine ⟨?_, by decide⟩
  intro o ho tag lm
  simp only [List.mem_cons, List.not_mem_nil, or_false] at ho
  rcases ho with rfl | rfl | rfl | rfl <;> simp

end StayRTR
