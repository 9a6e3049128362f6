import Verif.Proofs.Mon
import Verif.Proofs.ParsePrint
import Verif.Props.Process

/-!
# rtrmon: C60 to C63, C67, C90, C93 to C97
-/

namespace StayRTR

open Spec MonMap

/-! ## C60: the diff -/

/-- **C60.** The diff has exactly the entries that are visible in `a` and not in `b`, each name once. (A Go map has no key twice.) -/
theorem C60_exact {a : MonMap} (b : MonMap) (ha : (a.map (·.1)).Nodup) :
    ((monDiff a b).map (·.1)).Nodup ∧
    ∀ k e, (monDiff a b).get k = some e ↔ a.get k = some e ∧ e.visible = true ∧ ∀ e', b.get k = some e' → e'.visible = false :=
  diff_get a b ha

/-- **C60.** The two diffs have no name in common. -/
theorem C60_disjoint {a b : MonMap} (ha : (a.map (·.1)).Nodup) (hb : (b.map (·.1)).Nodup) (k : Str) : (monDiff a b).get k = none ∨ (monDiff b a).get k = none := by
  cases h1 : (monDiff a b).get k with
  | none => exact .inl rfl
  | some e =>
    cases h2 : (monDiff b a).get k with
    | none => exact .inr rfl
    | some e' =>
      obtain ⟨-, -, h3⟩ := ((C60_exact b ha).2 k e).mp h1
      obtain ⟨h4, h5, -⟩ := ((C60_exact a hb).2 k e').mp h2
      rw [h3 e' h4] at h5
      cases h5

theorem map_empty_of_get {m : MonMap} (h : ∀ k, m.get k = none) : m = [] := by
  cases m with
  | nil => rfl
  | cons x m => have := h x.1; simp [MonMap.get] at this

/-- **C60.** A source does not differ from itself. -/
theorem C60_self {a : MonMap} (ha : (a.map (·.1)).Nodup) : monDiff a a = [] := by
  apply map_empty_of_get
  intro k
  cases h : (monDiff a a).get k with
  | none => rfl
  | some e =>
    obtain ⟨h1, h2, h3⟩ := ((C60_exact a ha).2 k e).mp h
    rw [h3 e h1] at h2
    cases h2

/-- An entry for the examples. -/
def exEntry (first last : Int) (visible : Bool) : MonEntry := ⟨65001, 24, [], first, last, visible, none⟩

/-- A name that is in grace on one side and visible on the other is in the diff; a name visible on both is not. -/
example : monDiff [(['a'], exEntry 5 9 true), (['b'], exEntry 5 9 true), (['c'], exEntry 5 7 false)] [(['a'], exEntry 6 9 true), (['b'], exEntry 5 8 false)] = [(['b'], exEntry 5 9 true)] := by decide

/-! ## C61: the bookkeeping -/

theorem sightings_times (wide : WideFloat) (us : List (Int × Update)) : (sightings wide us).map (·.1) = us.map (·.1) := by
  induction us with
  | nil => rfl
  | cons u us ih => obtain ⟨t, u⟩ := u; cases u <;> simp only [sightings, List.map_cons, ih]

theorem sightings_order (wide : WideFloat) {us : List (Int × Update)} (ho : us.Pairwise fun a b => b.1 ≤ a.1) : InOrder (sightings wide us) := by
  have h : (us.map (·.1)).Pairwise fun a b => b ≤ a := List.pairwise_map.mpr ho
  rw [← sightings_times wide us] at h
  exact List.pairwise_map.mp h

/-- **C61.** After any history of files and "not changed" answers at non-decreasing times, the map says about every name what its sightings say: listed names are visible, last seen now, first seen at the start of their
current run; other names are kept, invisible, exactly while their last sighting is within the grace period. Every entry is the one its name says, and no name is there twice. -/
theorem C61_history (wide : WideFloat) (grace : Int) (us : List (Int × Update)) (ho : us.Pairwise fun a b => b.1 ≤ a.1) :
    ((mapAfter wide grace us).map (·.1)).Nodup ∧
    (∀ k, ((mapAfter wide grace us).get k).map tells = verdict grace (sightings wide us) k) ∧
    ∀ k e, (mapAfter wide grace us).get k = some e → entryName e = k :=
  have h := mapAfter_faithful wide grace us (sightings_order wide ho)
  ⟨h.ok, h.verdict, h.named⟩

theorem invisible_zero {m : MonMap} (h : ∀ x ∈ m, x.2.visible = true) : invisible m = 0 := by
  unfold invisible
  rw [List.countP_eq_zero]
  intro x hx
  simp [h x hx]

/-- **C61.** The reported count after a file is the number of invisible entries. -/
theorem C61_count_file (wide : WideFloat) (grace : Int) {cur : MonMap} (hc : (cur.map (·.1)).Nodup) (vrps : List VRPJson) (keys : List BgpSecKeyJson) (now : Int) :
    (buildNewVrpMap wide grace cur vrps keys now).2 = (buildNewVrpMap wide grace cur vrps keys now).1.countP fun x => !x.2.visible := by
  unfold buildNewVrpMap
  have hb := build_listed wide cur vrps keys now
  obtain ⟨-, -, g3⟩ := grace_loop (now - grace) cur hc (keys.foldl (monAddKey cur now) (vrps.foldl (monAddVrp wide cur now) [])) 0 (hb []).1
  rw [invisible_zero (m := keys.foldl (monAddKey cur now) (vrps.foldl (monAddVrp wide cur now) []))] at g3
  · unfold invisible at g3
    simp only
    omega
  · intro x hx
    obtain ⟨ho, h2, h3⟩ := hb x.1
    have hg := get_of_mem ho (k := x.1) (e := x.2) hx
    by_cases hk : x.1 ∈ names wide vrps keys
    · obtain ⟨e, he, hl⟩ := h2 hk
      rw [he] at hg
      cases hg
      exact hl.visible
    · rw [h3 hk] at hg
      cases hg

/-- **C61.** The reported count after "not changed" is the number of invisible entries. -/
theorem C61_count_unchanged (grace : Int) {cur : MonMap} (hc : (cur.map (·.1)).Nodup) (now : Int) :
    (updateCurrentVrpMap grace cur now).2 = (updateCurrentVrpMap grace cur now).1.countP fun x => !x.2.visible := by
  unfold updateCurrentVrpMap
  obtain ⟨-, -, g3⟩ := keep_loop now (now - grace) cur hc [] 0 ok_nil (fun _ _ => rfl)
  unfold invisible at g3
  simp only [List.countP_nil] at g3
  omega

/-- Two entries for the examples. -/
def exFileA : VRPJson := ⟨"10.0.0.0/8".toList, 8, .uint32 1, [], none⟩
/-- Two entries for the examples. -/
def exFileB : VRPJson := ⟨"10.1.0.0/16".toList, 24, .uint32 2, [], none⟩

/-- Seen at 100 and 200, gone at 300, back at 400 and still there at 500: first seen 400. The other one vanished at 400 and is in grace. -/
example : let us : List (Int × Update) := [(500, .unchanged), (400, .file [exFileA] []), (300, .file [exFileB] []), (200, .unchanged), (100, .file [exFileA, exFileB] [])]
    us.Pairwise (fun a b => b.1 ≤ a.1) ∧
    verdict 3600 (sightings (fun _ => 0) us) "10.0.0.0/8-8-1".toList = some (true, 400, 500) ∧
    verdict 3600 (sightings (fun _ => 0) us) "10.1.0.0/16-24-2".toList = some (false, 100, 300) ∧
    verdict 100 (sightings (fun _ => 0) us) "10.1.0.0/16-24-2".toList = none := by decide +kernel

/-! ## C62: thresholds -/

theorem definitelyVisible_mono {e : Option MonEntry} {t t' : Int} (h : t ≤ t') (hv : definitelyVisible e t = true) : definitelyVisible e t' = true := by
  unfold definitelyVisible at *
  cases e with
  | none => exact hv
  | some e => simp only [Bool.and_eq_true, decide_eq_true_eq] at *; exact ⟨hv.1, by omega⟩

theorem definitelyNotVisible_mono {e : Option MonEntry} {t t' : Int} (h : t ≤ t') (hv : definitelyNotVisible e t = true) : definitelyNotVisible e t' = true := by
  unfold definitelyNotVisible at *
  cases e with
  | none => exact hv
  | some e => simp only [Bool.and_eq_true, decide_eq_true_eq] at *; exact ⟨hv.1, by omega⟩

/-- **C62.** An earlier threshold timestamp (that is, a longer threshold) never gives a higher count. -/
theorem C62_monotone (a b : MonMap) {t t' : Int} (h : t ≤ t') : countUnmatched a b t ≤ countUnmatched a b t' := by
  unfold countUnmatched
  apply List.countP_mono_left
  intro x _ hx
  by_cases h1 : definitelyVisible (some x.2) t = true
  · rw [if_pos h1] at hx
    rw [if_pos (definitelyVisible_mono h h1)]
    exact definitelyNotVisible_mono h hx
  · rw [if_neg h1] at hx
    by_cases h2 : definitelyNotVisible (some x.2) t = true
    · rw [if_pos h2] at hx
      have h3 : ¬ definitelyVisible (some x.2) t' = true := by
        simp only [definitelyNotVisible, definitelyVisible, Bool.and_eq_true, Bool.not_eq_true'] at h2 ⊢
        rw [h2.1]
        simp
      rw [if_neg h3, if_pos (definitelyNotVisible_mono h h2)]
      exact definitelyVisible_mono h hx
    · rw [if_neg h2] at hx
      cases hx

/-- **C62** on what is reported: of two thresholds, the longer one has no higher counts, if the clock does not advance between the two readings by as much as the thresholds differ. -/
theorem C62_report {startedAt : Int} {clock : Int → Int} {ths : List Int} {m1 m2 : MonMap} {v v' : Int} {n1 n2 n1' n2' : Nat}
    (h : (v, n1, n2) ∈ (monCompare startedAt clock ths m1 m2).unmatched) (h' : (v', n1', n2') ∈ (monCompare startedAt clock ths m1 m2).unmatched)
    (hc : clock v' - clock v ≤ v' - v) : n1' ≤ n1 ∧ n2' ≤ n2 := by
  simp only [monCompare, List.mem_map, Prod.mk.injEq] at h h'
  obtain ⟨_, -, rfl, rfl, rfl⟩ := h
  obtain ⟨_, -, rfl, rfl, rfl⟩ := h'
  exact ⟨C62_monotone _ _ (by omega), C62_monotone _ _ (by omega)⟩

/-- With thresholds 0 and 56: one entry seen for 60 seconds, one for 10. -/
example : (monCompare 0 (fun _ => 1000) [0, 56] [(['a'], exEntry 940 1000 true), (['b'], exEntry 990 1000 true)] []).unmatched = [(0, 2, 0), (56, 1, 0)] := by decide

/-- The clock is read for every threshold. If it advances by 2 seconds between the readings for the thresholds 0 and 1, the count for 1 second is higher than the one for 0 seconds. -/
theorem C62_clock_false : ∃ (clock : Int → Int) (m : MonMap), clock 0 ≤ clock 1 ∧ (monCompare 0 clock [0, 1] m []).unmatched = [(0, 0, 0), (1, 1, 0)] :=
  ⟨fun v => if v = 0 then 1000 else 1002, [(['a'], exEntry 1001 1001 true)], by decide, by decide⟩

/-! ## C95: what `vrp_diff` counts -/

theorem since_head {now : Int} {ns : List Str} {h : Sightings} {k : Str} {f : Int} (hs : since ((now, ns) :: h) k = some f) : k ∈ ns := by
  by_cases hk : k ∈ ns
  · exact hk
  · rw [since_not_mem hk] at hs; cases hs

theorem verdict_true {grace : Int} {h : Sightings} {k : Str} {f l : Int} : verdict grace h k = some (true, f, l) ↔ since h k = some f ∧ (h.head?.map (·.1)) = some l := by
  cases h with
  | nil => simp [verdict, since]
  | cons x h =>
    obtain ⟨t, ns⟩ := x
    by_cases hk : k ∈ ns
    · rw [verdict_mem hk, since_mem hk]
      simp
    · rw [verdict_not_mem hk, since_not_mem hk]
      constructor
      · intro hv
        exfalso
        revert hv
        cases lastSighting h k <;> cases since (untilSeen h k) k <;> simp
      · rintro ⟨⟨⟩, -⟩

/-- What "not visible since T" is in terms of the sightings. -/
theorem absent_iff {grace T : Int} {h : Sightings} {k : Str} {e : Option MonEntry} (he : e.map tells = verdict grace h k) (hT : ∀ x ∈ h, x.1 - grace ≤ T) :
    definitelyNotVisible e T = true ↔ since h k = none ∧ ∀ t, lastSighting h k = some t → t ≤ T := by
  cases h with
  | nil =>
    simp only [verdict, Option.map_eq_none_iff] at he
    subst he
    simp [definitelyNotVisible, since, lastSighting]
  | cons x h =>
    obtain ⟨now, ns⟩ := x
    have hn := hT _ List.mem_cons_self
    simp only at hn
    by_cases hk : k ∈ ns
    · rw [verdict_mem hk] at he
      rw [since_mem hk]
      cases e with
      | none => cases he
      | some e =>
        simp only [Option.map_some, tells, Option.some.injEq, Prod.mk.injEq] at he
        simp [definitelyNotVisible, he.1]
    · rw [verdict_not_mem hk] at he
      rw [since_not_mem hk, lastSighting_not_mem hk]
      have hsu := since_until (h := h) (k := k)
      revert he hsu
      cases hl : lastSighting h k with
      | none =>
        intro he _
        simp only [Option.map_eq_none_iff] at he
        subst he
        simp [definitelyNotVisible]
      | some t =>
        cases since (untilSeen h k) k with
        | none => intro _ h2; cases h2
        | some f =>
          intro he _
          simp only at he
          by_cases hg : now - grace ≤ t
          · rw [if_pos hg] at he
            cases e with
            | none => cases he
            | some e =>
              simp only [Option.map_some, tells, Option.some.injEq, Prod.mk.injEq] at he
              simp [definitelyNotVisible, he.1, he.2.2]
          · rw [if_neg hg, Option.map_eq_none_iff] at he
            subst he
            simp only [definitelyNotVisible, true_iff, true_and, Option.some.injEq, forall_eq']
            omega

/-- **C95.** `vrp_diff` for a threshold is the number of names that the left source has listed without interruption since before the threshold and the right source does not list and has not listed since the threshold: for all
histories of the two sources, provided the threshold is at most the grace period (`main` sees to that, C94) and the clock is not behind the updates. -/
theorem C95_meaning (wide : WideFloat) (grace : Int) (us1 us2 : List (Int × Update)) (h1 : us1.Pairwise fun a b => b.1 ≤ a.1) (h2 : us2.Pairwise fun a b => b.1 ≤ a.1)
    (now v : Int) (hv : v ≤ grace) (hnow : ∀ u ∈ us2, u.1 ≤ now) :
    ∃ l : List Str, l.Nodup ∧ l.length = countUnmatched (monDiff (mapAfter wide grace us1) (mapAfter wide grace us2)) (mapAfter wide grace us2) (now - v) ∧
      ∀ k, k ∈ l ↔ (∃ f, since (sightings wide us1) k = some f ∧ f ≤ now - v) ∧ since (sightings wide us2) k = none ∧
        ∀ t, lastSighting (sightings wide us2) k = some t → t ≤ now - v := by
  have F1 := mapAfter_faithful wide grace us1 (sightings_order wide h1)
  have F2 := mapAfter_faithful wide grace us2 (sightings_order wide h2)
  obtain ⟨dok, dget⟩ := diff_get (mapAfter wide grace us1) (mapAfter wide grace us2) F1.ok
  have hT : ∀ x ∈ sightings wide us2, x.1 - grace ≤ now - v := by
    intro x hx
    have : x.1 ∈ us2.map (·.1) := by rw [← sightings_times wide us2]; exact List.mem_map.mpr ⟨x, hx, rfl⟩
    obtain ⟨u, hu, hux⟩ := List.mem_map.mp this
    have := hnow u hu
    omega
  refine ⟨((monDiff (mapAfter wide grace us1) (mapAfter wide grace us2)).filter fun x =>
    if definitelyVisible (some x.2) (now - v) then definitelyNotVisible ((mapAfter wide grace us2).get x.1) (now - v)
    else if definitelyNotVisible (some x.2) (now - v) then definitelyVisible ((mapAfter wide grace us2).get x.1) (now - v)
    else false).map (·.1), List.Nodup.sublist (List.Sublist.map (fun x : Str × MonEntry => x.1) List.filter_sublist) dok, ?_, fun k => ?_⟩
  · rw [List.length_map, ← List.countP_eq_length_filter]
    rfl
  · simp only [List.mem_map, List.mem_filter]
    have hsome : ∀ e : MonEntry, (mapAfter wide grace us1).get k = some e → e.visible = true → since (sightings wide us1) k = some e.firstSeen := by
      intro e he hev
      have := F1.verdict k
      rw [he] at this
      simp only [Option.map_some, tells, hev] at this
      exact (verdict_true.mp this.symm).1
    constructor
    · rintro ⟨⟨k', e⟩, ⟨hmem, hcond⟩, rfl⟩
      obtain ⟨ha, hvis, -⟩ := (dget _ _).mp (get_of_mem dok hmem)
      have hs := hsome e ha hvis
      simp only at hcond
      by_cases hd : definitelyVisible (some e) (now - v) = true
      · rw [if_pos hd] at hcond
        have hf : e.firstSeen ≤ now - v := by
          simp only [definitelyVisible, Bool.and_eq_true, decide_eq_true_eq] at hd
          exact hd.2
        exact ⟨⟨_, hs, hf⟩, (absent_iff (F2.verdict _) hT).mp hcond⟩
      · rw [if_neg hd] at hcond
        have hn : ¬ definitelyNotVisible (some e) (now - v) = true := by simp [definitelyNotVisible, hvis]
        rw [if_neg hn] at hcond
        cases hcond
    · rintro ⟨⟨f, hf, hle⟩, habs⟩
      have habs' := (absent_iff (e := (mapAfter wide grace us2).get k) (F2.verdict k) hT).mpr habs
      have hv1 := F1.verdict k
      obtain ⟨l, hl⟩ : ∃ l, (sightings wide us1).head?.map (·.1) = some l := by
        cases hh : sightings wide us1 with
        | nil => rw [hh] at hf; simp [since] at hf
        | cons x h => exact ⟨_, rfl⟩
      rw [verdict_true.mpr ⟨hf, hl⟩] at hv1
      cases hg : (mapAfter wide grace us1).get k with
      | none => rw [hg] at hv1; cases hv1
      | some e =>
        rw [hg] at hv1
        simp only [Option.map_some, tells, Option.some.injEq, Prod.mk.injEq] at hv1
        refine ⟨(k, e), ⟨mem_of_get ((dget k e).mpr ⟨hg, hv1.1, ?_⟩), ?_⟩, rfl⟩
        · intro e' he'
          rw [he'] at habs'
          simp only [definitelyNotVisible, Bool.and_eq_true, Bool.not_eq_true'] at habs'
          exact habs'.1
        · simp only
          rw [if_pos (by simp [definitelyVisible, hv1.1, hv1.2.1, hle])]
          exact habs'

/-- Two histories: the first source lists both names since 100, the second lost one of them at 300. At time 600, the count for 256 seconds is 1 and the count for 596 seconds is 0. -/
example : let us1 : List (Int × Update) := [(500, .unchanged), (100, .file [exFileA, exFileB] [])]
    let us2 : List (Int × Update) := [(500, .unchanged), (300, .file [exFileA] []), (100, .file [exFileA, exFileB] [])]
    let m1 := mapAfter (fun _ => 0) 3600 us1
    let m2 := mapAfter (fun _ => 0) 3600 us2
    countUnmatched (monDiff m1 m2) m2 (600 - 256) = 1 ∧ countUnmatched (monDiff m1 m2) m2 (600 - 596) = 0 := by decide +kernel

/-! ## C94: thresholds and grace period -/

theorem insertThreshold_perm (n : Int) (l : List Int) : (insertThreshold n l).Perm (n :: l) := by
  induction l with
  | nil => exact .refl _
  | cons m l ih =>
    simp only [insertThreshold]
    split
    · exact .refl _
    · exact (ih.cons m).trans (.swap n m l)

theorem insertThreshold_sorted {n : Int} {l : List Int} (h : l.Pairwise (· ≤ ·)) : (insertThreshold n l).Pairwise (· ≤ ·) := by
  induction l with
  | nil => simp [insertThreshold]
  | cons m l ih =>
    rw [List.pairwise_cons] at h
    simp only [insertThreshold]
    split
    · rename_i hnm
      rw [List.pairwise_cons, List.pairwise_cons]
      refine ⟨?_, h⟩
      intro x hx
      rcases List.mem_cons.mp hx with rfl | hx
      · exact hnm
      · have := h.1 x hx; omega
    · rename_i hnm
      rw [List.pairwise_cons]
      refine ⟨?_, ih h.2⟩
      intro x hx
      rcases List.mem_cons.mp ((insertThreshold_perm n l).mem_iff.mp hx) with rfl | hx
      · omega
      · exact h.1 x hx

theorem sortThresholds (l : List Int) : (l.foldr insertThreshold []).Perm l ∧ (l.foldr insertThreshold []).Pairwise (· ≤ ·) := by
  induction l with
  | nil => exact ⟨.refl _, .nil⟩
  | cons n l ih => exact ⟨(insertThreshold_perm n _).trans (ih.1.cons n), insertThreshold_sorted ih.2⟩

/-- Splitting never gives nothing. -/
theorem splitOn_ne_nil (x : Char) (s : Str) : splitOn x s ≠ [] := by
  cases s with
  | nil => simp [splitOn]
  | cons c s =>
    simp only [splitOn]
    split
    · simp
    · split <;> simp

theorem parseThresholds_values {l : List Str} {ns : List Int} (h : parseThresholds l = some ns) : l.map parseInt32 = ns.map some := by
  induction l generalizing ns with
  | nil => cases h; rfl
  | cons s l ih =>
    simp only [parseThresholds] at h
    cases h1 : parseInt32 s with
    | none => rw [h1] at h; cases h
    | some n =>
      rw [h1] at h
      cases h2 : parseThresholds l with
      | none => rw [h2] at h; cases h
      | some ms =>
        rw [h2] at h
        cases h
        rw [List.map_cons, List.map_cons, ih h2, h1]

theorem parseInt32_range {s : Str} {n : Int} (h : parseInt32 s = some n) : -(2 ^ 31) ≤ n ∧ n < 2 ^ 31 := by
  unfold parseInt32 at h
  split at h
  all_goals
    split at h
    · split at h
      · cases h; omega
      · cases h
    · cases h

/-- **C94.** A list given on the command line is taken over as it is, in ascending order; it is not empty and fits in 32 bits. -/
theorem C94_set {value : Str} {ths : List Int} (h : thresholdsSet value = some ths) :
    ths.Pairwise (· ≤ ·) ∧ ths ≠ [] ∧ (∀ t ∈ ths, -(2 ^ 31) ≤ t ∧ t < 2 ^ 31) ∧
    ∃ given : List Int, (splitOn ',' value).map parseInt32 = given.map some ∧ ths.Perm given := by
  unfold thresholdsSet at h
  cases hp : parseThresholds (splitOn ',' value) with
  | none => rw [hp] at h; cases h
  | some ns =>
    rw [hp] at h
    cases h
    obtain ⟨h1, h2⟩ := sortThresholds ns
    have hv := parseThresholds_values hp
    refine ⟨h2, ?_, ?_, ns, hv, h1⟩
    · intro he
      rw [he] at h1
      have := h1.nil_eq
      rw [← this] at hv
      exact splitOn_ne_nil _ _ (List.map_eq_nil_iff.mp hv)
    · intro t ht
      have : some t ∈ ns.map some := List.mem_map.mpr ⟨t, h1.mem_iff.mp ht, rfl⟩
      rw [← hv] at this
      obtain ⟨s, -, hs⟩ := List.mem_map.mp this
      exact parseInt32_range hs

/-- **C94.** For the default list and every list that can be given, `main` does not panic and the grace period is at least every threshold, whatever the flag says; it is the flag (in whole seconds) when that is enough. -/
theorem C94_grace (flag : Int) {ths : List Int} (h : ths = defaultThresholds ∨ ∃ value, thresholdsSet value = some ths) :
    ∃ grace, monGracePeriod flag ths = .ok grace ∧ (∀ v ∈ ths, v ≤ grace) ∧ ((∀ v ∈ ths, 1000000000 * v ≤ flag) → grace = flag.tdiv 1000000000) := by
  have hs : ths.Pairwise (· ≤ ·) ∧ ths ≠ [] := by
    rcases h with rfl | ⟨value, h⟩
    · exact ⟨by decide, by decide⟩
    · exact ⟨(C94_set h).1, (C94_set h).2.1⟩
  unfold monGracePeriod
  rw [List.getLast?_eq_some_getLast hs.2]
  have hmax : ∀ v ∈ ths, v ≤ ths.getLast hs.2 := by
    intro v hv
    obtain ⟨h1, h2⟩ := hs
    have : ths = ths.dropLast ++ [ths.getLast h2] := (List.dropLast_concat_getLast h2).symm
    rw [this] at hv h1
    rcases List.mem_append.mp hv with hv | hv
    · exact (List.pairwise_append.mp h1).2.2 v hv _ (List.mem_singleton.mpr rfl)
    · rw [List.mem_singleton.mp hv]; exact Int.le_refl _
  refine ⟨_, rfl, ?_, ?_⟩
  · intro v hv
    have := hmax v hv
    split
    · rw [Int.mul_tdiv_cancel_left _ (by omega)]
      exact this
    · rename_i hle
      have h2 : 1000000000 * v ≤ flag := by omega
      by_cases hf : 0 ≤ flag
      · rw [Int.tdiv_eq_ediv_of_nonneg hf]
        omega
      · have : flag.tdiv 1000000000 = -((-flag) / 1000000000) := by
          rw [← Int.tdiv_eq_ediv_of_nonneg (by omega), Int.neg_tdiv]
          simp
        rw [this]
        omega
  · intro hall
    rw [if_neg]
    have := hall _ (List.getLast_mem hs.2)
    omega

theorem parseInt32_intStr {n : Int} (h1 : -(2 ^ 31) ≤ n) (h2 : n < 2 ^ 31) : parseInt32 (intStr n) = some n := by
  unfold intStr
  by_cases hn : n < 0
  · rw [if_pos hn]
    simp only [parseInt32, parseDec_decStr]
    rw [if_pos (by omega)]
    congr 1
    omega
  · rw [if_neg hn]
    have hd := decStr_digits n.natAbs
    unfold parseInt32
    split
    · rename_i t h
      rw [h] at hd
      exact absurd (hd '-' List.mem_cons_self) (by unfold IsDigit; decide)
    · rename_i t h
      rw [h] at hd
      exact absurd (hd '+' List.mem_cons_self) (by unfold IsDigit; decide)
    · rw [parseDec_decStr]
      simp only
      rw [if_pos (by omega)]
      congr 1
      omega

theorem insertThreshold_first {n : Int} {l : List Int} (h : ∀ m ∈ l, n ≤ m) : insertThreshold n l = n :: l := by
  cases l with
  | nil => rfl
  | cons m l => simp only [insertThreshold]; rw [if_pos (h m List.mem_cons_self)]

/-- **C94.** Printing a list that was set and setting it again gives the same list. -/
theorem C94_round_trip {l : List Int} (hs : l.Pairwise (· ≤ ·)) (hne : l ≠ []) (hr : ∀ t ∈ l, -(2 ^ 31) ≤ t ∧ t < 2 ^ 31) : thresholdsSet (thresholdsString l) = some l := by
  have hcomma : ∀ s ∈ l.map intStr, ',' ∉ s := by
    intro s hsm hc
    obtain ⟨n, -, rfl⟩ := List.mem_map.mp hsm
    unfold intStr at hc
    have hd : ',' ∉ decStr n.natAbs := not_mem_of_digits (decStr_digits _) (by unfold IsDigit; decide)
    split at hc
    · rcases List.mem_cons.mp hc with h | h
      · cases h
      · exact hd h
    · exact hd hc
  unfold thresholdsSet thresholdsString
  rw [splitOn_joinWith (by simpa using hne) hcomma]
  have hp : parseThresholds (l.map intStr) = some l := by
    clear hs hne hcomma
    induction l with
    | nil => rfl
    | cons n l ih =>
      have := hr n List.mem_cons_self
      simp only [List.map_cons, parseThresholds, parseInt32_intStr this.1 this.2, ih (fun t ht => hr t (List.mem_cons_of_mem _ ht))]
  rw [hp, Option.map_some]
  congr 1
  clear hp hcomma hr hne
  induction l with
  | nil => rfl
  | cons n l ih =>
    rw [List.pairwise_cons] at hs
    rw [List.foldr_cons, ih hs.2, insertThreshold_first hs.1]

/-- The default list; a list out of order with a negative number; the grace period of the default flag (an hour is more than 3411 s, 56 minutes are not). -/
example : thresholdsString defaultThresholds = "0,56,256,596,851,1024,1706,3411".toList ∧ thresholdsSet "56,-7,+8".toList = some [-7, 8, 56] ∧ thresholdsSet "".toList = none ∧
    monGracePeriod 3600000000000 defaultThresholds = .ok 3600 ∧ monGracePeriod 3360000000000 defaultThresholds = .ok 3411 := by decide +kernel

end StayRTR
