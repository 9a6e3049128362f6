import Verif.Spec.Mon
import Verif.Proofs.Text

/-!
# Lemmas on the maps of rtrmon
-/

namespace StayRTR

open Spec

namespace MonMap

/-- No key twice. -/
def Ok (m : MonMap) : Prop := (m.map (·.1)).Nodup

theorem get_del (m : MonMap) (k k' : Str) : (m.del k).get k' = if k = k' then none else m.get k' := by
  unfold del
  induction m with
  | nil => simp [get]
  | cons x m ih =>
    obtain ⟨a, e⟩ := x
    rw [List.filter_cons]
    by_cases ha : a = k
    · simp only [ha, ne_eq, not_true_eq_false, decide_false, Bool.false_eq_true, if_false]
      rw [ih, get]
      split <;> simp_all
    · simp only [ne_eq, ha, not_false_eq_true, decide_true, if_true, get]
      rw [ih]
      split
      · rename_i h; subst h; rw [if_neg (fun h => ha h.symm)]
      · rfl

theorem get_put (m : MonMap) (k k' : Str) (e : MonEntry) : (m.put k e).get k' = if k = k' then some e else m.get k' := by
  unfold put
  rw [get, get_del]
  split <;> rfl

theorem Ok.del {m : MonMap} (h : m.Ok) (k : Str) : (m.del k).Ok := by
  unfold Ok MonMap.del
  exact h.sublist ((List.filter_sublist).map _)

theorem Ok.put {m : MonMap} (h : m.Ok) (k : Str) (e : MonEntry) : (m.put k e).Ok := by
  unfold Ok MonMap.put
  rw [List.map_cons, List.nodup_cons]
  refine ⟨?_, h.del k⟩
  simp [MonMap.del]

theorem ok_nil : Ok [] := List.nodup_nil

theorem get_isSome {m : MonMap} {k : Str} : (m.get k).isSome = true ↔ k ∈ m.map (·.1) := by
  induction m with
  | nil => simp [get]
  | cons x m ih =>
    obtain ⟨a, e⟩ := x
    rw [get]
    split
    · rename_i h; simp [h]
    · rename_i h; rw [ih]; simp [Ne.symm h]

theorem get_none {m : MonMap} {k : Str} : m.get k = none ↔ k ∉ m.map (·.1) := by
  rw [← get_isSome]; cases m.get k <;> simp

theorem mem_of_get {m : MonMap} {k : Str} {e : MonEntry} (h : m.get k = some e) : (k, e) ∈ m := by
  induction m with
  | nil => simp [get] at h
  | cons x m ih =>
    obtain ⟨a, e'⟩ := x
    rw [get] at h
    split at h
    · rename_i ha; cases h; rw [ha]; exact List.mem_cons_self
    · exact List.mem_cons_of_mem _ (ih h)

theorem get_of_mem {m : MonMap} (hm : m.Ok) {k : Str} {e : MonEntry} (h : (k, e) ∈ m) : m.get k = some e := by
  induction m with
  | nil => cases h
  | cons x m ih =>
    obtain ⟨a, e'⟩ := x
    unfold Ok at hm
    rw [List.map_cons, List.nodup_cons] at hm
    rw [get]
    rcases List.mem_cons.mp h with h | h
    · cases h; rw [if_pos rfl]
    · rw [if_neg (fun ha => hm.1 (List.mem_map.mpr ⟨(k, e), h, ha.symm⟩))]
      exact ih hm.2 h

/-- Two maps with the same lookups have the same pairs. -/
theorem perm_of_get {m m' : MonMap} (hm : m.Ok) (hm' : m'.Ok) (h : ∀ k, m.get k = m'.get k) : m.Perm m' := by
  apply (List.perm_ext_iff_of_nodup (List.pairwise_map.mp hm |>.imp (fun h h' => h (by rw [h']))) (List.pairwise_map.mp hm' |>.imp (fun h h' => h (by rw [h'])))).mpr
  rintro ⟨k, e⟩
  constructor
  · intro hx; exact mem_of_get (by rw [← h]; exact get_of_mem hm hx)
  · intro hx; exact mem_of_get (by rw [h]; exact get_of_mem hm' hx)

end MonMap

open MonMap

/-! ## Building a new map -/

/-- An entry written for a listed name. -/
structure Listed (cur : MonMap) (now : Int) (k : Str) (e : MonEntry) : Prop where
  visible : e.visible = true
  lastSeen : e.lastSeen = now
  firstSeen : e.firstSeen = monFirstSeen cur now k
  named : entryName e = k

/-- The lookups after the two loops. -/
theorem build_listed (wide : WideFloat) (cur : MonMap) (vrps : List VRPJson) (keys : List BgpSecKeyJson) (now : Int) (k : Str) :
    let res := keys.foldl (monAddKey cur now) (vrps.foldl (monAddVrp wide cur now) [])
    res.Ok ∧ (k ∈ names wide vrps keys → ∃ e, res.get k = some e ∧ Listed cur now k e) ∧ (k ∉ names wide vrps keys → res.get k = none) := by
  intro res
  have h1 : ∀ (vrps : List VRPJson) (m : MonMap), m.Ok →
      (vrps.foldl (monAddVrp wide cur now) m).Ok ∧
      (k ∈ names wide vrps [] → ∃ e, (vrps.foldl (monAddVrp wide cur now) m).get k = some e ∧ Listed cur now k e) ∧
      (k ∉ names wide vrps [] → (vrps.foldl (monAddVrp wide cur now) m).get k = m.get k) := by
    intro vrps
    induction vrps with
    | nil => intro m hm; exact ⟨hm, by simp [names], fun _ => rfl⟩
    | cons v vrps ih =>
      intro m hm
      rw [List.foldl_cons]
      cases ha : v.getASN2 wide with
      | none =>
        have : monAddVrp wide cur now m v = m := by unfold monAddVrp; rw [ha]
        have hn : names wide (v :: vrps) [] = names wide vrps [] := by simp [names, List.filterMap_cons, ha]
        rw [this, hn]
        exact ih m hm
      | some asn =>
        cases hp : v.getPrefix2 with
        | none =>
          have : monAddVrp wide cur now m v = m := by unfold monAddVrp; rw [ha, hp]
          have hn : names wide (v :: vrps) [] = names wide vrps [] := by simp [names, List.filterMap_cons, ha, hp]
          rw [this, hn]
          exact ih m hm
        | some p =>
          have : monAddVrp wide cur now m v = m.put (monVrpKey p v.length asn) ⟨asn, v.length, p.toStr, monFirstSeen cur now (monVrpKey p v.length asn), now, true, none⟩ := by
            unfold monAddVrp; rw [ha, hp]
          have hn : names wide (v :: vrps) [] = monVrpKey p v.length asn :: names wide vrps [] := by simp [names, List.filterMap_cons, ha, hp]
          rw [this, hn]
          obtain ⟨i1, i2, i3⟩ := ih _ (hm.put (monVrpKey p v.length asn) ⟨asn, v.length, p.toStr, monFirstSeen cur now (monVrpKey p v.length asn), now, true, none⟩)
          refine ⟨i1, ?_, ?_⟩
          · intro hk
            by_cases hk' : k ∈ names wide vrps []
            · exact i2 hk'
            · rcases List.mem_cons.mp hk with hk | hk
              · rw [i3 hk', get_put, if_pos hk.symm]
                exact ⟨_, rfl, rfl, rfl, by rw [hk], by rw [hk]; rfl⟩
              · exact absurd hk hk'
          · intro hk
            simp only [List.mem_cons, not_or] at hk
            rw [i3 hk.2, get_put, if_neg (fun h => hk.1 h.symm)]
  have h2 : ∀ (keys : List BgpSecKeyJson) (m : MonMap), m.Ok →
      (keys.foldl (monAddKey cur now) m).Ok ∧
      (k ∈ names wide [] keys → ∃ e, (keys.foldl (monAddKey cur now) m).get k = some e ∧ Listed cur now k e) ∧
      (k ∉ names wide [] keys → (keys.foldl (monAddKey cur now) m).get k = m.get k) := by
    intro keys
    induction keys with
    | nil => intro m hm; exact ⟨hm, by simp [names], fun _ => rfl⟩
    | cons b keys ih =>
      intro m hm
      rw [List.foldl_cons]
      have hn : names wide [] (b :: keys) = monBrkKey b.ski b.asn b.pubkey :: names wide [] keys := by simp [names]
      rw [hn]
      obtain ⟨i1, i2, i3⟩ := ih (monAddKey cur now m b) (hm.put _ _)
      refine ⟨i1, ?_, ?_⟩
      · intro hk
        by_cases hk' : k ∈ names wide [] keys
        · exact i2 hk'
        · rcases List.mem_cons.mp hk with hk | hk
          · rw [i3 hk']
            unfold monAddKey
            rw [get_put, if_pos hk.symm]
            exact ⟨_, rfl, rfl, rfl, by rw [hk], by rw [hk]; rfl⟩
          · exact absurd hk hk'
      · intro hk
        simp only [List.mem_cons, not_or] at hk
        rw [i3 hk.2]
        unfold monAddKey
        rw [get_put, if_neg (fun h => hk.1 h.symm)]
  obtain ⟨a1, a2, a3⟩ := h1 vrps [] ok_nil
  obtain ⟨b1, b2, b3⟩ := h2 keys _ a1
  have hsplit : names wide vrps keys = names wide vrps [] ++ names wide [] keys := by simp [names]
  refine ⟨b1, ?_, ?_⟩
  · intro hk
    by_cases hk' : k ∈ names wide [] keys
    · exact b2 hk'
    · rw [hsplit, List.mem_append] at hk
      rcases hk with hk | hk
      · obtain ⟨e, he, hl⟩ := a2 hk
        exact ⟨e, by rw [b3 hk', he], hl⟩
      · exact absurd hk hk'
  · intro hk
    rw [hsplit, List.mem_append, not_or] at hk
    rw [b3 hk.2, a3 hk.1]
    rfl

/-- The number of invisible entries. -/
def invisible (m : MonMap) : Nat := m.countP fun x => !x.2.visible

theorem countP_put_new {m : MonMap} {k : Str} {e : MonEntry} (h : m.get k = none) : m.put k e = (k, e) :: m := by
  unfold MonMap.put MonMap.del
  congr 1
  rw [List.filter_eq_self]
  intro x hx
  have := get_none.mp h
  simp only [ne_eq, decide_not, Bool.not_eq_true', decide_eq_false_iff_not]
  intro hk
  exact this (List.mem_map.mpr ⟨x, hx, hk⟩)

/-- The third loop: the entries that are not listed any more. -/
theorem grace_loop (ends : Int) (cur : MonMap) (hc : cur.Ok) (res : MonMap) (n : Nat) (hr : res.Ok) :
    (cur.foldl (monGrace ends) (res, n)).1.Ok ∧
    (∀ k, (cur.foldl (monGrace ends) (res, n)).1.get k =
      match res.get k with
      | some e => some e
      | none => match cur.get k with
        | some e => if ends ≤ e.lastSeen then some { e with visible := false } else none
        | none => none) ∧
    (cur.foldl (monGrace ends) (res, n)).2 + invisible res = n + invisible (cur.foldl (monGrace ends) (res, n)).1 := by
  induction cur generalizing res n with
  | nil =>
    refine ⟨hr, fun k => ?_, rfl⟩
    simp only [List.foldl_nil, MonMap.get]
    cases res.get k <;> rfl
  | cons x cur ih =>
    obtain ⟨a, e⟩ := x
    unfold MonMap.Ok at hc
    rw [List.map_cons, List.nodup_cons] at hc
    have hna : MonMap.get cur a = none := get_none.mpr hc.1
    rw [List.foldl_cons]
    by_cases hcond : ((res.get a).isNone && decide (e.lastSeen ≥ ends)) = true
    · have hs : monGrace ends (res, n) (a, e) = (res.put a { e with visible := false }, n + 1) := by simp only [monGrace]; rw [if_pos hcond]
      rw [hs]
      simp only [Bool.and_eq_true, Option.isNone_iff_eq_none, decide_eq_true_eq] at hcond
      obtain ⟨i1, i2, i3⟩ := ih hc.2 (res.put a { e with visible := false }) (n + 1) (hr.put _ _)
      refine ⟨i1, fun k => ?_, ?_⟩
      · refine (i2 k).trans ?_
        rw [get_put]
        by_cases hk : a = k
        · subst hk
          rw [if_pos rfl, hcond.1]
          simp only [MonMap.get, if_true]
          rw [if_pos hcond.2]
        · rw [if_neg hk]
          simp only [MonMap.get, if_neg hk]
      · have : invisible (res.put a { e with visible := false }) = invisible res + 1 := by
          rw [countP_put_new hcond.1]
          simp [invisible]
        omega
    · have hs : monGrace ends (res, n) (a, e) = (res, n) := by simp only [monGrace]; rw [if_neg hcond]
      rw [hs]
      obtain ⟨i1, i2, i3⟩ := ih hc.2 res n hr
      refine ⟨i1, fun k => ?_, i3⟩
      refine (i2 k).trans ?_
      by_cases hk : a = k
      · subst hk
        simp only [MonMap.get, if_true, hna]
        cases hg : res.get a with
        | some e' => rfl
        | none =>
          simp only [hg, Option.isNone_none, Bool.true_and, decide_eq_true_eq] at hcond
          rw [if_neg hcond]
      · simp only [MonMap.get, if_neg hk]

/-- `UpdateCurrentVrpMap` name by name. -/
theorem keep_loop (now ends : Int) (cur : MonMap) (hc : cur.Ok) (res : MonMap) (n : Nat) (hr : res.Ok) (hd : ∀ k, k ∈ cur.map (·.1) → res.get k = none) :
    (cur.foldl (monKeep now ends) (res, n)).1.Ok ∧
    (∀ k, (cur.foldl (monKeep now ends) (res, n)).1.get k =
      match cur.get k with
      | some e => if e.visible then some { e with lastSeen := now } else if ends ≤ e.lastSeen then some e else none
      | none => res.get k) ∧
    (cur.foldl (monKeep now ends) (res, n)).2 + invisible res = n + invisible (cur.foldl (monKeep now ends) (res, n)).1 := by
  induction cur generalizing res n with
  | nil => exact ⟨hr, fun k => by simp [MonMap.get], rfl⟩
  | cons x cur ih =>
    obtain ⟨a, e⟩ := x
    unfold MonMap.Ok at hc
    rw [List.map_cons, List.nodup_cons] at hc
    have hna : MonMap.get cur a = none := get_none.mpr hc.1
    have hra : res.get a = none := hd a (by simp)
    rw [List.foldl_cons]
    have hd' : ∀ (e' : MonEntry) (k : Str), k ∈ cur.map (·.1) → (res.put a e').get k = none := by
      intro e' k hk
      rw [get_put, if_neg (fun h => hc.1 (by rw [h]; exact hk))]
      exact hd k (by simp at hk ⊢; exact .inr hk)
    by_cases hv : e.visible = true
    · have hs : monKeep now ends (res, n) (a, e) = (res.put a { e with lastSeen := now }, n) := by simp [monKeep, hv]
      rw [hs]
      obtain ⟨i1, i2, i3⟩ := ih hc.2 (res.put a { e with lastSeen := now }) n (hr.put _ _) (hd' _)
      refine ⟨i1, fun k => ?_, ?_⟩
      · rw [i2 k]
        by_cases hk : a = k
        · subst hk
          simp only [hna, MonMap.get, if_true, get_put, hv]
        · simp only [MonMap.get, if_neg hk, get_put]
      · have : invisible (res.put a { e with lastSeen := now }) = invisible res := by
          rw [countP_put_new hra]
          simp [invisible, hv]
        omega
    · simp only [Bool.not_eq_true] at hv
      by_cases hl : e.lastSeen < ends
      · have hs : monKeep now ends (res, n) (a, e) = (res, n) := by simp [monKeep, hv, hl]
        rw [hs]
        obtain ⟨i1, i2, i3⟩ := ih hc.2 res n hr (fun k hk => hd k (by simp at hk ⊢; exact .inr hk))
        refine ⟨i1, fun k => ?_, i3⟩
        rw [i2 k]
        by_cases hk : a = k
        · subst hk
          simp only [hna, MonMap.get, if_true, hv, hra]
          rw [if_neg (by simp), if_neg (by omega)]
        · simp only [MonMap.get, if_neg hk]
      · have hs : monKeep now ends (res, n) (a, e) = (res.put a e, n + 1) := by simp [monKeep, hv, hl]
        rw [hs]
        obtain ⟨i1, i2, i3⟩ := ih hc.2 (res.put a e) (n + 1) (hr.put _ _) (hd' _)
        refine ⟨i1, fun k => ?_, ?_⟩
        · rw [i2 k]
          by_cases hk : a = k
          · subst hk
            simp only [hna, MonMap.get, if_true, get_put, hv]
            rw [if_neg (by simp), if_pos (by omega)]
          · simp only [MonMap.get, if_neg hk, get_put]
        · have : invisible (res.put a e) = invisible res + 1 := by
            rw [countP_put_new hra]
            simp [invisible, hv]
          omega

/-! ## Histories -/

theorem since_mem {t : Int} {ns : List Str} {h : Sightings} {k : Str} (hk : k ∈ ns) : since ((t, ns) :: h) k = some ((since h k).getD t) := by
  unfold since
  rw [List.takeWhile_cons_of_pos (by simpa using hk), List.getLast?_cons]
  cases (h.takeWhile fun x => decide (k ∈ x.2)).getLast? <;> rfl

theorem since_not_mem {t : Int} {ns : List Str} {h : Sightings} {k : Str} (hk : k ∉ ns) : since ((t, ns) :: h) k = none := by
  unfold since
  rw [List.takeWhile_cons_of_neg (by simpa using hk)]
  rfl

theorem lastSighting_mem {t : Int} {ns : List Str} {h : Sightings} {k : Str} (hk : k ∈ ns) : lastSighting ((t, ns) :: h) k = some t := by
  unfold lastSighting
  rw [List.find?_cons_of_pos (by simpa using hk)]
  rfl

theorem lastSighting_not_mem {t : Int} {ns : List Str} {h : Sightings} {k : Str} (hk : k ∉ ns) : lastSighting ((t, ns) :: h) k = lastSighting h k := by
  unfold lastSighting
  rw [List.find?_cons_of_neg (by simpa using hk)]

theorem untilSeen_mem {t : Int} {ns : List Str} {h : Sightings} {k : Str} (hk : k ∈ ns) : untilSeen ((t, ns) :: h) k = (t, ns) :: h := by
  unfold untilSeen
  rw [List.dropWhile_cons_of_neg (by simpa using hk)]

theorem untilSeen_not_mem {t : Int} {ns : List Str} {h : Sightings} {k : Str} (hk : k ∉ ns) : untilSeen ((t, ns) :: h) k = untilSeen h k := by
  unfold untilSeen
  rw [List.dropWhile_cons_of_pos (by simpa using hk)]

/-- A name that was seen has a last run. -/
theorem since_until {h : Sightings} {k : Str} : (since (untilSeen h k) k).isSome = (lastSighting h k).isSome := by
  induction h with
  | nil => rfl
  | cons x h ih =>
    obtain ⟨t, ns⟩ := x
    by_cases hk : k ∈ ns
    · rw [untilSeen_mem hk, since_mem hk, lastSighting_mem hk]; rfl
    · rw [untilSeen_not_mem hk, lastSighting_not_mem hk, ih]

theorem verdict_mem {grace t : Int} {ns : List Str} {h : Sightings} {k : Str} (hk : k ∈ ns) : verdict grace ((t, ns) :: h) k = some (true, (since h k).getD t, t) := by
  simp only [verdict]
  rw [if_pos hk, since_mem hk]
  rfl

theorem verdict_not_mem {grace t : Int} {ns : List Str} {h : Sightings} {k : Str} (hk : k ∉ ns) : verdict grace ((t, ns) :: h) k =
    match lastSighting h k, since (untilSeen h k) k with
    | some l, some f => if t - grace ≤ l then some (false, f, l) else none
    | _, _ => none := by
  simp only [verdict]
  rw [if_neg hk, lastSighting_not_mem hk, untilSeen_not_mem hk]
  all_goals cases lastSighting h k <;> cases since (untilSeen h k) k <;> rfl

/-- The verdict after one more sighting from the verdict before. -/
theorem verdict_step {grace t : Int} {ns : List Str} {h : Sightings} {k : Str} (ho : InOrder ((t, ns) :: h)) :
    verdict grace ((t, ns) :: h) k =
      if k ∈ ns then some (true, (match verdict grace h k with | some (true, f, _) => f | _ => t), t)
      else match verdict grace h k with
        | some (_, f, l) => if t - grace ≤ l then some (false, f, l) else none
        | none => none := by
  unfold InOrder at ho
  rw [List.pairwise_cons] at ho
  by_cases hk : k ∈ ns
  · rw [if_pos hk, verdict_mem hk]
    cases h with
    | nil => rfl
    | cons x h =>
      obtain ⟨t0, ns0⟩ := x
      by_cases hk0 : k ∈ ns0
      · rw [verdict_mem hk0, since_mem hk0]; rfl
      · rw [verdict_not_mem hk0, since_not_mem hk0]
        simp only [Option.getD_none]
        cases lastSighting h k with
        | none => rfl
        | some l =>
          cases since (untilSeen h k) k with
          | none => rfl
          | some f =>
            simp only
            by_cases hg : t0 - grace ≤ l
            · rw [if_pos hg]
            · rw [if_neg hg]
  · rw [if_neg hk, verdict_not_mem hk]
    cases h with
    | nil => rfl
    | cons x h =>
      obtain ⟨t0, ns0⟩ := x
      have htt : t0 ≤ t := ho.1 _ List.mem_cons_self
      by_cases hk0 : k ∈ ns0
      · rw [verdict_mem hk0, lastSighting_mem hk0, untilSeen_mem hk0, since_mem hk0]
      · rw [verdict_not_mem hk0, lastSighting_not_mem hk0, untilSeen_not_mem hk0]
        cases lastSighting h k with
        | none => rfl
        | some l =>
          cases since (untilSeen h k) k with
          | none => rfl
          | some f =>
            simp only
            by_cases hg : t0 - grace ≤ l
            · rw [if_pos hg]
            · rw [if_neg hg, if_neg (by omega)]

/-- The verdict after an unchanged source. -/
theorem verdict_same {grace t t0 : Int} {ns : List Str} {h : Sightings} {k : Str} (ho : InOrder ((t, ns) :: (t0, ns) :: h)) :
    verdict grace ((t, ns) :: (t0, ns) :: h) k =
      match verdict grace ((t0, ns) :: h) k with
      | some (true, f, _) => some (true, f, t)
      | some (false, f, l) => if t - grace ≤ l then some (false, f, l) else none
      | none => none := by
  rw [verdict_step ho]
  by_cases hk : k ∈ ns
  · rw [if_pos hk, verdict_mem hk]
  · rw [if_neg hk, verdict_not_mem hk]
    cases lastSighting h k with
    | none => rfl
    | some l =>
      cases since (untilSeen h k) k with
      | none => rfl
      | some f =>
        simp only
        by_cases hg : t0 - grace ≤ l
        · rw [if_pos hg]
        · rw [if_neg hg]

theorem monFirstSeen_says (cur : MonMap) (now : Int) (k : Str) :
    monFirstSeen cur now k = match (cur.get k).map tells with | some (true, f, _) => f | _ => now := by
  unfold monFirstSeen
  cases cur.get k with
  | none => rfl
  | some e =>
    simp only [Option.map_some, tells]
    cases e.visible <;> rfl

/-- Entries say what the history tells, and are the ones their names say. -/
structure Faithful (grace : Int) (h : Sightings) (m : MonMap) : Prop where
  ok : m.Ok
  named : ∀ k e, m.get k = some e → entryName e = k
  verdict : ∀ k, (m.get k).map tells = verdict grace h k

theorem faithful_file (wide : WideFloat) {grace t : Int} {h : Sightings} {m : MonMap} (hm : Faithful grace h m) (vrps : List VRPJson) (keys : List BgpSecKeyJson)
    (ho : InOrder ((t, names wide vrps keys) :: h)) : Faithful grace ((t, names wide vrps keys) :: h) (buildNewVrpMap wide grace m vrps keys t).1 := by
  unfold buildNewVrpMap
  have hb := build_listed wide m vrps keys t
  obtain ⟨g1, g2, -⟩ := grace_loop (t - grace) m hm.ok (keys.foldl (monAddKey m t) (vrps.foldl (monAddVrp wide m t) [])) 0 (hb []).1
  refine ⟨g1, fun k e he => ?_, fun k => ?_⟩
  · obtain ⟨-, b2, b3⟩ := hb k
    simp only at he
    rw [g2 k] at he
    by_cases hk : k ∈ names wide vrps keys
    · obtain ⟨e', he', hl⟩ := b2 hk
      rw [he'] at he
      cases he
      exact hl.named
    · rw [b3 hk] at he
      cases hg : m.get k with
      | none => rw [hg] at he; cases he
      | some e' =>
        rw [hg] at he
        simp only at he
        split at he
        · cases he; exact hm.named k e' hg
        · cases he
  obtain ⟨-, b2, b3⟩ := hb k
  simp only
  rw [g2 k, verdict_step ho]
  by_cases hk : k ∈ names wide vrps keys
  · obtain ⟨e, he, hl⟩ := b2 hk
    rw [if_pos hk, he]
    simp only [Option.map_some, tells, hl.visible, hl.lastSeen, hl.firstSeen, monFirstSeen_says, hm.verdict]
  · rw [if_neg hk, b3 hk, ← hm.verdict k]
    cases m.get k with
    | none => rfl
    | some e =>
      simp only [Option.map_some, tells]
      split <;> rfl

theorem faithful_unchanged {grace t t0 : Int} {ns : List Str} {h : Sightings} {m : MonMap} (hm : Faithful grace ((t0, ns) :: h) m)
    (ho : InOrder ((t, ns) :: (t0, ns) :: h)) : Faithful grace ((t, ns) :: (t0, ns) :: h) (updateCurrentVrpMap grace m t).1 := by
  unfold updateCurrentVrpMap
  obtain ⟨g1, g2, -⟩ := keep_loop t (t - grace) m hm.ok [] 0 ok_nil (fun _ _ => rfl)
  refine ⟨g1, fun k e he => ?_, fun k => ?_⟩
  · rw [g2 k] at he
    cases hg : m.get k with
    | none => rw [hg] at he; cases he
    | some e' =>
      rw [hg] at he
      simp only at he
      split at he
      · cases he; exact hm.named k e' hg
      · split at he
        · cases he; exact hm.named k _ hg
        · cases he
  rw [g2 k, verdict_same ho, ← hm.verdict k]
  cases m.get k with
  | none => rfl
  | some e =>
    simp only [Option.map_some, tells]
    cases hv : e.visible with
    | true => rfl
    | false =>
      simp only [Bool.false_eq_true, if_false]
      split
      · simp [tells, hv]
      · rfl

theorem mapAfter_faithful (wide : WideFloat) (grace : Int) (us : List (Int × Update)) (ho : InOrder (sightings wide us)) : Faithful grace (sightings wide us) (mapAfter wide grace us) := by
  induction us with
  | nil => exact ⟨ok_nil, by rintro k e ⟨⟩, fun k => rfl⟩
  | cons u us ih =>
    obtain ⟨t, u⟩ := u
    have ho' : InOrder (sightings wide us) := by
      cases u <;> exact (List.pairwise_cons.mp ho).2
    have hm := ih ho'
    cases u with
    | file vrps keys => exact faithful_file wide hm vrps keys ho
    | unchanged =>
      unfold sightings mapAfter
      unfold sightings at ho
      cases us with
      | nil =>
        refine ⟨ok_nil, by rintro k e ⟨⟩, fun k => ?_⟩
        simp [sightings, mapAfter, updateCurrentVrpMap, MonMap.get, verdict, lastSighting]
      | cons u us =>
        obtain ⟨t0, u⟩ := u
        have hs : ∃ ns, sightings wide ((t0, u) :: us) = (t0, ns) :: sightings wide us := by
          cases u <;> exact ⟨_, rfl⟩
        obtain ⟨ns, hs⟩ := hs
        rw [hs] at hm ho ⊢
        exact faithful_unchanged hm ho

/-! ## Diff -/

theorem diff_loop (b a : MonMap) (ha : a.Ok) (res : MonMap) (hr : res.Ok) (hd : ∀ k, k ∈ a.map (·.1) → res.get k = none) :
    let d := a.foldl (fun res x => if x.2.visible && (match b.get x.1 with | none => true | some e => !e.visible) then res.put x.1 x.2 else res) res
    d.Ok ∧ ∀ k, d.get k = match a.get k with
      | some e => if e.visible && (match b.get k with | none => true | some e => !e.visible) then some e else none
      | none => res.get k := by
  induction a generalizing res with
  | nil => exact ⟨hr, fun k => by simp [MonMap.get]⟩
  | cons x a ih =>
    obtain ⟨k0, e⟩ := x
    unfold MonMap.Ok at ha
    rw [List.map_cons, List.nodup_cons] at ha
    have hna : MonMap.get a k0 = none := get_none.mpr ha.1
    have hr0 : res.get k0 = none := hd k0 (by simp)
    simp only [List.foldl_cons]
    by_cases hc : (e.visible && (match b.get k0 with | none => true | some e => !e.visible)) = true
    · rw [if_pos hc]
      obtain ⟨i1, i2⟩ := ih ha.2 (res.put k0 e) (hr.put _ _) (by
        intro k hk
        rw [get_put, if_neg (fun h => ha.1 (by rw [h]; exact hk))]
        exact hd k (by simp at hk ⊢; exact .inr hk))
      refine ⟨i1, fun k => ?_⟩
      rw [i2 k]
      by_cases hk : k0 = k
      · subst hk
        simp only [hna, MonMap.get, if_true, get_put]
        rw [if_pos hc]
      · simp only [MonMap.get, if_neg hk, get_put]
    · rw [if_neg hc]
      obtain ⟨i1, i2⟩ := ih ha.2 res hr (fun k hk => hd k (by simp at hk ⊢; exact .inr hk))
      refine ⟨i1, fun k => ?_⟩
      rw [i2 k]
      by_cases hk : k0 = k
      · subst hk
        simp only [hna, MonMap.get, if_true, hr0]
        rw [if_neg hc]
      · simp only [MonMap.get, if_neg hk]

theorem diff_get (a b : MonMap) (ha : a.Ok) : (monDiff a b).Ok ∧ ∀ k e, (monDiff a b).get k = some e ↔ a.get k = some e ∧ e.visible = true ∧ ∀ e', b.get k = some e' → e'.visible = false := by
  obtain ⟨h1, h2⟩ := diff_loop b a ha [] ok_nil (fun _ _ => rfl)
  refine ⟨h1, fun k e => ?_⟩
  refine (iff_of_eq (congrArg (· = some e) (h2 k))).trans ?_
  cases a.get k with
  | none => simp [MonMap.get]
  | some e0 =>
    simp only
    cases hb : b.get k with
    | none =>
      simp only [Bool.and_true, reduceCtorEq, false_implies, implies_true, and_true]
      by_cases hv : e0.visible = true
      · rw [if_pos hv]
        constructor
        · intro h; cases h; exact ⟨rfl, hv⟩
        · rintro ⟨h, -⟩; exact h
      · rw [if_neg hv]
        constructor
        · intro h; cases h
        · rintro ⟨h, hv'⟩; cases h; exact absurd hv' hv
    | some e' =>
      simp only [Option.some.injEq, forall_eq']
      by_cases hv : (e0.visible && !e'.visible) = true
      · rw [if_pos hv]
        simp only [Bool.and_eq_true, Bool.not_eq_true'] at hv
        constructor
        · intro h; cases h; exact ⟨rfl, hv⟩
        · rintro ⟨h, -⟩; rw [h]
      · rw [if_neg hv]
        simp only [Bool.and_eq_true, Bool.not_eq_true'] at hv
        constructor
        · intro h; cases h
        · rintro ⟨h, hv'⟩; cases h; exact absurd hv' hv

/-! ## Names -/

theorem rawStr_inj {a b : Bytes} (h : rawStr a = rawStr b) : a = b := by
  unfold rawStr at h
  induction a generalizing b with
  | nil => cases b with
    | nil => rfl
    | cons y b => simp at h
  | cons x a ih =>
    cases b with
    | nil => simp at h
    | cons y b =>
      simp only [List.map_cons, List.cons.injEq] at h
      rw [ih h.2]
      congr 1
      have hx := x.isLt
      have hy := y.isLt
      have hc : ∀ n, n < 256 → (Char.ofNat n).toNat = n := by
        intro n hn
        unfold Char.ofNat
        rw [dif_pos (show n.isValidChar from .inl (by omega))]
        show (Char.ofNatAux n _).val.toNat = n
        simp [Char.ofNatAux, UInt32.toNat]
      have h1 := congrArg Char.toNat h.1
      rw [hc _ hx, hc _ hy] at h1
      exact BitVec.eq_of_toNat_eq h1

theorem dash_not_digit : ¬ IsDigit '-' := by unfold IsDigit; decide

theorem dash_not_prefix {p : Prefix} (hp : p.Valid) : '-' ∉ p.toStr := by
  intro h
  rcases Prefix.toStr_chars hp h with h | h | h | h
  · exact absurd h (by decide)
  · exact absurd h (by decide)
  · exact absurd h (by decide)
  · exact dash_not_digit h

theorem realRec_valid {p : Prefix} {ml : U8} {asn : U32} (h : RealRec (.vrp p ml asn)) : p.Valid := ⟨h.1, by simpa [Prefix.isValid] using h.2⟩

/-- The names of real records are different. -/
theorem recName_inj {r r' : Rec} (hr : RealRec r) (hr' : RealRec r') (h : recName r = recName r') : r = r' := by
  cases r with
  | vrp p ml asn =>
    have hp := realRec_valid hr
    cases r' with
    | vrp p' ml' asn' =>
      have hp' := realRec_valid hr'
      obtain ⟨h1, h2⟩ := append_sep_inj (dash_not_prefix hp) (dash_not_prefix hp') h
      obtain ⟨h2, h3⟩ := append_sep_inj (not_mem_of_digits (decStr_digits _) dash_not_digit) (not_mem_of_digits (decStr_digits _) dash_not_digit) h2
      rw [Prefix.toStr_inj hp hp' h1, BitVec.eq_of_toNat_eq (decStr_inj h2), BitVec.eq_of_toNat_eq (decStr_inj h3)]
    | brk asn' ski pk =>
      exfalso
      obtain ⟨h1, -⟩ := append_sep_inj (dash_not_prefix hp) (not_mem_of_digits (hexBytes_digits _) dash_not_digit) h
      have := Prefix.toStr_slash hp
      rw [h1] at this
      exact absurd (hexBytes_digits _ _ this) (by unfold IsDigit; decide)
  | brk asn ski pk =>
    cases r' with
    | vrp p' ml' asn' =>
      exfalso
      have hp' := realRec_valid hr'
      obtain ⟨h1, -⟩ := append_sep_inj (not_mem_of_digits (hexBytes_digits _) dash_not_digit) (dash_not_prefix hp') h
      have := Prefix.toStr_slash hp'
      rw [← h1] at this
      exact absurd (hexBytes_digits _ _ this) (by unfold IsDigit; decide)
    | brk asn' ski' pk' =>
      obtain ⟨h1, h2⟩ := append_sep_inj (not_mem_of_digits (hexBytes_digits _) dash_not_digit) (not_mem_of_digits (hexBytes_digits _) dash_not_digit) h
      obtain ⟨h2, h3⟩ := append_sep_inj (not_mem_of_digits (decStr_digits _) dash_not_digit) (not_mem_of_digits (decStr_digits _) dash_not_digit) h2
      rw [hexBytes_inj h1, BitVec.eq_of_toNat_eq (decStr_inj h2), rawStr_inj h3]

/-! ## PDUs -/

/-- The entry a data PDU writes. -/
theorem monPdu_data (now : Int) (brk : Bool) (c : MonClient) {p : Pdu} {r : Rec} {f : U8} (hr : pduRecord p = some r) (hf : pduFlag p = some f) :
    ∃ e, monPdu now brk c p = (c.record f (recName r) e, []) ∧ e.firstSeen = now ∧ e.visible = true ∧ entryName e = recName r := by
  cases p <;> simp only [pduRecord, pduFlag, reduceCtorEq, Option.some.injEq] at hr hf
  all_goals subst hr hf; exact ⟨_, rfl, rfl, rfl, rfl⟩

theorem pduFlag_of_record {p : Pdu} {r : Rec} (hr : pduRecord p = some r) : ∃ f, pduFlag p = some f := by
  cases p <;> simp only [pduRecord, reduceCtorEq] at hr <;> exact ⟨_, rfl⟩

theorem record_get (c : MonClient) (f : U8) (k k' : Str) (e : MonEntry) :
    ((c.record f k e).vrpsRtr.get k') = if k = k' then (if f = 1 then some e else none) else c.vrpsRtr.get k' := by
  unfold MonClient.record
  by_cases hf : f = 1
  · simp only [hf, if_true, get_put]
  · simp only [hf, if_false, get_del]

theorem record_others (c : MonClient) (f : U8) (k : Str) (e : MonEntry) : { c.record f k e with vrpsRtr := c.vrpsRtr } = c := by
  unfold MonClient.record
  split <;> rfl

/-- The client after data PDUs. -/
def monFeed (brk : Bool) (c : MonClient) (l : List (Int × Pdu)) : MonClient := l.foldl (fun c x => (monPdu x.1 brk c x.2).1) c

theorem lastAbout_cons (p : Pdu) (ps : List Pdu) (r : Rec) :
    lastAbout (p :: ps) r = match lastAbout ps r with | some q => some q | none => if pduRecord p = some r then some p else none := by
  unfold lastAbout
  rw [List.filter_cons]
  by_cases h : pduRecord p = some r
  · simp only [h, decide_true, if_true, List.getLast?_cons]
    cases (ps.filter fun p => decide (pduRecord p = some r)).getLast? <;> rfl
  · simp only [h, decide_false, Bool.false_eq_true, if_false]
    cases (ps.filter fun p => decide (pduRecord p = some r)).getLast? <;> rfl

theorem heldAfter_cons (held : Rec → Prop) (p : Pdu) (ps : List Pdu) (r : Rec) : HeldAfter held (p :: ps) r ↔ HeldAfter (HeldAfter held [p]) ps r := by
  unfold HeldAfter
  rw [lastAbout_cons]
  cases lastAbout ps r with
  | some q => rfl
  | none =>
    simp only
    rw [lastAbout_cons]
    rfl

theorem heldAfter_congr {held held' : Rec → Prop} (ps : List Pdu) (r : Rec) (h : held r ↔ held' r) : HeldAfter held ps r ↔ HeldAfter held' ps r := by
  unfold HeldAfter
  cases lastAbout ps r with
  | some q => rfl
  | none => exact h

theorem monFeed_holds (brk : Bool) (l : List (Int × Pdu)) (c : MonClient) (hd : ∀ x ∈ l, IsData x.2) (hv : ∀ x ∈ l, ∀ r, pduRecord x.2 = some r → RealRec r) (r : Rec) (hr : RealRec r) :
    Holds (monFeed brk c l).vrpsRtr r ↔ HeldAfter (Holds c.vrpsRtr) (l.map (·.2)) r := by
  induction l generalizing c with
  | nil => rfl
  | cons x l ih =>
    obtain ⟨now, p⟩ := x
    have hp := hd _ List.mem_cons_self
    unfold IsData at hp
    obtain ⟨r0, hr0⟩ := Option.isSome_iff_exists.mp hp
    obtain ⟨f, hf⟩ := pduFlag_of_record hr0
    obtain ⟨e, he, -⟩ := monPdu_data now brk c hr0 hf
    have hreal := hv _ List.mem_cons_self r0 hr0
    have := ih (monPdu now brk c p).1 (fun x hx => hd x (List.mem_cons_of_mem _ hx)) (fun x hx => hv x (List.mem_cons_of_mem _ hx))
    rw [List.map_cons, heldAfter_cons]
    refine this.trans (heldAfter_congr _ _ ?_)
    rw [he]
    unfold Holds HeldAfter
    rw [record_get, lastAbout_cons]
    simp only [lastAbout, List.filter_nil, List.getLast?_nil]
    by_cases h : r0 = r
    · subst h
      simp only [if_true, hr0, hf]
      by_cases h1 : f = 1
      · simp [h1]
      · simp [h1]
    · rw [if_neg (fun hn => h (recName_inj hreal hr hn)), if_neg (by rw [hr0]; simpa using h)]

theorem monFeed_others (brk : Bool) (l : List (Int × Pdu)) (c : MonClient) (hd : ∀ x ∈ l, IsData x.2) : { monFeed brk c l with vrpsRtr := c.vrpsRtr } = c := by
  induction l generalizing c with
  | nil => rfl
  | cons x l ih =>
    obtain ⟨now, p⟩ := x
    have hp := hd _ List.mem_cons_self
    unfold IsData at hp
    obtain ⟨r0, hr0⟩ := Option.isSome_iff_exists.mp hp
    obtain ⟨f, hf⟩ := pduFlag_of_record hr0
    obtain ⟨e, he, -⟩ := monPdu_data now brk c hr0 hf
    have := ih (monPdu now brk c p).1 (fun x hx => hd x (List.mem_cons_of_mem _ hx))
    have h2 := record_others c f (recName r0) e
    simp only [he] at this
    have h3 := congrArg (fun m => { m with vrpsRtr := c.vrpsRtr }) this
    simp only at h3
    unfold monFeed
    rw [List.foldl_cons, he]
    refine Eq.trans ?_ h2
    exact h3

theorem run_append (brk : Bool) (s : MonState) (a b : List MonEvent) :
    s.run brk (a ++ b) = (((s.run brk a).1.run brk b).1, (s.run brk a).2 ++ ((s.run brk a).1.run brk b).2) := by
  induction a generalizing s with
  | nil => rfl
  | cons e a ih =>
    simp only [List.cons_append, MonState.run]
    rw [ih]
    simp

/-- Data PDUs in a session that is up. -/
theorem run_data (brk : Bool) (s : MonState) (l : List (Int × Pdu)) (hc : s.session.connected = true) (he : s.ended = false) (hd : ∀ x ∈ l, IsData x.2) :
    ∃ v, s.run brk (l.map fun x => .pdu x.1 x.2) = (⟨monFeed brk s.client l, ⟨v, true⟩, false⟩, []) := by
  induction l generalizing s with
  | nil =>
    refine ⟨s.session.version, ?_⟩
    obtain ⟨c, ⟨v, cn⟩, en⟩ := s
    simp only at hc he
    subst hc he
    rfl
  | cons x l ih =>
    obtain ⟨now, p⟩ := x
    have hp := hd _ List.mem_cons_self
    unfold IsData at hp
    obtain ⟨r0, hr0⟩ := Option.isSome_iff_exists.mp hp
    obtain ⟨f, hf⟩ := pduFlag_of_record hr0
    obtain ⟨e, hee, -⟩ := monPdu_data now brk s.client hr0 hf
    have hstep : ∃ v, s.step brk (.pdu now p) = (⟨(monPdu now brk s.client p).1, ⟨v, true⟩, false⟩, []) := by
      simp only [MonState.step, he, hc, CSession.onPdu, hee, CSession.act, if_true, Bool.false_eq_true, if_false, CSession.downgrade]
      split
      · exact ⟨_, rfl⟩
      · refine ⟨s.session.version, ?_⟩
        rw [show s.session = ⟨s.session.version, true⟩ from by rw [← hc]]
    obtain ⟨v, hstep⟩ := hstep
    obtain ⟨v', hrun⟩ := ih ⟨(monPdu now brk s.client p).1, ⟨v, true⟩, false⟩ rfl rfl (fun x hx => hd x (List.mem_cons_of_mem _ hx))
    refine ⟨v', ?_⟩
    simp only [List.map_cons, MonState.run]
    rw [hstep, hrun]
    rfl

end StayRTR
