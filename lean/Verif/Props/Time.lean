import Verif.Proofs.Time
import Verif.Props.Update

/-!
C129: build times are read as RFC 3339.
-/

namespace StayRTR

open Spec

theorem offset_head {z : Str} {e : Int} (h : OffsetText .go z e) : ∃ c z', z = c :: z' ∧ c ≠ '.' ∧ c ≠ ',' ∧ isDec c = false := by
  cases h with
  | utc c h => simp only [Dialect.go] at h; subst h; exact ⟨_, _, rfl, by decide, by decide, by decide⟩
  | east => exact ⟨_, _, rfl, by decide, by decide, by decide⟩
  | west => exact ⟨_, _, rfl, by decide, by decide, by decide⟩

theorem parseLayout_iff (s : Str) (t : Int) : parseLayout s = some t ↔ TimeText .go s t := by
  constructor
  · intro h
    unfold parseLayout at h
    simp only [Option.bind_eq_bind, Option.bind_eq_some_iff, Prod.exists] at h
    obtain ⟨year, s1, h1, h⟩ := h
    obtain ⟨s2, h2, h⟩ := h
    obtain ⟨month, s3, h3, h⟩ := h
    split at h
    · simp at h
    rename_i hmonth
    simp only [Option.bind_eq_some_iff, Prod.exists] at h
    obtain ⟨s4, h4, h⟩ := h
    obtain ⟨day, s5, h5, h⟩ := h
    obtain ⟨s6, h6, h⟩ := h
    obtain ⟨hour, s7, h7, h⟩ := h
    split at h
    · simp at h
    rename_i hhour
    simp only [Option.bind_eq_some_iff, Prod.exists] at h
    obtain ⟨s8, h8, h⟩ := h
    obtain ⟨min, s9, h9, h⟩ := h
    split at h
    · simp at h
    rename_i hmin
    simp only [Option.bind_eq_some_iff, Prod.exists] at h
    obtain ⟨s10, h10, h⟩ := h
    obtain ⟨sec, s11, h11, h⟩ := h
    split at h
    · simp at h
    rename_i hsec
    cases h12 : slowFraction s11 with
    | mk nsec s12 =>
    rw [h12] at h
    simp only [Option.bind_eq_some_iff, Prod.exists] at h
    obtain ⟨off, s13, h13, h⟩ := h
    split at h
    · simp at h
    rename_i hend
    split at h
    · simp at h
    rename_i hday
    simp only [Option.some.injEq] at h
    rw [Decidable.not_not] at hend
    subst hend
    obtain ⟨Y, rfl, hY⟩ := (parseLongYear_iff _ _ _).mp h1
    have h2 := (skipChar_iff _ _ _).mp h2
    subst h2
    obtain ⟨M, rfl, hM⟩ := (getnum_fixed _ _ _).mp h3
    have h4 := (skipChar_iff _ _ _).mp h4
    subst h4
    obtain ⟨D, rfl, hD⟩ := (getnum_fixed _ _ _).mp h5
    have h6 := (skipChar_iff _ _ _).mp h6
    subst h6
    obtain ⟨hh, rfl, hhd⟩ := (getnum_free _ _ _).mp h7
    have h8 := (skipChar_iff _ _ _).mp h8
    subst h8
    obtain ⟨m, rfl, hm⟩ := (getnum_fixed _ _ _).mp h9
    have h10 := (skipChar_iff _ _ _).mp h10
    subst h10
    obtain ⟨sc, rfl, hs⟩ := (getnum_fixed _ _ _).mp h11
    obtain ⟨f, rfl, hf⟩ := slowFraction_sound h12
    obtain ⟨e, hz, rfl⟩ := (parseZone_iff _ _).mp h13
    rw [← h, timeDate_eq _ _ _ _ _ _ _ _ (by omega) (by omega) (by omega)]
    rw [daysIn_eq _ (by omega) (by omega)] at hday
    exact .mk Y M D hh m sc f s12 'T' year month day hour min sec nsec e hY hM hD (hhd.imp id (fun x => ⟨trivial, x.1⟩)) hm hs hf hz rfl (by omega) (by omega) (by omega) (by omega)
      (by omega) (by omega) (by simp only [Dialect.go]; omega)
  · rintro ⟨Y, M, D, h, m, s, f, z, tee, year, month, day, hour, minute, second, nanos, east, hY, hM, hD, hh, hm, hs, hf, hz, ht, m1, m12, d1, dm, hmax, mmax, smax⟩
    simp only [Dialect.go] at ht smax
    subst ht
    obtain ⟨c, z', hzc, hc1, hc2, hc3⟩ := offset_head hz
    unfold parseLayout
    rw [(parseLongYear_iff _ _ _).mpr ⟨Y, rfl, hY⟩]
    simp only [Option.bind_eq_bind, Option.bind_some]
    rw [(skipChar_iff _ _ _).mpr rfl]
    simp only [Option.bind_some]
    rw [(getnum_fixed _ _ _).mpr ⟨M, rfl, hM⟩]
    simp only [Option.bind_some]
    rw [if_neg (by omega), (skipChar_iff _ _ _).mpr rfl]
    simp only [Option.bind_some]
    rw [(getnum_fixed _ _ _).mpr ⟨D, rfl, hD⟩]
    simp only [Option.bind_some]
    rw [(skipChar_iff _ _ _).mpr rfl]
    simp only [Option.bind_some]
    rw [(getnum_free _ _ _).mpr ⟨h, rfl, hh.imp id (fun x => ⟨x.2, rfl⟩)⟩]
    simp only [Option.bind_some]
    rw [if_neg (by omega), (skipChar_iff _ _ _).mpr rfl]
    simp only [Option.bind_some]
    rw [(getnum_fixed _ _ _).mpr ⟨m, rfl, hm⟩]
    simp only [Option.bind_some]
    rw [if_neg (by omega), (skipChar_iff _ _ _).mpr rfl]
    simp only [Option.bind_some]
    rw [(getnum_fixed _ _ _).mpr ⟨s, rfl, hs⟩]
    simp only [Option.bind_some]
    rw [if_neg (by omega), slowFraction_complete hf hzc hc1 hc2 hc3]
    simp only
    rw [(parseZone_iff _ _).mpr ⟨east, hz, rfl⟩]
    simp only [Option.bind_some, ne_eq, not_true_eq_false, if_false]
    rw [daysIn_eq _ m1 m12, if_neg (by omega), timeDate_eq _ _ _ _ _ _ _ _ m1 m12 d1]

theorem parseUint_sound {p : Str} {lo hi v n : Nat} (h : parseUint p lo hi = some v) (hl : p.length = n) (hn : 0 < n) : DigitsOf n p v ∧ lo ≤ v ∧ v ≤ hi := by
  unfold parseUint timeUint at h
  by_cases ha : p.all isDec = true
  · rw [if_pos ha] at h
    simp only at h
    split at h
    · simp at h
    · rename_i hb
      simp only [Option.some.injEq] at h
      subst h
      exact ⟨⟨hl, denotes_of (by rintro rfl; simp at hl; omega) ha⟩, by omega, by omega⟩
  · rw [if_neg ha] at h
    simp at h

theorem drop_of_get {s : Str} {n : Nat} {c : Char} (h : s[n]? = some c) : s.drop n = c :: s.drop (n + 1) := by
  obtain ⟨hn, he⟩ := List.getElem?_eq_some_iff.mp h
  rw [List.drop_eq_getElem_cons hn, he]

theorem drop_take2 (s : Str) (n : Nat) : s.drop n = (s.drop n).take 2 ++ s.drop (n + 2) := by
  conv => lhs; rw [← List.take_append_drop 2 (s.drop n)]
  rw [List.drop_drop]

theorem parseRFC3339_sound {s : Str} {t : Int} (h : parseRFC3339 s = some t) : TimeText .plain s t := by
  unfold parseRFC3339 at h
  split at h
  · simp at h
  rename_i hlen
  simp only [Option.bind_eq_bind, Option.bind_eq_some_iff] at h
  obtain ⟨year, h1, month, h2, day, h3, hour, h4, min, h5, sec, h6, h⟩ := h
  split at h
  · simp at h
  rename_i hc
  rw [Decidable.not_not] at hc
  obtain ⟨c1, c2, c3, c4, c5⟩ := hc
  cases hfr : fastFraction (s.drop 19) with
  | mk nsec z =>
  rw [hfr] at h
  simp only at h
  obtain ⟨f, hf, hff⟩ := fastFraction_sound hfr
  have l2 : ∀ n, n + 2 ≤ 19 → ((s.drop n).take 2).length = 2 := by
    intro n hn
    rw [List.length_take, List.length_drop]
    omega
  obtain ⟨d1, _, _⟩ := parseUint_sound (n := 4) h1 (by rw [List.length_take]; omega) (by decide)
  obtain ⟨d2, m1, m12⟩ := parseUint_sound h2 (l2 5 (by decide)) (by decide)
  obtain ⟨d3, day1, dayM⟩ := parseUint_sound h3 (l2 8 (by decide)) (by decide)
  obtain ⟨d4, _, hM⟩ := parseUint_sound h4 (l2 11 (by decide)) (by decide)
  obtain ⟨d5, _, miM⟩ := parseUint_sound h5 (l2 14 (by decide)) (by decide)
  obtain ⟨d6, _, sM⟩ := parseUint_sound h6 (l2 17 (by decide)) (by decide)
  rw [daysIn_eq _ m1 m12] at dayM
  have hs : s = s.take 4 ++ '-' :: ((s.drop 5).take 2 ++ '-' :: ((s.drop 8).take 2 ++ 'T' :: ((s.drop 11).take 2 ++ ':' :: ((s.drop 14).take 2 ++ ':' :: ((s.drop 17).take 2 ++ (f ++ z)))))) := by
    rw [← hf, ← drop_take2 s 17, ← drop_of_get c5, ← drop_take2 s 14, ← drop_of_get c4, ← drop_take2 s 11, ← drop_of_get c3, ← drop_take2 s 8, ← drop_of_get c2, ← drop_take2 s 5, ← drop_of_get c1,
      List.take_append_drop]
  have key : ∀ e, OffsetText .plain z e → t = timeDate year month day hour min sec nsec - e * 60 * 1000000000 → TimeText .plain s t := by
    intro e hz ht
    rw [ht, timeDate_eq _ _ _ _ _ _ _ _ m1 m12 day1, hs]
    exact .mk _ _ _ _ _ _ f z 'T' year month day hour min sec nsec e d1 d2 d3 (.inl d4) d5 d6 hff hz rfl m1 m12 day1 dayM hM miM sM
  split at h
  · rename_i hz
    subst hz
    simp only [Option.some.injEq] at h
    exact key 0 (.utc 'Z' rfl) (by omega)
  · split at h
    · simp at h
    · rename_i hzl
      rw [Decidable.not_not] at hzl
      simp only [Option.bind_eq_some_iff] at h
      obtain ⟨hr, g1, mm, g2, h⟩ := h
      split at h
      · simp at h
      rename_i hsg
      rw [Decidable.not_not] at hsg
      match z, hzl with
      | [sg, a, b, c, d, e], _ =>
      simp only [List.drop_succ_cons, List.drop_zero, List.take_succ_cons, List.take_zero, List.getElem?_cons_zero, List.getElem?_cons_succ, Option.some.injEq] at g1 g2 hsg h
      obtain ⟨e1, _, b1⟩ := parseUint_sound (n := 2) g1 rfl (by decide)
      obtain ⟨e2, _, b2⟩ := parseUint_sound (n := 2) g2 rfl (by decide)
      obtain ⟨hsg, rfl⟩ := hsg
      rcases hsg with rfl | rfl
      · rw [if_pos rfl] at h
        exact key _ (.west [a, b] [d, e] hr mm e1 e2 b1 b2) (by rw [← h]; push_cast; omega)
      · rw [if_neg (by decide)] at h
        exact key _ (.east [a, b] [d, e] hr mm e1 e2 b1 b2) (by rw [← h]; push_cast; omega)

/-- What is written in a dialect is written in one that allows more. -/
theorem Spec.TimeText.mono {d d' : Dialect} (h1 : ∀ c, d.tee c → d'.tee c) (h2 : ∀ c, d.zulu c → d'.zulu c) (h3 : ∀ c, d.point c → d'.point c) (h4 : d.shortHour → d'.shortHour)
    (h5 : d.maxSecond ≤ d'.maxSecond) (h6 : d.maxOffset.1 ≤ d'.maxOffset.1) (h7 : d.maxOffset.2 ≤ d'.maxOffset.2) {s : Str} {t : Int} (h : TimeText d s t) : TimeText d' s t := by
  obtain ⟨Y, M, D, h, m, s, f, z, tee, year, month, day, hour, minute, second, nanos, east, hY, hM, hD, hh, hm, hs, hf, hz, ht, m1, m12, d1, dm, hmax, mmax, smax⟩ := h
  refine .mk Y M D h m s f z tee year month day hour minute second nanos east hY hM hD (hh.imp id (fun x => ⟨h4 x.1, x.2⟩)) hm hs ?_ ?_ (h1 _ ht) m1 m12 d1 dm hmax mmax (by omega)
  · cases hf with
    | none => exact .none
    | digits c p v hc hp => exact .digits c p v (h3 _ hc) hp
  · cases hz with
    | utc c hc => exact .utc c (h2 _ hc)
    | east p q a b hp hq ha hb => exact .east p q a b hp hq (by omega) (by omega)
    | west p q a b hp hq ha hb => exact .west p q a b hp hq (by omega) (by omega)

theorem plain_go {s : Str} {t : Int} (h : TimeText .plain s t) : TimeText .go s t :=
  h.mono (d := .plain) (d' := .go) (fun _ h => h) (fun _ h => h) (fun _ h => .inl h) False.elim (by decide) (by decide) (by decide)

/-- A build time is read exactly if it is a text of Go's dialect of RFC 3339, and then as the instant that it denotes. -/
theorem C129_exact (s : Str) (t : Int) : timeParse s = some t ↔ TimeText .go s t := by
  rw [← parseLayout_iff]
  unfold timeParse
  cases h : parseRFC3339 s with
  | none => rfl
  | some t' => rw [(parseLayout_iff s t').mpr (plain_go (parseRFC3339_sound h))]

/-- Build times of RFC 3339 in capitals and without leap seconds are read as the instants that they denote. Missing: lower case and leap seconds (`C129_refused_false`); that only times of RFC 3339 are
read (`C129_lenient_false`). -/
theorem C129_rfc3339_partial (s : Str) (t : Int) (h : TimeText .plain s t) : timeParse s = some t := (C129_exact s t).mpr (plain_go h)

/-- A build time with an offset and fractions. -/
example : TimeText .plain "2024-02-29T23:59:59.25-01:30".toList 1709256599250000000 := by
  have h := TimeText.mk (d := .plain) "2024".toList "02".toList "29".toList "23".toList "59".toList "59".toList ".25".toList "-01:30".toList 'T' 2024 2 29 23 59 59 250000000 (-90)
    ⟨rfl, denotes_of (by decide) (by decide)⟩ ⟨rfl, denotes_of (by decide) (by decide)⟩ ⟨rfl, denotes_of (by decide) (by decide)⟩ (.inl ⟨rfl, denotes_of (by decide) (by decide)⟩)
    ⟨rfl, denotes_of (by decide) (by decide)⟩ ⟨rfl, denotes_of (by decide) (by decide)⟩
    (.digits '.' "25".toList 25 rfl (denotes_of (by decide) (by decide)))
    (.west "01".toList "30".toList 1 30 ⟨rfl, denotes_of (by decide) (by decide)⟩ ⟨rfl, denotes_of (by decide) (by decide)⟩ (by decide) (by decide)) rfl
    (by decide) (by decide) (by decide) (by decide) (by decide) (by decide) (by decide)
  have hi : instant 2024 2 29 23 59 59 250000000 (-90) = 1709256599250000000 := by
    unfold instant
    rw [daysToYear_eq, daysToYear_eq]
    decide
  rw [hi] at h
  exact h

/-- Where the parts of a text of RFC 3339 are. -/
theorem rfc_parts {s : Str} {t : Int} (h : TimeText .rfc3339 s t) : s[13]? = some ':' ∧ ∃ f z n e, s.drop 19 = f ++ z ∧ FractionText .rfc3339 f n ∧ OffsetText .rfc3339 z e := by
  obtain ⟨Y, M, D, h, m, s, f, z, tee, year, month, day, hour, minute, second, nanos, east, hY, hM, hD, hh, hm, hs, hf, hz, ht, m1, m12, d1, dm, hmax, mmax, smax⟩ := h
  have hh : DigitsOf 2 h hour := hh.elim id (fun x => x.1.elim)
  match Y, hY.1, M, hM.1, D, hD.1, h, hh.1, m, hm.1, s, hs.1 with
  | [_, _, _, _], _, [_, _], _, [_, _], _, [_, _], _, [_, _], _, [_, _], _ => exact ⟨rfl, f, z, nanos, east, rfl, hf, hz⟩

/-- Texts that are no times of RFC 3339 are read all the same: an hour of one digit, a comma before the fractions, an offset of 24 hours and 60 minutes. -/
theorem C129_lenient_false : ∀ s ∈ ["2024-01-01T5:00:00Z".toList, "2024-01-01T05:00:00,5Z".toList, "2024-01-01T05:00:00+24:60".toList], (timeParse s).isSome = true ∧ ¬ ∃ t, TimeText .rfc3339 s t := by
  intro s hs
  simp only [List.mem_cons, List.not_mem_nil, or_false] at hs
  rcases hs with rfl | rfl | rfl
  · refine ⟨by decide +kernel, ?_⟩
    rintro ⟨t, h⟩
    exact absurd (rfc_parts h).1 (by decide)
  · refine ⟨by decide +kernel, ?_⟩
    rintro ⟨t, h⟩
    obtain ⟨-, f, z, n, e, he, hf, hz⟩ := rfc_parts h
    have he : ",5Z".toList = f ++ z := he
    cases hf with
    | none =>
      cases hz with
      | utc c hc => exact absurd (List.cons.inj he).2 (by decide)
      | east => exact absurd (List.cons.inj he).1 (by decide)
      | west => exact absurd (List.cons.inj he).1 (by decide)
    | digits c p v hc hp =>
      have hc : c = '.' := hc
      subst hc
      exact absurd (List.cons.inj he).1 (by decide)
  · refine ⟨by decide +kernel, ?_⟩
    rintro ⟨t, h⟩
    obtain ⟨-, f, z, n, e, he, hf, hz⟩ := rfc_parts h
    have he : "+24:60".toList = f ++ z := he
    cases hf with
    | none =>
      cases hz with
      | utc c hc => exact absurd (List.cons.inj he).2 (by decide)
      | east p q a b hp hq ha hb =>
        match p, hp.1 with
        | [p1, p2], _ =>
          have he := (List.cons.inj he).2
          have h1 : p1 = '2' := ((List.cons.inj he).1).symm
          have h2 : p2 = '4' := ((List.cons.inj (List.cons.inj he).2).1).symm
          subst h1 h2
          have hv := (of_denotes hp.2).2.2
          have : decVal ['2', '4'] = 24 := by decide
          rw [this] at hv
          subst hv
          exact absurd ha (by decide)
      | west => exact absurd (List.cons.inj he).1 (by decide)
    | digits c p v hc hp =>
      have hc : c = '.' := hc
      subst hc
      exact absurd (List.cons.inj he).1 (by decide)

theorem rfc_ex (h m s : Str) (tee zulu : Char) (hour minute second : Nat) (h1 : DigitsOf 2 h hour) (h2 : DigitsOf 2 m minute) (h3 : DigitsOf 2 s second) (ht : tee = 'T' ∨ tee = 't')
    (hz : zulu = 'Z' ∨ zulu = 'z') (hh : hour ≤ 23) (hm : minute ≤ 59) (hs : second ≤ 60) :
    ∃ t, TimeText .rfc3339 ("2016-12-31".toList ++ tee :: (h ++ ':' :: (m ++ ':' :: (s ++ [zulu])))) t :=
  ⟨_, TimeText.mk (d := .rfc3339) "2016".toList "12".toList "31".toList h m s [] [zulu] tee 2016 12 31 hour minute second 0 0
    ⟨rfl, denotes_of (by decide) (by decide)⟩ ⟨rfl, denotes_of (by decide) (by decide)⟩ ⟨rfl, denotes_of (by decide) (by decide)⟩ (.inl h1) h2 h3 .none (.utc zulu hz) ht
    (by decide) (by decide) (by decide) (by decide) hh hm hs⟩

/-- Times of RFC 3339 are refused: in lower case, and in a leap second. With the check of the build time such a file is not applied. -/
theorem C129_refused_false : ∀ s ∈ ["2016-12-31t23:59:59Z".toList, "2016-12-31T23:59:59z".toList, "2016-12-31T23:59:60Z".toList], (∃ t, TimeText .rfc3339 s t) ∧ timeParse s = none := by
  have d2 : ∀ a b : Char, isDec a = true → isDec b = true → DigitsOf 2 [a, b] (decVal [a, b]) := fun a b ha hb => ⟨rfl, denotes_of (by simp) (by simp [ha, hb])⟩
  intro s hs
  simp only [List.mem_cons, List.not_mem_nil, or_false] at hs
  rcases hs with rfl | rfl | rfl
  · exact ⟨rfc_ex ['2', '3'] ['5', '9'] ['5', '9'] 't' 'Z' 23 59 59 (d2 _ _ rfl rfl) (d2 _ _ rfl rfl) (d2 _ _ rfl rfl) (.inr rfl) (.inl rfl) (by decide) (by decide) (by decide), by decide +kernel⟩
  · exact ⟨rfc_ex ['2', '3'] ['5', '9'] ['5', '9'] 'T' 'z' 23 59 59 (d2 _ _ rfl rfl) (d2 _ _ rfl rfl) (d2 _ _ rfl rfl) (.inl rfl) (.inr rfl) (by decide) (by decide) (by decide), by decide +kernel⟩
  · exact ⟨rfc_ex ['2', '3'] ['5', '9'] ['6', '0'] 'T' 'Z' 23 59 60 (d2 _ _ rfl rfl) (d2 _ _ rfl rfl) (d2 _ _ rfl rfl) (.inl rfl) (.inl rfl) (by decide) (by decide) (by decide), by decide +kernel⟩

/-- With the check of the build time, a record that comes to be served comes from a file that states, by `generated` or else by a text in the calendar, to be at most 24 hours old. -/
theorem C129_served (e : Env) (hs : e.sort.Ok) (hc : e.checktime = true) (hp : e.parseTime = timeParse) (t : Times) (f : Fetched) {s : UState} (h : Reached e s) (r : Rec)
    (h1 : Served (refresh e t f s) r) (h2 : ¬ Served s r) :
    (∃ g, (refresh e t f s).lastdata.metadata.generated = some g ∧ t.check ≤ (g + 24 * 3600) * 1000000000) ∨
    ∃ b, TimeText .go (refresh e t f s).lastdata.metadata.buildtime b ∧ t.check ≤ b + 24 * 3600 * 1000000000 := by
  obtain ⟨⟨b, hb, hle⟩, -⟩ := C50_source e hs hc t f h r h1 h2
  cases hb with
  | generated g hg => exact .inl ⟨g, hg, by omega⟩
  | text b hg hpt =>
    rw [hp] at hpt
    exact .inr ⟨b, (C129_exact _ _).mp hpt, hle⟩

/-- The empty text is no time, as `C100_checktime_false` assumes. -/
example : timeParse [] = none := by decide +kernel

/-- A file with a build time in text, on the first refresh. -/
example : let e := { exEnv true with parseTime := timeParse }
    Served (refresh e (exAt 90) (exGet [3]) exInit) (.vrp ⟨.v4 0x0a000000, 9⟩ 8 1) ∧ ¬ Served exInit (.vrp ⟨.v4 0x0a000000, 9⟩ 8 1) ∧ e.sort.Ok := by
  refine ⟨?_, ?_, insertionSorter_ok⟩
  · unfold Served; decide +kernel
  · unfold Served; decide

end StayRTR
