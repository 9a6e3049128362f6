import Verif.Proofs.MonSys
import Verif.Proofs.JsonExport

/-!
# Lemmas on the page with the difference
-/

namespace StayRTR

open Spec

theorem encInt_num (x : Int) : NumIs (encInt x) x := by
  refine ⟨_, rfl, ?_⟩
  split
  · exact .inr ⟨_, x.natAbs, rfl, (denotes_iff _ _).2 (parseDec_decStr _), by omega⟩
  · exact .inl ⟨x.natAbs, (denotes_iff _ _).2 (parseDec_decStr _), by omega⟩

theorem given_int {o : List (Str × Json)} (name : String) (x : Int) (h : (name.toList, encInt x) ∈ o) : Given o name NumIs x := ⟨_, h, encInt_num x⟩

theorem not_given {o : List (Str × Json)} {name : String} (h : ∀ m ∈ o, m.1 ≠ name.toList) : NotGiven o name := fun _ hj => h _ hj rfl

theorem str_ne {n name : String} (h : (n.toList == name.toList) = false) : n.toList ≠ name.toList := by
  intro he
  rw [he] at h
  simp at h

/-- A written key is the key. -/
theorem encKey_page (k : BgpSecKeyJson) : PageKey (encKey k) k := by
  obtain ⟨t, ht, hb⟩ := encBytes_text k.pubkey
  refine ⟨_, rfl, given_int _ _ (by simp), ?_, ?_, ⟨_, by simp, .inl ⟨t, ht, hb⟩⟩, ⟨_, by simp, rfl⟩⟩
  · cases he : k.expires with
    | some x => exact given_int _ _ (by simp [omitPtr])
    | none =>
      refine not_given fun m hm => ?_
      simp only [omitPtr, List.mem_append, List.mem_cons, List.not_mem_nil, or_false] at hm
      rcases hm with (rfl | hm) | rfl | rfl
      · exact str_ne (by decide +kernel)
      · rw [omitText_names m hm]; exact str_ne (by decide +kernel)
      · exact str_ne (by decide +kernel)
      · exact str_ne (by decide +kernel)
  · split
    · rename_i hta
      refine not_given fun m hm => ?_
      simp only [omitText, hta, if_true, List.append_nil, List.mem_append, List.mem_cons, List.not_mem_nil, or_false] at hm
      rcases hm with (rfl | hm) | rfl | rfl
      · exact str_ne (by decide +kernel)
      · rw [omitPtr_names m hm]; exact str_ne (by decide +kernel)
      · exact str_ne (by decide +kernel)
      · exact str_ne (by decide +kernel)
    · rename_i hta
      exact ⟨.str k.ta, by simp [omitText, hta], rfl⟩

/-- A written entry is the entry. -/
theorem encEntry_page (e : MonEntry) : PageEntry (encEntry e) e := by
  refine ⟨_, rfl, given_int _ _ (by simp), given_int _ _ (by simp), ⟨_, by simp, rfl⟩, given_int _ _ (by simp), given_int _ _ (by simp), ⟨_, by simp, rfl⟩, ?_⟩
  cases hk : e.bgpsec with
  | some k => exact ⟨encKey k, by simp, encKey_page k⟩
  | none =>
    refine not_given fun m hm => ?_
    simp only [List.append_nil, List.mem_cons, List.not_mem_nil, or_false] at hm
    rcases hm with rfl | rfl | rfl | rfl | rfl | rfl <;> exact str_ne (by decide +kernel)

theorem encDiffMeta_page (m : DiffMeta) : PageMeta (encDiffMeta m) m :=
  ⟨_, rfl, given_int _ _ (by simp), ⟨_, by simp, rfl⟩, given_int _ _ (by simp), given_int _ _ (by simp), given_int _ _ (by simp), given_int _ _ (by simp), given_int _ _ (by simp), given_int _ _ (by simp)⟩

theorem encDiffMetaPtr_page (m : Option DiffMeta) : PageMetaPtr (encDiffMetaPtr m) m := by
  cases m with
  | none => exact .inl ⟨rfl, rfl⟩
  | some x => exact .inr ⟨x, rfl, encDiffMeta_page x⟩

theorem entries_page (l : List MonEntry) : List.Forall₂ PageEntry (l.map encEntry) l := by
  have := forall2_map (R := PageEntry) (f := id) l (enc := encEntry) fun e _ => encEntry_page e
  simpa only [List.map_id] using this

/-! ## No name twice -/

theorem noRepeats_obj {o : List (Str × Json)} (L : List String) (hL : (L.map fun n => foldName n.toList).Nodup) (h : (o.map (·.1)).Sublist (L.map String.toList)) (hm : ∀ m ∈ o, NoRepeats m.2) : NoRepeats (.obj o) := by
  intro o' ho
  rcases within_obj ho with he | ⟨m, hmo, hi⟩
  · cases he; exact pairwise_names L hL h
  · exact hm m hmo o' hi

theorem noRepeats_arr {l : List Json} (h : ∀ j ∈ l, NoRepeats j) : NoRepeats (.arr l) := by
  intro o ho
  rcases within_arr ho with he | ⟨j, hj, hi⟩
  · cases he
  · exact h j hj o hi

theorem noRepeats_str (s : Str) : NoRepeats (.str s) := fun _ ho => by cases ho

theorem noRepeats_int (n : Int) : NoRepeats (encInt n) := fun _ ho => by have := within_int ho; simp [encInt] at this

theorem noRepeats_null : NoRepeats .null := fun _ ho => by cases ho

theorem noRepeats_bool (b : Bool) : NoRepeats (.bool b) := fun _ ho => by cases ho

theorem encKey_noRepeats (k : BgpSecKeyJson) : NoRepeats (encKey k) := by
  intro o ho
  rcases within_obj ho with he | ⟨m, hm, hi⟩
  · exact encKey_names k o (by rw [he]; rfl)
  · simp only [List.mem_append, List.mem_cons, List.not_mem_nil, or_false] at hm
    rcases hm with ((rfl | hm) | hm) | rfl | rfl
    · exact noRepeats_int _ o hi
    · obtain ⟨x, -, hj⟩ := mem_omitPtr hm
      rw [hj] at hi; exact noRepeats_int _ o hi
    · rw [mem_omitText hm] at hi; exact noRepeats_str _ o hi
    · exact noRepeats_str _ o hi
    · exact noRepeats_str _ o hi

theorem encEntry_noRepeats (e : MonEntry) : NoRepeats (encEntry e) := by
  refine noRepeats_obj ["asn", "max-length", "prefix", "first-seen", "last-seen", "visible", "bgpsec"] (by decide +kernel) ?_ ?_
  · cases e.bgpsec <;> simp
  · intro m hm
    simp only [List.mem_append, List.mem_cons, List.not_mem_nil, or_false] at hm
    rcases hm with (rfl | rfl | rfl | rfl | rfl | rfl) | hm
    · exact noRepeats_int _
    · exact noRepeats_int _
    · exact noRepeats_str _
    · exact noRepeats_int _
    · exact noRepeats_int _
    · exact noRepeats_bool _
    · cases hk : e.bgpsec with
      | none => rw [hk] at hm; simp at hm
      | some k => rw [hk] at hm; rw [List.mem_singleton.1 hm]; exact encKey_noRepeats k

theorem encDiffMetaPtr_noRepeats (m : Option DiffMeta) : NoRepeats (encDiffMetaPtr m) := by
  cases m with
  | none => exact noRepeats_null
  | some m =>
    refine noRepeats_obj ["last-fetch", "url", "serial", "session-id", "count", "rtr-refresh", "rtr-retry", "rtr-expire"] (by decide +kernel) (by simp) ?_
    intro x hm
    simp only [List.mem_cons, List.not_mem_nil, or_false] at hm
    rcases hm with rfl | rfl | rfl | rfl | rfl | rfl | rfl | rfl
    · exact noRepeats_int _
    · exact noRepeats_str _
    · exact noRepeats_int _
    · exact noRepeats_int _
    · exact noRepeats_int _
    · exact noRepeats_int _
    · exact noRepeats_int _
    · exact noRepeats_int _

theorem encDiff_noRepeats (md1 md2 : Option DiffMeta) (d1 d2 : List MonEntry) : NoRepeats (encDiff md1 md2 d1 d2) := by
  have hl : ∀ d : List MonEntry, NoRepeats (.arr (d.map encEntry)) := fun d => noRepeats_arr fun j hj => by
    obtain ⟨e, -, rfl⟩ := List.mem_map.1 hj
    exact encEntry_noRepeats e
  refine noRepeats_obj ["metadata-primary", "metadata-secondary", "only-primary", "only-secondary"] (by decide +kernel) (by simp) ?_
  intro x hm
  simp only [List.mem_cons, List.not_mem_nil, or_false] at hm
  rcases hm with rfl | rfl | rfl | rfl
  · exact encDiffMetaPtr_noRepeats _
  · exact encDiffMetaPtr_noRepeats _
  · exact hl d1
  · exact hl d2

/-! ## The text -/

theorem encEntry_printable (n : Nat) (e : MonEntry) : Printable (n + 2) (encEntry e) := by
  simp only [encEntry, Printable, List.cons_append, List.nil_append, List.mem_cons]
  rintro m (rfl | rfl | rfl | rfl | rfl | rfl | h)
  · exact encInt_printable _ _
  · exact encInt_printable _ _
  · exact str_printable _ _
  · exact encInt_printable _ _
  · exact encInt_printable _ _
  · trivial
  · cases hk : e.bgpsec with
    | none => rw [hk] at h; simp at h
    | some k => rw [hk] at h; rw [List.mem_singleton.1 h]; exact encKey_printable n k

theorem encDiffMetaPtr_printable (n : Nat) (m : Option DiffMeta) : Printable (n + 1) (encDiffMetaPtr m) := by
  cases m with
  | none => simp [encDiffMetaPtr, Printable]
  | some m =>
    simp only [encDiffMetaPtr, encDiffMeta, Printable, List.mem_cons, List.not_mem_nil, or_false]
    rintro x (rfl | rfl | rfl | rfl | rfl | rfl | rfl | rfl)
    · exact encInt_printable _ _
    · exact str_printable _ _
    · exact encInt_printable _ _
    · exact encInt_printable _ _
    · exact encInt_printable _ _
    · exact encInt_printable _ _
    · exact encInt_printable _ _
    · exact encInt_printable _ _

theorem encDiff_printable (md1 md2 : Option DiffMeta) (d1 d2 : List MonEntry) : Printable 10000 (encDiff md1 md2 d1 d2) := by
  have hl : ∀ d : List MonEntry, Printable (9996 + 1 + 1 + 1) (.arr (d.map encEntry)) := fun d => by
    simp only [Printable, List.mem_map]
    rintro j ⟨e, -, rfl⟩
    exact encEntry_printable 9996 e
  show Printable (9996 + 1 + 1 + 1 + 1) _
  unfold encDiff
  rw [Printable]
  simp only [List.mem_cons, List.not_mem_nil, or_false]
  rintro m (rfl | rfl | rfl | rfl)
  · exact encDiffMetaPtr_printable _ _
  · exact encDiffMetaPtr_printable _ _
  · exact hl d1
  · exact hl d2

end StayRTR
