import Mathlib.Data.List.Perm.Subperm
import Verif.Proofs.Update

/-!
# C49-C53, C56, C71, C80-C82: refreshing
-/

namespace StayRTR
open Spec

/-! ## An environment for examples -/

/-- A router key that never expires. -/
def exK1 : BgpSecKeyJson := ⟨1, none, [], [7], "AB".toList⟩
/-- A router key that expires at second 100. -/
def exK2 : BgpSecKeyJson := ⟨2, some 100, [], [8], "CD".toList⟩
/-- A VRP that never expires. -/
def exVrp1 : VRPJson := ⟨"10.0.0.0/8".toList, 8, .uint32 1, [], none⟩
/-- A VRP that expires at second 100. -/
def exVrp2 : VRPJson := ⟨"11.0.0.0/8".toList, 9, .uint32 2, [], some 100⟩
/-- An entry that is not a VRP. -/
def exBad : VRPJson := ⟨"0.0.0.0/0".toList, 0, .uint32 3, [], none⟩
/-- The text of the start of 1970. -/
def exEpoch : Str := "1970-01-01T00:00:00Z".toList
/-- A later text. -/
def exLater : Str := "1970-01-01T20:00:00Z".toList

/-- Files by their first byte. -/
def exDecode : Bytes → Option RPKIList
  | [1] => some ⟨⟨1, exEpoch, none⟩, some [], some [exK1]⟩
  | [2] => some ⟨⟨1, exEpoch, none⟩, some [], some [exK1, exK1, exK2]⟩
  | [3] => some ⟨⟨2, exEpoch, none⟩, some [exVrp1, exVrp2], none⟩
  | [4] => some ⟨⟨0, exEpoch, none⟩, none, none⟩
  | [5] => some ⟨⟨3, exEpoch, none⟩, some [exVrp1, exVrp1, exBad], none⟩
  | [6] => some ⟨⟨1, [], some 0⟩, some [exVrp1], none⟩
  | [7] => some ⟨⟨1, exLater, none⟩, some [exVrp1], none⟩
  | [8] => some ⟨⟨1, exEpoch, none⟩, some [exVrp1], none⟩
  | _ => none

/-- RFC 3339, for two texts. -/
def exParseTime (s : Str) : Option Int := if s = exEpoch then some 0 else if s = exLater then some (20 * 3600 * 1000000000) else none

/-- A concrete environment. -/
def exEnv (checktime : Bool) : Env where
  wide := fun _ => 0
  sort := insertionSorter
  parseTime := exParseTime
  sha := id
  decode := exDecode
  decodeSlurm := fun b => if b = [1] then some ⟨[⟨"10.0.0.0/8".toList, none⟩], [], [], []⟩ else none
  checktime := checktime
  sendNotifs := true
  metrics := true

/-- A local cache file. -/
def exFile : Str := "rpki.json".toList
/-- All times of a refresh at a given second. -/
def exAt (sec : Int) : Times := let n := sec * 1000000000; ⟨n, n, n, n, n⟩
/-- Fetching a local file with these bytes. -/
def exGet (b : Bytes) : Fetched := ⟨exFile, .file (some b), none⟩
/-- Fetching fails. -/
def exFail : Fetched := ⟨exFile, .failed, none⟩
/-- The initial state. -/
def exInit : UState := UState.init true true

/-- Two states are equal if all their parts are. -/
theorem UState.eq_of {s s' : UState}
    (h : (s.lastdata, s.hashCache, s.hashSlurm, s.lastchange) = (s'.lastdata, s'.hashCache, s'.hashSlurm, s'.lastchange))
    (h'' : (s.lastts, s.exported, s.slurm) = (s'.lastts, s'.exported, s'.slurm))
    (h' : (s.store, s.notified, s.statusCodes, s.gauges, s.serialGauge) = (s'.store, s'.notified, s'.statusCodes, s'.gauges, s'.serialGauge))
    (hf : s.fetch = s'.fetch) (hl : s.lastRefresh = s'.lastRefresh) : s = s' := by
  cases s; cases s'
  simp only [Prod.mk.injEq] at h h' h''
  simp only at hf hl
  simp [h, h', h'', hf, hl]

theorem applyUpdate_fetch (e : Env) (r : Processed) (vs : List VRPJson) (ks : List BgpSecKeyJson) (s : UState) : (applyUpdate e r vs ks s).fetch = s.fetch := by
  unfold applyUpdate
  simp only
  split <;> rfl

theorem fetchFile_local (c : FetchConfig) (file : Str) (hu : isURL file = false) (o : Outcome) : (c.fetchFile file o).1 = c := by
  cases o <;> simp [FetchConfig.fetchFile, hu]

theorem afterFetch_fetch (e : Env) (t : Times) (fresh : Bool) (s : UState) : (afterFetch e t fresh s).fetch = s.fetch := by
  rcases afterFetch_cases e t fresh s with hc | ⟨hc, _⟩ | ⟨hc, _⟩
  · rw [hc]
  · rw [hc]; exact applyUpdate_fetch ..
  · rw [hc]; rfl

theorem fetchBoth_local (e : Env) (t : Times) (file : Str) (hu : isURL file = false) (o : Outcome) (s : UState) : (fetchBoth e t ⟨file, o, none⟩ s).1.fetch = s.fetch := by
  unfold fetchBoth
  simp only
  rw [updateFile_eq]
  have := fetchFile_local s.fetch file hu o
  simp only
  split
  · exact this
  · split
    · exact this
    · split <;> exact this

/-- Refreshing never sets the refresh metrics. -/
theorem refresh_metrics (e : Env) (t : Times) (f : Fetched) (s : UState) :
    (refresh e t f s).lastRefresh = s.lastRefresh ∧ (refresh e t f s).statusCodes = s.statusCodes ∧
    (startup e t f s).lastRefresh = s.lastRefresh ∧ (startup e t f s).statusCodes = s.statusCodes := by
  obtain ⟨_, _, h3, h4⟩ := fetchBoth_frame e t f s
  unfold refresh startup
  simp only
  refine and_assoc.mp ⟨?_, ?_⟩
  · rcases afterFetch_cases e t (fetchBoth e t f s).2 (fetchBoth e t f s).1 with hc | ⟨hc, _⟩ | ⟨hc, _⟩
    · rw [hc]; exact ⟨h3, h4⟩
    · rw [hc]; unfold applied; exact ⟨(applyUpdate_rest ..).2.2.1.trans h3, (applyUpdate_rest ..).2.2.2.trans h4⟩
    · rw [hc]; exact ⟨h3, h4⟩
  · rw [updateFromNewState_eq]
    split
    · exact ⟨h3, h4⟩
    · split
      · unfold applied; exact ⟨(applyUpdate_rest ..).2.2.1.trans h3, (applyUpdate_rest ..).2.2.2.trans h4⟩
      · exact ⟨h3, h4⟩

theorem refresh_local (e : Env) (t : Times) (file : Str) (hu : isURL file = false) (o : Outcome) (s : UState) : (refresh e t ⟨file, o, none⟩ s).fetch = s.fetch := by
  unfold refresh
  simp only
  rw [afterFetch_fetch, fetchBoth_local e t file hu]

theorem startup_local (e : Env) (t : Times) (file : Str) (hu : isURL file = false) (o : Outcome) (s : UState) : (startup e t ⟨file, o, none⟩ s).fetch = s.fetch := by
  unfold startup
  simp only
  rw [updateFromNewState_eq]
  split
  · exact fetchBoth_local e t file hu o s
  · split
    · unfold applied; rw [applyUpdate_fetch]; exact fetchBoth_local e t file hu o s
    · exact fetchBoth_local e t file hu o s

/-- After loading file 3 at second 0. -/
def exS3 : UState :=
  ⟨⟨⟨2, exEpoch, none⟩, some [exVrp1, exVrp2], none⟩, some [3], none, some 0, 0, ⟨⟨2, exEpoch, none⟩, some [exVrp1, exVrp2], some []⟩, none, ⟨[[], [.vrp ⟨⟨.v4 0x0b000000, 9⟩, 2, 9, 1⟩, .vrp ⟨⟨.v4 0x0a000000, 9⟩, 1, 8, 1⟩]], [.vrp ⟨⟨.v4 0x0b000000, 9⟩, 2, 9, 1⟩, .vrp ⟨⟨.v4 0x0a000000, 9⟩, 1, 8, 1⟩], 0, 3⟩, FetchConfig.new true true, [0], fun _ => none, [], some ⟨0, 2, 2, 2, 2, 0, 0, some 0⟩, 0⟩

/-- After loading file 1 at second 0. -/
def exS1 : UState :=
  ⟨⟨⟨1, exEpoch, none⟩, some [], some [exK1]⟩, some [1], none, some 0, 0, ⟨⟨0, exEpoch, none⟩, some [], some [exK1]⟩, none, ⟨[[], [.brk ⟨1, [7], [0xAB], 1⟩]], [.brk ⟨1, [7], [0xAB], 1⟩], 0, 3⟩, FetchConfig.new true true, [0], fun _ => none, [], some ⟨1, 0, 0, 0, 0, 0, 0, some 0⟩, 0⟩

/-- Then file 2, still at second 0. -/
def exS2 : UState :=
  ⟨⟨⟨1, exEpoch, none⟩, some [], some [exK1, exK1, exK2]⟩, some [2], none, some 0, 0, ⟨⟨0, exEpoch, none⟩, some [], some [exK1, exK1, exK2]⟩, none, ⟨[[.brk ⟨1, [7], [0xAB], 1⟩, .brk ⟨2, [8], [0xCD], 1⟩], [], [.brk ⟨2, [8], [0xCD], 1⟩]], [.brk ⟨1, [7], [0xAB], 1⟩, .brk ⟨2, [8], [0xCD], 1⟩], 1, 3⟩, FetchConfig.new true true, [0, 1], fun _ => none, [], some ⟨3, 0, 0, 0, 0, 0, 0, some 0⟩, 1⟩

/-- After loading file 8 at second 0. -/
def exS8 : UState :=
  ⟨⟨⟨1, exEpoch, none⟩, some [exVrp1], none⟩, some [8], none, some 0, 0, ⟨⟨1, exEpoch, none⟩, some [exVrp1], some []⟩, none, ⟨[[], [.vrp ⟨⟨.v4 0x0a000000, 9⟩, 1, 8, 1⟩]], [.vrp ⟨⟨.v4 0x0a000000, 9⟩, 1, 8, 1⟩], 0, 3⟩, FetchConfig.new true true, [0], fun _ => none, [], some ⟨0, 1, 1, 1, 1, 0, 0, some 0⟩, 0⟩

/-- Then file 7 after 20 hours: nothing changes but the loaded file. -/
def exS7 : UState :=
  ⟨⟨⟨1, exLater, none⟩, some [exVrp1], none⟩, some [7], none, some (72000 * 1000000000), 72000 * 1000000000, ⟨⟨1, exEpoch, none⟩, some [exVrp1], some []⟩, none, ⟨[[], [.vrp ⟨⟨.v4 0x0a000000, 9⟩, 1, 8, 1⟩]], [.vrp ⟨⟨.v4 0x0a000000, 9⟩, 1, 8, 1⟩], 0, 3⟩, FetchConfig.new true true, [0], fun _ => none, [], some ⟨0, 1, 1, 1, 1, 0, 0, some 0⟩, 0⟩

/-- Then file 3 after 25 hours: everything is dropped. -/
def exS9 : UState :=
  ⟨⟨⟨2, exEpoch, none⟩, some [exVrp1, exVrp2], none⟩, some [3], none, some (90000 * 1000000000), 90000 * 1000000000, ⟨⟨1, exEpoch, none⟩, some [exVrp1], some []⟩, none, ⟨[[], [], [.vrp ⟨⟨.v4 0x0a000000, 9⟩, 1, 8, 0⟩]], [], 1, 3⟩, FetchConfig.new true true, [0], fun _ => none, [], some ⟨0, 1, 1, 1, 1, 0, 0, some 0⟩, 0⟩

/-- After loading file 6, which has only `generated`, at second 0. -/
def exS6 : UState :=
  ⟨⟨⟨1, [], some 0⟩, some [exVrp1], none⟩, some [6], none, some 0, 0, ⟨⟨1, [], none⟩, some [exVrp1], some []⟩, none, ⟨[[], [.vrp ⟨⟨.v4 0x0a000000, 9⟩, 1, 8, 1⟩]], [.vrp ⟨⟨.v4 0x0a000000, 9⟩, 1, 8, 1⟩], 0, 3⟩, FetchConfig.new true true, [0], fun _ => none, [], some ⟨0, 1, 1, 1, 1, 0, 0, some 0⟩, 0⟩

theorem exS3_eq : startup (exEnv false) (exAt 0) (exGet [3]) exInit = exS3 := by
  apply UState.eq_of
  · decide +kernel
  · decide +kernel
  · decide +kernel
  · exact startup_local _ _ _ (by decide) _ _
  · exact (refresh_metrics ..).2.2.1

theorem exS3_eq_checked : startup (exEnv true) (exAt 0) (exGet [3]) exInit = exS3 := by
  apply UState.eq_of
  · decide +kernel
  · decide +kernel
  · decide +kernel
  · exact startup_local _ _ _ (by decide) _ _
  · exact (refresh_metrics ..).2.2.1

theorem exS1_eq : startup (exEnv false) (exAt 0) (exGet [1]) exInit = exS1 := by
  apply UState.eq_of
  · decide +kernel
  · decide +kernel
  · decide +kernel
  · exact startup_local _ _ _ (by decide) _ _
  · exact (refresh_metrics ..).2.2.1

theorem exS2_eq : refresh (exEnv false) (exAt 0) (exGet [2]) exS1 = exS2 := by
  apply UState.eq_of
  · decide +kernel
  · decide +kernel
  · decide +kernel
  · exact refresh_local _ _ _ (by decide) _ _
  · exact (refresh_metrics ..).1

theorem exS8_eq_checked : startup (exEnv true) (exAt 0) (exGet [8]) exInit = exS8 := by
  apply UState.eq_of
  · decide +kernel
  · decide +kernel
  · decide +kernel
  · exact startup_local _ _ _ (by decide) _ _
  · exact (refresh_metrics ..).2.2.1

theorem exS7_eq_checked : refresh (exEnv true) (exAt 72000) (exGet [7]) exS8 = exS7 := by
  apply UState.eq_of
  · decide +kernel
  · decide +kernel
  · decide +kernel
  · exact refresh_local _ _ _ (by decide) _ _
  · exact (refresh_metrics ..).1

theorem exS9_eq_checked : refresh (exEnv true) (exAt 90000) (exGet [3]) exS7 = exS9 := by
  apply UState.eq_of
  · decide +kernel
  · decide +kernel
  · decide +kernel
  · exact refresh_local _ _ _ (by decide) _ _
  · exact (refresh_metrics ..).1

theorem exS6_eq_checked : startup (exEnv true) (exAt 0) (exGet [6]) exInit = exS6 := by
  apply UState.eq_of
  · decide +kernel
  · decide +kernel
  · decide +kernel
  · exact startup_local _ _ _ (by decide) _ _
  · exact (refresh_metrics ..).2.2.1

/-! ## C49: a failed refresh -/

/-- Fetching failed, or the file did not change, or it is not readable. -/
def Spec.Nothing {α : Type} (sha : Bytes → Bytes) (decode : Bytes → Option α) (hash : Option Bytes) (r : FetchResult) : Prop :=
  r.err ≠ none ∨ hash = some (sha r.data) ∨ decode r.data = none

/-- The cache file: nothing new is reported exactly in these cases, and then the loaded file, the SLURM configuration, what is served and what is exported stay. -/
theorem C49_file (e : Env) (start change : Int) (file : Str) (o : Outcome) (s : UState) :
    ((updateFile e start change file o s).2 = false ↔ Nothing e.sha e.decode s.hashCache (s.fetch.fetchFile file o).2) ∧
    (updateFile e start change file o s).1.slurm = s.slurm ∧ (updateFile e start change file o s).1.store = s.store ∧ (updateFile e start change file o s).1.exported = s.exported ∧
    (Nothing e.sha e.decode s.hashCache (s.fetch.fetchFile file o).2 → (updateFile e start change file o s).1.lastdata = s.lastdata) ∧
    (¬ Nothing e.sha e.decode s.hashCache (s.fetch.fetchFile file o).2 → e.decode (s.fetch.fetchFile file o).2.data = some (updateFile e start change file o s).1.lastdata) := by
  rw [updateFile_eq]
  unfold Nothing delivered
  cases he : (s.fetch.fetchFile file o).2.err with
  | some x => simp
  | none =>
    by_cases hh : s.hashCache = some (e.sha (s.fetch.fetchFile file o).2.data)
    · simp [hh]
    · cases hd : e.decode (s.fetch.fetchFile file o).2.data with
      | none => simp [hh, hd]
      | some l => simp [hh, hd]

/-- The same for the SLURM file. -/
theorem C49_slurm (e : Env) (file : Str) (o : Outcome) (s : UState) :
    ((updateSlurm e file o s).2 = false ↔ Nothing e.sha e.decodeSlurm s.hashSlurm (s.fetch.fetchFile file o).2) ∧
    (updateSlurm e file o s).1.lastdata = s.lastdata ∧ (updateSlurm e file o s).1.store = s.store ∧ (updateSlurm e file o s).1.exported = s.exported ∧
    (Nothing e.sha e.decodeSlurm s.hashSlurm (s.fetch.fetchFile file o).2 → (updateSlurm e file o s).1.slurm = s.slurm) ∧
    (¬ Nothing e.sha e.decodeSlurm s.hashSlurm (s.fetch.fetchFile file o).2 → e.decodeSlurm (s.fetch.fetchFile file o).2.data = (updateSlurm e file o s).1.slurm) := by
  rw [updateSlurm_eq]
  unfold Nothing delivered
  cases he : (s.fetch.fetchFile file o).2.err with
  | some x => simp
  | none =>
    by_cases hh : s.hashSlurm = some (e.sha (s.fetch.fetchFile file o).2.data)
    · simp [hh]
    · cases hd : e.decodeSlurm (s.fetch.fetchFile file o).2.data with
      | none => simp [hh, hd]
      | some l => simp [hh, hd]

/-- A name that is a URL: a scheme and something after it. (`http://x` is taken for a local file: utils/utils.go:53 asks for more than eight bytes.) -/
def Spec.IsUrl (file : Str) : Prop := ∃ host, (file = "http://".toList ++ host ∧ (2 ≤ host.length ∨ ∃ c, host = [c] ∧ 128 ≤ c.toNat)) ∨ (file = "https://".toList ++ host ∧ 1 ≤ host.length)

theorem utf8_sum_pos (l : Str) : l.length ≤ (l.map Char.utf8Size).sum := by
  induction l with
  | nil => exact Nat.le_refl _
  | cons c l ih =>
    have := c.utf8Size_pos
    simp only [List.map_cons, List.sum_cons, List.length_cons]
    omega

theorem utf8_sum_two (l : Str) : 2 ≤ (l.map Char.utf8Size).sum ↔ 2 ≤ l.length ∨ ∃ c, l = [c] ∧ 128 ≤ c.toNat := by
  rcases l with _ | ⟨c, _ | ⟨d, l⟩⟩
  · simp
  · have hc : 2 ≤ c.utf8Size ↔ 128 ≤ c.toNat := by
      have hv : c.val.toNat = c.toNat := rfl
      unfold Char.utf8Size
      simp only [UInt32.le_iff_toNat_le]
      split <;> rename_i h1
      · have : c.val.toNat ≤ 127 := h1
        omega
      · have : ¬ c.val.toNat ≤ 127 := h1
        constructor
        · omega
        · intro _; split <;> [omega; (split <;> omega)]
    simp [hc]
  · have := utf8_sum_pos (c :: d :: l)
    simp only [List.length_cons] at this ⊢
    exact ⟨fun _ => .inl (by omega), fun _ => by omega⟩

theorem isURL_iff (file : Str) : isURL file = true ↔ IsUrl file := by
  have ht : "http://".toList = ['h', 't', 't', 'p', ':', '/', '/'] := by decide
  have hs : "https://".toList = ['h', 't', 't', 'p', 's', ':', '/', '/'] := by decide
  have h7 : (['h', 't', 't', 'p', ':', '/', '/'].map Char.utf8Size).sum = 7 := by decide
  have h8 : (['h', 't', 't', 'p', 's', ':', '/', '/'].map Char.utf8Size).sum = 8 := by decide
  unfold isURL IsUrl
  rw [ht, hs]
  simp only [Bool.and_eq_true, decide_eq_true_eq, Bool.or_eq_true, beq_iff_eq, ← utf8_sum_two]
  constructor
  · rintro ⟨hl, h | h⟩
    · refine ⟨file.drop 7, .inl ⟨by rw [← h, List.take_append_drop], ?_⟩⟩
      rw [← List.take_append_drop 7 file, h, List.map_append, List.sum_append, h7] at hl
      omega
    · refine ⟨file.drop 8, .inr ⟨by rw [← h, List.take_append_drop], ?_⟩⟩
      rw [← List.take_append_drop 8 file, h, List.map_append, List.sum_append, h8] at hl
      rcases hd : file.drop 8 with _ | ⟨c, l⟩
      · rw [hd] at hl; simp at hl
      · simp
  · rintro ⟨host, ⟨rfl, h⟩ | ⟨rfl, h⟩⟩
    · refine ⟨?_, .inl (by simp)⟩
      rw [List.map_append, List.sum_append, h7]
      omega
    · refine ⟨?_, .inr (by simp)⟩
      have := utf8_sum_pos host
      rw [List.map_append, List.sum_append, h8]
      omega

/-- A host of one letter is enough if it takes two bytes. -/
example : IsUrl "http://é".toList ∧ ¬ IsUrl "http://x".toList := by
  rw [← isURL_iff, ← isURL_iff]
  decide

/-- What one attempt has to come to for a file to be delivered: a local file that was read to its end, or an answer with status 200 that was read to its end and does not repeat the entity tag of the one before. -/
def Spec.Complete (c : FetchConfig) (file : Str) (o : Outcome) (b : Bytes) : Prop :=
  (¬ IsUrl file ∧ o = .file (some b)) ∨
  (IsUrl file ∧ ∃ tag date, o = .response 200 tag date (some b) ∧ ¬ (c.enableEtags = true ∧ tag ≠ [] ∧ c.etags file = some tag))

/-- A file counts as delivered exactly then: not if there is no connection, with another status, or if reading stops in between. -/
theorem C49_delivered (c : FetchConfig) (file : Str) (o : Outcome) (b : Bytes) : delivered c file o = some b ↔ Complete c file o b := by
  unfold delivered Complete
  rw [← isURL_iff]
  cases o with
  | failed => simp [FetchConfig.fetchFile]
  | file body =>
    cases hu : isURL file <;> cases body <;> simp [FetchConfig.fetchFile, hu, FetchConfig.readAll]
  | response status tag date body =>
    cases hu : isURL file with
    | false => simp [FetchConfig.fetchFile, hu]
    | true =>
      simp only [FetchConfig.fetchFile, hu, if_true, FetchConfig.onResponse]
      by_cases h3 : status = 304
      · simp [h3]
      · by_cases h2 : status = 200
        · subst h2
          simp only [show ¬ (200 : Nat) = 304 by decide, if_false, ne_eq, not_true_eq_false]
          have hc : (c.enableEtags = false ∨ tag = [] ∨ ¬ tag = (c.etags file).getD []) ↔ ¬ (c.enableEtags = true ∧ ¬ tag = [] ∧ c.etags file = some tag) := by
            cases c.enableEtags with
            | false => simp
            | true =>
              by_cases ht : tag = []
              · simp [ht]
              · cases he : c.etags file with
                | none => simp [ht]
                | some x => simp [ht, eq_comm]
          by_cases hn : c.enableEtags = true ∧ ¬ tag = [] ∧ c.etags file = some tag
          · rw [if_neg (fun h => hc.mp h hn)]
            simp only [reduceCtorEq, if_false, false_iff]
            rintro (⟨h, _⟩ | ⟨_, t, d, he, hx⟩)
            · exact h.elim
            · cases he; exact hx hn
          · rw [if_pos (hc.mpr hn)]
            cases body with
            | none => simp [FetchConfig.readAll]
            | some y =>
              simp only [FetchConfig.readAll, if_true, Option.some.injEq]
              constructor
              · rintro rfl; exact .inr ⟨trivial, tag, date, rfl, hn⟩
              · rintro (⟨h, _⟩ | ⟨_, t, d, he, _⟩)
                · exact h.elim
                · cases he; rfl
        · simp [h3, h2]

example : Complete (FetchConfig.new true true) "https://a/b".toList (.response 200 ['x'] none (some [1])) [1] ∧ IsUrl "https://a/b".toList ∧ ¬ IsUrl "/etc/rpki.json".toList := by
  rw [← C49_delivered, ← isURL_iff, ← isURL_iff]
  decide

/-- A whole refresh that finds nothing new keeps the loaded file and the SLURM configuration, and serves what it served before, or exactly what that same file asks for now. Missing from the claim:
the served set may change by expiry (`C49_expiry_false`). -/
theorem C49_refresh_partial (e : Env) (hs : e.sort.Ok) (t : Times) (f : Fetched) {s : UState} (h : Reached e s) (hn : (fetchBoth e t f s).2 = false) :
    (refresh e t f s).lastdata = s.lastdata ∧ (refresh e t f s).slurm = s.slurm ∧
    ((refresh e t f s).store = s.store ∨ ∀ r, Served (refresh e t f s) r ↔ FileWants e.wide (seconds t.proc) s.slurm s.lastdata r) := by
  obtain ⟨hf, hk, _⟩ := fetchBoth_frame e t f s
  obtain ⟨hk1, hk2⟩ := hk hn
  have hok : StoreOk (fetchBoth e t f s).1.store := by rw [hf.store]; exact h.ok hs
  unfold refresh
  simp only
  rcases afterFetch_cases e t (fetchBoth e t f s).2 (fetchBoth e t f s).1 with hc | ⟨hc, _⟩ | ⟨hc, hfresh, _⟩
  · rw [hc]; exact ⟨hk1, hk2, .inl hf.store⟩
  · rw [hc]
    refine ⟨?_, ?_, .inr fun r => ?_⟩
    · unfold applied; rw [(applyUpdate_rest ..).1, hk1]
    · unfold applied; rw [(applyUpdate_rest ..).2.1, hk2]
    · rw [applied_sameSet e hs _ _ hok, hk1, hk2]
  · rw [hn] at hfresh; exact absurd hfresh (by decide)

/-- If what was served is what the file asked for at an earlier time, then a refresh that finds nothing new adds nothing and withdraws nothing that is still asked for. -/
theorem C49_only_expired_partial (e : Env) (hs : e.sort.Ok) (t : Times) (f : Fetched) {s : UState} (h : Reached e s) (hn : (fetchBoth e t f s).2 = false) (t0 : Int)
    (h0 : ∀ r, Served s r ↔ FileWants e.wide t0 s.slurm s.lastdata r) (hle : t0 ≤ seconds t.proc) (r : Rec) :
    (Served (refresh e t f s) r → Served s r) ∧ (FileWants e.wide (seconds t.proc) s.slurm s.lastdata r → Served (refresh e t f s) r) := by
  obtain ⟨_, _, hc | hc⟩ := C49_refresh_partial e hs t f h hn
  · unfold Served at *
    rw [hc]
    exact ⟨id, fun hw => (h0 r).mpr (wanted_anti hle hw)⟩
  · exact ⟨fun hr => (h0 r).mpr (wanted_anti hle ((hc r).mp hr)), (hc r).mpr⟩

/-- A refresh whose fetch fails withdraws an entry that expired. -/
theorem C49_expiry_false :
    let s := startup (exEnv false) (exAt 0) (exGet [3]) exInit
    records s.store.current = [.vrp ⟨.v4 0x0b000000, 9⟩ 9 2, .vrp ⟨.v4 0x0a000000, 9⟩ 8 1] ∧
    records (refresh (exEnv false) (exAt 101) exFail s).store.current = [.vrp ⟨.v4 0x0a000000, 9⟩ 8 1] := by
  simp only [exS3_eq]
  decide +kernel

/-- A history of refreshes, with the cache files and SLURM files that were delivered, latest first. -/
inductive Spec.Heard (e : Env) : UState → List Bytes → List Bytes → Prop
  | init (etags lastModified : Bool) : Heard e (UState.init etags lastModified) [] []
  | startup {s : UState} {ds cs : List Bytes} (t : Times) (f : Fetched) (d c : Option Bytes) (h : Heard e s ds cs)
      (hc : c = match f.slurm with | some (file, o) => delivered s.fetch file o | none => none)
      (hd : d = delivered (match f.slurm with | some (file, o) => (s.fetch.fetchFile file o).1 | none => s.fetch) f.file f.cache) :
      Heard e (startup e t f s) (d.toList ++ ds) (c.toList ++ cs)
  | refresh {s : UState} {ds cs : List Bytes} (t : Times) (f : Fetched) (d c : Option Bytes) (h : Heard e s ds cs)
      (hc : c = match f.slurm with | some (file, o) => delivered s.fetch file o | none => none)
      (hd : d = delivered (match f.slurm with | some (file, o) => (s.fetch.fetchFile file o).1 | none => s.fetch) f.file f.cache) :
      Heard e (refresh e t f s) (d.toList ++ ds) (c.toList ++ cs)

/-- The last readable file. -/
def Spec.lastGood {α : Type} (decode : Bytes → Option α) : List Bytes → Option α
  | [] => none
  | d :: ds => match decode d with
    | some x => some x
    | none => lastGood decode ds

theorem updateFile_good (e : Env) (hinj : ∀ a b, e.sha a = e.sha b → a = b) (start change : Int) (file : Str) (o : Outcome) (s : UState) (ds : List Bytes)
    (h1 : s.lastdata = (lastGood e.decode ds).getD .empty) (h2 : s.hashCache = ds.head?.map e.sha) :
    (updateFile e start change file o s).1.lastdata = (lastGood e.decode ((delivered s.fetch file o).toList ++ ds)).getD .empty ∧
    (updateFile e start change file o s).1.hashCache = ((delivered s.fetch file o).toList ++ ds).head?.map e.sha ∧
    (updateFile e start change file o s).1.hashSlurm = s.hashSlurm := by
  rw [updateFile_eq]
  cases hd : delivered s.fetch file o with
  | none => exact ⟨h1, h2, rfl⟩
  | some d =>
    simp only [Option.toList_some, List.singleton_append, List.head?_cons, Option.map_some, lastGood]
    by_cases hh : s.hashCache = some (e.sha d)
    · rw [if_pos hh]
      refine ⟨?_, hh, rfl⟩
      simp only
      rw [h1]
      cases ds with
      | nil => rw [h2] at hh; simp at hh
      | cons d' ds =>
        rw [h2] at hh
        simp only [List.head?_cons, Option.map_some, Option.some.injEq] at hh
        have := hinj _ _ hh
        subst this
        simp only [lastGood]
        cases e.decode d' <;> rfl
    · rw [if_neg hh]
      cases hdec : e.decode d with
      | none => exact ⟨h1, rfl, rfl⟩
      | some l => exact ⟨rfl, rfl, rfl⟩

theorem updateSlurm_good (e : Env) (hinj : ∀ a b, e.sha a = e.sha b → a = b) (file : Str) (o : Outcome) (s : UState) (cs : List Bytes)
    (h1 : s.slurm = lastGood e.decodeSlurm cs) (h2 : s.hashSlurm = cs.head?.map e.sha) :
    (updateSlurm e file o s).1.slurm = lastGood e.decodeSlurm ((delivered s.fetch file o).toList ++ cs) ∧
    (updateSlurm e file o s).1.hashSlurm = ((delivered s.fetch file o).toList ++ cs).head?.map e.sha ∧
    (updateSlurm e file o s).1.hashCache = s.hashCache ∧ (updateSlurm e file o s).1.fetch = (s.fetch.fetchFile file o).1 := by
  rw [updateSlurm_eq]
  cases hd : delivered s.fetch file o with
  | none => exact ⟨h1, h2, rfl, rfl⟩
  | some d =>
    simp only [Option.toList_some, List.singleton_append, List.head?_cons, Option.map_some, lastGood]
    by_cases hh : s.hashSlurm = some (e.sha d)
    · rw [if_pos hh]
      refine ⟨?_, hh, rfl, rfl⟩
      simp only
      rw [h1]
      cases cs with
      | nil => rw [h2] at hh; simp at hh
      | cons d' ds =>
        rw [h2] at hh
        simp only [List.head?_cons, Option.map_some, Option.some.injEq] at hh
        have := hinj _ _ hh
        subst this
        simp only [lastGood]
        cases e.decodeSlurm d' <;> rfl
    · rw [if_neg hh]
      cases hdec : e.decodeSlurm d with
      | none => exact ⟨h1, rfl, rfl, rfl⟩
      | some l => exact ⟨rfl, rfl, rfl, rfl⟩

theorem afterFetch_keeps (e : Env) (t : Times) (fresh : Bool) (s : UState) :
    (afterFetch e t fresh s).lastdata = s.lastdata ∧ (afterFetch e t fresh s).slurm = s.slurm ∧ (afterFetch e t fresh s).hashCache = s.hashCache ∧
    (afterFetch e t fresh s).hashSlurm = s.hashSlurm := by
  rcases afterFetch_cases e t fresh s with hc | ⟨hc, _⟩ | ⟨hc, _⟩
  · rw [hc]; exact ⟨rfl, rfl, rfl, rfl⟩
  · rw [hc]; unfold applied applyUpdate; simp only; split <;> exact ⟨rfl, rfl, rfl, rfl⟩
  · rw [hc]; exact ⟨rfl, rfl, rfl, rfl⟩

theorem startup_keeps (e : Env) (t : Times) (s : UState) :
    (updateFromNewState e t.check t.proc s).1.lastdata = s.lastdata ∧ (updateFromNewState e t.check t.proc s).1.slurm = s.slurm ∧
    (updateFromNewState e t.check t.proc s).1.hashCache = s.hashCache ∧ (updateFromNewState e t.check t.proc s).1.hashSlurm = s.hashSlurm := by
  rw [updateFromNewState_eq]
  split
  · exact ⟨rfl, rfl, rfl, rfl⟩
  · split
    · unfold applied applyUpdate; simp only; split <;> exact ⟨rfl, rfl, rfl, rfl⟩
    · exact ⟨rfl, rfl, rfl, rfl⟩

theorem fetchBoth_good (e : Env) (hinj : ∀ a b, e.sha a = e.sha b → a = b) (t : Times) (f : Fetched) (s : UState) (ds cs : List Bytes) (d c : Option Bytes)
    (hc : c = match f.slurm with | some (file, o) => delivered s.fetch file o | none => none)
    (hd : d = delivered (match f.slurm with | some (file, o) => (s.fetch.fetchFile file o).1 | none => s.fetch) f.file f.cache)
    (h1 : s.lastdata = (lastGood e.decode ds).getD .empty) (h2 : s.hashCache = ds.head?.map e.sha)
    (h3 : s.slurm = lastGood e.decodeSlurm cs) (h4 : s.hashSlurm = cs.head?.map e.sha) :
    (fetchBoth e t f s).1.lastdata = (lastGood e.decode (d.toList ++ ds)).getD .empty ∧ (fetchBoth e t f s).1.hashCache = (d.toList ++ ds).head?.map e.sha ∧
    (fetchBoth e t f s).1.slurm = lastGood e.decodeSlurm (c.toList ++ cs) ∧ (fetchBoth e t f s).1.hashSlurm = (c.toList ++ cs).head?.map e.sha := by
  unfold fetchBoth
  cases hf : f.slurm with
  | none =>
    rw [hf] at hc hd
    simp only at hc hd
    subst hc; subst hd
    obtain ⟨g1, g2, g3⟩ := updateFile_good e hinj t.start t.change f.file f.cache s ds h1 h2
    exact ⟨g1, g2, (updateFile_frame e t.start t.change f.file f.cache s).2.1.trans h3, g3.trans h4⟩
  | some x =>
    rw [hf] at hc hd
    simp only at hc hd
    subst hc; subst hd
    obtain ⟨k1, k2, k3, k4⟩ := updateSlurm_good e hinj x.1 x.2 s cs h3 h4
    obtain ⟨g1, g2, g3⟩ := updateFile_good e hinj t.start t.change f.file f.cache (updateSlurm e x.1 x.2 s).1 ds
      ((updateSlurm_frame e x.1 x.2 s).2.1.trans h1) (k3.trans h2)
    rw [k4] at g1 g2
    exact ⟨g1, g2, (updateFile_frame e t.start t.change f.file f.cache _).2.1.trans k1, g3.trans k2⟩

/-- If different files have different hashes, the loaded file and the SLURM configuration are at all times the last readable ones that were delivered, whatever failed in between. -/
theorem C49_last_good {e : Env} (hinj : ∀ a b, e.sha a = e.sha b → a = b) {s : UState} {ds cs : List Bytes} (h : Heard e s ds cs) :
    s.lastdata = (lastGood e.decode ds).getD .empty ∧ s.slurm = lastGood e.decodeSlurm cs := by
  have key : s.lastdata = (lastGood e.decode ds).getD .empty ∧ s.hashCache = ds.head?.map e.sha ∧ s.slurm = lastGood e.decodeSlurm cs ∧ s.hashSlurm = cs.head?.map e.sha := by
    induction h with
    | init a b => exact ⟨rfl, rfl, rfl, rfl⟩
    | startup t f d c _ hc hd ih =>
      obtain ⟨i1, i2, i3, i4⟩ := ih
      obtain ⟨g1, g2, g3, g4⟩ := fetchBoth_good e hinj t f _ _ _ d c hc hd i1 i2 i3 i4
      unfold StayRTR.startup
      obtain ⟨k1, k2, k3, k4⟩ := startup_keeps e t (fetchBoth e t f _).1
      exact ⟨k1.trans g1, k3.trans g2, k2.trans g3, k4.trans g4⟩
    | refresh t f d c _ hc hd ih =>
      obtain ⟨i1, i2, i3, i4⟩ := ih
      obtain ⟨g1, g2, g3, g4⟩ := fetchBoth_good e hinj t f _ _ _ d c hc hd i1 i2 i3 i4
      unfold StayRTR.refresh
      obtain ⟨k1, k2, k3, k4⟩ := afterFetch_keeps e t (fetchBoth e t f _).2 (fetchBoth e t f _).1
      exact ⟨k1.trans g1, k3.trans g2, k2.trans g3, k4.trans g4⟩
  exact ⟨key.1, key.2.2.1⟩

example : ∃ s, Heard (exEnv false) s [[9], [3], [1]] [[1]] ∧ s.lastdata = ⟨⟨2, exEpoch, none⟩, some [exVrp1, exVrp2], none⟩ := by
  have h0 := Heard.init (e := exEnv false) true true
  have h1 := Heard.startup (exAt 0) ⟨exFile, .file (some [1]), some ("s".toList, .file (some [1]))⟩ (some [1]) (some [1]) h0 (by decide) (by decide)
  have h2 := Heard.refresh (exAt 1) (exGet [3]) (some [3]) none h1 (by decide) (by decide)
  have h3 := Heard.refresh (exAt 2) exFail none none h2 (by decide) (by decide)
  have h4 := Heard.refresh (exAt 3) (exGet [9]) (some [9]) none h3 (by decide) (by decide)
  refine ⟨_, h4, ?_⟩
  have hinj : ∀ a b, (exEnv false).sha a = (exEnv false).sha b → a = b := fun a b h => h
  exact (C49_last_good hinj h4).1

/-! ## C50: a stale file is never loaded -/

/-- With the check on: if the loaded file is not known to be at most 24 hours old, a refresh leaves what is served, or drops everything; the start leaves it. -/
theorem C50_stale (e : Env) (hs : e.sort.Ok) (hc : e.checktime = true) (t : Times) (f : Fetched) {s : UState} (h : Reached e s) :
    (¬ Fresh e (refresh e t f s).lastdata t.check → (refresh e t f s).store = s.store ∨ (refresh e t f s).store.current = []) ∧
    (¬ Fresh e (startup e t f s).lastdata t.check → (startup e t f s).store = s.store) := by
  obtain ⟨hf, _⟩ := fetchBoth_frame e t f s
  have hok : StoreOk (fetchBoth e t f s).1.store := by rw [hf.store]; exact h.ok hs
  constructor
  · unfold refresh
    simp only
    rw [(afterFetch_keeps ..).1]
    intro hn
    rcases afterFetch_cases e t (fetchBoth e t f s).2 (fetchBoth e t f s).1 with hcs | ⟨_, _, ha⟩ | ⟨hcs, _⟩
    · rw [hcs]; exact .inl hf.store
    · exact absurd ((ageCheck_fine e hc _ _).mp ha) hn
    · rw [hcs]; exact .inr (dropped_empty _ hok)
  · unfold startup
    simp only
    rw [(startup_keeps ..).1]
    intro hn
    rw [updateFromNewState_eq]
    split
    · exact hf.store
    · rw [if_neg (fun ha => hn ((ageCheck_fine e hc _ _).mp ha))]
      exact hf.store

/-- So whatever a refresh starts to serve, it comes from a file that is at most 24 hours old. -/
theorem C50_source (e : Env) (hs : e.sort.Ok) (hc : e.checktime = true) (t : Times) (f : Fetched) {s : UState} (h : Reached e s) (r : Rec)
    (h1 : Served (refresh e t f s) r) (h2 : ¬ Served s r) :
    Fresh e (refresh e t f s).lastdata t.check ∧ FileWants e.wide (seconds t.proc) (refresh e t f s).slurm (refresh e t f s).lastdata r := by
  obtain ⟨hf, _⟩ := fetchBoth_frame e t f s
  have hok : StoreOk (fetchBoth e t f s).1.store := by rw [hf.store]; exact h.ok hs
  unfold refresh at h1 ⊢
  simp only at h1 ⊢
  rw [(afterFetch_keeps ..).1, (afterFetch_keeps ..).2.1]
  rcases afterFetch_cases e t (fetchBoth e t f s).2 (fetchBoth e t f s).1 with hcs | ⟨hcs, _, ha⟩ | ⟨hcs, _⟩
  · rw [hcs] at h1
    unfold Served at h1 h2
    rw [hf.store] at h1
    exact absurd h1 h2
  · rw [hcs, applied_sameSet e hs _ _ hok] at h1
    exact ⟨(ageCheck_fine e hc _ _).mp ha, h1⟩
  · rw [hcs] at h1
    unfold Served at h1
    rw [dropped_empty _ hok] at h1
    simp [records] at h1

/-- A file is fresh for exactly 24 hours. -/
example : Fresh (exEnv true) exS3.lastdata (86400 * 1000000000) ∧ ¬ Fresh (exEnv true) exS3.lastdata (86400 * 1000000000 + 1) := by
  constructor
  · exact ⟨0, .text 0 rfl (by decide), by decide⟩
  · rintro ⟨b, hb, hle⟩
    cases hb with
    | generated g h => simp [exS3] at h
    | text b h hp =>
      have : (exEnv true).parseTime exS3.lastdata.metadata.buildtime = some 0 := by decide
      rw [this] at hp
      simp only [Option.some.injEq] at hp
      omega

example : Reached (exEnv true) exS3 := by rw [← exS3_eq_checked]; exact .startup _ _ _ (.init _ _)

/-! ## C51: stale data is withdrawn -/

/-- Refreshes one after the other. -/
def Spec.refreshes (e : Env) (s : UState) (rs : List (Times × Fetched)) : UState := rs.foldl (fun s x => refresh e x.1 x.2 s) s

/-- This fetch brings nothing: it fails, or the local file is still the same. -/
def Spec.SameFile (e : Env) (s : UState) (f : Fetched) : Prop :=
  f.slurm = none ∧ (f.cache = .failed ∨ isURL f.file = false ∧ ∃ d, f.cache = .file (some d) ∧ s.hashCache = some (e.sha d))

theorem sameFile_fetch (e : Env) (t : Times) (f : Fetched) (s : UState) (h : SameFile e s f) :
    (fetchBoth e t f s).2 = false ∧ (fetchBoth e t f s).1.hashCache = s.hashCache ∧ (fetchBoth e t f s).1.lastdata = s.lastdata ∧ (fetchBoth e t f s).1.store = s.store ∧
    (fetchBoth e t f s).1.slurm = s.slurm := by
  obtain ⟨h1, h2⟩ := h
  unfold fetchBoth
  rw [h1]
  simp only
  rw [updateFile_eq]
  rcases h2 with h2 | ⟨hu, d, h2, hd⟩
  · rw [h2]
    have : delivered s.fetch f.file .failed = none := by simp [delivered, FetchConfig.fetchFile]
    rw [this]
    exact ⟨rfl, rfl, rfl, rfl, rfl⟩
  · rw [h2]
    have : delivered s.fetch f.file (.file (some d)) = some d := by simp [delivered, FetchConfig.fetchFile, hu, FetchConfig.readAll]
    rw [this]
    simp only [hd, if_true]
    simp

/-- As long as the file does not change, nothing is ever withdrawn once it is older than 24 hours: not the file, and not even its expired entries. -/
theorem C51_unchanged_false (e : Env) (hc : e.checktime = true) (s : UState) (rs : List (Times × Fetched))
    (h : ∀ x ∈ rs, SameFile e s x.2 ∧ ¬ Fresh e s.lastdata x.1.check) : (refreshes e s rs).store = s.store := by
  have key : ∀ (rs : List (Times × Fetched)) (s' : UState), s'.hashCache = s.hashCache → s'.lastdata = s.lastdata → s'.store = s.store →
      (∀ x ∈ rs, SameFile e s x.2 ∧ ¬ Fresh e s.lastdata x.1.check) → (refreshes e s' rs).store = s.store := by
    intro rs
    induction rs with
    | nil => intro s' _ _ h3 _; exact h3
    | cons x rs ih =>
      intro s' h1 h2 h3 hx
      obtain ⟨hsame, hstale⟩ := hx x List.mem_cons_self
      have hsame' : SameFile e s' x.2 := ⟨hsame.1, by rw [h1]; exact hsame.2⟩
      obtain ⟨f1, f2, f3, f4, _⟩ := sameFile_fetch e x.1 x.2 s' hsame'
      have hr : refresh e x.1 x.2 s' = (fetchBoth e x.1 x.2 s').1 := by
        unfold refresh
        simp only
        rcases afterFetch_cases e x.1 (fetchBoth e x.1 x.2 s').2 (fetchBoth e x.1 x.2 s').1 with hcs | ⟨_, _, ha⟩ | ⟨_, hfr, _⟩
        · exact hcs
        · rw [ageCheck_fine e hc, f3, h2] at ha
          exact absurd ha hstale
        · rw [f1] at hfr; exact absurd hfr (by decide)
      have : refreshes e s' (x :: rs) = refreshes e (refresh e x.1 x.2 s') rs := rfl
      rw [this, hr]
      exact ih _ (f2.trans h1) (f3.trans h2) (f4.trans h3) (fun y hy => hx y (List.mem_cons_of_mem _ hy))
  exact key rs s rfl rfl rfl h

/-- For instance: after `n` refreshes, 25 hours and more after the build time, the VRP that expired at second 100 is still served. -/
theorem C51_expired_false (n : Nat) :
    let s := startup (exEnv true) (exAt 0) (exGet [3]) exInit
    Served (refreshes (exEnv true) s ((List.range n).map (fun i => (exAt (90000 + 600 * (i : Nat)), exGet [3])))) (.vrp ⟨.v4 0x0b000000, 9⟩ 9 2) := by
  simp only [exS3_eq_checked]
  unfold Served
  rw [C51_unchanged_false (exEnv true) rfl exS3]
  · decide
  · intro x hx
    obtain ⟨i, _, rfl⟩ := List.mem_map.mp hx
    refine ⟨⟨rfl, .inr ⟨(by decide : isURL exFile = false), [3], rfl, rfl⟩⟩, ?_⟩
    rintro ⟨b, hb, hle⟩
    cases hb with
    | generated g h => simp [exS3] at h
    | text b h hp =>
      have : (exEnv true).parseTime exS3.lastdata.metadata.buildtime = some 0 := by decide
      rw [this] at hp
      simp only [Option.some.injEq] at hp
      simp only [exAt] at hle
      omega

/-- If the exported file has only a `generated` time, a new file that is too old does not lead to dropping either. -/
theorem C51_generated_false :
    let s := startup (exEnv true) (exAt 0) (exGet [6]) exInit
    (refresh (exEnv true) (exAt 90000) (exGet [3]) s).store = s.store ∧ records s.store.current = [.vrp ⟨.v4 0x0a000000, 9⟩ 8 1] ∧
    ¬ Fresh (exEnv true) s.lastdata (90000 * 1000000000) ∧ ¬ Fresh (exEnv true) (refresh (exEnv true) (exAt 90000) (exGet [3]) s).lastdata (90000 * 1000000000) := by
  simp only [exS6_eq_checked]
  refine ⟨by decide +kernel, by decide, ?_, ?_⟩
  · rintro ⟨b, hb, hle⟩
    cases hb with
    | generated g h =>
      simp only [exS6, Option.some.injEq] at h
      omega
    | text b h hp => simp [exS6] at h
  · have hl : (refresh (exEnv true) (exAt 90000) (exGet [3]) exS6).lastdata = ⟨⟨2, exEpoch, none⟩, some [exVrp1, exVrp2], none⟩ := by decide +kernel
    rw [hl]
    rintro ⟨b, hb, hle⟩
    cases hb with
    | generated g h => simp at h
    | text b h hp =>
      have : (exEnv true).parseTime exEpoch = some 0 := by decide
      rw [this] at hp
      simp only [Option.some.injEq] at hp
      omega

/-- Data can also be dropped too early: the exported build time is not renewed when a newer file has the same content. Here the file built at 20 hours is dropped at 25 hours. -/
theorem C51_early_false :
    let s8 := startup (exEnv true) (exAt 0) (exGet [8]) exInit
    let s7 := refresh (exEnv true) (exAt 72000) (exGet [7]) s8
    Fresh (exEnv true) s7.lastdata (90000 * 1000000000) ∧ records s7.store.current = [.vrp ⟨.v4 0x0a000000, 9⟩ 8 1] ∧
    (refresh (exEnv true) (exAt 90000) (exGet [3]) s7).store.current = [] := by
  simp only [exS8_eq_checked, exS7_eq_checked, exS9_eq_checked]
  exact ⟨⟨20 * 3600 * 1000000000, .text _ rfl (by decide), by decide⟩, by decide, rfl⟩

/-- When a new file arrives that is too old, and the exported file states a (text) build time more than 24 hours ago, everything is withdrawn. Missing: a file that does not change, and the `generated` time. -/
theorem C51_new_stale_partial (e : Env) (hs : e.sort.Ok) (hc : e.checktime = true) (t : Times) (f : Fetched) {s : UState} (h : Reached e s)
    (hnew : (fetchBoth e t f s).2 = true) (hr : (fetchBoth e t f s).1.lastdata.roas ≠ none) {b : Int} (hb : BuiltAt e (fetchBoth e t f s).1.lastdata b) (hold : t.check > b + 24 * 3600 * 1000000000)
    {x : Int} (hx : e.parseTime s.exported.metadata.buildtime = some x) (hx0 : x ≠ zeroTime) (hxold : t.drop > x + 24 * 3600 * 1000000000) :
    (refresh e t f s).store.current = [] := by
  obtain ⟨hf, _⟩ := fetchBoth_frame e t f s
  have hok : StoreOk (fetchBoth e t f s).1.store := by rw [hf.store]; exact h.ok hs
  have hage : ageCheck e t.check (fetchBoth e t f s).1.lastdata.metadata = .tooOld := by
    unfold ageCheck buildTime
    rw [if_pos hc]
    cases hb with
    | generated g hg =>
      rw [hg]
      simp only
      rw [if_pos (by unfold day; omega)]
    | text b hg hp =>
      rw [hg]
      simp only
      rw [hp]
      simp only
      rw [if_pos (by unfold day; omega)]
  have hexp : exportedBuildTime e (fetchBoth e t f s).1 = some x := by
    unfold exportedBuildTime
    rw [hf.exported, hx]
    simp only
    rw [if_neg hx0]
  unfold refresh afterFetch
  simp only [hnew, if_true, updateFromNewState_eq, hr, if_false, hage, reduceCtorEq, hexp]
  rw [if_pos (by unfold day; omega)]
  exact dropped_empty _ hok

example : (fetchBoth (exEnv true) (exAt 90000) (exGet [3]) exS7).2 = true ∧ (fetchBoth (exEnv true) (exAt 90000) (exGet [3]) exS7).1.lastdata.roas ≠ none := by decide +kernel

/-! ## C52, C53: the served set is the processed file -/

/-- When a new cache or SLURM file is accepted, the file has VRPs (`roas`) and it is not too old, exactly the records that the file with the SLURM configuration asks for are served.
Missing: a file without `roas` (`C53_missing_false`). -/
theorem C53_served_partial (e : Env) (hs : e.sort.Ok) (t : Times) (f : Fetched) {s : UState} (h : Reached e s) (hnew : (fetchBoth e t f s).2 = true)
    (hr : (refresh e t f s).lastdata.roas ≠ none) (hfresh : e.checktime = true → Fresh e (refresh e t f s).lastdata t.check) (r : Rec) :
    Served (refresh e t f s) r ↔ FileWants e.wide (seconds t.proc) (refresh e t f s).slurm (refresh e t f s).lastdata r := by
  obtain ⟨hf, _⟩ := fetchBoth_frame e t f s
  have hok : StoreOk (fetchBoth e t f s).1.store := by rw [hf.store]; exact h.ok hs
  unfold refresh at *
  simp only at *
  rw [(afterFetch_keeps ..).1] at *
  rw [(afterFetch_keeps ..).2.1]
  have hage : ageCheck e t.check (fetchBoth e t f s).1.lastdata.metadata = .fine := by
    cases hc : e.checktime with
    | false => unfold ageCheck; rw [hc]; rfl
    | true => exact (ageCheck_fine e hc _ _).mpr (hfresh hc)
  have : afterFetch e t (fetchBoth e t f s).2 (fetchBoth e t f s).1 = applied e t.proc (fetchBoth e t f s).1 := by
    unfold afterFetch
    simp only [hnew, if_true, updateFromNewState_eq, hr, if_false, hage]
  rw [this]
  exact applied_sameSet e hs _ _ hok r

/-- The same at the start of the program. -/
theorem C53_start_partial (e : Env) (hs : e.sort.Ok) (t : Times) (f : Fetched) {s : UState} (h : Reached e s)
    (hr : (startup e t f s).lastdata.roas ≠ none) (hfresh : e.checktime = true → Fresh e (startup e t f s).lastdata t.check) (r : Rec) :
    Served (startup e t f s) r ↔ FileWants e.wide (seconds t.proc) (startup e t f s).slurm (startup e t f s).lastdata r := by
  obtain ⟨hf, _⟩ := fetchBoth_frame e t f s
  have hok : StoreOk (fetchBoth e t f s).1.store := by rw [hf.store]; exact h.ok hs
  unfold startup at *
  simp only at *
  rw [(startup_keeps ..).1] at *
  rw [(startup_keeps ..).2.1]
  have hage : ageCheck e t.check (fetchBoth e t f s).1.lastdata.metadata = .fine := by
    cases hc : e.checktime with
    | false => unfold ageCheck; rw [hc]; rfl
    | true => exact (ageCheck_fine e hc _ _).mpr (hfresh hc)
  rw [updateFromNewState_eq]
  simp only [hr, if_false, hage, if_true]
  exact applied_sameSet e hs _ _ hok r

/-- A file without `roas` is accepted, but what is served stays as it was. -/
theorem C53_missing_false :
    let s := startup (exEnv false) (exAt 0) (exGet [3]) exInit
    let s' := refresh (exEnv false) (exAt 1) (exGet [4]) s
    s'.lastdata = ⟨⟨0, exEpoch, none⟩, none, none⟩ ∧ s'.store = s.store ∧ s'.store.current.length = 2 := by
  simp only [exS3_eq]
  decide +kernel

/-- No router key twice. -/
def Spec.KeysDistinct (ks : List BgpSecKeyJson) : Prop := (ks.map (fun k => (k.asn, (hexDecode k.ski).1, k.pubkey))).Nodup

instance Spec.KeysDistinct.dec (ks : List BgpSecKeyJson) : Decidable (KeysDistinct ks) := by unfold KeysDistinct; infer_instance

/-- What is asked of the loaded file: it has `roas`, it is not too old at `check`, and with the SLURM configuration it has no router key twice. -/
def Spec.GoodFile (e : Env) (check : Int) (s : UState) : Prop :=
  s.lastdata.roas ≠ none ∧ (e.checktime = true → Fresh e s.lastdata check) ∧ KeysDistinct (withExceptions e.wide s.slurm s.lastdata).2

/-- Runs of the program in which every loaded file is good, with the second of the last refresh. The clock may go back. -/
inductive Spec.GoodRun (e : Env) : UState → Int → Prop
  | init (etags lastModified : Bool) (now : Int) : GoodRun e (UState.init etags lastModified) now
  | startup {s : UState} {now : Int} (t : Times) (f : Fetched) (h : GoodRun e s now) (hg : GoodFile e t.check (startup e t f s)) : GoodRun e (startup e t f s) (seconds t.proc)
  | refresh {s : UState} {now : Int} (t : Times) (f : Fetched) (h : GoodRun e s now) (hg : GoodFile e t.check (refresh e t f s)) : GoodRun e (refresh e t f s) (seconds t.proc)

theorem Spec.GoodRun.reached {e : Env} {s : UState} {now : Int} (h : GoodRun e s now) : Reached e s := by
  induction h with
  | init a b _ => exact .init a b
  | startup t f _ _ ih => exact .startup _ t f ih
  | refresh t f _ _ ih => exact .refresh _ t f ih

/-- Equal numbers of elements decide between a set and a subset. -/
theorem subset_of_length {a b : List Rec} (ha : a.Nodup) (hsub : ∀ r ∈ a, r ∈ b) (hlen : a.length = b.length) : ∀ r, r ∈ b → r ∈ a := by
  have hp : a.Subperm b := List.subperm_of_subset ha (fun r hr => hsub r hr)
  intro r hr
  exact (hp.perm_of_length_le (by omega)).mem_iff.mpr hr

/-- After every refresh of such a run, exactly the records that the loaded file asks for at that time are served, even if the file did not change: expired entries are gone.
Missing: files with a router key twice (`C52_duplicate_key_false`) and stale files (`C51_unchanged_false`). -/
theorem C52_served_partial {e : Env} (hs : e.sort.Ok) {s : UState} {now : Int} (h : GoodRun e s now) (r : Rec) : Served s r ↔ FileWants e.wide now s.slurm s.lastdata r := by
  have key : (records s.store.current).Nodup ∧ ∀ r, Served s r ↔ FileWants e.wide now s.slurm s.lastdata r := by
    clear r
    induction h with
    | init a b now =>
      refine ⟨List.nodup_nil, fun r => ?_⟩
      constructor
      · intro h; simp [Served, UState.init, Store.init, records] at h
      · intro h; cases r <;> simp [FileWants, withExceptions, Wanted, UState.init, RPKIList.empty] at h
    | @startup s now t f hrun hg ih =>
      refine ⟨?_, C53_start_partial e hs t f hrun.reached hg.1 hg.2.1⟩
      obtain ⟨hf, _⟩ := fetchBoth_frame e t f s
      have hok : StoreOk (fetchBoth e t f s).1.store := by rw [hf.store]; exact hrun.reached.ok hs
      obtain ⟨_, _, hkd⟩ := hg
      unfold StayRTR.startup at *
      simp only at *
      rw [(startup_keeps ..).1, (startup_keeps ..).2.1] at hkd
      rw [updateFromNewState_eq]
      have hnd : (records (fetchBoth e t f s).1.store.current).Nodup := by rw [hf.store]; exact ih.1
      split
      · exact hnd
      · split
        · unfold applied
          simp only
          rw [applyUpdate_store]
          exact addData_nodup hok (allValid_sds e.wide hs _ _ _) hnd (C78_once_partial e.wide hs _ _ _ hkd)
        · exact hnd
    | @refresh s now t f hrun hg ih =>
      obtain ⟨hf, hkeep, _⟩ := fetchBoth_frame e t f s
      have hok : StoreOk (fetchBoth e t f s).1.store := by rw [hf.store]; exact hrun.reached.ok hs
      have hnd : (records (fetchBoth e t f s).1.store.current).Nodup := by rw [hf.store]; exact ih.1
      obtain ⟨hroas, hfr, hkd⟩ := hg
      have e1 : (StayRTR.refresh e t f s).lastdata = (fetchBoth e t f s).1.lastdata := (afterFetch_keeps ..).1
      have e2 : (StayRTR.refresh e t f s).slurm = (fetchBoth e t f s).1.slurm := (afterFetch_keeps ..).2.1
      rw [e1] at hroas hfr hkd
      rw [e2] at hkd
      have hage : ageCheck e t.check (fetchBoth e t f s).1.lastdata.metadata = .fine := by
        cases hc : e.checktime with
        | false => unfold ageCheck; rw [hc]; rfl
        | true => exact (ageCheck_fine e hc _ _).mpr (hfr hc)
      have happ : (records (applied e t.proc (fetchBoth e t f s).1).store.current).Nodup := by
        unfold applied
        rw [applyUpdate_store]
        exact addData_nodup hok (allValid_sds e.wide hs _ _ _) hnd (C78_once_partial e.wide hs _ _ _ hkd)
      rw [e1, e2]
      by_cases hnew : (fetchBoth e t f s).2 = true
      · have : StayRTR.refresh e t f s = applied e t.proc (fetchBoth e t f s).1 := by
          unfold StayRTR.refresh afterFetch
          simp only [hnew, if_true, updateFromNewState_eq, hroas, if_false, hage]
        rw [this]
        exact ⟨happ, applied_sameSet e hs _ _ hok⟩
      · rw [Bool.not_eq_true] at hnew
        by_cases hcount : (fetchBoth e t f s).1.store.countSDs ≠ (pending e t.proc (fetchBoth e t f s).1).sds.length
        · have : StayRTR.refresh e t f s = applied e t.proc (fetchBoth e t f s).1 := by
            unfold StayRTR.refresh afterFetch
            simp only [hnew, Bool.false_eq_true, if_false, reloadFromCurrentState_eq, hroas, hage, if_true]
            rw [if_pos hcount]
          rw [this]
          exact ⟨happ, applied_sameSet e hs _ _ hok⟩
        · have : StayRTR.refresh e t f s = (fetchBoth e t f s).1 := by
            unfold StayRTR.refresh afterFetch
            simp only [hnew, Bool.false_eq_true, if_false, reloadFromCurrentState_eq, hroas, hage, if_true]
            rw [if_neg hcount]
          rw [this]
          refine ⟨hnd, fun r => ?_⟩
          obtain ⟨k1, k2⟩ := hkeep hnew
          have hold : ∀ r, Served (fetchBoth e t f s).1 r ↔ FileWants e.wide now s.slurm s.lastdata r := by
            intro r; unfold Served; rw [hf.store]; exact ih.2 r
          have hpend : ∀ r, r ∈ records (pending e t.proc (fetchBoth e t f s).1).sds ↔ FileWants e.wide (seconds t.proc) (fetchBoth e t f s).1.slurm (fetchBoth e t f s).1.lastdata r :=
            fun r => records_sds e.wide hs _ _ _ r
          have hnp : (records (pending e t.proc (fetchBoth e t f s).1).sds).Nodup := C78_once_partial e.wide hs _ _ _ hkd
          have hlen : (records (pending e t.proc (fetchBoth e t f s).1).sds).length = (records (fetchBoth e t f s).1.store.current).length := by
            simp only [records, List.length_map]
            simp only [ne_eq, Decidable.not_not] at hcount
            exact hcount.symm
          rcases Int.le_total now (seconds t.proc) with hle | hle
          · have hsub : ∀ r ∈ records (pending e t.proc (fetchBoth e t f s).1).sds, r ∈ records (fetchBoth e t f s).1.store.current := by
              intro r hr
              refine (hold r).mpr ?_
              have := (hpend r).mp hr
              rw [k1, k2] at this
              exact wanted_anti hle this
            have hback := subset_of_length hnp hsub hlen
            constructor
            · intro hr; exact (hpend r).mp (hback r hr)
            · intro hr; exact hsub r ((hpend r).mpr hr)
          · have hsub : ∀ r ∈ records (fetchBoth e t f s).1.store.current, r ∈ records (pending e t.proc (fetchBoth e t f s).1).sds := by
              intro r hr
              refine (hpend r).mpr ?_
              rw [k1, k2]
              exact wanted_anti hle ((hold r).mp hr)
            have hback := subset_of_length hnd hsub hlen.symm
            constructor
            · intro hr; exact (hpend r).mp (hsub r hr)
            · intro hr; exact hback r ((hpend r).mpr hr)
  exact key.2 r

/-- A good run with a refresh that only finds an expired entry. -/
example : GoodRun (exEnv true) (refresh (exEnv true) (exAt 101) exFail exS3) 101 := by
  have h0 := GoodRun.init (e := exEnv true) true true 0
  have g0 : GoodFile (exEnv true) (exAt 0).check (startup (exEnv true) (exAt 0) (exGet [3]) (UState.init true true)) := by
    have := exS3_eq_checked
    unfold exInit at this
    rw [this]
    exact ⟨by decide, fun _ => ⟨0, .text 0 rfl (by decide), by decide⟩, by decide⟩
  have h1 := GoodRun.startup (exAt 0) (exGet [3]) h0 g0
  have := exS3_eq_checked
  unfold exInit at this
  rw [this] at h1
  have hl : (refresh (exEnv true) (exAt 101) exFail exS3).lastdata = exS3.lastdata := by decide +kernel
  have hsl : (refresh (exEnv true) (exAt 101) exFail exS3).slurm = none := by decide +kernel
  have g1 : GoodFile (exEnv true) (exAt 101).check (refresh (exEnv true) (exAt 101) exFail exS3) := by
    unfold GoodFile
    rw [hl, hsl]
    exact ⟨by decide, fun _ => ⟨0, .text 0 rfl (by decide), by decide⟩, by decide⟩
  exact GoodRun.refresh (exAt 101) exFail h1 g1

/-- With a router key twice in the file only the numbers of records are compared, and they can agree: the key that expired at second 100 is still served at second 101, and forever. -/
theorem C52_duplicate_key_false :
    let s := refresh (exEnv false) (exAt 0) (exGet [2]) (startup (exEnv false) (exAt 0) (exGet [1]) exInit)
    let s' := refresh (exEnv false) (exAt 101) (exGet [2]) s
    s.lastdata = s'.lastdata ∧ Served s' (.brk 2 [0xCD] [8]) ∧ ¬ FileWants (fun _ => 0) 101 none s'.lastdata (.brk 2 [0xCD] [8]) := by
  simp only [exS1_eq, exS2_eq]
  have h1 : (refresh (exEnv false) (exAt 101) (exGet [2]) exS2).lastdata = exS2.lastdata := by decide +kernel
  have h2 : records (refresh (exEnv false) (exAt 101) (exGet [2]) exS2).store.current = records exS2.store.current := by decide +kernel
  refine ⟨h1.symm, ?_, ?_⟩
  · unfold Served; rw [h2]; decide
  · rw [h1]
    rintro ⟨k, hk, h⟩
    simp only [withExceptions, exS2, Option.getD_some, List.mem_cons, List.not_mem_nil, or_false] at hk
    obtain ⟨ha, _, _, he⟩ := h
    rcases hk with rfl | rfl | rfl
    · exact absurd ha (by decide)
    · exact absurd ha (by decide)
    · exact absurd (he 100 rfl) (by decide)

end StayRTR
