import Verif.Model.Chain
import Verif.Model.Time
import Verif.Props.JsonExport

/-!
C174: servers that load the export of another server serve what that one serves (README.md:241-243).
-/

namespace StayRTR
open Spec

namespace Spec

/-- The records that a list of entries asks for at a time. -/
def Asks (wide : WideFloat) (l : RPKIList) (now : Int) (r : Rec) : Prop := Wanted wide now (l.roas.getD []) (l.keys.getD []) r

/-- The entries ask for what the first server's export asked for in one of these states, or for nothing. -/
def Origin (wide : WideFloat) (h : List Servers) (l : RPKIList) : Prop :=
  (∀ now r, ¬ Asks wide l now r) ∨ ∃ τ ∈ h, ∀ now r, Asks wide l now r ↔ Asks wide (τ 0).exported now r

/-- No entry has an expiry time. -/
def NoExpiry (l : RPKIList) : Prop := (∀ v ∈ l.roas.getD [], v.expires = none) ∧ ∀ k ∈ l.keys.getD [], k.expires = none

/-- A chain of servers behind a first one: each has just loaded the export of the one before, which is new to it and not too old for it. -/
inductive Behind (wide : WideFloat) (leader : UState) : UState → Prop
  | self : Behind wide leader leader
  | next {p : UState} (hp : Behind wide leader p) {e : Env} (hd : e.decode = decodeFile) (hs : e.sort.Ok) (hw : e.wide = wide) {s : UState} (h : Reached e s) (hsl : s.slurm = none) (hx : NoExpiry s.exported)
      (first : Bool) (t : Times) (file : Str) (o : Outcome) (hdel : delivered s.fetch file o = some (exportFile p)) (hnew : s.hashCache ≠ some (e.sha (exportFile p)))
      (hlen : (p.exported.roas.getD []).length < 2 ^ 63)
      (hage : e.checktime = true → ∃ b, e.parseTime p.exported.metadata.buildtime = some b ∧ t.check ≤ b + 24 * 3600 * 1000000000) :
      Behind wide leader (loadOnce first e t ⟨file, o, none⟩ s)

end Spec

theorem loadOnce_reached {e : Env} {s : UState} (h : Reached e s) (first : Bool) (t : Times) (f : Fetched) : Reached e (loadOnce first e t f s) := by
  unfold loadOnce
  cases first
  · exact .refresh s t f h
  · exact .startup s t f h

theorem fetchBoth_file (e : Env) (t : Times) (file : Str) (o : Outcome) (s : UState) : fetchBoth e t ⟨file, o, none⟩ s = updateFile e t.start t.change file o s := by simp [fetchBoth]

/-- What loading does to the loaded file, the local exceptions and the export. -/
theorem loadOnce_parts (first : Bool) (e : Env) (t : Times) (file : Str) (o : Outcome) {s : UState} (hsl : s.slurm = none) :
    let s' := loadOnce first e t ⟨file, o, none⟩ s
    s'.slurm = none ∧ (s'.lastdata = s.lastdata ∨ ∃ b, delivered s.fetch file o = some b ∧ e.decode b = some s'.lastdata) ∧
    (s'.exported = s.exported ∨ (s'.exported.roas.getD [] = s'.lastdata.roas.getD [] ∧ s'.exported.keys.getD [] = s'.lastdata.keys.getD [])) := by
  intro s'
  obtain ⟨-, hsl1, -, hex1, h1, h2⟩ := C49_file e t.start t.change file o s
  rw [hsl] at hsl1
  generalize hu : (updateFile e t.start t.change file o s).1 = u at *
  have hlast : u.lastdata = s.lastdata ∨ ∃ b, delivered s.fetch file o = some b ∧ e.decode b = some u.lastdata := by
    by_cases hn : Nothing e.sha e.decode s.hashCache (s.fetch.fetchFile file o).2
    · exact .inl (h1 hn)
    · refine .inr ⟨_, ?_, h2 hn⟩
      unfold delivered
      rw [if_pos]
      by_contra hx
      exact hn (.inl hx)
  have happ : (applied e t.proc u).exported = u.exported ∨ ((applied e t.proc u).exported.roas.getD [] = u.lastdata.roas.getD [] ∧ (applied e t.proc u).exported.keys.getD [] = u.lastdata.keys.getD []) := by
    rcases applied_cases e t.proc u with h | ⟨-, -, -, -, h, -⟩
    · exact .inl (by rw [h])
    · refine .inr ?_
      rw [h, hsl1]
      simp [withExceptions]
  have hs' : s' = (if first = true then (updateFromNewState e t.check t.proc u).1 else afterFetch e t (updateFile e t.start t.change file o s).2 u) := by
    show loadOnce first e t ⟨file, o, none⟩ s = _
    unfold loadOnce startup refresh
    simp only [fetchBoth_file, hu]
  cases first with
  | true =>
    simp only [if_true] at hs'
    rw [hs', (startup_keeps ..).1, (startup_keeps ..).2.1]
    refine ⟨hsl1, hlast, ?_⟩
    rw [updateFromNewState_eq]
    split
    · exact .inl hex1
    · split
      · rw [← hex1]; exact happ
      · exact .inl hex1
  | false =>
    simp only [Bool.false_eq_true, if_false] at hs'
    rw [hs', (afterFetch_keeps ..).1, (afterFetch_keeps ..).2.1]
    refine ⟨hsl1, hlast, ?_⟩
    rcases afterFetch_cases e t (updateFile e t.start t.change file o s).2 u with h | ⟨h, -⟩ | ⟨h, -⟩
    · rw [h]; exact .inl hex1
    · rw [h, ← hex1]; exact happ
    · rw [h]; exact .inl hex1

theorem reread_export {e : Env} (hd : e.decode = decodeFile) {p : UState} (h : Reached e p) (hlen : (p.exported.roas.getD []).length < 2 ^ 63) (wide : WideFloat) :
    decodeFile (exportFile p) = some (rereadList p.exported) ∧ ∀ now r, Asks wide (rereadList p.exported) now r ↔ Asks wide p.exported now r := by
  obtain ⟨-, hr, hc, hg, -⟩ := reached_read hd h
  have hwr := writable_of_read hr (by rw [hc]; exact ⟨by omega, by omega⟩) hg
  exact ⟨decodeFile_enc p.exported hwr 0 0 0 ⟨by decide, by decide⟩ ⟨by decide, by decide⟩ ⟨by decide, by decide⟩, fun now r => wanted_reread wide now p.exported (fun v hv => (hr.1 v hv).1.2) r⟩

theorem Spec.Origin.mono {wide : WideFloat} {h : List Servers} {l : RPKIList} (ho : Origin wide h l) (σ : Servers) : Origin wide (σ :: h) l := by
  rcases ho with ho | ⟨τ, hτ, ho⟩
  · exact .inl ho
  · exact .inr ⟨τ, List.mem_cons_of_mem _ hτ, ho⟩

theorem Spec.Origin.congr {wide : WideFloat} {h : List Servers} {l l' : RPKIList} (ho : Origin wide h l) (hl : ∀ now r, Asks wide l' now r ↔ Asks wide l now r) : Origin wide h l' := by
  rcases ho with ho | ⟨τ, hτ, ho⟩
  · exact .inl fun now r => by rw [hl]; exact ho now r
  · exact .inr ⟨τ, hτ, fun now r => (hl now r).trans (ho now r)⟩

theorem asks_empty (wide : WideFloat) (now : Int) (r : Rec) : ¬ Asks wide .empty now r := by
  unfold Asks
  cases r <;> simp [Wanted, RPKIList.empty]

/-- What holds in all runs. -/
structure ChainInv (wide : WideFloat) (e : Nat → Env) (h : List Servers) : Prop where
  reached : ∀ τ ∈ h, ∀ i, Reached (e i) (τ i)
  origin : ∀ τ ∈ h, ∀ i, Origin wide h (τ i).exported
  loaded : ∀ σ, h.head? = some σ → ∀ i, i ≠ 0 → (σ i).slurm = none ∧ Origin wide h (σ i).lastdata

theorem chain_inv {wide : WideFloat} {e : Nat → Env} {parent : Nat → Nat} (hd : ∀ i, (e i).decode = decodeFile) {h : List Servers} (run : ServersRun e parent h)
    (hlen : ∀ τ ∈ h, ∀ i, ((τ i).exported.roas.getD []).length < 2 ^ 63) : ChainInv wide e h := by
  have push : ∀ {σ : Servers} {h : List Servers} (i : Nat) (s : UState), ChainInv wide e (σ :: h) → Reached (e i) s → (i ≠ 0 → s.slurm = none ∧ Origin wide (σ :: h) s.lastdata ∧ Origin wide (σ :: h) s.exported) →
      ChainInv wide e (σ.upd i s :: σ :: h) := by
    intro σ h i s inv hr hs
    refine ⟨fun τ hτ j => ?_, fun τ hτ j => ?_, fun σ' hσ j hj => ?_⟩
    · rcases List.mem_cons.1 hτ with rfl | hτ
      · unfold Servers.upd
        split
        · rename_i hji; subst hji; exact hr
        · exact inv.reached σ List.mem_cons_self j
      · exact inv.reached τ hτ j
    · rcases List.mem_cons.1 hτ with rfl | hτ
      · by_cases hj : j = 0
        · exact .inr ⟨_, List.mem_cons_self, fun now r => by rw [hj]⟩
        · unfold Servers.upd
          split
          · rename_i hji
            exact (hs (by rw [← hji]; exact hj)).2.2.mono _
          · exact (inv.origin σ List.mem_cons_self j).mono _
      · exact (inv.origin τ hτ j).mono _
    · simp only [List.head?_cons, Option.some.injEq] at hσ
      rw [← hσ]
      unfold Servers.upd
      split
      · rename_i hji
        obtain ⟨h1, h2, -⟩ := hs (by rw [← hji]; exact hj)
        exact ⟨h1, h2.mono _⟩
      · obtain ⟨h1, h2⟩ := inv.loaded σ rfl j hj
        exact ⟨h1, h2.mono _⟩
  induction run with
  | start a b =>
    refine ⟨fun τ hτ i => ?_, fun τ hτ i => ?_, fun σ hσ i hi => ?_⟩
    · rw [List.mem_singleton.1 hτ]; exact .init _ _
    · rw [List.mem_singleton.1 hτ]; exact .inl (asks_empty wide)
    · simp only [List.head?_cons, Option.some.injEq] at hσ
      rw [← hσ]
      exact ⟨rfl, .inl (asks_empty wide)⟩
  | again i a b r ih =>
    exact push i _ (ih fun τ hτ => hlen τ (List.mem_cons_of_mem _ hτ)) (.init a b) fun _ => ⟨rfl, .inl (asks_empty wide), .inl (asks_empty wide)⟩
  | lead first t f r ih =>
    have inv := ih fun τ hτ => hlen τ (List.mem_cons_of_mem _ hτ)
    exact push 0 _ inv (loadOnce_reached (inv.reached _ List.mem_cons_self 0) ..) fun hx => absurd rfl hx
  | @follow σ h i hi first t file o ho r ih =>
    have inv := ih fun τ hτ => hlen τ (List.mem_cons_of_mem _ hτ)
    refine push i _ inv (loadOnce_reached (inv.reached _ List.mem_cons_self i) ..) fun _ => ?_
    obtain ⟨hsl, hor⟩ := inv.loaded σ rfl i hi
    obtain ⟨p1, p2, p3⟩ := loadOnce_parts first (e i) t file o hsl
    have hlast : Origin wide (σ :: h) (loadOnce first (e i) t ⟨file, o, none⟩ (σ i)).lastdata := by
      rcases p2 with p2 | ⟨b, hb, hdec⟩
      · rw [p2]; exact hor
      · unfold delivered at hb
        split at hb
        · rename_i herr
          obtain ⟨τ, hτ, hx⟩ := ho herr
          obtain ⟨k1, k2⟩ := reread_export (hd (parent i)) (inv.reached τ hτ (parent i)) (hlen τ (List.mem_cons_of_mem _ hτ) (parent i)) wide
          rw [← Option.some.inj hb, hx, hd i, k1] at hdec
          rw [← Option.some.inj hdec]
          exact (inv.origin τ hτ (parent i)).congr k2
        · cases hb
    refine ⟨p1, hlast, ?_⟩
    rcases p3 with p3 | ⟨h1, h2⟩
    · rw [p3]; exact inv.origin σ List.mem_cons_self i
    · exact hlast.congr fun now r => by unfold Asks; rw [h1, h2]

/-- **C174.** At no time does a server behind another one, directly or through any number of others, serve anything but what the export of the first server asked for in one of its states, at one time: all of it, or nothing. -/
theorem C174_only {wide : WideFloat} {e : Nat → Env} {parent : Nat → Nat} (hd : ∀ i, (e i).decode = decodeFile) (hs : ∀ i, (e i).sort.Ok) (hw : ∀ i, (e i).wide = wide) {σ : Servers} {h : List Servers}
    (run : ServersRun e parent (σ :: h)) (hlen : ∀ τ ∈ σ :: h, ∀ i, ((τ i).exported.roas.getD []).length < 2 ^ 63) (i : Nat) :
    (∀ r, ¬ Served (σ i) r) ∨ ∃ τ ∈ σ :: h, ∃ now, ∀ r, Served (σ i) r ↔ Asks wide (τ 0).exported now r := by
  have inv := chain_inv (wide := wide) hd run hlen
  rcases C71_listed_partial (hs i) (inv.reached σ List.mem_cons_self i) with h0 | ⟨now, hnow⟩
  · refine .inl fun r => ?_
    unfold Served
    rw [h0]
    simp [records]
  · rw [hw i] at hnow
    rcases inv.origin σ List.mem_cons_self i with ho | ⟨τ, hτ, ho⟩
    · exact .inl fun r hr => ho now r ((hnow r).1 hr)
    · exact .inr ⟨τ, hτ, now, fun r => (hnow r).trans (ho now r)⟩

theorem Spec.NoExpiry.reread {l : RPKIList} (h : NoExpiry l) : NoExpiry (rereadList l) := by
  constructor
  · intro v hv
    unfold rereadList at hv
    cases hr : l.roas with
    | none => rw [hr] at hv; simp at hv
    | some vs =>
      rw [hr] at hv
      simp only [Option.map_some, Option.getD_some, List.mem_map] at hv
      obtain ⟨w, hw, rfl⟩ := hv
      exact h.1 w (by rw [hr]; exact hw)
  · intro k hk
    unfold rereadList at hk
    simp only at hk
    split at hk
    · simp at hk
    · exact h.2 k hk

/-- **C174** (partial: entries without expiry times, and exports that are new to the server and not too old; see the theorems `_false`). However long the chain: when each server has loaded the export of the one before, they all serve what
the first one serves. -/
theorem C174_follows_partial {e : Env} (hd : e.decode = decodeFile) (hs : e.sort.Ok) {leader : UState} (h : Reached e leader) (hx : NoExpiry leader.exported) (hne : ∃ r, Served leader r) {p : UState}
    (hp : Behind e.wide leader p) (r : Rec) : Served p r ↔ Served leader r := by
  suffices hall : (∀ r, Served p r ↔ Served leader r) ∧ NoExpiry p.exported ∧ ∃ e', e'.decode = decodeFile ∧ e'.sort.Ok ∧ e'.wide = e.wide ∧ Reached e' p from hall.1 r
  induction hp with
  | self => exact ⟨fun r => Iff.rfl, hx, e, hd, hs, rfl, h⟩
  | @next p hp e1 hd1 hs1 hw1 s hr1 hsl hxs first t file o hdel hnew hlen hage ih =>
    obtain ⟨hsame, hpx, e0, hd0, hs0, hw0, hr0⟩ := ih
    obtain ⟨k1, k2⟩ := reread_export hd0 hr0 hlen e.wide
    have hreach := loadOnce_reached hr1 first t ⟨file, o, none⟩
    obtain ⟨q1, -, q3⟩ := loadOnce_parts first e1 t file o hsl
    have hnot : ¬ Nothing e1.sha e1.decode s.hashCache (s.fetch.fetchFile file o).2 ∧ (s.fetch.fetchFile file o).2.data = exportFile p := by
      unfold delivered at hdel
      split at hdel
      · rename_i hok
        have hdat := Option.some.inj hdel
        refine ⟨?_, hdat⟩
        unfold Nothing
        rw [hdat, hd1, k1]
        simp [hok, hnew]
      · cases hdel
    obtain ⟨hup, hsl1, -, -, -, h2⟩ := C49_file e1 t.start t.change file o s
    have hlast0 := h2 hnot.1
    rw [hnot.2, hd1, k1] at hlast0
    have hlast0 := (Option.some.inj hlast0).symm
    have hlast : (loadOnce first e1 t ⟨file, o, none⟩ s).lastdata = rereadList p.exported := by
      unfold loadOnce startup refresh
      simp only [fetchBoth_file]
      cases first
      · simp only [Bool.false_eq_true, if_false]; rw [(afterFetch_keeps ..).1, hlast0]
      · simp only [if_true]; rw [(startup_keeps ..).1, hlast0]
    obtain ⟨-, hrd, hc, hg, hnil⟩ := reached_read hd0 hr0
    -- what the one before serves
    have hlisted : ∃ now, ∀ r, Served p r ↔ Asks e.wide p.exported now r := by
      rcases C71_listed_partial hs0 hr0 with h0 | ⟨now, hnow⟩
      · obtain ⟨r, hr⟩ := hne
        have := (hsame r).2 hr
        unfold Served at this
        rw [h0] at this
        simp [records] at this
      · exact ⟨now, by rw [hw0] at hnow; exact hnow⟩
    obtain ⟨now, hnow⟩ := hlisted
    have hroas : p.exported.roas ≠ none := by
      intro h0
      have hk := hnil h0
      obtain ⟨r, hr⟩ := hne
      have := (hnow r).1 ((hsame r).2 hr)
      unfold Asks at this
      rw [h0, hk] at this
      cases r <;> simp [Wanted] at this
    have hr' : (loadOnce first e1 t ⟨file, o, none⟩ s).lastdata.roas ≠ none := by rw [hlast]; unfold rereadList; simp [hroas]
    have hfresh : e1.checktime = true → Fresh e1 (loadOnce first e1 t ⟨file, o, none⟩ s).lastdata t.check := by
      intro hct
      obtain ⟨b, hb, hle⟩ := hage hct
      rw [hlast]
      exact ⟨b, .text b hg hb, hle⟩
    have hserved : ∀ r, Served (loadOnce first e1 t ⟨file, o, none⟩ s) r ↔ FileWants e1.wide (seconds t.proc) (loadOnce first e1 t ⟨file, o, none⟩ s).slurm (loadOnce first e1 t ⟨file, o, none⟩ s).lastdata r := by
      cases first with
      | false =>
        refine C53_served_partial e1 hs1 t ⟨file, o, none⟩ hr1 ?_ hr' hfresh
        rw [fetchBoth_file]
        by_contra hf
        exact hnot.1 (hup.1 (by simpa using hf))
      | true => exact C53_start_partial e1 hs1 t ⟨file, o, none⟩ hr1 hr' hfresh
    refine ⟨fun r => ?_, ?_, e1, hd1, hs1, hw1, hreach⟩
    · rw [hserved, ← hsame, hnow, hlast, q1]
      unfold FileWants withExceptions
      simp only
      rw [hw1]
      have := k2 (seconds t.proc) r
      unfold Asks at this
      rw [this]
      exact ⟨wanted_no_expiry _ _ _ _ _ hpx.1 hpx.2 r, wanted_no_expiry _ _ _ _ _ hpx.1 hpx.2 r⟩
    · rcases q3 with q3 | ⟨q3, q4⟩
      · rw [q3]; exact hxs
      · have := hpx.reread
        unfold NoExpiry at *
        rw [q3, q4, hlast]
        exact this

/-! ## Concrete servers -/

/-- Servers with the default settings: JSON files, build times in RFC 3339 that are checked. -/
def chainEnv : Env := { exJson true with parseTime := timeParse }

/-- A file with one VRP, built at midnight. -/
def chainFile1 : Bytes := utf8Str (["{\"metadata\":{\"buildtime\":\"1970-01-01T00:", "00:00Z\"},\"roas\":[{\"prefix\":\"10.0.0.0/8\",", "\"maxLength\":9,\"asn\":1}]}"].flatMap String.toList)
/-- The same VRP, built on the next day. -/
def chainFile2 : Bytes := utf8Str (["{\"metadata\":{\"buildtime\":\"1970-01-02T00:", "30:00Z\"},\"roas\":[{\"prefix\":\"10.0.0.0/8\",", "\"maxLength\":9,\"asn\":1}]}"].flatMap String.toList)
/-- The same VRP in a file built at midnight that lets it expire after an hour. -/
def chainFile3 : Bytes := utf8Str (["{\"metadata\":{\"buildtime\":\"1970-01-01T00:", "00:00Z\"},\"roas\":[{\"prefix\":\"10.0.0.0/8\",", "\"maxLength\":9,\"asn\":1,\"expires\":3600}]}"].flatMap String.toList)
/-- The same VRP in a file built half an hour later that lets it expire after three hours. -/
def chainFile4 : Bytes := utf8Str (["{\"metadata\":{\"buildtime\":\"1970-01-01T00:", "30:00Z\"},\"roas\":[{\"prefix\":\"10.0.0.0/8\",", "\"maxLength\":9,\"asn\":1,\"expires\":10800}]}"].flatMap String.toList)
/-- Another file built at midnight. -/
def chainFile5 : Bytes := utf8Str (["{\"metadata\":{\"buildtime\":\"1970-01-01T00:", "00:00Z\"},\"roas\":[{\"prefix\":\"11.0.0.0/8\",", "\"maxLength\":9,\"asn\":1}]}"].flatMap String.toList)
/-- The VRP. -/
def chainRecord : Rec := .vrp ⟨.v4 0x0a000000, 9⟩ 9 1

/-- The first server. -/
def chainLeader : UState := startup chainEnv (exAt 0) (exGet chainFile1) exInit
/-- A server behind it. -/
def chainSecond : UState := startup chainEnv (exAt 0) (exGet (exportFile chainLeader)) exInit
/-- One behind that, which had loaded another file before. -/
def chainThird : UState := refresh chainEnv (exAt 0) (exGet (exportFile chainSecond)) (startup chainEnv (exAt 0) (exGet chainFile5) exInit)

/-- **C174, false for build times.** The export keeps the build time of the file with which the served set changed last. A server whose files are new but say the same for a day goes on serving, and its export is too old for a server that
starts behind it: that one serves nothing. -/
theorem C174_quiet_false :
    let leader := refresh chainEnv (exAt 88200) (exGet chainFile2) chainLeader
    records leader.store.current = [chainRecord] ∧ chainEnv.parseTime leader.lastdata.metadata.buildtime = some (88200 * 1000000000) ∧
    records (startup chainEnv (exAt 88200) (exGet (exportFile leader)) exInit).store.current = [] := by
  decide +kernel

/-- **C174, false for expiry times.** Likewise the export keeps the old expiry times when a new file prolongs them: the first server serves the VRP, those behind it withdraw it or do not get it. -/
theorem C174_expiry_false :
    let before := startup chainEnv (exAt 0) (exGet chainFile3) exInit
    let leader := refresh chainEnv (exAt 7200) exFail (refresh chainEnv (exAt 1800) (exGet chainFile4) before)
    let follower := startup chainEnv (exAt 0) (exGet (exportFile before)) exInit
    records leader.store.current = [chainRecord] ∧ records follower.store.current = [chainRecord] ∧
    records (refresh chainEnv (exAt 7200) (exGet (exportFile leader)) follower).store.current = [] ∧
    records (startup chainEnv (exAt 7200) (exGet (exportFile leader)) exInit).store.current = [] := by
  decide +kernel

/-- **C174, false after all was dropped.** When the first server drops everything because its files are too old, its export stays as it is. It is no new file for a server behind it, which goes on serving. -/
theorem C174_dropped_false :
    let leader := refresh chainEnv (exAt 90000) (exGet chainFile5) chainLeader
    records chainLeader.store.current = [chainRecord] ∧ records leader.store.current = [] ∧
    records (refresh chainEnv (exAt 90000) (exGet (exportFile leader)) chainSecond).store.current = [chainRecord] := by
  decide +kernel

theorem chain_delivered (b : Bytes) {s : UState} : delivered s.fetch exFile (.file (some b)) = some b := by
  unfold delivered FetchConfig.fetchFile
  have : isURL exFile = false := by decide +kernel
  simp [this, FetchConfig.readAll]

/-- The situation of `C174_follows_partial`: two servers, one behind the other, behind a first one, and all serve the record. -/
example : Reached chainEnv chainLeader ∧ NoExpiry chainLeader.exported ∧ (∃ r, Served chainLeader r) ∧ Behind chainEnv.wide chainLeader chainThird ∧ Served chainThird chainRecord := by
  have hsort : chainEnv.sort.Ok := insertionSorter_ok
  have e1 : chainSecond = loadOnce true chainEnv (exAt 0) ⟨exFile, .file (some (exportFile chainLeader)), none⟩ exInit := by
    rw [loadOnce, if_pos rfl, chainSecond, exGet]
  have e2 : chainThird = loadOnce false chainEnv (exAt 0) ⟨exFile, .file (some (exportFile chainSecond)), none⟩ (startup chainEnv (exAt 0) (exGet chainFile5) exInit) := by
    rw [loadOnce, if_neg (by decide), chainThird, exGet, exGet]
  have h1 : Behind chainEnv.wide chainLeader chainSecond := by
    rw [e1]
    refine .next .self rfl hsort rfl (.init true true) rfl ?_ true (exAt 0) exFile _ (chain_delivered _) ?_ ?_ ?_
    · unfold NoExpiry; decide +kernel
    · decide +kernel
    · decide +kernel
    · exact fun _ => ⟨0, by decide +kernel, by decide +kernel⟩
  refine ⟨.startup _ _ _ (.init true true), by unfold NoExpiry; decide +kernel, ⟨chainRecord, by unfold Served; decide +kernel⟩, ?_, by unfold Served; decide +kernel⟩
  rw [e2]
  refine .next h1 rfl hsort rfl (.startup _ (exAt 0) (exGet chainFile5) (.init true true)) ?_ ?_ false (exAt 0) exFile _ (chain_delivered _) ?_ ?_ ?_
  · decide +kernel
  · unfold NoExpiry; decide +kernel
  · decide +kernel
  · decide +kernel
  · exact fun _ => ⟨0, by decide +kernel, by decide +kernel⟩

/-- A run of `C174_only`: the second server loads the export of the first. -/
example : ∃ h σ, ServersRun (fun _ => chainEnv) (fun i => i - 1) (σ :: h) ∧ Served (σ 1) chainRecord := by
  let σ0 : Servers := fun _ => UState.init true true
  have r0 : ServersRun (fun _ => chainEnv) (fun i => i - 1) [σ0] := .start (fun _ => true) (fun _ => true)
  have r1 := ServersRun.lead true (exAt 0) (exGet chainFile1) r0
  have r2 := ServersRun.follow 1 (by decide) true (exAt 0) exFile (.file (some (exportFile chainLeader))) (fun _ => ⟨_, List.mem_cons_self, by decide +kernel⟩) r1
  refine ⟨_, _, r2, ?_⟩
  unfold Served
  decide +kernel

end StayRTR
