import Verif.Proofs.Slices
import Verif.Props.Report

/-! C127, C128: the lists of the refresh loop in memory. -/

namespace StayRTR
open Spec

namespace MState

/-- The states that the program gets into, with its lists in memory. -/
inductive Reach (e : Env) : MState → Prop
  | init (etags lastModified : Bool) : Reach e (MState.init etags lastModified)
  | startup (s : MState) (t : Times) (f : Fetched) (p : Spare) (h : Reach e s) : Reach e (s.startup e t f p)
  | refresh (s : MState) (t : Times) (f : Fetched) (p : Spare) (h : Reach e s) : Reach e (s.refresh e t f p)

/-- Some refreshes later. -/
inductive Later (e : Env) (s : MState) : MState → Prop
  | now : Later e s s
  | refresh (s' : MState) (t : Times) (f : Fetched) (p : Spare) (h : Later e s s') : Later e s (s'.refresh e t f p)

/-! ## The steps -/

theorem load_spec (p : Spare) (l : RPKIList) (s : MState) :
    (s.load p l).memV.Holds (s.load p l).roas l.roas ∧ (s.load p l).memK.Holds (s.load p l).keys l.keys ∧
    (∀ (A : List VRPJson) t, s.memV.Valid t → (s.load p l).memV.Good (s.load p l).roas A t ∧ (s.load p l).memV.read t = s.memV.read t) ∧
    (∀ (A : List BgpSecKeyJson) t, s.memK.Valid t → (s.load p l).memK.Good (s.load p l).keys A t ∧ (s.load p l).memK.read t = s.memK.read t) ∧
    (s.load p l).u = s.u ∧ (s.load p l).exportedRoas = s.exportedRoas ∧ (s.load p l).exportedKeys = s.exportedKeys := by
  have aux : ∀ {α : Type} (m : Mem α) (v spare A : List α) (t : MSlice), m.Valid t → (m.alloc v spare).1.Good (some (m.alloc v spare).2) A t ∧ (m.alloc v spare).1.read t = m.read t := by
    intro α m v spare A t ht
    obtain ⟨h1, h2⟩ := Mem.alloc_kept m v spare ht
    exact ⟨⟨h1, fun x hx ha => by cases hx; exact absurd ha (Nat.ne_of_lt ht.addr)⟩, h2⟩
  have hh : ∀ {α : Type} (m : Mem α) (v spare : List α), (m.alloc v spare).1.Holds (some (m.alloc v spare).2) (some v) :=
    fun m v spare => ⟨by simp [Mem.read_alloc], fun x hx => by cases hx; exact Mem.valid_alloc m v spare⟩
  have hn : ∀ {α : Type} (m : Mem α), m.Holds none none := fun m => ⟨rfl, nofun⟩
  have an : ∀ {α : Type} (m : Mem α) (A : List α) (t : MSlice), m.Valid t → m.Good none A t ∧ m.read t = m.read t := fun m A t ht => ⟨⟨ht, nofun⟩, rfl⟩
  unfold load
  cases l.roas <;> cases l.keys
  · exact ⟨hn _, hn _, an _, an _, rfl, rfl, rfl⟩
  · exact ⟨hn _, hh .., an _, aux _ _ _, rfl, rfl, rfl⟩
  · exact ⟨hh .., hn _, aux _ _ _, an _, rfl, rfl, rfl⟩
  · exact ⟨hh .., hh .., aux _ _ _, aux _ _ _, rfl, rfl, rfl⟩

/-- The two fetches: as with values; and either the memory and the loaded file stay, or the file is loaded into new arrays. -/
theorem fetch_spec (e : Env) (t : Times) (f : Fetched) (p : Spare) (s : MState) :
    (s.fetch e t f p).1.u = (fetchBoth e t f s.u).1 ∧ (s.fetch e t f p).2 = (fetchBoth e t f s.u).2 ∧
    (((s.fetch e t f p).1 = { s with u := (fetchBoth e t f s.u).1 } ∧ (fetchBoth e t f s.u).1.lastdata = s.u.lastdata) ∨
     (s.fetch e t f p).1 = ({ s with u := (fetchBoth e t f s.u).1 } : MState).load p (fetchBoth e t f s.u).1.lastdata) := by
  have key : ∀ (u : UState) (b : Bool), u.lastdata = s.u.lastdata →
      let r := updateFile e t.start t.change f.file f.cache u
      let s' := if r.2 then ({ s with u := r.1 } : MState).load p r.1.lastdata else { s with u := r.1 }
      s'.u = r.1 ∧ (r.2 || b) = (r.2 || b) ∧ ((s' = { s with u := r.1 } ∧ r.1.lastdata = s.u.lastdata) ∨ s' = ({ s with u := r.1 } : MState).load p r.1.lastdata) := by
    intro u b hu
    simp only
    cases hr : (updateFile e t.start t.change f.file f.cache u).2 with
    | false => exact ⟨rfl, trivial, .inl ⟨rfl, ((updateFile_frame e t.start t.change f.file f.cache u).2.2.1 hr).trans hu⟩⟩
    | true => exact ⟨(load_spec ..).2.2.2.2.1, trivial, .inr rfl⟩
  unfold fetch fetchBoth
  cases f.slurm with
  | none => exact key s.u false rfl
  | some x => exact key (updateSlurm e x.1 x.2 s.u).1 (updateSlurm e x.1 x.2 s.u).2 (updateSlurm_frame e x.1 x.2 s.u).2.1

theorem applyUpdate_exported (e : Env) (r : Processed) (vs : List VRPJson) (ks : List BgpSecKeyJson) (u : UState) :
    (applyUpdate e r vs ks u).exported = if (u.store.addData r.sds).2 then ⟨⟨vs.length, u.lastdata.metadata.buildtime, none⟩, some vs, some ks⟩ else u.exported := by
  unfold applyUpdate
  simp only
  cases (u.store.addData r.sds).2 <;> rfl

/-- Updating: as with values. The loaded file stays. What is exported is untouched, if nothing else is ever written after the loaded lists. -/
theorem update_spec (e : Env) (p : Spare) (check proc : Int) (reload : Bool) {s : MState} (ok : s.Ok) :
    ((s.update e p check proc reload).1.u, (s.update e p check proc reload).2) =
      (if reload then reloadFromCurrentState e check proc s.u else updateFromNewState e check proc s.u) ∧
    (s.update e p check proc reload).1.Ok ∧ (s.update e p check proc reload).1.roas = s.roas ∧ (s.update e p check proc reload).1.keys = s.keys ∧
    ∀ (A : List VRPJson) (K : List BgpSecKeyJson), (∀ c, s.u.slurm = some c → Tame c A K) →
      Mem.Wrote s.memV (s.update e p check proc reload).1.memV s.roas A ∧ Mem.Wrote s.memK (s.update e p check proc reload).1.memK s.keys K ∧
      (((s.update e p check proc reload).1.exportedRoas = s.exportedRoas ∧ (s.update e p check proc reload).1.exportedKeys = s.exportedKeys ∧
          (s.update e p check proc reload).1.u.exported = s.u.exported) ∨
        ∃ x y, (s.update e p check proc reload).1.exportedRoas = some x ∧ (s.update e p check proc reload).1.exportedKeys = some y ∧
          (s.update e p check proc reload).1.memV.Good s.roas A x ∧ (s.update e p check proc reload).1.memK.Good s.keys K y ∧
          (s.update e p check proc reload).1.u.exported.roas = some ((s.update e p check proc reload).1.memV.read x) ∧
          (s.update e p check proc reload).1.u.exported.keys = some ((s.update e p check proc reload).1.memK.read y)) := by
  cases hx : s.roas with
  | none =>
    have hn : s.u.lastdata.roas = none := by rw [← ok.roas.read, hx]; rfl
    have hu : s.update e p check proc reload = (s, .fine) := by unfold update; rw [hx]
    rw [hu]
    refine ⟨?_, ok, hx, rfl, fun A K _ => ⟨Mem.Wrote.refl _ _ _, Mem.Wrote.refl _ _ _, .inl ⟨rfl, rfl, rfl⟩⟩⟩
    cases reload
    · rw [if_neg (by decide), updateFromNewState_eq, if_pos hn]
    · rw [if_pos rfl, reloadFromCurrentState_eq, if_pos hn]
  | some x =>
    have hs : s.u.lastdata.roas ≠ none := by rw [← ok.roas.read, hx]; simp
    by_cases ha : ageCheck e check s.u.lastdata.metadata = .fine
    · obtain ⟨A0, K0, ht0⟩ : ∃ A K, ∀ c, s.u.slurm = some c → Tame c A K := by
        cases hc : s.u.slurm with
        | none => exact ⟨[], [], nofun⟩
        | some c => exact ⟨_, _, fun c' hc' => by cases hc'; exact tame_self c⟩
      obtain ⟨w1, w2, -, -, r1, r2⟩ := withSlurm_spec e p ok hx ht0
      have hu : s.update e p check proc reload = (
          let s' : MState := { s with memV := (s.withSlurm e p x).1, memK := (s.withSlurm e p x).2.1 }
          if reload = true ∧ s.u.store.countSDs = (pending e proc s.u).sds.length then (s', .fine)
          else (s'.apply e (pending e proc s.u) (s.withSlurm e p x).2.2.1 (s.withSlurm e p x).2.2.2, .fine)) := by
        unfold update
        rw [hx]
        simp only [ha, r1, r2, unix_eq]
        have : (processData e.wide e.sort (seconds proc) (withExceptions e.wide s.u.slurm s.u.lastdata).1 (withExceptions e.wide s.u.slurm s.u.lastdata).2).vrps.length +
            (processData e.wide e.sort (seconds proc) (withExceptions e.wide s.u.slurm s.u.lastdata).1 (withExceptions e.wide s.u.slurm s.u.lastdata).2).brks.length = (pending e proc s.u).sds.length := by
          unfold pending Processed.sds; rw [List.length_append, List.length_map, List.length_map]
        rw [this]
        rfl
      have happ : ∀ s', s' = ({ s with memV := (s.withSlurm e p x).1, memK := (s.withSlurm e p x).2.1 } : MState) →
          (s'.apply e (pending e proc s.u) (s.withSlurm e p x).2.2.1 (s.withSlurm e p x).2.2.2).u = applied e proc s.u := by
        rintro s' rfl
        show applyUpdate _ _ _ _ _ = applyUpdate _ _ _ _ _
        rw [r1, r2]
      have ok' : ({ s with memV := (s.withSlurm e p x).1, memK := (s.withSlurm e p x).2.1 } : MState).Ok := ⟨ok.roas.wrote w1, ok.keys.wrote w2⟩
      have hld := (applyUpdate_rest e (pending e proc s.u) (withExceptions e.wide s.u.slurm s.u.lastdata).1 (withExceptions e.wide s.u.slurm s.u.lastdata).2 s.u).1
      rw [hu]
      refine ⟨?_, ?_, ?_, ?_, ?_⟩
      · cases reload
        · simp only [Bool.false_eq_true, false_and, if_false]
          rw [updateFromNewState_eq, if_neg hs, if_pos ha, happ _ rfl]
        · simp only [true_and, if_true]
          rw [reloadFromCurrentState_eq, if_neg hs, if_pos ha]
          by_cases hcnt : s.u.store.countSDs = (pending e proc s.u).sds.length
          · rw [if_pos hcnt, if_neg (not_not.mpr hcnt)]
          · rw [if_neg hcnt, if_pos hcnt]
            simp only
            rw [happ _ rfl]
      · simp only
        split
        · exact ok'
        · refine ⟨?_, ?_⟩
          · show Mem.Holds (s.withSlurm e p x).1 s.roas _
            rw [happ _ rfl]; unfold applied; rw [hld]; exact ok'.roas
          · show Mem.Holds (s.withSlurm e p x).2.1 s.keys _
            rw [happ _ rfl]; unfold applied; rw [hld]; exact ok'.keys
      · simp only; split <;> exact hx
      · simp only; split <;> rfl
      · intro A K ht
        obtain ⟨w1, w2, g1, g2, r1, r2⟩ := withSlurm_spec e p ok hx ht
        rw [hx] at w1 g1
        simp only
        split
        · exact ⟨w1, w2, .inl ⟨rfl, rfl, rfl⟩⟩
        · refine ⟨w1, w2, ?_⟩
          rw [happ _ rfl]
          unfold applied
          simp only [apply, applyUpdate_exported]
          cases (s.u.store.addData (pending e proc s.u).sds).2 with
          | false => exact .inl ⟨rfl, rfl, rfl⟩
          | true => exact .inr ⟨_, _, rfl, rfl, g1, g2, by rw [r1]; rfl, by rw [r2]; rfl⟩
    · have hu : s.update e p check proc reload = (s, ageCheck e check s.u.lastdata.metadata) := by
        unfold update
        rw [hx]
        simp only
        try split
        all_goals first | (rename_i h; exact absurd h ha) | rfl
      rw [hu]
      refine ⟨?_, ok, hx, rfl, fun A K _ => ⟨Mem.Wrote.refl _ _ _, Mem.Wrote.refl _ _ _, .inl ⟨rfl, rfl, rfl⟩⟩⟩
      cases reload
      · rw [if_neg (by decide), updateFromNewState_eq, if_neg hs, if_neg ha]
      · rw [if_pos rfl, reloadFromCurrentState_eq, if_neg hs, if_neg ha]

/-- What updating does to the memory. -/
structure Upd (s s' : MState) : Prop where
  ok : s'.Ok
  slurm : s'.u.slurm = s.u.slurm
  roas : s'.roas = s.roas
  keys : s'.keys = s.keys
  tame : ∀ (A : List VRPJson) (K : List BgpSecKeyJson), (∀ c, s.u.slurm = some c → Tame c A K) →
    Mem.Wrote s.memV s'.memV s.roas A ∧ Mem.Wrote s.memK s'.memK s.keys K ∧
    ((s'.exportedRoas = s.exportedRoas ∧ s'.exportedKeys = s.exportedKeys ∧ s'.u.exported = s.u.exported) ∨
      ∃ x y, s'.exportedRoas = some x ∧ s'.exportedKeys = some y ∧ s'.memV.Good s.roas A x ∧ s'.memK.Good s.keys K y ∧
        s'.u.exported.roas = some (s'.memV.read x) ∧ s'.u.exported.keys = some (s'.memK.read y))

theorem upd_update (e : Env) (p : Spare) (check proc : Int) (reload : Bool) {s : MState} (ok : s.Ok) : Upd s (s.update e p check proc reload).1 := by
  obtain ⟨h1, h2, h3, h4, h5⟩ := update_spec e p check proc reload ok
  refine ⟨h2, ?_, h3, h4, h5⟩
  have hu := congrArg Prod.fst h1
  simp only at hu
  rw [hu]
  cases reload
  · simp only [Bool.false_eq_true, if_false]
    rw [updateFromNewState_eq]
    split
    · rfl
    · split
      · exact (applyUpdate_rest ..).2.1
      · rfl
  · simp only [if_true]
    rw [reloadFromCurrentState_eq]
    split
    · rfl
    · split
      · simp only
        split
        · exact (applyUpdate_rest ..).2.1
        · rfl
      · rfl

theorem afterFetch_spec (e : Env) (t : Times) (p : Spare) (fresh : Bool) {s : MState} (ok : s.Ok) :
    (s.afterFetch e t p fresh).u = StayRTR.afterFetch e t fresh s.u ∧ Upd s (s.afterFetch e t p fresh) := by
  unfold afterFetch StayRTR.afterFetch
  cases fresh with
  | false =>
    simp only [Bool.false_eq_true, if_false]
    exact ⟨congrArg Prod.fst (update_spec e p t.check t.proc true ok).1, upd_update e p t.check t.proc true ok⟩
  | true =>
    simp only [if_true]
    have hu := (update_spec e p t.check t.proc false ok).1
    simp only [Bool.false_eq_true, if_false] at hu
    have upd := upd_update e p t.check t.proc false ok
    rw [← hu]
    simp only
    cases (s.update e p t.check t.proc false).2 with
    | fine => exact ⟨rfl, upd⟩
    | unreadable => exact ⟨rfl, upd⟩
    | tooOld =>
      simp only
      cases exportedBuildTime e (s.update e p t.check t.proc false).1.u with
      | none => exact ⟨rfl, upd⟩
      | some b =>
        simp only
        split
        · exact ⟨rfl, ⟨⟨upd.ok.roas, upd.ok.keys⟩, upd.slurm, upd.roas, upd.keys, upd.tame⟩⟩
        · exact ⟨rfl, upd⟩

theorem fetch_ok (e : Env) (t : Times) (f : Fetched) (p : Spare) {s : MState} (ok : s.Ok) : (s.fetch e t f p).1.Ok := by
  obtain ⟨h1, _, h3⟩ := fetch_spec e t f p s
  rcases h3 with ⟨h3, h4⟩ | h3
  · rw [h3]
    exact ⟨by simp only [h4]; exact ok.roas, by simp only [h4]; exact ok.keys⟩
  · obtain ⟨g1, g2, -, -, g3, -⟩ := load_spec p (fetchBoth e t f s.u).1.lastdata ({ s with u := (fetchBoth e t f s.u).1 } : MState)
    rw [h3]
    exact ⟨by rw [g3]; exact g1, by rw [g3]; exact g2⟩

theorem refresh_spec (e : Env) (t : Times) (f : Fetched) (p : Spare) {s : MState} (ok : s.Ok) :
    (s.refresh e t f p).u = StayRTR.refresh e t f s.u ∧ Upd (s.fetch e t f p).1 (s.refresh e t f p) := by
  obtain ⟨h1, h2, _⟩ := fetch_spec e t f p s
  obtain ⟨g1, g2⟩ := afterFetch_spec e t p (s.fetch e t f p).2 (fetch_ok e t f p ok)
  refine ⟨?_, g2⟩
  show ((s.fetch e t f p).1.afterFetch e t p (s.fetch e t f p).2).u = StayRTR.afterFetch e t (fetchBoth e t f s.u).2 (fetchBoth e t f s.u).1
  rw [g1, h1, h2]

theorem startup_spec (e : Env) (t : Times) (f : Fetched) (p : Spare) {s : MState} (ok : s.Ok) :
    (s.startup e t f p).u = StayRTR.startup e t f s.u ∧ Upd (s.fetch e t f p).1 (s.startup e t f p) := by
  obtain ⟨h1, h2, _⟩ := fetch_spec e t f p s
  have hok := fetch_ok e t f p ok
  refine ⟨?_, upd_update e p t.check t.proc false hok⟩
  have hu := congrArg Prod.fst (update_spec e p t.check t.proc false hok).1
  simp only [Bool.false_eq_true, if_false] at hu
  show ((s.fetch e t f p).1.update e p t.check t.proc false).1.u = (updateFromNewState e t.check t.proc (fetchBoth e t f s.u).1).1
  rw [hu, h1]

theorem Reach.ok {e : Env} {s : MState} (h : Reach e s) : s.Ok := by
  induction h with
  | init a b => exact ⟨⟨rfl, nofun⟩, ⟨rfl, nofun⟩⟩
  | startup s t f p _ ih => exact (startup_spec e t f p ih).2.ok
  | refresh s t f p _ ih => exact (refresh_spec e t f p ih).2.ok

/-! ## C127: the loaded file -/

/-- **C127.** With the lists in memory, where `FilterAssert` writes into arrays that are in use: the loaded file is at all times what was decoded, and everything but the exported lists evolves as in the model with
lists as values, so that what was proved there (C49-C56, C80-C82, C115) holds of the program. -/
theorem C127_loaded {e : Env} {s : MState} (h : Reach e s) :
    Reached e s.u ∧ s.roas.map s.memV.read = s.u.lastdata.roas ∧ s.keys.map s.memK.read = s.u.lastdata.keys ∧
    ∀ t f p, (s.startup e t f p).u = StayRTR.startup e t f s.u ∧ (s.refresh e t f p).u = StayRTR.refresh e t f s.u := by
  refine ⟨?_, h.ok.roas.read, h.ok.keys.read, fun t f p => ⟨(startup_spec e t f p h.ok).1, (refresh_spec e t f p h.ok).1⟩⟩
  induction h with
  | init a b => exact .init a b
  | startup s t f p h ih => rw [(startup_spec e t f p h.ok).1]; exact .startup _ _ _ ih
  | refresh s t f p h ih => rw [(refresh_spec e t f p h.ok).1]; exact .refresh _ _ _ ih

/-! ## C128: what is exported -/

/-- **C128** in full: what the exporter sends is the lists that were exported when it was called, though it reads them without the lock while refreshing goes on. -/
def ExportKept (e : Env) : Prop := ∀ s s', Reach e s → Later e s s' → s.exporter s' = (s.u.exported.roas, s.u.exported.keys)

theorem slurm_fetch (e : Env) (t : Times) (f : Fetched) (u : UState) (h : ∀ c, u.slurm = some c → ∃ b, e.decodeSlurm b = some c) :
    ∀ c, (fetchBoth e t f u).1.slurm = some c → ∃ b, e.decodeSlurm b = some c := by
  have hs : ∀ file o, ∀ c, (updateSlurm e file o u).1.slurm = some c → ∃ b, e.decodeSlurm b = some c := by
    intro file o c hc
    rw [updateSlurm_eq] at hc
    simp only at hc
    split at hc
    · exact h c hc
    · rename_i d _
      split at hc
      · exact h c hc
      · split at hc
        · exact h c hc
        · rename_i c' hd; cases hc; exact ⟨d, hd⟩
  intro c hc
  unfold fetchBoth at hc
  cases hf : f.slurm with
  | none =>
    rw [hf] at hc
    simp only at hc
    rw [(updateFile_frame ..).2.1] at hc
    exact h c hc
  | some x =>
    rw [hf] at hc
    simp only at hc
    rw [(updateFile_frame ..).2.1] at hc
    exact hs _ _ c hc

/-- The local exceptions come from a file. -/
theorem Reach.slurm {e : Env} {s : MState} (h : Reach e s) : ∀ c, s.u.slurm = some c → ∃ b, e.decodeSlurm b = some c := by
  induction h with
  | init a b => nofun
  | startup s t f p h ih =>
    rw [(startup_spec e t f p h.ok).2.slurm, (fetch_spec e t f p s).1]
    exact slurm_fetch e t f s.u ih
  | refresh s t f p h ih =>
    rw [(refresh_spec e t f p h.ok).2.slurm, (fetch_spec e t f p s).1]
    exact slurm_fetch e t f s.u ih

theorem fetch_good (e : Env) (t : Times) (f : Fetched) (p : Spare) (s : MState) (A : List VRPJson) (K : List BgpSecKeyJson) :
    (∀ x, s.memV.Good s.roas A x → (s.fetch e t f p).1.memV.Good (s.fetch e t f p).1.roas A x ∧ (s.fetch e t f p).1.memV.read x = s.memV.read x) ∧
    (∀ x, s.memK.Good s.keys K x → (s.fetch e t f p).1.memK.Good (s.fetch e t f p).1.keys K x ∧ (s.fetch e t f p).1.memK.read x = s.memK.read x) ∧
    (s.fetch e t f p).1.exportedRoas = s.exportedRoas ∧ (s.fetch e t f p).1.exportedKeys = s.exportedKeys ∧ (s.fetch e t f p).1.u.exported = s.u.exported := by
  obtain ⟨h1, _, h3⟩ := fetch_spec e t f p s
  have he : (s.fetch e t f p).1.u.exported = s.u.exported := by rw [h1]; exact (fetchBoth_frame e t f s.u).1.exported
  rcases h3 with ⟨h3, _⟩ | h3
  · refine ⟨?_, ?_, ?_, ?_, he⟩ <;> rw [h3]
    · exact fun x hx => ⟨hx, rfl⟩
    · exact fun x hx => ⟨hx, rfl⟩
  · obtain ⟨-, -, g1, g2, -, g3, g4⟩ := load_spec p (fetchBoth e t f s.u).1.lastdata ({ s with u := (fetchBoth e t f s.u).1 } : MState)
    refine ⟨?_, ?_, ?_, ?_, he⟩ <;> rw [h3]
    · exact fun x hx => g1 A x hx.valid
    · exact fun x hx => g2 K x hx.valid
    · exact g3
    · exact g4

/-- One step, from the fetches on, keeps all slices that are good. -/
theorem Upd.good {s s' : MState} (ok : s.Ok) (h : Upd s s') {A : List VRPJson} {K : List BgpSecKeyJson} (ht : ∀ c, s.u.slurm = some c → Tame c A K) :
    (∀ x, s.memV.Good s.roas A x → s'.memV.Good s'.roas A x ∧ s'.memV.read x = s.memV.read x) ∧
    (∀ x, s.memK.Good s.keys K x → s'.memK.Good s'.keys K x ∧ s'.memK.read x = s.memK.read x) := by
  obtain ⟨w1, w2, _⟩ := h.tame A K ht
  rw [h.roas, h.keys]
  exact ⟨fun x hx => ⟨hx.wrote ok.roas w1, (w1 x hx).2⟩, fun x hx => ⟨hx.wrote ok.keys w2, (w2 x hx).2⟩⟩

/-- What is exported is in memory, and stays there. -/
structure Exports (s : MState) (A : List VRPJson) (K : List BgpSecKeyJson) : Prop where
  roas : s.exportedRoas.map s.memV.read = s.u.exported.roas
  keys : s.exportedKeys.map s.memK.read = s.u.exported.keys
  goodV : ∀ x, s.exportedRoas = some x → s.memV.Good s.roas A x
  goodK : ∀ x, s.exportedKeys = some x → s.memK.Good s.keys K x

theorem map_read {α : Type} {m m' : Mem α} {o : Option MSlice} {v : Option (List α)} (h : o.map m.read = v) (hk : ∀ x, o = some x → m'.read x = m.read x) : o.map m'.read = v := by
  cases o with
  | none => exact h
  | some x => rw [← h]; simp [hk x rfl]

theorem Exports.fetch {s : MState} {A : List VRPJson} {K : List BgpSecKeyJson} (h : s.Exports A K) (e : Env) (t : Times) (f : Fetched) (p : Spare) : (s.fetch e t f p).1.Exports A K := by
  obtain ⟨h1, h2, h3, h4, h5⟩ := fetch_good e t f p s A K
  refine ⟨?_, ?_, ?_, ?_⟩
  · rw [h3, h5]; exact map_read h.roas (fun x hx => (h1 x (h.goodV x hx)).2)
  · rw [h4, h5]; exact map_read h.keys (fun x hx => (h2 x (h.goodK x hx)).2)
  · rw [h3]; exact fun x hx => (h1 x (h.goodV x hx)).1
  · rw [h4]; exact fun x hx => (h2 x (h.goodK x hx)).1

theorem Exports.upd {s s' : MState} {A : List VRPJson} {K : List BgpSecKeyJson} (h : s.Exports A K) (ok : s.Ok) (hu : Upd s s') (ht : ∀ c, s.u.slurm = some c → Tame c A K) : s'.Exports A K := by
  obtain ⟨g1, g2⟩ := hu.good ok ht
  obtain ⟨_, _, hc⟩ := hu.tame A K ht
  rcases hc with ⟨h1, h2, h3⟩ | ⟨x, y, h1, h2, h3, h4, h5, h6⟩
  · refine ⟨?_, ?_, ?_, ?_⟩
    · rw [h1, h3]; exact map_read h.roas (fun x hx => (g1 x (h.goodV x hx)).2)
    · rw [h2, h3]; exact map_read h.keys (fun x hx => (g2 x (h.goodK x hx)).2)
    · rw [h1]; exact fun x hx => (g1 x (h.goodV x hx)).1
    · rw [h2]; exact fun x hx => (g2 x (h.goodK x hx)).1
  · refine ⟨?_, ?_, ?_, ?_⟩
    · rw [h1, h5]; rfl
    · rw [h2, h6]; rfl
    · rw [h1, hu.roas]; intro z hz; cases hz; exact h3
    · rw [h2, hu.keys]; intro z hz; cases hz; exact h4

/-- **C128**, partial: it is so if all local exceptions that come without filters for VRPs assert the same VRPs, or none, and likewise for router keys: for instance without local exceptions, with a SLURM file that
is not changed, and with SLURM files that always have filters of both kinds. Missing: assertions that change, see below. -/
theorem C128_kept_partial {e : Env} {A : List VRPJson} {K : List BgpSecKeyJson} (ht : ∀ b c, e.decodeSlurm b = some c → Tame c A K) : ExportKept e := by
  have reach : ∀ s, Reach e s → s.Exports A K := by
    intro s h
    induction h with
    | init a b => exact ⟨rfl, rfl, nofun, nofun⟩
    | startup s t f p h ih =>
      refine (ih.fetch e t f p).upd (fetch_ok e t f p h.ok) (startup_spec e t f p h.ok).2 ?_
      intro c hc
      rw [(fetch_spec e t f p s).1] at hc
      obtain ⟨b, hb⟩ := slurm_fetch e t f s.u h.slurm c hc
      exact ht b c hb
    | refresh s t f p h ih =>
      refine (ih.fetch e t f p).upd (fetch_ok e t f p h.ok) (refresh_spec e t f p h.ok).2 ?_
      intro c hc
      rw [(fetch_spec e t f p s).1] at hc
      obtain ⟨b, hb⟩ := slurm_fetch e t f s.u h.slurm c hc
      exact ht b c hb
  intro s s' hs hl
  have hx := reach s hs
  have key : Reach e s' ∧ (∀ x, s.exportedRoas = some x → s'.memV.Good s'.roas A x ∧ s'.memV.read x = s.memV.read x) ∧
      (∀ x, s.exportedKeys = some x → s'.memK.Good s'.keys K x ∧ s'.memK.read x = s.memK.read x) := by
    induction hl with
    | now => exact ⟨hs, fun x h => ⟨hx.goodV x h, rfl⟩, fun x h => ⟨hx.goodK x h, rfl⟩⟩
    | refresh s' t f p _ ih =>
      obtain ⟨h0, h1, h2⟩ := ih
      obtain ⟨f1, f2, _⟩ := fetch_good e t f p s' A K
      obtain ⟨g1, g2⟩ := (refresh_spec e t f p h0.ok).2.good (fetch_ok e t f p h0.ok) (A := A) (K := K) (by
        intro c hc
        rw [(fetch_spec e t f p s').1] at hc
        obtain ⟨b, hb⟩ := slurm_fetch e t f s'.u h0.slurm c hc
        exact ht b c hb)
      refine ⟨.refresh _ _ _ _ h0, fun x hx => ?_, fun x hx => ?_⟩
      · obtain ⟨a1, a2⟩ := h1 x hx
        obtain ⟨b1, b2⟩ := f1 x a1
        obtain ⟨c1, c2⟩ := g1 x b1
        exact ⟨c1, c2.trans (b2.trans a2)⟩
      · obtain ⟨a1, a2⟩ := h2 x hx
        obtain ⟨b1, b2⟩ := f2 x a1
        obtain ⟨c1, c2⟩ := g2 x b1
        exact ⟨c1, c2.trans (b2.trans a2)⟩
  unfold exporter
  rw [map_read hx.roas (fun x h => (key.2.1 x h).2), map_read hx.keys (fun x h => (key.2.2 x h).2)]

/-- A VRP of the file of the example: `n.0.0.0/8`. -/
def exRoa (n : Nat) : VRPJson := ⟨decStr n ++ ".0.0.0/8".toList, 8, .uint32 1, [], none⟩
/-- An assertion of it. -/
def exAssert (n : Nat) : PrefixAssertion := ⟨decStr n ++ ".0.0.0/8".toList, 1, 8, []⟩

/-- A file with five VRPs, and two SLURM files: one asserts a sixth VRP, the other one the first VRP again, and the sixth. -/
def exSharing : Env :=
  { exEnv false with
    decode := fun _ => some ⟨⟨5, exEpoch, none⟩, some [exRoa 11, exRoa 12, exRoa 13, exRoa 14, exRoa 15], none⟩
    decodeSlurm := fun b => some ⟨[], [], if b = [1] then [exAssert 16] else [exAssert 11, exAssert 16], []⟩ }

/-- Room for eight VRPs, as `append` would allocate for five (3 spare); no other spare room. -/
def exSpare : Spare := ⟨List.replicate 3 ⟨[], 0, .other, [], none⟩, [], [], [], [], []⟩

/-- The program has started, with the first SLURM file. -/
def exShared1 : MState := (MState.init true true).startup exSharing (exAt 0) ⟨exFile, .file (some [3]), some ("slurm".toList, .file (some [1]))⟩ exSpare
/-- Then the second SLURM file was loaded. -/
def exShared2 : MState := exShared1.refresh exSharing (exAt 600) ⟨exFile, .file (some [3]), some ("slurm".toList, .file (some [2]))⟩ exSpare

theorem exShared_reach : Reach exSharing exShared1 ∧ Later exSharing exShared1 exShared2 := ⟨.startup _ _ _ _ (.init _ _), .refresh _ _ _ _ .now⟩

/-- The code does not have this property. `FilterAssert` without filters appends the assertions to the slice of the loaded file, in its array, where the assertions of the last update are, which are exported. Here a
second SLURM file overwrites the sixth VRP of the export with the first; the served set stays the same, so nothing new is exported, and from then on the sixth VRP is served but not in the export, and a response that
was being written changes under the hands of the encoder. -/
theorem C128_overwritten_false : ¬ ExportKept exSharing ∧
    exShared1.exporter exShared1 = (some [exRoa 11, exRoa 12, exRoa 13, exRoa 14, exRoa 15, exRoa 16], some []) ∧
    exShared1.exporter exShared2 = (some [exRoa 11, exRoa 12, exRoa 13, exRoa 14, exRoa 15, exRoa 11], some []) ∧
    exShared2.exporter exShared2 = exShared1.exporter exShared2 ∧
    exShared2.u.store.current = exShared1.u.store.current ∧ Rec.vrp ⟨.v4 0x10000000, 9⟩ 8 1 ∈ records exShared2.u.store.current := by
  have h1 : exShared1.exporter exShared2 = (some [exRoa 11, exRoa 12, exRoa 13, exRoa 14, exRoa 15, exRoa 11], some []) := by decide +kernel
  refine ⟨fun h => ?_, by decide +kernel, h1, by decide +kernel, by decide +kernel, by decide +kernel⟩
  have := h _ _ exShared_reach.1 exShared_reach.2
  rw [h1] at this
  exact absurd this (by decide +kernel)

/-- Non-vacuity of the partial theorem: the same file, with a SLURM file that does not change; the sixth VRP is exported, from the array of the file. -/
example : (∀ b c, ({ exSharing with decodeSlurm := fun _ => exSharing.decodeSlurm [1] } : Env).decodeSlurm b = some c → Tame c [exRoa 16] []) ∧
    exShared1.exportedRoas = some ⟨0, 6⟩ ∧ exShared1.roas = some ⟨0, 5⟩ := by
  refine ⟨?_, by decide +kernel, by decide +kernel⟩
  intro b c h
  cases h
  exact ⟨fun _ => .inl (by decide +kernel), fun _ => .inr rfl⟩

end MState

end StayRTR
