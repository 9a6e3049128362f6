import Verif.Model.Settle
import Verif.Props.Exceptions
import Verif.Props.Whole

/-!
C176: servers behind a server settle (README.md:241-243; cmd/stayrtr/stayrtr.go:461-496, 564-637). C178: with local exceptions of their own.
-/

namespace StayRTR
open Spec Slurm

namespace Spec

/-- The servers between the first one and this one, from the first one on. -/
inductive PathTo (parent : Nat → Nat) : List Nat → Nat → Prop
  | first : PathTo parent [] 0
  | next {l : List Nat} {i : Nat} (hi : i ≠ 0) (h : PathTo parent l (parent i)) : PathTo parent (l ++ [i]) i

/-- What becomes of the records on their way through servers with local exceptions: each removes what its filters match and adds what it asserts. -/
def throughExceptions (exc : Nat → Option Slurm) (S : Rec → Prop) (path : List Nat) : Rec → Prop :=
  path.foldl (fun S i r => match exc i with
    | none => S r
    | some c => (S r ∧ ¬ RemovedBy c r) ∨ AssertedBy c r) S

end Spec

/-- What holds of a server behind another one: nothing it knows expires; it serves what it loaded last with the local exceptions it has, if that has VRPs and is not too old at the time `T`; and the hash is of that. -/
structure FollowerOk (e : Env) (T : Int) (s : UState) : Prop where
  last : NoExpiry s.lastdata
  given : NoExpiry s.exported
  nil : s.lastdata.roas = none → s.lastdata.keys = none
  served : s.lastdata.roas ≠ none → (e.checktime = true → Fresh e s.lastdata T) → ∀ now r, Served s r ↔ FileWants e.wide now s.slurm s.lastdata r
  hash : s.hashCache = none ∨ ∃ b, s.hashCache = some (e.sha b) ∧ e.decode b = some s.lastdata

theorem fresh_before {e : Env} {l : RPKIList} {now now' : Int} (h : Fresh e l now') (hle : now ≤ now') : Fresh e l now :=
  let ⟨b, hb, hn⟩ := h
  ⟨b, hb, hle.trans hn⟩

theorem Spec.NoExpiry.asks {l : RPKIList} (h : NoExpiry l) (wide : WideFloat) (now now' : Int) (r : Rec) : Asks wide l now r ↔ Asks wide l now' r :=
  ⟨wanted_no_expiry _ _ _ _ _ h.1 h.2 r, wanted_no_expiry _ _ _ _ _ h.1 h.2 r⟩

theorem followerOk_init (e : Env) (T : Int) (a b : Bool) : FollowerOk e T (UState.init a b) where
  last := by constructor <;> intro x hx <;> cases hx
  given := by constructor <;> intro x hx <;> cases hx
  nil := fun _ => rfl
  served := fun h => absurd rfl h
  hash := .inl rfl

theorem Spec.NoExpiry.wants {l : RPKIList} (h : NoExpiry l) (wide : WideFloat) (c : Option Slurm) (now now' : Int) (r : Rec) : FileWants wide now c l r ↔ FileWants wide now' c l r := by
  cases c with
  | none => exact h.asks wide now now' r
  | some c => rw [C175_records, C175_records, h.asks wide now now' r]

theorem afterExceptions_keeps (e : Env) (f : Fetched) (s : UState) :
    (afterExceptions e f s).lastdata = s.lastdata ∧ (afterExceptions e f s).hashCache = s.hashCache ∧ (afterExceptions e f s).exported = s.exported ∧ (afterExceptions e f s).store = s.store := by
  unfold afterExceptions
  split
  · rw [updateSlurm_eq]
    simp only
    split
    · exact ⟨rfl, rfl, rfl, rfl⟩
    · split
      · exact ⟨rfl, rfl, rfl, rfl⟩
      · split <;> exact ⟨rfl, rfl, rfl, rfl⟩
  · exact ⟨rfl, rfl, rfl, rfl⟩

theorem fetchBoth_first (e : Env) (t : Times) (f : Fetched) (s : UState) : (fetchBoth e t f s).1 = (updateFile e t.start t.change f.file f.cache (afterExceptions e f s)).1 := by
  unfold fetchBoth afterExceptions
  cases f.slurm <;> rfl

theorem loadOnce_keeps (first : Bool) (e : Env) (t : Times) (f : Fetched) (s : UState) :
    (loadOnce first e t f s).lastdata = (fetchBoth e t f s).1.lastdata ∧ (loadOnce first e t f s).hashCache = (fetchBoth e t f s).1.hashCache ∧ (loadOnce first e t f s).slurm = (fetchBoth e t f s).1.slurm := by
  unfold loadOnce startup refresh
  cases first
  · simp only [Bool.false_eq_true, if_false]; exact ⟨(afterFetch_keeps ..).1, (afterFetch_keeps ..).2.2.1, (afterFetch_keeps ..).2.1⟩
  · simp only [if_true]; exact ⟨(startup_keeps ..).1, (startup_keeps ..).2.2.1, (startup_keeps ..).2.1⟩

/-- The export is that of before, or lists the loaded file with the local exceptions. -/
theorem loadOnce_exported (first : Bool) (e : Env) (t : Times) (f : Fetched) (s : UState) : (loadOnce first e t f s).exported = s.exported ∨
    ((loadOnce first e t f s).exported.roas.getD [], (loadOnce first e t f s).exported.keys.getD []) = withExceptions e.wide (loadOnce first e t f s).slurm (loadOnce first e t f s).lastdata := by
  obtain ⟨k1, -, k3⟩ := loadOnce_keeps first e t f s
  rw [k1, k3]
  obtain ⟨hfr, -⟩ := fetchBoth_frame e t f s
  have hq : ∀ u, u.exported = s.exported → ((applied e t.proc u).exported = s.exported ∨ ((applied e t.proc u).exported.roas.getD [], (applied e t.proc u).exported.keys.getD []) = withExceptions e.wide u.slurm u.lastdata) := by
    intro u hu
    rcases applied_cases e t.proc u with h | ⟨-, -, -, -, h, -⟩
    · exact .inl (by rw [h]; exact hu)
    · refine .inr ?_
      rw [h]
      simp
  cases first with
  | true =>
    have hs : loadOnce true e t f s = (updateFromNewState e t.check t.proc (fetchBoth e t f s).1).1 := rfl
    rw [hs, updateFromNewState_eq]
    split
    · exact .inl hfr.exported
    · split
      · exact hq _ hfr.exported
      · exact .inl hfr.exported
  | false =>
    have hs : loadOnce false e t f s = afterFetch e t (fetchBoth e t f s).2 (fetchBoth e t f s).1 := rfl
    rw [hs]
    rcases afterFetch_cases e t (fetchBoth e t f s).2 (fetchBoth e t f s).1 with h | ⟨h, -⟩ | ⟨h, -⟩
    · rw [h]; exact .inl hfr.exported
    · rw [h]; exact hq _ hfr.exported
    · rw [h]; exact .inl hfr.exported

/-- Local exceptions have no expiry times. -/
theorem withExceptions_noExpiry {l : RPKIList} (h : NoExpiry l) (wide : WideFloat) (c : Option Slurm) :
    (∀ v ∈ (withExceptions wide c l).1, v.expires = none) ∧ ∀ k ∈ (withExceptions wide c l).2, k.expires = none := by
  cases c with
  | none => exact h
  | some c =>
    simp only [withExceptions, filterAssert, List.mem_append]
    refine ⟨fun v hv => ?_, fun k hk => ?_⟩
    · rcases hv with hv | hv
      · rw [filterOnVRPs_eq] at hv
        exact h.1 v (List.mem_filter.1 hv).1
      · obtain ⟨x, -, hx⟩ := List.mem_filterMap.1 hv
        unfold assertVRP at hx
        split at hx
        · cases hx
        · rw [← Option.some.inj hx]
    · rcases hk with hk | hk
      · rw [filterOnBRKs_eq] at hk
        exact h.2 k (List.mem_filter.1 hk).1
      · obtain ⟨x, -, rfl⟩ := List.mem_map.1 hk
        rfl

theorem follower_step {e : Env} (hs : e.sort.Ok) (hinj : ∀ a b, e.sha a = e.sha b → a = b) {s : UState} {T : Int} (h : Reached e s) (hok : FollowerOk e T s) (first : Bool) (t : Times) (ht : T ≤ t.check) (f : Fetched)
    (hdat : ∀ b, delivered (afterExceptions e f s).fetch f.file f.cache = some b → ∃ l, e.decode b = some l ∧ NoExpiry l ∧ (l.roas = none → l.keys = none)) :
    FollowerOk e t.check (loadOnce first e t f s) ∧ (∀ b, delivered (afterExceptions e f s).fetch f.file f.cache = some b → e.decode b = some (loadOnce first e t f s).lastdata) ∧
    ((fetchBoth e t f s).2 = false ∨ delivered (afterExceptions e f s).fetch f.file f.cache = none ∧ (loadOnce first e t f s).slurm = s.slurm ∧ (e.checktime = true → Fresh e s.lastdata t.check) → (loadOnce first e t f s).lastdata = s.lastdata ∧ (loadOnce first e t f s).slurm = s.slurm ∧
      ((loadOnce first e t f s).store = s.store ∨ ∀ now r, Served (loadOnce first e t f s) r ↔ FileWants e.wide now s.slurm s.lastdata r)) := by
  obtain ⟨p1, p2, p3⟩ := loadOnce_keeps first e t f s
  have q3 := loadOnce_exported first e t f s
  obtain ⟨hfr, hsame, -⟩ := fetchBoth_frame e t f s
  have hserve : ((fetchBoth e t f s).2 = true ∨ first = true) → (loadOnce first e t f s).lastdata.roas ≠ none → (e.checktime = true → Fresh e (loadOnce first e t f s).lastdata t.check) →
      ∀ r, Served (loadOnce first e t f s) r ↔ FileWants e.wide (seconds t.proc) (loadOnce first e t f s).slurm (loadOnce first e t f s).lastdata r := by
    intro hu hr hf
    cases first with
    | false => exact C53_served_partial e hs t f h (by simpa using hu) hr hf
    | true => exact C53_start_partial e hs t f h hr hf
  have hold : (fetchBoth e t f s).2 = false → first = false → (loadOnce first e t f s).lastdata = s.lastdata ∧ (loadOnce first e t f s).slurm = s.slurm ∧
      ((loadOnce first e t f s).store = s.store ∨ ∀ r, Served (loadOnce first e t f s) r ↔ FileWants e.wide (seconds t.proc) s.slurm s.lastdata r) := by
    rintro hu rfl
    exact C49_refresh_partial e hs t f h hu
  have hstart : first = true → ((loadOnce first e t f s).lastdata.roas = none ∨ ¬ (e.checktime = true → Fresh e (loadOnce first e t f s).lastdata t.check)) → (loadOnce first e t f s).store = s.store := by
    rintro rfl hno
    rcases hno with h0 | h0
    · rw [p1] at h0
      have hq : loadOnce true e t f s = (updateFromNewState e t.check t.proc (fetchBoth e t f s).1).1 := rfl
      rw [hq, updateFromNewState_eq, if_pos h0]
      exact hfr.store
    · rw [Classical.not_imp] at h0
      exact (C50_stale e hs h0.1 t f h).2 h0.2
  have hparts : (NoExpiry (fetchBoth e t f s).1.lastdata ∧ ((fetchBoth e t f s).1.lastdata.roas = none → (fetchBoth e t f s).1.lastdata.keys = none)) ∧
      ((fetchBoth e t f s).1.hashCache = none ∨ ∃ b, (fetchBoth e t f s).1.hashCache = some (e.sha b) ∧ e.decode b = some (fetchBoth e t f s).1.lastdata) ∧
      (∀ b, delivered (afterExceptions e f s).fetch f.file f.cache = some b → e.decode b = some (fetchBoth e t f s).1.lastdata) ∧
      (delivered (afterExceptions e f s).fetch f.file f.cache = none → (fetchBoth e t f s).1.lastdata = s.lastdata) := by
    obtain ⟨a1, a2, -, -⟩ := afterExceptions_keeps e f s
    rw [fetchBoth_first, updateFile_eq]
    simp only
    cases hdl : delivered (afterExceptions e f s).fetch f.file f.cache with
    | none =>
      simp only [a1, a2]
      exact ⟨⟨hok.last, hok.nil⟩, hok.hash, fun b hb => (by cases hb), fun _ => trivial⟩
    | some d =>
      obtain ⟨l, hl, hx⟩ := hdat d hdl
      simp only
      split
      · rename_i hh
        simp only [a1, a2] at hh ⊢
        refine ⟨⟨hok.last, hok.nil⟩, hok.hash, fun b hb => ?_, fun h0 => by cases h0⟩
        rcases hok.hash with h0 | ⟨b', h1, h2⟩
        · rw [h0] at hh; cases hh
        · rw [h1] at hh
          rw [← Option.some.inj hb, ← hinj _ _ (Option.some.inj hh)]
          exact h2
      · rw [hl]
        exact ⟨hx, .inr ⟨d, rfl, hl⟩, fun b hb => by rw [← Option.some.inj hb]; exact hl, fun h0 => by cases h0⟩
  obtain ⟨⟨n1, n5⟩, n2, n3, n6⟩ := hparts
  rw [← p1] at n1 n2 n3 n5 n6
  rw [← p2] at n2
  have hnil : (fetchBoth e t f s).1.lastdata.roas = none → (loadOnce first e t f s).store = s.store := by
    intro h0
    cases first with
    | true => exact hstart rfl (.inl (by rw [p1]; exact h0))
    | false =>
      have hq : loadOnce false e t f s = afterFetch e t (fetchBoth e t f s).2 (fetchBoth e t f s).1 := rfl
      rw [hq]
      rcases afterFetch_cases e t (fetchBoth e t f s).2 (fetchBoth e t f s).1 with h1 | ⟨-, h1, -⟩ | ⟨-, -, h1, -⟩
      · rw [h1]; exact hfr.store
      · exact absurd h0 h1
      · exact absurd h0 h1
  refine ⟨⟨n1, ?_, n5, fun hr hf now r => ?_, n2⟩, n3, fun hnone => ?_⟩
  · rcases q3 with q3 | q3
    · rw [q3]; exact hok.given
    · have := withExceptions_noExpiry n1 e.wide (loadOnce first e t f s).slurm
      rw [← q3] at this
      exact this
  · by_cases hu : (fetchBoth e t f s).2 = true ∨ first = true
    · rw [hserve hu hr hf r]
      exact n1.wants e.wide _ (seconds t.proc) now r
    · rw [not_or, Bool.not_eq_true, Bool.not_eq_true] at hu
      obtain ⟨a, a', b⟩ := hold hu.1 hu.2
      rw [a] at hr hf ⊢
      rw [a']
      rcases b with b | b
      · unfold Served
        rw [b]
        exact hok.served hr (fun hc => fresh_before (hf hc) ht) now r
      · rw [b r]
        exact hok.last.wants e.wide _ (seconds t.proc) now r
  · rcases hnone with hnone | ⟨hnone, m2, hfresh⟩
    rotate_left
    · refine ⟨n6 hnone, m2, ?_⟩
      by_cases hr : (fetchBoth e t f s).1.lastdata.roas = none
      · exact .inl (hnil hr)
      · refine .inr fun now r => ?_
        by_cases hu : (fetchBoth e t f s).2 = true ∨ first = true
        · rw [hserve hu (by rw [p1]; exact hr) (by rw [n6 hnone]; exact hfresh) r, n6 hnone, m2]
          exact hok.last.wants e.wide _ (seconds t.proc) now r
        · rw [not_or, Bool.not_eq_true, Bool.not_eq_true] at hu
          rcases (hold hu.1 hu.2).2.2 with b | b
          · unfold Served
            rw [b]
            rw [← p1, n6 hnone] at hr
            exact hok.served hr (fun hc => fresh_before (hfresh hc) ht) now r
          · rw [b r]
            exact hok.last.wants e.wide _ (seconds t.proc) now r
    obtain ⟨m1, m2⟩ := hsame hnone
    refine ⟨p1.trans m1, p3.trans m2, ?_⟩
    by_cases hf : first = true
    · by_cases hno : (loadOnce first e t f s).lastdata.roas = none ∨ ¬ (e.checktime = true → Fresh e (loadOnce first e t f s).lastdata t.check)
      · exact .inl (hstart hf hno)
      · rw [not_or, not_not] at hno
        refine .inr fun now r => ?_
        rw [hserve (.inr hf) hno.1 hno.2 r, p1, p3, m1, m2]
        exact hok.last.wants e.wide _ (seconds t.proc) now r
    · rw [Bool.not_eq_true] at hf
      rcases (hold hnone hf).2.2 with b | b
      · exact .inl b
      · refine .inr fun now r => ?_
        rw [b r]
        exact hok.last.wants e.wide _ (seconds t.proc) now r

/-- What holds of all servers. -/
structure AllOk (e : Nat → Env) (clock : Nat → Int) (σ : Servers) : Prop where
  reached : ∀ i, Reached (e i) (σ i)
  first : NoExpiry (σ 0).exported
  follower : ∀ i, i ≠ 0 → FollowerOk (e i) (clock i) (σ i)

theorem AllOk.given {e : Nat → Env} {clock : Nat → Int} {σ : Servers} (h : AllOk e clock σ) (i : Nat) : NoExpiry (σ i).exported := by
  by_cases hi : i = 0
  · rw [hi]; exact h.first
  · exact (h.follower i hi).given

theorem AllOk.upd {e : Nat → Env} {clock : Nat → Int} {σ : Servers} (h : AllOk e clock σ) (i : Nat) (T : Int) {s : UState} (hr : Reached (e i) s) (h0 : i = 0 → NoExpiry s.exported) (hf : i ≠ 0 → FollowerOk (e i) T s) :
    AllOk e (clockTo clock i T) (σ.upd i s) := by
  unfold Servers.upd clockTo
  refine ⟨fun j => ?_, ?_, fun j hj => ?_⟩
  · by_cases hji : j = i
    · subst hji; simp only [if_true]; exact hr
    · simp only [if_neg hji]; exact h.reached j
  · by_cases hji : 0 = i
    · simp only [if_pos hji]; exact h0 hji.symm
    · simp only [if_neg hji]; exact h.first
  · by_cases hji : j = i
    · subst hji; simp only [if_true]; exact hf hj
    · simp only [if_neg hji]; exact h.follower j hj

theorem AllOk.lead {e : Nat → Env} {clock : Nat → Int} {σ : Servers} (h : AllOk e clock σ) {s : UState} (hr : Reached (e 0) s) (h0 : NoExpiry s.exported) : AllOk e clock (σ.upd 0 s) := by
  have := h.upd 0 (clock 0) hr (fun _ => h0) fun hx => absurd rfl hx
  have hc : clockTo clock 0 (clock 0) = clock := by funext j; unfold clockTo; split <;> simp [*]
  rw [hc] at this
  exact this

theorem reread_noExpiry {e : Env} (hd : e.decode = decodeFile) {p : UState} (h : Reached e p) (hlen : (p.exported.roas.getD []).length < 2 ^ 63) (hx : NoExpiry p.exported) (wide : WideFloat) :
    ∃ l, decodeFile (exportFile p) = some l ∧ ((NoExpiry l ∧ (l.roas = none → l.keys = none)) ∧ l.metadata.generated = none ∧ l.metadata.buildtime = p.exported.metadata.buildtime) ∧ ∀ now r, Asks wide l now r ↔ Asks wide p.exported now r := by
  obtain ⟨k1, k2⟩ := reread_export hd h hlen wide
  obtain ⟨-, -, -, hg, hnil⟩ := reached_read hd h
  refine ⟨_, k1, ⟨⟨hx.reread, fun h0 => ?_⟩, hg, rfl⟩, k2⟩
  unfold rereadList at h0 ⊢
  simp only [Option.map_eq_none_iff] at h0
  simp [hnil h0]

/-- In every run in which nothing the first server exports expires. -/
theorem run_ok {e : Nat → Env} {parent : Nat → Nat} (hd : ∀ i, (e i).decode = decodeFile) (hs : ∀ i, (e i).sort.Ok)
    (hinj : ∀ i a b, (e i).sha a = (e i).sha b → a = b) {clock : Nat → Int} {h : List Servers} (run : ServersAt e parent clock h) (hlen : ∀ τ ∈ h, ∀ i, ((τ i).exported.roas.getD []).length < 2 ^ 63)
    (hx : ∀ τ ∈ h, NoExpiry (τ 0).exported) : (∀ τ ∈ h, (∀ i, Reached (e i) (τ i)) ∧ ∀ i, NoExpiry (τ i).exported) ∧ ∀ σ, h.head? = some σ → AllOk e clock σ := by
  have push : ∀ {σ : Servers} {h : List Servers} {clock clock' : Nat → Int} {σ' : Servers},
      ((∀ τ ∈ σ :: h, (∀ i, Reached (e i) (τ i)) ∧ ∀ i, NoExpiry (τ i).exported) ∧ ∀ σ₁, (σ :: h).head? = some σ₁ → AllOk e clock σ₁) → AllOk e clock' σ' →
      (∀ τ ∈ σ' :: σ :: h, (∀ i, Reached (e i) (τ i)) ∧ ∀ i, NoExpiry (τ i).exported) ∧ ∀ σ₁, (σ' :: σ :: h).head? = some σ₁ → AllOk e clock' σ₁ := by
    intro σ h clock clock' σ' inv hok
    refine ⟨fun τ hτ => ?_, fun σ₁ h₁ => ?_⟩
    · rcases List.mem_cons.1 hτ with rfl | hτ
      · exact ⟨hok.reached, hok.given⟩
      · exact inv.1 τ hτ
    · rw [← Option.some.inj h₁]; exact hok
  induction run with
  | start clock a b =>
    have hok : AllOk e clock (fun i => UState.init (a i) (b i)) := ⟨fun i => .init _ _, (followerOk_init (e 0) 0 (a 0) (b 0)).given, fun i _ => followerOk_init _ _ _ _⟩
    refine ⟨fun τ hτ => ?_, fun σ₁ h₁ => ?_⟩
    · rw [List.mem_singleton.1 hτ]; exact ⟨hok.reached, hok.given⟩
    · rw [← Option.some.inj h₁]; exact hok
  | again i a b now r ih =>
    have inv := ih (fun τ hτ => hlen τ (List.mem_cons_of_mem _ hτ)) (fun τ hτ => hx τ (List.mem_cons_of_mem _ hτ))
    exact push inv ((inv.2 _ rfl).upd i now (.init a b) (fun _ => (followerOk_init (e 0) 0 a b).given) fun _ => followerOk_init _ _ _ _)
  | lead first t f r ih =>
    have inv := ih (fun τ hτ => hlen τ (List.mem_cons_of_mem _ hτ)) (fun τ hτ => hx τ (List.mem_cons_of_mem _ hτ))
    refine push inv ((inv.2 _ rfl).lead (loadOnce_reached ((inv.2 _ rfl).reached 0) ..) ?_)
    have := hx _ List.mem_cons_self
    simpa [Servers.upd] using this
  | @follow clock σ h i hi first t ht f ho r ih =>
    have inv := ih (fun τ hτ => hlen τ (List.mem_cons_of_mem _ hτ)) (fun τ hτ => hx τ (List.mem_cons_of_mem _ hτ))
    have hok := inv.2 σ rfl
    refine push inv (hok.upd i t.check (loadOnce_reached (hok.reached i) ..) (fun h0 => absurd h0 hi) fun _ => ?_)
    refine (follower_step (hs i) (hinj i) (hok.reached i) (hok.follower i hi) first t ht f fun b hb => ?_).1
    unfold delivered at hb
    split at hb
    · rename_i herr
      obtain ⟨τ, hτ, hdat⟩ := ho herr
      obtain ⟨l, k1, k2, -⟩ := reread_noExpiry (hd (parent i)) ((inv.1 τ hτ).1 (parent i)) (hlen τ (List.mem_cons_of_mem _ hτ) (parent i)) ((inv.1 τ hτ).2 (parent i)) (e i).wide
      exact ⟨l, by rw [← Option.some.inj hb, hdat, hd i]; exact k1, k2.1⟩
    · cases hb

/-- A server behind another one that serves what it loaded, which is something, exports that. -/
theorem follower_asks {wide : WideFloat} {e : Env} (hs : e.sort.Ok) (hw : e.wide = wide) {s : UState} {T : Int} (h : Reached e s) (hok : FollowerOk e T s) {S : Rec → Prop} (hS : ∃ r, S r) (hl : ∀ r, Served s r ↔ S r) (now : Int) (r : Rec) :
    Asks wide s.exported now r ↔ S r := by
  rcases C71_listed_partial hs h with h0 | ⟨t, ht⟩
  · obtain ⟨r, hr⟩ := hS
    have := (hl r).2 hr
    unfold Served at this
    rw [h0] at this
    simp [records] at this
  · rw [hok.given.asks wide now t r, ← hl, ht, hw, Asks]

theorem asks_roas {wide : WideFloat} {l : RPKIList} (hnil : l.roas = none → l.keys = none) {now : Int} {r : Rec} (h : Asks wide l now r) : l.roas ≠ none := by
  intro h0
  unfold Asks at h
  rw [h0, hnil h0] at h
  cases r <;> simp [Wanted] at h

theorem through_snoc (exc : Nat → Option Slurm) (S : Rec → Prop) (path : List Nat) (i : Nat) (r : Rec) :
    throughExceptions exc S (path ++ [i]) r ↔ match exc i with | none => throughExceptions exc S path r | some c => (throughExceptions exc S path r ∧ ¬ RemovedBy c r) ∨ AssertedBy c r := by
  unfold throughExceptions
  rw [List.foldl_append]
  exact Iff.rfl

theorem through_none {exc : Nat → Option Slurm} (S : Rec → Prop) : ∀ {path : List Nat}, (∀ j ∈ path, exc j = none) → throughExceptions exc S path = S
  | [], _ => rfl
  | j :: path, h => by
    have h1 := h j List.mem_cons_self
    unfold throughExceptions
    rw [List.foldl_cons, h1]
    exact through_none S fun k hk => h k (List.mem_cons_of_mem _ hk)

/-- The state of all servers while they settle: every server to which there is a path in the list serves what has come through. -/
theorem settling_ok {wide : WideFloat} {e : Nat → Env} {parent : Nat → Nat} (hd : ∀ i, (e i).decode = decodeFile) (hs : ∀ i, (e i).sort.Ok) (hw : ∀ i, (e i).wide = wide)
    (hinj : ∀ i a b, (e i).sha a = (e i).sha b → a = b) {exc : Nat → Option Slurm} {clock₀ clock : Nat → Int} {σ₀ σ : Servers} {l : List Nat} (h₀ : AllOk e clock₀ σ₀) (h : Settling e parent exc clock₀ σ₀ clock σ l) :
    AllOk e clock σ ∧ (σ 0).exported = (σ₀ 0).exported ∧
    ∀ path i, path.Sublist l → PathTo parent path i → i ≠ 0 → (∀ q, q <+: path → q ≠ path → ∃ r, throughExceptions exc (Asks wide (σ₀ 0).exported 0) q r) →
      (∀ now r, FileWants wide now (σ i).slurm (σ i).lastdata r ↔ throughExceptions exc (Asks wide (σ₀ 0).exported 0) path r) ∧ ∀ r, Served (σ i) r ↔ throughExceptions exc (Asks wide (σ₀ 0).exported 0) path r := by
  induction h with
  | start =>
    refine ⟨h₀, rfl, fun path i hp hpath hi => ?_⟩
    rw [List.sublist_nil.1 hp] at hpath
    generalize hq : ([] : List Nat) = q at hpath
    cases hpath with
    | first => exact absurd rfl hi
    | next => simp at hq
  | @lead clock σ l first t f hx h ih =>
    obtain ⟨i1, i2, i3⟩ := ih
    refine ⟨i1.lead (loadOnce_reached (i1.reached 0) ..) (by rw [hx]; exact i1.first), ?_, fun path i hp hpath hi hq => ?_⟩
    · simp only [Servers.upd, if_true]; rw [hx, i2]
    · simp only [Servers.upd, if_neg hi]; exact i3 path i hp hpath hi hq
  | @fail clock σ l k hk first t ht f hdel hno h ih =>
    obtain ⟨i1, i2, i3⟩ := ih
    obtain ⟨s1, -, s3⟩ := follower_step (hs k) (hinj k) (i1.reached k) (i1.follower k hk) first t ht f (fun b hb => by rw [hdel] at hb; cases hb)
    refine ⟨i1.upd k t.check (loadOnce_reached (i1.reached k) ..) (fun h0 => absurd h0 hk) fun _ => s1, ?_, fun path i hp hpath hi hq => ?_⟩
    · simp only [Servers.upd, if_neg hk.symm]; exact i2
    · by_cases hik : i = k
      · subst hik
        simp only [Servers.upd, if_true]
        obtain ⟨a, a', b⟩ := s3 (hno.imp_right fun h => ⟨hdel, h⟩)
        obtain ⟨c, d⟩ := i3 path i hp hpath hi hq
        refine ⟨by rw [a, a']; exact c, fun r => ?_⟩
        rcases b with b | b
        · unfold Served
          rw [b]
          exact d r
        · rw [b 0 r, hw i, c]
      · simp only [Servers.upd, if_neg hik]; exact i3 path i hp hpath hi hq
  | @load clock σ l k hk first t ht f hdel hexc hlen hage h ih =>
    obtain ⟨i1, i2, i3⟩ := ih
    obtain ⟨m, k1, ⟨k2, hgen, hbt⟩, k3⟩ := reread_noExpiry (hd (parent k)) (i1.reached (parent k)) hlen (i1.given (parent k)) wide
    obtain ⟨s1, s2, -⟩ := follower_step (hs k) (hinj k) (i1.reached k) (i1.follower k hk) first t ht f
      (fun b hb => by rw [hdel] at hb; exact ⟨m, by rw [← Option.some.inj hb, hd k]; exact k1, k2⟩)
    have hlast := s2 _ hdel
    rw [hd k, k1] at hlast
    have hlast := (Option.some.inj hlast).symm
    have hfresh : (e k).checktime = true → Fresh (e k) m t.check := fun hc => by
      obtain ⟨b, hb, hle⟩ := hage hc
      exact ⟨b, .text b hgen (by rw [hbt]; exact hb), hle⟩
    refine ⟨i1.upd k t.check (loadOnce_reached (i1.reached k) ..) (fun h0 => absurd h0 hk) fun _ => s1, ?_, fun path i hp hpath hi hne => ?_⟩
    · simp only [Servers.upd, if_neg hk.symm]; exact i2
    · by_cases hik : i = k
      · subst hik
        simp only [Servers.upd, if_true]
        cases hpath with
        | first => exact absurd rfl hi
        | @next q _ _ hq =>
          have hsub := (List.append_sublist_append_right _).1 hp
          have hneq : ∃ r, throughExceptions exc (Asks wide (σ₀ 0).exported 0) q r := hne q (List.prefix_append _ _) (by simp)
          -- the export of the server before
          have hg : ∀ now r, Asks wide m now r ↔ throughExceptions exc (Asks wide (σ₀ 0).exported 0) q r := by
            intro now r
            rw [k3]
            by_cases h0 : parent i = 0
            · rw [h0] at hq ⊢
              have : q = [] := by
                generalize hz : (0 : Nat) = z at hq
                cases hq with
                | first => rfl
                | next hi' => exact absurd hz.symm hi'
              subst this
              rw [i2]
              exact h₀.first.asks wide now 0 r
            · refine follower_asks (hs _) (hw _) (i1.reached _) (i1.follower _ h0) hneq (i3 q (parent i) hsub hq h0 fun q' hq' hn => ?_).2 now r
              refine hne q' (hq'.trans (List.prefix_append _ _)) fun he => ?_
              have := hq'.length_le
              rw [he] at this
              simp at this
          obtain ⟨r0, hr0⟩ := hneq
          have hwant : ∀ now r, FileWants wide now (exc i) m r ↔ throughExceptions exc (Asks wide (σ₀ 0).exported 0) (q ++ [i]) r := by
            intro now r
            rw [through_snoc]
            cases exc i with
            | none => exact hg now r
            | some c => simp only; rw [C175_records, hg]
          have hserved := s1.served (by rw [hlast]; exact asks_roas k2.2 ((hg 0 r0).2 hr0)) (by rw [hlast]; exact hfresh)
          rw [hlast, hexc]
          refine ⟨hwant, fun r => ?_⟩
          rw [hserved 0 r, hlast, hexc, hw i, hwant]
      · simp only [Servers.upd, if_neg hik]
        refine i3 path i ?_ hpath hi hne
        cases hpath with
        | first => exact absurd rfl hi
        | @next q _ _ hq =>
          rcases List.sublist_append_iff.1 hp with ⟨l1, l2, he, hl1, hl2⟩
          rcases List.sublist_singleton.1 hl2 with rfl | rfl
          · rw [he, List.append_nil]; exact hl1
          · have := List.append_inj_right' he rfl
            exact absurd (List.singleton_inj.1 this) hik

/-- **C178** (partial: entries without expiry times, exports that have entries, clocks that do not go back, and different hashes of different files, as C176). Servers behind a server with local exceptions of their own: whatever happened before, once the first
server's export and all local exceptions stay as they are, every server serves what that export asks for, with the local exceptions of the servers on the way applied in that order, as soon as these have loaded the export of their server, the one next to
the first server first. -/
theorem C178_settle_partial {wide : WideFloat} {e : Nat → Env} {parent : Nat → Nat} (hd : ∀ i, (e i).decode = decodeFile) (hs : ∀ i, (e i).sort.Ok) (hw : ∀ i, (e i).wide = wide)
    (hinj : ∀ i a b, (e i).sha a = (e i).sha b → a = b) {exc : Nat → Option Slurm} {clock₀ clock : Nat → Int} {σ₀ : Servers} {h : List Servers} (run : ServersAt e parent clock₀ (σ₀ :: h))
    (hlen : ∀ τ ∈ σ₀ :: h, ∀ i, ((τ i).exported.roas.getD []).length < 2 ^ 63) (hx : ∀ τ ∈ σ₀ :: h, NoExpiry (τ 0).exported) {σ : Servers} {l : List Nat} (hset : Settling e parent exc clock₀ σ₀ clock σ l) {path : List Nat} {i : Nat}
    (hp : path.Sublist l) (hpath : PathTo parent path i) (hi : i ≠ 0) (hne : ∀ q, q <+: path → q ≠ path → ∃ r, throughExceptions exc (Asks wide (σ₀ 0).exported 0) q r) (r : Rec) :
    Served (σ i) r ↔ throughExceptions exc (Asks wide (σ₀ 0).exported 0) path r :=
  ((settling_ok hd hs hw hinj ((run_ok hd hs hinj run hlen hx).2 σ₀ rfl) hset).2.2 path i hp hpath hi hne).2 r

theorem through_filters {exc : Nat → Option Slurm} (S : Rec → Prop) (r : Rec) : ∀ {path : List Nat}, (∀ j ∈ path, ∀ c, exc j = some c → c.prefixAssertions = [] ∧ c.bgpsecAssertions = []) →
    (throughExceptions exc S path r ↔ S r ∧ ∀ j ∈ path, ∀ c, exc j = some c → ¬ RemovedBy c r) := by
  intro path
  induction path using List.reverseRecOn with
  | nil => intro _; simp [throughExceptions]
  | append_singleton q i ih =>
    intro h
    have ih := ih fun j hj => h j (List.mem_append_left _ hj)
    rw [through_snoc]
    have hi := h i (by simp)
    cases hc : exc i with
    | none =>
      simp only
      rw [ih]
      constructor
      · rintro ⟨a, b⟩
        refine ⟨a, fun j hj c hjc => ?_⟩
        rcases List.mem_append.1 hj with hj | hj
        · exact b j hj c hjc
        · rw [List.mem_singleton.1 hj, hc] at hjc; cases hjc
      · exact fun ⟨a, b⟩ => ⟨a, fun j hj => b j (List.mem_append_left _ hj)⟩
    | some c =>
      simp only
      have hno : ¬ AssertedBy c r := by
        obtain ⟨h1, h2⟩ := hi c hc
        cases r <;> simp [AssertedBy, h1, h2]
      rw [ih, or_iff_left hno]
      constructor
      · rintro ⟨⟨a, b⟩, d⟩
        refine ⟨a, fun j hj c' hjc => ?_⟩
        rcases List.mem_append.1 hj with hj | hj
        · exact b j hj c' hjc
        · rw [List.mem_singleton.1 hj, hc] at hjc
          rw [← Option.some.inj hjc]
          exact d
      · rintro ⟨a, b⟩
        exact ⟨⟨a, fun j hj => b j (List.mem_append_left _ hj)⟩, b i (by simp) c hc⟩

/-- **C178** (partial, as before). With filters only, the order of the servers is of no importance: what is served is what the first server exports and no filter on the way matches. -/
theorem C178_filters_partial {wide : WideFloat} {e : Nat → Env} {parent : Nat → Nat} (hd : ∀ i, (e i).decode = decodeFile) (hs : ∀ i, (e i).sort.Ok) (hw : ∀ i, (e i).wide = wide)
    (hinj : ∀ i a b, (e i).sha a = (e i).sha b → a = b) {exc : Nat → Option Slurm} {clock₀ clock : Nat → Int} {σ₀ : Servers} {h : List Servers} (run : ServersAt e parent clock₀ (σ₀ :: h))
    (hlen : ∀ τ ∈ σ₀ :: h, ∀ i, ((τ i).exported.roas.getD []).length < 2 ^ 63) (hx : ∀ τ ∈ σ₀ :: h, NoExpiry (τ 0).exported) {σ : Servers} {l : List Nat} (hset : Settling e parent exc clock₀ σ₀ clock σ l) {path : List Nat} {i : Nat}
    (hp : path.Sublist l) (hpath : PathTo parent path i) (hi : i ≠ 0) (hf : ∀ j ∈ path, ∀ c, exc j = some c → c.prefixAssertions = [] ∧ c.bgpsecAssertions = [])
    (hne : ∃ r, Asks wide (σ₀ 0).exported 0 r ∧ ∀ j ∈ path, ∀ c, exc j = some c → ¬ RemovedBy c r) (r : Rec) :
    Served (σ i) r ↔ Asks wide (σ₀ 0).exported 0 r ∧ ∀ j ∈ path, ∀ c, exc j = some c → ¬ RemovedBy c r := by
  rw [C178_settle_partial hd hs hw hinj run hlen hx hset hp hpath hi (fun q hq _ => ?_) r, through_filters _ _ hf]
  obtain ⟨r0, h1, h2⟩ := hne
  exact ⟨r0, (through_filters _ _ fun j hj => hf j (hq.subset hj)).2 ⟨h1, fun j hj => h2 j (hq.subset hj)⟩⟩

/-- **C176** (partial: entries without expiry times, exports that are not too old for those that check it, clocks that do not go back, and different hashes of different files; for servers with local exceptions on the way see C178). Whatever happened
before, restarts, failures and delays included: once the first server's export stays as it is, every server serves what that export asks for as soon as the servers between have loaded the export of their server, the one next to the first server
first; other loads in between, failed or not and in any order, do no harm. -/
theorem C176_settle_partial {wide : WideFloat} {e : Nat → Env} {parent : Nat → Nat} (hd : ∀ i, (e i).decode = decodeFile) (hs : ∀ i, (e i).sort.Ok) (hw : ∀ i, (e i).wide = wide)
    (hinj : ∀ i a b, (e i).sha a = (e i).sha b → a = b) {exc : Nat → Option Slurm} {clock₀ clock : Nat → Int} {σ₀ : Servers} {h : List Servers} (run : ServersAt e parent clock₀ (σ₀ :: h))
    (hlen : ∀ τ ∈ σ₀ :: h, ∀ i, ((τ i).exported.roas.getD []).length < 2 ^ 63) (hx : ∀ τ ∈ σ₀ :: h, NoExpiry (τ 0).exported) (hne : ∃ r, Asks wide (σ₀ 0).exported 0 r) {σ : Servers} {l : List Nat}
    (hset : Settling e parent exc clock₀ σ₀ clock σ l) {path : List Nat} {i : Nat} (hp : path.Sublist l) (hpath : PathTo parent path i) (hi : i ≠ 0) (hex : ∀ j ∈ path, exc j = none) (now : Int) (r : Rec) :
    (Served (σ i) r ↔ Asks wide (σ₀ 0).exported now r) ∧ (Asks wide (σ i).exported now r ↔ Asks wide (σ₀ 0).exported now r) := by
  have h₀ := (run_ok hd hs hinj run hlen hx).2 σ₀ rfl
  have a1 := (settling_ok hd hs hw hinj h₀ hset).1
  have b1 : ∀ r, Served (σ i) r ↔ Asks wide (σ₀ 0).exported 0 r := fun r => by
    rw [C178_settle_partial hd hs hw hinj run hlen hx hset hp hpath hi (fun q hq _ => ?_) r, through_none _ hex]
    rw [through_none _ fun j hj => hex j (hq.subset hj)]
    exact hne
  have b2 := follower_asks (hs i) (hw i) (a1.reached i) (a1.follower i hi) hne b1
  rw [b1, b2, h₀.first.asks wide now 0 r]
  exact ⟨Iff.rfl, Iff.rfl⟩

theorem sublist_rounds {path : List Nat} : ∀ {rounds : List (List Nat)}, path.length ≤ rounds.length → (∀ R ∈ rounds, ∀ j ∈ path, j ∈ R) → path.Sublist rounds.flatten := by
  induction path with
  | nil => intro rounds _ _; exact List.nil_sublist _
  | cons a path ih =>
    intro rounds hl hr
    cases rounds with
    | nil => simp at hl
    | cons R rounds =>
      rw [List.flatten_cons]
      have h1 : [a].Sublist R := List.singleton_sublist.2 (hr R List.mem_cons_self a List.mem_cons_self)
      exact h1.append (ih (by simpa using hl) fun R' hR' j hj => hr R' (List.mem_cons_of_mem _ hR') j (List.mem_cons_of_mem _ hj))

/-- **C178** (partial, as before). In rounds: after as many as there are servers on the way, in each of which each of them loads at least once. -/
theorem C178_rounds_partial {wide : WideFloat} {e : Nat → Env} {parent : Nat → Nat} (hd : ∀ i, (e i).decode = decodeFile) (hs : ∀ i, (e i).sort.Ok) (hw : ∀ i, (e i).wide = wide)
    (hinj : ∀ i a b, (e i).sha a = (e i).sha b → a = b) {exc : Nat → Option Slurm} {clock₀ clock : Nat → Int} {σ₀ : Servers} {h : List Servers} (run : ServersAt e parent clock₀ (σ₀ :: h))
    (hlen : ∀ τ ∈ σ₀ :: h, ∀ i, ((τ i).exported.roas.getD []).length < 2 ^ 63) (hx : ∀ τ ∈ σ₀ :: h, NoExpiry (τ 0).exported) {σ : Servers} {rounds : List (List Nat)} (hset : Settling e parent exc clock₀ σ₀ clock σ rounds.flatten)
    {path : List Nat} {i : Nat} (hpath : PathTo parent path i) (hi : i ≠ 0) (hne : ∀ q, q <+: path → q ≠ path → ∃ r, throughExceptions exc (Asks wide (σ₀ 0).exported 0) q r)
    (hr : ∀ R ∈ rounds, ∀ j ∈ path, j ∈ R) (hn : path.length ≤ rounds.length) (r : Rec) : Served (σ i) r ↔ throughExceptions exc (Asks wide (σ₀ 0).exported 0) path r :=
  C178_settle_partial hd hs hw hinj run hlen hx hset (sublist_rounds hn hr) hpath hi hne r

/-- **C176** (partial, as before). If in each of a number of rounds every server loads the export of its server at least once, in any order, then after as many rounds as there are servers between the first one and a server, that one included,
it serves what the first server exports. -/
theorem C176_rounds_partial {wide : WideFloat} {e : Nat → Env} {parent : Nat → Nat} (hd : ∀ i, (e i).decode = decodeFile) (hs : ∀ i, (e i).sort.Ok) (hw : ∀ i, (e i).wide = wide)
    (hinj : ∀ i a b, (e i).sha a = (e i).sha b → a = b) {clock₀ clock : Nat → Int} {σ₀ : Servers} {h : List Servers} (run : ServersAt e parent clock₀ (σ₀ :: h)) (hlen : ∀ τ ∈ σ₀ :: h, ∀ i, ((τ i).exported.roas.getD []).length < 2 ^ 63)
    (hx : ∀ τ ∈ σ₀ :: h, NoExpiry (τ 0).exported) (hne : ∃ r, Asks wide (σ₀ 0).exported 0 r) {σ : Servers} {exc : Nat → Option Slurm} {rounds : List (List Nat)} (hset : Settling e parent exc clock₀ σ₀ clock σ rounds.flatten) {path : List Nat} {i : Nat}
    (hpath : PathTo parent path i) (hi : i ≠ 0) (hex : ∀ j ∈ path, exc j = none) (hr : ∀ R ∈ rounds, ∀ j ∈ path, j ∈ R) (hn : path.length ≤ rounds.length) (now : Int) (r : Rec) : Served (σ i) r ↔ Asks wide (σ₀ 0).exported now r :=
  (C176_settle_partial hd hs hw hinj run hlen hx hne hset (sublist_rounds hn hr) hpath hi hex now r).1

/-- `l` has the servers with the times at which they loaded. -/
theorem sublist_windows {D : Int} : ∀ {path : List Nat} {l : List (Nat × Int)} {T T' : Int}, l.Pairwise (fun x y => x.2 ≤ y.2) → T + path.length * D ≤ T' →
    (∀ j ∈ path, ∀ a, T ≤ a → a + D ≤ T' → ∃ x ∈ l, x.1 = j ∧ a ≤ x.2 ∧ x.2 < a + D) → 0 < D → path.Sublist (l.map Prod.fst)
  | [], _, _, _, _, _, _, _ => List.nil_sublist _
  | j :: path, l, T, T', hl, hT, h, hD => by
    have hlen : T + D + path.length * D ≤ T' := by
      have : ((j :: path).length : Int) * D = D + path.length * D := by
        rw [List.length_cons, Nat.cast_add, Nat.cast_one]; ring
      omega
    have hnn : 0 ≤ (path.length : Int) * D := Int.mul_nonneg (by omega) hD.le
    obtain ⟨⟨i, t⟩, hx, rfl, h1, h2⟩ := h j List.mem_cons_self T (le_refl T) (by omega)
    obtain ⟨l1, l2, rfl⟩ := List.append_of_mem hx
    rw [List.pairwise_append] at hl
    obtain ⟨-, hl2, hl12⟩ := hl
    rw [List.pairwise_cons] at hl2
    have hrec : path.Sublist (l2.map Prod.fst) := by
      refine sublist_windows hl2.2 hlen (fun k hk a ha hle => ?_) hD
      obtain ⟨x, hxm, hxk, hxa, hxb⟩ := h k (List.mem_cons_of_mem _ hk) a (by omega) hle
      rcases List.mem_append.1 hxm with hm | hm
      · have := hl12 x hm _ List.mem_cons_self
        simp only at this h2
        omega
      · rcases List.mem_cons.1 hm with rfl | hm
        · simp only at hxa h2
          omega
        · exact ⟨x, hm, hxk, hxa, hxb⟩
    rw [List.map_append, List.map_cons]
    exact (List.Sublist.cons_cons i hrec).trans (List.sublist_append_right _ _)

/-- **C176** (partial, as before). If from some time on every server on the way to a server receives the export of its server at least once in any span of length `D`, then that one serves what the first server exports after as many spans as there
are servers on the way, that one included. `l` has the loads with their times. -/
theorem C176_time_partial {wide : WideFloat} {e : Nat → Env} {parent : Nat → Nat} (hd : ∀ i, (e i).decode = decodeFile) (hs : ∀ i, (e i).sort.Ok) (hw : ∀ i, (e i).wide = wide)
    (hinj : ∀ i a b, (e i).sha a = (e i).sha b → a = b) {clock₀ clock : Nat → Int} {σ₀ : Servers} {h : List Servers} (run : ServersAt e parent clock₀ (σ₀ :: h)) (hlen : ∀ τ ∈ σ₀ :: h, ∀ i, ((τ i).exported.roas.getD []).length < 2 ^ 63)
    (hx : ∀ τ ∈ σ₀ :: h, NoExpiry (τ 0).exported) (hne : ∃ r, Asks wide (σ₀ 0).exported 0 r) {σ : Servers} {exc : Nat → Option Slurm} {l : List (Nat × Int)} (hset : Settling e parent exc clock₀ σ₀ clock σ (l.map Prod.fst)) (hl : l.Pairwise fun x y => x.2 ≤ y.2)
    {path : List Nat} {i : Nat} (hpath : PathTo parent path i) (hi : i ≠ 0) (hex : ∀ j ∈ path, exc j = none) {T T' D : Int} (hD : 0 < D) (hr : ∀ j ∈ path, ∀ a, T ≤ a → a + D ≤ T' → ∃ x ∈ l, x.1 = j ∧ a ≤ x.2 ∧ x.2 < a + D) (hn : T + path.length * D ≤ T')
    (now : Int) (r : Rec) : Served (σ i) r ↔ Asks wide (σ₀ 0).exported now r :=
  (C176_settle_partial hd hs hw hinj run hlen hx hne hset (sublist_windows hl hn hr hD) hpath hi hex now r).1

/-- **C178** (partial, as before). In time: if every server on the way loads at least once in any span of length `D`, after as many spans as there are servers on the way. -/
theorem C178_time_partial {wide : WideFloat} {e : Nat → Env} {parent : Nat → Nat} (hd : ∀ i, (e i).decode = decodeFile) (hs : ∀ i, (e i).sort.Ok) (hw : ∀ i, (e i).wide = wide)
    (hinj : ∀ i a b, (e i).sha a = (e i).sha b → a = b) {exc : Nat → Option Slurm} {clock₀ clock : Nat → Int} {σ₀ : Servers} {h : List Servers} (run : ServersAt e parent clock₀ (σ₀ :: h))
    (hlen : ∀ τ ∈ σ₀ :: h, ∀ i, ((τ i).exported.roas.getD []).length < 2 ^ 63) (hx : ∀ τ ∈ σ₀ :: h, NoExpiry (τ 0).exported) {σ : Servers} {l : List (Nat × Int)} (hset : Settling e parent exc clock₀ σ₀ clock σ (l.map Prod.fst))
    (hl : l.Pairwise fun x y => x.2 ≤ y.2) {path : List Nat} {i : Nat} (hpath : PathTo parent path i) (hi : i ≠ 0) (hne : ∀ q, q <+: path → q ≠ path → ∃ r, throughExceptions exc (Asks wide (σ₀ 0).exported 0) q r)
    {T T' D : Int} (hD : 0 < D) (hr : ∀ j ∈ path, ∀ a, T ≤ a → a + D ≤ T' → ∃ x ∈ l, x.1 = j ∧ a ≤ x.2 ∧ x.2 < a + D) (hn : T + path.length * D ≤ T') (r : Rec) :
    Served (σ i) r ↔ throughExceptions exc (Asks wide (σ₀ 0).exported 0) path r :=
  C178_settle_partial hd hs hw hinj run hlen hx hset (sublist_windows hl hn hr hD) hpath hi hne r

/-- **C178** (partial, as before, and with router keys that fit a PDU). A router of a server that has settled, which starts over on any open connection, holds what has come through the local exceptions on the way, if that is anything. -/
theorem C178_router_partial {wide : WideFloat} {e : Nat → Env} {parent : Nat → Nat} (hd : ∀ i, (e i).decode = decodeFile) (hs : ∀ i, (e i).sort.Ok) (hw : ∀ i, (e i).wide = wide)
    (hinj : ∀ i a b, (e i).sha a = (e i).sha b → a = b) {exc : Nat → Option Slurm} {clock₀ clock : Nat → Int} {σ₀ : Servers} {h : List Servers} (run : ServersAt e parent clock₀ (σ₀ :: h))
    (hlen : ∀ τ ∈ σ₀ :: h, ∀ i, ((τ i).exported.roas.getD []).length < 2 ^ 63) (hx : ∀ τ ∈ σ₀ :: h, NoExpiry (τ 0).exported) {σ : Servers} {l : List Nat} (hset : Settling e parent exc clock₀ σ₀ clock σ l) {path : List Nat} {i : Nat}
    (hp : path.Sublist l) (hpath : PathTo parent path i) (hi : i ≠ 0) (hne : ∀ q, q <+: path → ∃ r, throughExceptions exc (Asks wide (σ₀ 0).exported 0) q r)
    (henc : ∀ a ski key, throughExceptions exc (Asks wide (σ₀ 0).exported 0) path (.brk a ski key) → ski.length = 20 ∧ 4 ≤ key.length ∧ 32 + key.length ≤ 262168)
    {cfg : ServerConfig} {sid : U16} {c : Client} (hc : Conn (newServer cfg sid) c) (hup : c.connected = true) {v : U8} (ha : Acceptable c v) (r : Router) (hsy : r.synced = none) :
    ∃ (c' : Client) (eff : List Effect) (bs : List Bytes) (ps : List Pdu), (newServer cfg sid).processRead (σ i).store (σ i).store c (Contact.packet (r.query v)) = .ok (c', eff) ∧ (sent eff).map Pdu.encode = bs.map GoRes.ok ∧
      Stream bs.flatten ps ∧ (ps.foldl Router.receive r).coming = none ∧
      ∀ x, x ∈ (ps.foldl Router.receive r).held ↔ throughExceptions exc (Asks wide (σ₀ 0).exported 0) path x ∧ wanted (lower v cfg.protocolVersion) (!c.dontSendBGPsecKeys) x = true := by
  have a1 := (settling_ok hd hs hw hinj ((run_ok hd hs hinj run hlen hx).2 σ₀ rfl) hset).1
  have b1 := C178_settle_partial hd hs hw hinj run hlen hx hset hp hpath hi fun q hq _ => hne q hq
  obtain ⟨r0, hr0⟩ := hne path (List.prefix_refl _)
  obtain ⟨c', eff, bs, ps, k1, k2, k3, -, k5, k6⟩ := C115_router_partial (hs i) (a1.reached i) ⟨r0, (b1 r0).2 hr0⟩ (fun a ski key hk => henc a ski key ((b1 _).1 hk)) hc hup ha r hsy
  exact ⟨c', eff, bs, ps, k1, k2, k3, k5, fun x => by rw [k6, b1]⟩

/-- **C176** (partial, as before, and with router keys that fit a PDU). So a router of a server that has settled, which starts over on any open connection, holds what the first server exports once it has read the answer (of what its version
carries). -/
theorem C176_router_partial {wide : WideFloat} {e : Nat → Env} {parent : Nat → Nat} (hd : ∀ i, (e i).decode = decodeFile) (hs : ∀ i, (e i).sort.Ok) (hw : ∀ i, (e i).wide = wide)
    (hinj : ∀ i a b, (e i).sha a = (e i).sha b → a = b) {clock₀ clock : Nat → Int} {σ₀ : Servers} {h : List Servers} (run : ServersAt e parent clock₀ (σ₀ :: h)) (hlen : ∀ τ ∈ σ₀ :: h, ∀ i, ((τ i).exported.roas.getD []).length < 2 ^ 63)
    (hx : ∀ τ ∈ σ₀ :: h, NoExpiry (τ 0).exported) (hne : ∃ r, Asks wide (σ₀ 0).exported 0 r) {σ : Servers} {exc : Nat → Option Slurm} {l : List Nat} (hset : Settling e parent exc clock₀ σ₀ clock σ l) {path : List Nat} {i : Nat} (hp : path.Sublist l)
    (hpath : PathTo parent path i) (hi : i ≠ 0) (hex : ∀ j ∈ path, exc j = none) (henc : ∀ a ski key, Asks wide (σ₀ 0).exported 0 (.brk a ski key) → ski.length = 20 ∧ 4 ≤ key.length ∧ 32 + key.length ≤ 262168)
    {cfg : ServerConfig} {sid : U16} {c : Client} (hc : Conn (newServer cfg sid) c) (hup : c.connected = true) {v : U8} (ha : Acceptable c v) (r : Router) (hsy : r.synced = none) :
    ∃ (c' : Client) (eff : List Effect) (bs : List Bytes) (ps : List Pdu), (newServer cfg sid).processRead (σ i).store (σ i).store c (Contact.packet (r.query v)) = .ok (c', eff) ∧ (sent eff).map Pdu.encode = bs.map GoRes.ok ∧
      Stream bs.flatten ps ∧ (ps.foldl Router.receive r).coming = none ∧
      ∀ x, x ∈ (ps.foldl Router.receive r).held ↔ Asks wide (σ₀ 0).exported 0 x ∧ wanted (lower v cfg.protocolVersion) (!c.dontSendBGPsecKeys) x = true := by
  have hthrough : ∀ q, q <+: path → throughExceptions exc (Asks wide (σ₀ 0).exported 0) q = Asks wide (σ₀ 0).exported 0 := fun q hq => through_none _ fun j hj => hex j (hq.subset hj)
  have := C178_router_partial hd hs hw hinj run hlen hx hset hp hpath hi (fun q hq => by rw [hthrough q hq]; exact hne) (by rw [hthrough path (List.prefix_refl _)]; exact henc) hc hup ha r hsy
  rw [hthrough path (List.prefix_refl _)] at this
  exact this

/-! ## Concrete servers -/

/-- Servers that check build times. -/
def settleEnv : Env := chainEnv
/-- Each server loads the export of the one with the next smaller number. -/
def settleParent (i : Nat) : Nat := i - 1
/-- The first server has loaded a file, the others nothing. -/
def settleStart : Servers := Servers.upd (fun _ => UState.init true true) 0 (loadOnce true settleEnv (exAt 0) (exGet chainFile1) (UState.init true true))
/-- One of them receives the export of its server. -/
def settleLoad (i : Nat) (σ : Servers) : Servers := σ.upd i (loadOnce true settleEnv (exAt 0) ⟨exFile, .file (some (exportFile (σ (settleParent i)))), none⟩ (σ i))

/-- A file without VRPs, built at midnight. -/
def settleEmpty : Bytes := utf8Str (["{\"metadata\":{\"buildtime\":\"1970-01-01T00:", "00:00Z\"},\"roas\":[]}"].flatMap String.toList)

/-- **C176, false for an export without entries.** The first server's file has become empty. The second one is started anew, and finds nothing to change: its export is then that of a server without a file (`"roas":null`), and the third server, which
receives it, goes on serving the VRP it had, as often as it loads. -/
theorem C176_empty_false :
    let leader := refresh settleEnv (exAt 0) (exGet settleEmpty) chainLeader
    let second := startup settleEnv (exAt 0) (exGet (exportFile leader)) exInit
    let third := startup settleEnv (exAt 0) (exGet (exportFile chainSecond)) exInit
    let again := refresh settleEnv (exAt 0) (exGet (exportFile second)) third
    records third.store.current = [chainRecord] ∧ leader.exported.roas = some [] ∧ records leader.store.current = [] ∧ records second.store.current = [] ∧
    records again.store.current = [chainRecord] ∧ records (refresh settleEnv (exAt 0) (exGet (exportFile second)) again).store.current = [chainRecord] := by
  decide +kernel

theorem settleLoad_step {σ₀ σ : Servers} {l : List Nat} (i : Nat) (hi : i ≠ 0) (hlen : ((σ (settleParent i)).exported.roas.getD []).length < 2 ^ 63)
    (hage : settleEnv.parseTime (σ (settleParent i)).exported.metadata.buildtime = some 0) (hexc : (settleLoad i σ i).slurm = none) (h : Settling (fun _ => settleEnv) settleParent (fun _ => none) (fun _ => 0) σ₀ (fun _ => 0) σ l) :
    Settling (fun _ => settleEnv) settleParent (fun _ => none) (fun _ => 0) σ₀ (fun _ => 0) (settleLoad i σ) (l ++ [i]) := by
  have hexc' : (loadOnce true settleEnv (exAt 0) ⟨exFile, .file (some (exportFile (σ (settleParent i)))), none⟩ (σ i)).slurm = none := by
    unfold settleLoad Servers.upd at hexc
    rw [if_pos rfl] at hexc
    exact hexc
  have := Settling.load i hi true (exAt 0) (Int.le_refl 0) ⟨exFile, .file (some (exportFile (σ (settleParent i)))), none⟩ (chain_delivered (s := σ i) (exportFile (σ (settleParent i)))) hexc' hlen (fun _ => ⟨0, hage, by decide⟩) h
  have hc : clockTo (fun _ => 0) i (exAt 0).check = fun _ => 0 := by funext j; unfold clockTo; split <;> rfl
  rw [hc] at this
  exact this

/-- The situation of `C176_settle_partial` and `C176_rounds_partial`: the second server loads, then the third, then the second again and the third again, which are two rounds. In the end the third one serves the record. -/
example : (∀ a b, settleEnv.sha a = settleEnv.sha b → a = b) ∧ settleEnv.sort.Ok ∧ settleEnv.checktime = true ∧
    ServersAt (fun _ => settleEnv) settleParent (fun _ => 0) [settleStart, fun _ => UState.init true true] ∧ NoExpiry (settleStart 0).exported ∧ (settleStart 0).exported.roas.map List.length = some 1 ∧
    Asks settleEnv.wide (settleStart 0).exported 0 chainRecord ∧ PathTo settleParent [1, 2] 2 ∧
    ∃ σ, Settling (fun _ => settleEnv) settleParent (fun _ => none) (fun _ => 0) settleStart (fun _ => 0) σ [[1, 2], [2, 1]].flatten ∧ [1, 2].Sublist [[1, 2], [2, 1]].flatten ∧ Served (σ 2) chainRecord := by
  have r0 : ServersAt (fun _ => settleEnv) settleParent (fun _ => 0) [fun _ => UState.init true true] := .start _ (fun _ => true) (fun _ => true)
  have r1 := ServersAt.lead true (exAt 0) (exGet chainFile1) r0
  have hx : NoExpiry (settleStart 0).exported := by unfold NoExpiry; decide +kernel
  have hask : Asks settleEnv.wide (settleStart 0).exported 0 chainRecord := by
    have hv : (settleStart 0).exported.roas = some [⟨"10.0.0.0/8".toList, 9, .float 1, [], none⟩] := by decide +kernel
    unfold Asks
    rw [hv]
    refine ⟨_, List.mem_singleton.2 rfl, (prefixText_iff ..).1 (by decide +kernel), (asnReads_iff settleEnv.wide ⟨[], 0, .float 1, [], none⟩ 1).1 (by decide +kernel), rfl, by decide +kernel, by decide +kernel, by decide +kernel, by simp⟩
  have s1 := settleLoad_step 1 (by decide) (by decide +kernel) (by decide +kernel) (by decide +kernel) (.start (σ₀ := settleStart))
  have s2 := settleLoad_step 2 (by decide) (by decide +kernel) (by decide +kernel) (by decide +kernel) s1
  have s3 := settleLoad_step 2 (by decide) (by decide +kernel) (by decide +kernel) (by decide +kernel) s2
  have s4 := settleLoad_step 1 (by decide) (by decide +kernel) (by decide +kernel) (by decide +kernel) s3
  refine ⟨fun a b h => h, insertionSorter_ok, rfl, r1, hx, by decide +kernel, hask, .next (l := [1]) (by decide) (.next (l := []) (by decide) .first), _, s4, by decide, ?_⟩
  unfold Served
  decide +kernel

/-! ### With local exceptions -/

/-- Servers that check build times and have local exceptions. -/
def settleEnv2 : Env := exceptionsEnv
/-- The file with the local exceptions of each server, after the first one. -/
def settleFile (i : Nat) : Bytes := if i = 1 then exceptionsFile1 else exceptionsFile2
/-- What they contain. -/
def settleExceptions (i : Nat) : Option Slurm := some (if i = 1 then exceptions1 else exceptions2)
/-- One of them receives the export of its server and its local exceptions. -/
def settleLoad2 (i : Nat) (σ : Servers) : Servers := σ.upd i (loadOnce true settleEnv2 (exAt 0) (exceptionsGet (exportFile (σ (settleParent i))) (settleFile i)) (σ i))
/-- The first server has loaded a file, the others nothing. -/
def settleStart2 : Servers := Servers.upd (fun _ => UState.init true true) 0 (loadOnce true settleEnv2 (exAt 0) (exGet chainFile1) (UState.init true true))

theorem settleLoad2_step {σ₀ σ : Servers} {l : List Nat} (i : Nat) (hi : i ≠ 0) (hlen : ((σ (settleParent i)).exported.roas.getD []).length < 2 ^ 63)
    (hage : settleEnv2.parseTime (σ (settleParent i)).exported.metadata.buildtime = some 0) (hexc : (settleLoad2 i σ i).slurm = settleExceptions i)
    (h : Settling (fun _ => settleEnv2) settleParent settleExceptions (fun _ => 0) σ₀ (fun _ => 0) σ l) :
    Settling (fun _ => settleEnv2) settleParent settleExceptions (fun _ => 0) σ₀ (fun _ => 0) (settleLoad2 i σ) (l ++ [i]) := by
  have hexc' : (loadOnce true settleEnv2 (exAt 0) (exceptionsGet (exportFile (σ (settleParent i))) (settleFile i)) (σ i)).slurm = settleExceptions i := by
    unfold settleLoad2 Servers.upd at hexc
    rw [if_pos rfl] at hexc
    exact hexc
  have hdel : ∀ u : UState, delivered u.fetch (exceptionsGet (exportFile (σ (settleParent i))) (settleFile i)).file (exceptionsGet (exportFile (σ (settleParent i))) (settleFile i)).cache = some (exportFile (σ (settleParent i))) :=
    fun u => chain_delivered (s := u) (exportFile (σ (settleParent i)))
  have hc : clockTo (fun _ => 0) i (exAt 0).check = fun _ => 0 := by funext j; unfold clockTo; split <;> rfl
  unfold settleLoad2
  generalize exceptionsGet (exportFile (σ (settleParent i))) (settleFile i) = f at hexc' hdel ⊢
  generalize settleExceptions = exc at hexc' h ⊢
  have := Settling.load (e := fun _ => settleEnv2) i hi true (exAt 0) (Int.le_refl 0) f (hdel _) hexc' hlen (fun _ => ⟨0, hage, by decide⟩) h
  rw [hc] at this
  exact this

theorem settle_asserted1 : AssertedBy exceptions1 exceptionsRecord1 :=
  ⟨⟨"12.0.0.0/8".toList, 1, 0, []⟩, List.mem_singleton.2 rfl, (prefixText_iff ..).1 (by decide +kernel), rfl, by decide +kernel, by decide +kernel, by decide +kernel, by decide +kernel⟩

theorem settle_removed2 : RemovedBy exceptions2 exceptionsRecord1 := by
  refine ⟨⟨[], some 1⟩, List.mem_singleton.2 rfl, fun x hx => ?_, fun a ha => Option.some.inj ha⟩
  have h1 := (prefixText_iff ..).2 hx
  have h2 : parsePrefix [] = none := by decide +kernel
  exact absurd (h2.symm.trans h1) (by simp)

/-- **C178, false for any order.** Of servers one behind the other with local exceptions of which one filters what the other asserts, the last one serves different records in the two orders; so does the way through the exceptions. -/
theorem C178_order_false :
    let first := startup settleEnv2 (exAt 0) (exGet chainFile1) exInit
    let behind (x : Bytes) (p : UState) := startup settleEnv2 (exAt 0) (exceptionsGet (exportFile p) x) exInit
    records (behind exceptionsFile2 (behind exceptionsFile1 first)).store.current = [exceptionsRecord2] ∧
    exceptionsRecord1 ∈ records (behind exceptionsFile1 (behind exceptionsFile2 first)).store.current ∧ exceptionsRecord2 ∈ records (behind exceptionsFile1 (behind exceptionsFile2 first)).store.current ∧
    ∀ S, throughExceptions settleExceptions S [2, 1] exceptionsRecord1 ∧ ¬ throughExceptions settleExceptions S [1, 2] exceptionsRecord1 := by
  refine ⟨by decide +kernel, by decide +kernel, by decide +kernel, fun S => ⟨.inr settle_asserted1, ?_⟩⟩
  rintro (⟨-, h⟩ | ⟨x, hx, -, h, -⟩)
  · exact h settle_removed2
  · obtain rfl := List.mem_singleton.1 hx
    exact absurd h (by decide)

/-- The situation of `C178_settle_partial` and `C178_rounds_partial` (for times and routers see below): the second server asserts a VRP and filters what the first one has, the third one filters that and asserts another one. -/
example : (∀ a b, settleEnv2.sha a = settleEnv2.sha b → a = b) ∧ settleEnv2.sort.Ok ∧ settleEnv2.checktime = true ∧
    ServersAt (fun _ => settleEnv2) settleParent (fun _ => 0) [settleStart2, fun _ => UState.init true true] ∧ NoExpiry (settleStart2 0).exported ∧ (settleStart2 0).exported.roas.map List.length = some 1 ∧ PathTo settleParent [1, 2] 2 ∧
    (∀ q, q <+: [1, 2] → q ≠ [1, 2] → ∃ r, throughExceptions settleExceptions (Asks settleEnv2.wide (settleStart2 0).exported 0) q r) ∧
    ∃ σ, Settling (fun _ => settleEnv2) settleParent settleExceptions (fun _ => 0) settleStart2 (fun _ => 0) σ [[1, 2], [2, 1]].flatten ∧ [1, 2].Sublist [[1, 2], [2, 1]].flatten ∧ records (σ 2).store.current = [exceptionsRecord2] := by
  have r0 : ServersAt (fun _ => settleEnv2) settleParent (fun _ => 0) [fun _ => UState.init true true] := .start _ (fun _ => true) (fun _ => true)
  have r1 := ServersAt.lead true (exAt 0) (exGet chainFile1) r0
  have hask : Asks settleEnv2.wide (settleStart2 0).exported 0 chainRecord := by
    have hv : (settleStart2 0).exported.roas = some [⟨"10.0.0.0/8".toList, 9, .float 1, [], none⟩] := by decide +kernel
    unfold Asks
    rw [hv]
    refine ⟨_, List.mem_singleton.2 rfl, (prefixText_iff ..).1 (by decide +kernel), (asnReads_iff settleEnv2.wide ⟨[], 0, .float 1, [], none⟩ 1).1 (by decide +kernel), rfl, by decide +kernel, by decide +kernel, by decide +kernel, by simp⟩
  have s1 := settleLoad2_step 1 (by decide) (by decide +kernel) (by decide +kernel) (by decide +kernel) (.start (σ₀ := settleStart2))
  have s2 := settleLoad2_step 2 (by decide) (by decide +kernel) (by decide +kernel) (by decide +kernel) s1
  have s3 := settleLoad2_step 2 (by decide) (by decide +kernel) (by decide +kernel) (by decide +kernel) s2
  have s4 := settleLoad2_step 1 (by decide) (by decide +kernel) (by decide +kernel) (by decide +kernel) s3
  refine ⟨fun a b h => h, insertionSorter_ok, rfl, r1, by unfold NoExpiry; decide +kernel, by decide +kernel, .next (l := [1]) (by decide) (.next (l := []) (by decide) .first), fun q hq hn => ?_, _, s4, by decide, by decide +kernel⟩
  rcases q with - | ⟨a, - | ⟨b, q⟩⟩
  · exact ⟨chainRecord, hask⟩
  · obtain rfl := (List.cons_prefix_cons.1 hq).1
    exact ⟨exceptionsRecord1, .inr settle_asserted1⟩
  · obtain ⟨h1, hq⟩ := List.cons_prefix_cons.1 hq
    obtain ⟨h2, hq⟩ := List.cons_prefix_cons.1 hq
    exact absurd (by rw [h1, h2, List.prefix_nil.1 hq]) hn

/-- What comes through both is not nothing, as `C178_router_partial` asks. -/
example (S : Rec → Prop) : throughExceptions settleExceptions S [1, 2] exceptionsRecord2 :=
  .inr ⟨⟨"13.0.0.0/8".toList, 2, 0, []⟩, List.mem_singleton.2 rfl, (prefixText_iff ..).1 (by decide +kernel), rfl, by decide +kernel, by decide +kernel, by decide +kernel, by decide +kernel⟩

/-- Local exceptions with filters only, as `C178_filters_partial` has them, which leave a record. -/
example : (∀ c, some (⟨[⟨[], some 3⟩], [], [], []⟩ : Slurm) = some c → c.prefixAssertions = [] ∧ c.bgpsecAssertions = []) ∧ ¬ RemovedBy ⟨[⟨[], some 3⟩], [], [], []⟩ chainRecord := by
  refine ⟨fun c hc => by rw [← Option.some.inj hc]; exact ⟨rfl, rfl⟩, ?_⟩
  rintro ⟨f, hf, -, h⟩
  obtain rfl := List.mem_singleton.1 hf
  exact absurd (h 3 rfl) (by decide)

/-! ### Routers and times -/

/-- What `C176_router_partial` asks for besides: a connection, and no router keys that do not fit a PDU. -/
example : Conn (newServer exCfg 7) exFresh ∧ exFresh.connected = true ∧ Acceptable exFresh 0 ∧ Router.new.synced = none ∧
    ∀ a ski key, Asks settleEnv.wide (settleStart 0).exported 0 (.brk a ski key) → ski.length = 20 ∧ 4 ≤ key.length ∧ 32 + key.length ≤ 262168 := by
  refine ⟨exFresh_conn, rfl, by decide, rfl, fun a ski key hk => ?_⟩
  have hv : (settleStart 0).exported.keys.getD [] = [] := by decide +kernel
  unfold Asks at hk
  rw [hv] at hk
  obtain ⟨k, hk, -⟩ := hk
  cases hk

/-- The loads of the situation above as `C176_time_partial` has them: each server loads once in any span of length 10 from 0 to 20. -/
example : [((1, 5) : Nat × Int), (2, 5), (2, 14), (1, 14)].Pairwise (fun x y => x.2 ≤ y.2) ∧ [((1, 5) : Nat × Int), (2, 5), (2, 14), (1, 14)].map Prod.fst = [[1, 2], [2, 1]].flatten ∧ (0 : Int) + [1, 2].length * 10 ≤ 20 ∧
    ∀ j ∈ [1, 2], ∀ a : Int, 0 ≤ a → a + 10 ≤ 20 → ∃ x ∈ [((1, 5) : Nat × Int), (2, 5), (2, 14), (1, 14)], x.1 = j ∧ a ≤ x.2 ∧ x.2 < a + 10 := by
  refine ⟨by decide, rfl, by decide, fun j hj a h1 h2 => ?_⟩
  rcases List.mem_cons.1 hj with rfl | hj
  · by_cases h : a ≤ 5
    · exact ⟨(1, 5), by decide, rfl, h, by simp only; omega⟩
    · exact ⟨(1, 14), by decide, rfl, by simp only; omega, by simp only; omega⟩
  · obtain rfl := List.mem_singleton.1 hj
    by_cases h : a ≤ 5
    · exact ⟨(2, 5), by decide, rfl, h, by simp only; omega⟩
    · exact ⟨(2, 14), by decide, rfl, by simp only; omega, by simp only; omega⟩

end StayRTR
