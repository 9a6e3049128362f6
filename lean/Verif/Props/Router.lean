import Verif.Proofs.Router

/-! # C114: a router that keeps in contact holds what is served -/

namespace StayRTR

open Spec Contact

/-- **C114** in full: whatever happens, once a router has got an End of Data and the data has not changed since, it holds exactly what is served (as far as its connection carries it). -/
def KeepsInTouch (cfg : ServerConfig) (sid : U16) (k : Int) (c0 : Client) (v : U8) : Prop :=
  ∀ s, Run (newServer cfg sid) k c0 v (fun _ e => Sane e) s → s.router.synced.isSome → s.behind = 0 → HoldsServed v (!c0.dontSendBGPsecKeys) s.store.current s.router

/-- The events one after the other. -/
def happens (srv : Server) (k : Int) (c0 : Client) (v : U8) (l : List ContactEvent) : Contact := l.foldl (fun s e => s.step srv c0 v e) (Contact.start k c0)

theorem happens_run {srv : Server} {k : Int} {c0 : Client} {v : U8} (l : List ContactEvent) (h : ∀ e ∈ l, Sane e) : Run srv k c0 v (fun _ e => Sane e) (happens srv k c0 v l) := by
  have : ∀ (l : List ContactEvent) (s : Contact), Run srv k c0 v (fun _ e => Sane e) s → (∀ e ∈ l, Sane e) → Run srv k c0 v (fun _ e => Sane e) (l.foldl (fun s e => s.step srv c0 v e) s) := by
    intro l
    induction l with
    | nil => intro s hs _; exact hs
    | cons e l ih => intro s hs hl; exact ih _ (.step hs e (hl e List.mem_cons_self)) (fun e he => hl e (List.mem_cons_of_mem _ he))
  exact this l _ .start h

/-- The example server and a version 1 router. -/
theorem exSetup : Setup exCfg 7 exFresh 1 := ⟨.inl rfl, .inr rfl, by decide, by decide⟩

/-- A router that misses two changes. -/
def exBehind : List ContactEvent := [.update [exA], .poll [] none, .update [exA, exB], .update [exB, exC], .poll [] none]

/-- A router that asks after every change; the third set comes in the middle of an answer. -/
def exRace : List ContactEvent := [.update [exA], .poll [] none, .update [exA, exB], .poll [[exA, exB, exC]] none, .poll [] none]

theorem exBehind_sane : ∀ e ∈ exBehind, Sane e := by
  intro e he
  simp only [exBehind, List.mem_cons, List.not_mem_nil, or_false] at he
  rcases he with rfl | rfl | rfl | rfl | rfl
  · show AllValid _; decide
  · intro _ h; cases h
  · show AllValid _; decide
  · show AllValid _; decide
  · intro _ h; cases h

theorem exRace_sane : ∀ e ∈ exRace, Sane e := by
  intro e he
  simp only [exRace, List.mem_cons, List.not_mem_nil, or_false] at he
  rcases he with rfl | rfl | rfl | rfl | rfl
  · show AllValid _; decide
  · intro _ h; cases h
  · show AllValid _; decide
  · intro new h; simp only [List.mem_singleton] at h; subst h; show AllValid _; decide
  · intro _ h; cases h

theorem exBehind_end : (happens (newServer exCfg 7) 3 exFresh 1 exBehind).router = ⟨[exA.record], some (sessionOf 7 1, 2), none⟩ ∧ (happens (newServer exCfg 7) 3 exFresh 1 exBehind).behind = 0 ∧
    (happens (newServer exCfg 7) 3 exFresh 1 exBehind).store.current = [exB, exC] := by decide +kernel

theorem exRace_end : (happens (newServer exCfg 7) 3 exFresh 1 exRace).router = ⟨[exC.record, exA.record], some (sessionOf 7 1, 2), none⟩ ∧ (happens (newServer exCfg 7) 3 exFresh 1 exRace).behind = 0 ∧
    (happens (newServer exCfg 7) 3 exFresh 1 exRace).store.current = [exA, exB, exC] := by decide +kernel

/-- The code does not have the property. With the retention limit 3 of stayrtr (cmd/stayrtr/stayrtr.go:757): a router that missed two changes is told that there is nothing new. -/
theorem C114_behind_false : ¬ KeepsInTouch exCfg 7 3 exFresh 1 := by
  intro h
  have := h _ (happens_run exBehind exBehind_sane) (by rw [exBehind_end.1]; rfl) exBehind_end.2.1 exA.record
  rw [exBehind_end.1, exBehind_end.2.2] at this
  exact absurd this (by decide)

/-- Nor for a router that asks after every change, if a change comes between the two reads of the store that an answer takes (lib/server.go:101, 108): the answer to the router, one behind at the first read,
is taken at distance two and is empty. -/
theorem C114_race_false : ∃ s, Run (newServer exCfg 7) 3 exFresh 1 (fun s e => Sane e ∧ (∀ b a, e = .poll b a → s.behind ≤ 1) ∧ (∀ new, e = .update new → s.behind = 0)) s ∧
    s.router.synced.isSome ∧ s.behind = 0 ∧ ¬ HoldsServed 1 (!exFresh.dontSendBGPsecKeys) s.store.current s.router := by
  refine ⟨happens (newServer exCfg 7) 3 exFresh 1 exRace, ?_, by rw [exRace_end.1]; rfl, exRace_end.2.1, ?_⟩
  · have hs : ∀ e ∈ exRace, Sane e := exRace_sane
    refine .step (.step (.step (.step (.step .start (.update [exA]) ⟨hs _ (by simp [exRace]), ?_, ?_⟩) (.poll [] none) ⟨hs _ (by simp [exRace]), ?_, ?_⟩) (.update [exA, exB]) ⟨hs _ (by simp [exRace]), ?_, ?_⟩)
      (.poll [[exA, exB, exC]] none) ⟨hs _ (by simp [exRace]), ?_, ?_⟩) (.poll [] none) ⟨hs _ (by simp [exRace]), ?_, ?_⟩ <;> intros <;> first | contradiction | decide +kernel
  · intro h
    have := h exB.record
    rw [exRace_end.1, exRace_end.2.2] at this
    exact absurd this (by decide)

/-- What a router lost it does not get back: as long as the record is served and the router asks in time, it goes on without it, at any number of changes, polls and new connections. -/
theorem C114_never_heals {cfg : ServerConfig} {sid : U16} {c0 : Client} {v : U8} (h : Setup cfg sid c0 v) {k : Int} {s0 s : Contact}
    (hr : Run (newServer cfg sid) k c0 v (fun _ e => Sane e) s0) (hsy : s0.router.synced.isSome) (hb : s0.behind = 0) {x : Rec} (hx : x ∈ records s0.store.current) (hno : x ∉ s0.router.held)
    (hl : Later (newServer cfg sid) c0 v (fun s e => Sane e ∧ Asks k x s e) s0 s) : x ∈ records s.store.current ∧ x ∉ s.router.held ∧ s.router.synced.isSome := by
  have h0 : Missing cfg sid c0 v k x s0 := by
    obtain ⟨g, hc, t, ht, hs⟩ := RouterInv.sane h hr
    obtain ⟨⟨ss, n⟩, hsn⟩ := Option.isSome_iff_exists.1 hsy
    obtain ⟨rfl, pre, S, post, rfl, hlen, hS, _⟩ := hs ss n hsn
    rw [hb] at hlen
    cases List.length_eq_zero_iff.1 hlen
    obtain ⟨t', ht'⟩ := ht.head
    simp only [List.nil_append, List.cons.injEq, Prod.mk.injEq] at ht'
    refine ⟨g, hc, hno, _, ht, n, hsn, [], S, post, rfl, by rw [hb]; rfl, ?_⟩
    intro p hp
    simp only [List.nil_append, List.mem_singleton] at hp
    subst hp
    show x ∈ records S
    rw [ht'.1.2]
    exact hx
  have hm : Missing cfg sid c0 v k x s := by
    induction hl with
    | here => exact h0
    | step _ e he ih => exact Missing.step h ih e he.1 he.2
  obtain ⟨_, _, hx', t, ht, n, hsn, pre, S, post, rfl, _, hin⟩ := hm
  refine ⟨?_, hx', by rw [hsn]; rfl⟩
  obtain ⟨t', ht'⟩ := ht.head
  cases pre with
  | nil => simp only [List.nil_append, List.cons.injEq] at ht'; have := hin (n, S) (by simp); rw [ht'.1] at this; exact this
  | cons p pre => simp only [List.cons_append, List.cons.injEq] at ht'; have := hin p (by simp); rw [ht'.1] at this; exact this

/-- The router of `C114_race_false` is such a router; here one more change, a lost connection and a poll later. -/
example : ∃ s, Later (newServer exCfg 7) exFresh 1 (fun s e => Sane e ∧ Asks 3 exB.record s e) (happens (newServer exCfg 7) 3 exFresh 1 exRace) s ∧ s.router.held = [exC.record] ∧ s.store.current = [exB, exC] ∧
    wanted 1 (!exFresh.dontSendBGPsecKeys) exB.record = true := by
  refine ⟨_, .step (.step (.step .here (.update [exB, exC]) ⟨?_, ?_⟩) (.poll [] (some 1)) ⟨?_, ?_⟩) (.poll [] none) ⟨?_, ?_⟩, ?_, ?_, ?_⟩
  all_goals first
    | (show AllValid _; decide)
    | (show exB.record ∈ records _; decide)
    | (intro _ h; cases h; done)
    | decide +kernel
    | skip
  · refine ⟨by simp, .inr (by decide +kernel), ?_⟩
    intro ss n hn
    have e : (Contact.step (newServer exCfg 7) exFresh 1 (Contact.step (newServer exCfg 7) exFresh 1 (happens (newServer exCfg 7) 3 exFresh 1 exRace) (.update [exB, exC])) (.poll [] (some 1))).router.synced = some (sessionOf 7 1, 2) := by decide +kernel
    rw [e] at hn; cases hn
    decide +kernel
  · refine ⟨by simp, .inr (by decide +kernel), ?_⟩
    intro ss n hn
    have e : (Contact.step (newServer exCfg 7) exFresh 1 (happens (newServer exCfg 7) 3 exFresh 1 exRace) (.update [exB, exC])).router.synced = some (sessionOf 7 1, 2) := by decide +kernel
    rw [e] at hn; cases hn
    decide +kernel

/-- **C114**, partial: a router that keeps up holds, at any time after its first End of Data, exactly a set that was served under the serial number it knows, as many changes ago as it is behind; the current one if it is not behind.
Missing: routers further behind but within the retention limit, changes in the middle of an answer (both refuted above), and data that is emptied and filled again (C14). -/
theorem C114_exact_partial {cfg : ServerConfig} {sid : U16} {c0 : Client} {v : U8} (h : Setup cfg sid c0 v) {k : Int} {s : Contact}
    (hr : Run (newServer cfg sid) k c0 v (fun s e => Sane e ∧ Keeps k s e) s) {ss : U16} {n : U32} (hsy : s.router.synced = some (ss, n)) :
    ss = sessionOf sid v ∧ (∃ t S, Evolves k s.store t ∧ t[s.behind]? = some (n, S) ∧ HoldsServed v (!c0.dontSendBGPsecKeys) S s.router) ∧
    (s.behind = 0 → n = s.store.serial ∧ HoldsServed v (!c0.dontSendBGPsecKeys) s.store.current s.router) := by
  obtain ⟨_, _, t, ht, hs⟩ := RouterInv.keeps h hr
  obtain ⟨hss, pre, S, post, rfl, hlen, hS, hst⟩ := hs ss n hsy
  refine ⟨hss, ⟨_, S, ht, by rw [← hlen]; simp, (hst trivial).2⟩, ?_⟩
  intro hb
  rw [hb] at hlen
  cases List.length_eq_zero_iff.1 hlen
  obtain ⟨t', ht'⟩ := ht.head
  simp only [List.nil_append, List.cons.injEq, Prod.mk.injEq] at ht'
  rw [← ht'.1.1, ← ht'.1.2]
  exact ⟨rfl, (hst trivial).2⟩

/-- Two changes and a lost connection, with all three kinds of records. -/
example : ∃ s, Run (newServer exCfg 7) 3 exFresh 1 (fun s e => Sane e ∧ Keeps 3 s e) s ∧ s.behind = 0 ∧ s.router = ⟨[exC.record, exB.record], some (sessionOf 7 1, 1), none⟩ ∧ s.store.current = [exB, exC] := by
  refine ⟨_, .step (.step (.step (.step (.step .start (.update [exA, exB]) ⟨?_, ?_⟩) (.poll [] none) ⟨?_, ?_⟩) (.update [exB, exC]) ⟨?_, ?_⟩) (.poll [] (some 2)) ⟨?_, ?_⟩) (.poll [] none) ⟨?_, ?_⟩, ?_, ?_, ?_⟩
  all_goals first
    | exact ⟨rfl, fun _ => .inl (by decide +kernel)⟩
    | (intro _ h; cases h; done)
    | (show AllValid _; decide)
    | (intro _; decide +kernel)
    | decide +kernel

/-- **C114**, partial: a router that starts over (new, or after a Cache Reset) holds exactly what is served after one poll, whatever happened before. Missing: as above; and changes in the middle of the answer. -/
theorem C114_start_over_partial {cfg : ServerConfig} {sid : U16} {c0 : Client} {v : U8} (h : Setup cfg sid c0 v) {k : Int} {s : Contact}
    (hr : Run (newServer cfg sid) k c0 v (fun _ e => Sane e) s) (hne : s.store.current ≠ []) (hsy : s.router.synced = none) :
    (s.step (newServer cfg sid) c0 v (.poll [] none)).router.synced = some (sessionOf sid v, s.store.serial) ∧ (s.step (newServer cfg sid) c0 v (.poll [] none)).behind = 0 ∧
    (s.step (newServer cfg sid) c0 v (.poll [] none)).store = s.store ∧ HoldsServed v (!c0.dontSendBGPsecKeys) s.store.current (s.step (newServer cfg sid) c0 v (.poll [] none)).router := by
  obtain ⟨g, hc, t, ht, hs⟩ := RouterInv.sane h hr
  obtain ⟨hstore, g', hc', hpoll⟩ := polled h g (fun ss n h => (hs ss n h).1) hc [] none
  generalize (s.step (newServer cfg sid) c0 v (.poll [] none)) = s1 at hstore hpoll ⊢
  obtain ⟨st1, cn1, r1, b1⟩ := s1
  dsimp only at hpoll hstore ⊢
  cases hpoll with
  | nothing hn => exact absurd (hn rfl) hne
  | reset _ hsy' => rw [hsy] at hsy'; cases hsy'
  | diff _ hsy' => rw [hsy] at hsy'; cases hsy'
  | full _ _ =>
    obtain ⟨t1, rfl⟩ := ht.head
    have hv := ht.valid _ List.mem_cons_self
    exact ⟨rfl, by simp, hstore, fun x => mem_noteAll_full hv.1 hv.2 x⟩

/-- **C114**, partial: a router that keeps up and polls twice without a change holds exactly what is served. (The first answer may be a Cache Reset.) Missing: as above. -/
theorem C114_two_polls_partial {cfg : ServerConfig} {sid : U16} {c0 : Client} {v : U8} (h : Setup cfg sid c0 v) {k : Int} {s : Contact}
    (hr : Run (newServer cfg sid) k c0 v (fun s e => Sane e ∧ Keeps k s e) s) (hne : s.store.current ≠ []) (hk : Keeps k s (.poll [] none)) :
    let s2 := (s.step (newServer cfg sid) c0 v (.poll [] none)).step (newServer cfg sid) c0 v (.poll [] none)
    s2.router.synced = some (sessionOf sid v, s.store.serial) ∧ s2.behind = 0 ∧ s2.store = s.store ∧ HoldsServed v (!c0.dontSendBGPsecKeys) s.store.current s2.router := by
  intro s2
  have hsane : Sane (.poll [] none) := by intro _ h; cases h
  have hi0 := RouterInv.keeps h hr
  obtain ⟨g, hc, t, ht, hs⟩ := hi0
  obtain ⟨hstore, g', hc', hpoll⟩ := polled h g (fun ss n h => (hs ss n h).1) hc [] none
  have hr1 := Run.step hr _ ⟨hsane, hk⟩
  have hi1 := RouterInv.keeps h hr1
  -- after the first poll: no longer behind, or starting over
  have h1 : (s.step (newServer cfg sid) c0 v (.poll [] none)).router.synced.isSome → (s.step (newServer cfg sid) c0 v (.poll [] none)).behind = 0 := by
    generalize (s.step (newServer cfg sid) c0 v (.poll [] none)) = s1 at hstore hpoll ⊢
    obtain ⟨st1, cn1, r1, b1⟩ := s1
    dsimp only at hpoll hstore ⊢
    intro hsome
    cases hpoll with
    | nothing hn => exact absurd (hn rfl) hne
    | reset _ hsy' => cases hsome
    | diff _ hsy' => simp
    | full _ _ => simp
  have hr2 := Run.step hr1 (.poll [] none) ⟨hsane, rfl, fun hsome => .inl (by rw [h1 hsome]; omega)⟩
  change Run _ _ _ _ _ s2 at hr2
  obtain ⟨g1, hc1, t1, ht1, hs1⟩ := hi1
  obtain ⟨hstore2, _, _, hpoll2⟩ := polled h g1 (fun ss n h => (hs1 ss n h).1) hc1 [] none
  have hst2 : s2.store = s.store := hstore2.trans hstore
  have key : s2.router.synced.isSome ∧ s2.behind = 0 := by
    show (Contact.step _ _ _ _ _).router.synced.isSome ∧ (Contact.step _ _ _ _ _).behind = 0
    simp only [List.foldl_nil] at hstore hpoll2
    generalize hs1' : (s.step (newServer cfg sid) c0 v (.poll [] none)) = s1 at *
    generalize hs2' : (s1.step (newServer cfg sid) c0 v (.poll [] none)) = s2' at *
    obtain ⟨st2, cn2, r2, b2⟩ := s2'
    dsimp only at hpoll2 ⊢
    cases hpoll2 with
    | nothing hn => exact absurd (hn rfl) (by rw [hstore]; exact hne)
    | @reset _ ss0 n0 hsy' hd =>
      exfalso
      obtain ⟨_, pre, S, post, hp, hlen, _⟩ := hs1 _ _ hsy'
      rw [h1 (by rw [hsy']; rfl)] at hlen
      cases List.length_eq_zero_iff.1 hlen
      obtain ⟨t', ht'⟩ := ht1.head
      rw [hp] at ht'
      simp only [List.nil_append, List.cons.injEq, Prod.mk.injEq] at ht'
      rw [getSDsSerialDiff_eq, if_pos ht'.1.1] at hd
      cases hd
    | diff _ hsy' => simp
    | full _ _ => simp
  obtain ⟨⟨ss, n⟩, hsn⟩ := Option.isSome_iff_exists.1 key.1
  obtain ⟨rfl, _, hex⟩ := C114_exact_partial h hr2 hsn
  obtain ⟨rfl, hh⟩ := hex key.2
  rw [hst2] at hh hsn
  exact ⟨hsn, key.2, hst2, hh⟩

/-- A router that missed four changes (retention limit 3): Cache Reset, then everything. -/
example : ∃ s, Run (newServer exCfg 7) 3 exFresh 1 (fun s e => Sane e ∧ Keeps 3 s e) s ∧ s.store.current ≠ [] ∧ s.behind = 4 ∧ Keeps 3 s (.poll [] none) ∧ s.router.held = [exA.record] ∧
    (s.step (newServer exCfg 7) exFresh 1 (.poll [] none)).router.synced = none ∧
    ((s.step (newServer exCfg 7) exFresh 1 (.poll [] none)).step (newServer exCfg 7) exFresh 1 (.poll [] none)).router.held = [exB.record, exC.record] := by
  refine ⟨_, .step (.step (.step (.step (.step (.step .start (.update [exA]) ⟨?_, ?_⟩) (.poll [] none) ⟨?_, ?_⟩) (.update [exB]) ⟨?_, ?_⟩) (.update [exA]) ⟨?_, ?_⟩) (.update [exC]) ⟨?_, ?_⟩) (.update [exB, exC]) ⟨?_, ?_⟩, ?_, ?_, ?_, ?_, ?_, ?_⟩
  all_goals first
    | exact ⟨rfl, fun _ => .inl (by decide +kernel)⟩
    | exact ⟨rfl, fun _ => .inr (by decide +kernel)⟩
    | (intro _ h; cases h; done)
    | (show AllValid _; decide)
    | (intro _; decide +kernel)
    | decide +kernel

end StayRTR
