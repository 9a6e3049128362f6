import Verif.Model.Startup
import Verif.Model.Update
import Verif.Props.Loop
import Verif.Model.Json

/-! C136-C139: the start of the program, its HTTP paths, and the update endpoint. -/

namespace StayRTR

open Prog

/-! ## C136: nothing before the first load -/

/-- Where the main goroutine is before the first load is over. -/
def Spec.BeforeLoad (a : RunAt) : Prop := a = .flags ∨ a = .http ∨ a = .binds ∨ a = .loading

theorem Prog.Runs.inv {f : StartFlags} {w : StartWorld} (I : Prog → Prop) {n : Nat} {p q : Prog} (h : Prog.Runs f w n p q) (h0 : I p) (hs : ∀ a b, I a → Prog.Step f w a b → I b) : I q := by
  induction h with
  | nil => exact h0
  | snoc h s ih => exact hs _ _ (ih h0) s

theorem Prog.mainStep_running {f : StartFlags} {w : StartWorld} {p q : Prog} (h : p.mainStep f w = some q) : p.ended = none := by
  unfold Prog.mainStep at h
  cases he : p.ended with
  | none => rfl
  | some e => simp [he] at h

theorem Prog.httpStep_running {f : StartFlags} {w : StartWorld} {p q : Prog} (h : p.httpStep f w = some q) : p.ended = none := by
  unfold Prog.httpStep at h
  cases he : p.ended with
  | none => rfl
  | some e => simp [he] at h

theorem Prog.listenStep_running {f : StartFlags} {w : StartWorld} {t : Transport} {p q : Prog} (h : p.listenStep f w t = some q) : p.ended = none := by
  unfold Prog.listenStep at h
  cases he : p.ended with
  | none => rfl
  | some e => simp [he] at h

/-- What the steps of the goroutine of a listener do. -/
theorem Prog.listenStep_cases {f : StartFlags} {w : StartWorld} {t : Transport} {p q : Prog} (h : p.listenStep f w t = some q) :
    p.listener t = .starting ∧
    ((w.listenOk p.taken (address f t) = true ∧ q = { p.setListener t .listening with taken := p.taken ++ [address f t] }) ∨
     (w.listenOk p.taken (address f t) = false ∧ q = { p with ended := some .fatal })) := by
  have he := Prog.listenStep_running h
  unfold Prog.listenStep at h
  rw [if_neg (by simp [he])] at h
  cases hl : p.listener t with
  | off => simp [hl] at h
  | listening => simp [hl] at h
  | starting =>
    rw [hl] at h
    refine ⟨rfl, ?_⟩
    cases hw : w.listenOk p.taken (address f t) with
    | true => left; simp only [hw, if_true, Option.some.injEq] at h; exact ⟨rfl, h.symm⟩
    | false => right; simp only [hw, Bool.false_eq_true, if_false, Option.some.injEq] at h; exact ⟨rfl, h.symm⟩

/-- What the steps of the HTTP goroutine do. -/
theorem Prog.httpStep_cases {f : StartFlags} {w : StartWorld} {p q : Prog} (h : p.httpStep f w = some q) :
    (p.http = .registering ∧ ((∃ m, p.mux.handle f.metricsPath .metrics = .ok m ∧ q = { p with mux := m, http := .binding }) ∨
      ((∀ m, p.mux.handle f.metricsPath .metrics ≠ .ok m) ∧ q = { p with ended := some .panic }))) ∨
    (p.http = .binding ∧ ((w.listenOk p.taken f.metricsAddr = true ∧ q = { p with http := .serving, taken := p.taken ++ [f.metricsAddr] }) ∨
      (w.listenOk p.taken f.metricsAddr = false ∧ q = { p with ended := some .fatal }))) := by
  have he := Prog.httpStep_running h
  unfold Prog.httpStep at h
  rw [if_neg (by simp [he])] at h
  cases hh : p.http with
  | off => simp [hh] at h
  | serving => simp [hh] at h
  | registering =>
    left
    rw [hh] at h
    refine ⟨rfl, ?_⟩
    cases hm : p.mux.handle f.metricsPath .metrics with
    | ok m => left; simp only [hm, Option.some.injEq] at h; exact ⟨m, rfl, h.symm⟩
    | err => right; simp only [hm, Option.some.injEq] at h; exact ⟨by simp, h.symm⟩
    | panic => right; simp only [hm, Option.some.injEq] at h; exact ⟨by simp, h.symm⟩
  | binding =>
    right
    rw [hh] at h
    refine ⟨rfl, ?_⟩
    cases hw : w.listenOk p.taken f.metricsAddr with
    | true => left; simp only [hw, if_true, Option.some.injEq] at h; exact ⟨rfl, h.symm⟩
    | false => right; simp only [hw, Bool.false_eq_true, if_false, Option.some.injEq] at h; exact ⟨rfl, h.symm⟩

/-- What the steps of the main goroutine do. -/
theorem Prog.mainStep_cases {f : StartFlags} {w : StartWorld} {p q : Prog} (h : p.mainStep f w = some q) :
    (∃ e, q = { p with ended := some e } ∧ p.pos ≠ .loop) ∨
    (p.pos = .flags ∧ f.args = false ∧ f.version = false ∧ q = { p with pos := .http }) ∨
    (p.pos = .http ∧ f.metricsAddr = [] ∧ q = { p with pos := .binds }) ∨
    (p.pos = .http ∧ f.metricsAddr ≠ [] ∧ ∃ m, runPaths f = .ok m ∧ q = { p with pos := .binds, mux := m, http := .registering }) ∨
    (p.pos = .binds ∧ ¬ (f.bind = [] ∧ f.bindTLS = [] ∧ f.bindSSH = []) ∧ q = { p with pos := .loading }) ∨
    (p.pos = .loading ∧ q = { p with pos := .plain, loaded := true }) ∨
    (p.pos = .plain ∧ f.bind ≠ [] ∧ q = { p.setListener .tcp .starting with pos := .tls }) ∨
    (p.pos = .plain ∧ f.bind = [] ∧ q = { p with pos := .tls }) ∨
    (p.pos = .tls ∧ f.bindTLS ≠ [] ∧ q = { p.setListener .tls .starting with pos := .ssh }) ∨
    (p.pos = .tls ∧ f.bindTLS = [] ∧ q = { p with pos := .ssh }) ∨
    (p.pos = .ssh ∧ f.bindSSH ≠ [] ∧ q = { p.setListener .ssh .starting with pos := .routine }) ∨
    (p.pos = .ssh ∧ f.bindSSH = [] ∧ q = { p with pos := .routine }) ∨
    (p.pos = .routine ∧ newTicker f.interval = .ok () ∧ q = { p with pos := .loop }) := by
  have he := Prog.mainStep_running h
  unfold Prog.mainStep at h
  rw [if_neg (by simp [he])] at h
  cases hp : p.pos <;> simp only [hp, Option.some.injEq, reduceCtorEq] at h
  · split at h
    · exact .inl ⟨_, h.symm, by simp⟩
    · split at h
      · exact .inl ⟨_, h.symm, by simp⟩
      · rename_i h1 h2; exact .inr (.inl ⟨rfl, by simpa using h1, by simpa using h2, h.symm⟩)
  · split at h
    · rename_i h1; simp [h1, h.symm]
    · rename_i h1
      cases hr : runPaths f with
      | ok m => simp only [hr] at h; simp [h1, h.symm]
      | err => simp only [hr] at h; exact .inl ⟨_, h.symm, by simp⟩
      | panic => simp only [hr] at h; exact .inl ⟨_, h.symm, by simp⟩
  · split at h
    · exact .inl ⟨_, h.symm, by simp⟩
    · rename_i h1; exact .inr (.inr (.inr (.inr (.inl ⟨rfl, h1, h.symm⟩))))
  · simp [h.symm]
  · split at h
    · rename_i h1; simp [h1, h.symm]
    · rename_i h1; simp only [ne_eq, Decidable.not_not] at h1; simp [h1, h.symm]
  · split at h
    · rename_i h1
      split at h
      · simp [h1, h.symm]
      · exact .inl ⟨_, h.symm, by simp⟩
    · rename_i h1; simp only [ne_eq, Decidable.not_not] at h1; simp [h1, h.symm]
  · split at h
    · rename_i h1
      split at h
      · simp [h1, h.symm]
      · exact .inl ⟨_, h.symm, by simp⟩
    · rename_i h1; simp only [ne_eq, Decidable.not_not] at h1; simp [h1, h.symm]
  · cases hn : newTicker f.interval with
    | ok u => simp only [hn] at h; simp [h.symm]
    | err => simp only [hn] at h; exact .inl ⟨_, h.symm, by simp⟩
    | panic => simp only [hn] at h; exact .inl ⟨_, h.symm, by simp⟩

/-- The invariant: listeners start only after the load. -/
theorem Prog.load_inv {f : StartFlags} {w : StartWorld} {p q : Prog}
    (h : (p.loaded = false ↔ Spec.BeforeLoad p.pos) ∧ ∀ t, p.listener t ≠ .off → p.loaded = true) (hs : Prog.Step f w p q) :
    (q.loaded = false ↔ Spec.BeforeLoad q.pos) ∧ ∀ t, q.listener t ≠ .off → q.loaded = true := by
  obtain ⟨h1, h2⟩ := h
  cases hs with
  | main h =>
    rcases Prog.mainStep_cases h with ⟨e, rfl, _⟩ | h | h | h | h | h | h | h | h | h | h | h | h
    · exact ⟨h1, h2⟩
    all_goals
      obtain ⟨hp, h⟩ := h
      rw [hp] at h1
      simp only [Spec.BeforeLoad, reduceCtorEq, or_false, or_true, or_self, iff_true, iff_false, Bool.not_eq_false] at h1
    · obtain ⟨_, _, rfl⟩ := h; exact ⟨by simp [Spec.BeforeLoad, h1], h2⟩
    · obtain ⟨_, rfl⟩ := h; exact ⟨by simp [Spec.BeforeLoad, h1], h2⟩
    · obtain ⟨_, _, _, rfl⟩ := h; exact ⟨by simp [Spec.BeforeLoad, h1], h2⟩
    · obtain ⟨_, rfl⟩ := h; exact ⟨by simp [Spec.BeforeLoad, h1], h2⟩
    · subst h; exact ⟨by simp [Spec.BeforeLoad], fun _ _ => rfl⟩
    · obtain ⟨_, rfl⟩ := h; exact ⟨by simp [Spec.BeforeLoad, Prog.setListener, h1], fun _ _ => h1⟩
    · obtain ⟨_, rfl⟩ := h; exact ⟨by simp [Spec.BeforeLoad, h1], fun _ _ => h1⟩
    · obtain ⟨_, rfl⟩ := h; exact ⟨by simp [Spec.BeforeLoad, Prog.setListener, h1], fun _ _ => h1⟩
    · obtain ⟨_, rfl⟩ := h; exact ⟨by simp [Spec.BeforeLoad, h1], fun _ _ => h1⟩
    · obtain ⟨_, rfl⟩ := h; exact ⟨by simp [Spec.BeforeLoad, Prog.setListener, h1], fun _ _ => h1⟩
    · obtain ⟨_, rfl⟩ := h; exact ⟨by simp [Spec.BeforeLoad, h1], fun _ _ => h1⟩
    · obtain ⟨_, rfl⟩ := h; exact ⟨by simp [Spec.BeforeLoad, h1], fun _ _ => h1⟩
  | http h =>
    rcases Prog.httpStep_cases h with ⟨_, ⟨m, _, rfl⟩ | ⟨_, rfl⟩⟩ | ⟨_, ⟨_, rfl⟩ | ⟨_, rfl⟩⟩ <;> exact ⟨h1, h2⟩
  | listen t h =>
    rcases Prog.listenStep_cases h with ⟨hl, ⟨_, rfl⟩ | ⟨_, rfl⟩⟩
    · exact ⟨h1, fun _ _ => h2 t (by simp [hl])⟩
    · exact ⟨h1, h2⟩

/-- In every run a router can connect, or is about to be able to, only when the first load is over: the fetches of both files have come back, with or without data. -/
theorem C136_routers_partial {f : StartFlags} {w : StartWorld} {n : Nat} {p : Prog} (h : Prog.Runs f w n .init p) (t : Transport) (hl : p.listener t ≠ .off) : p.loaded = true :=
  (h.inv (fun p => (p.loaded = false ↔ Spec.BeforeLoad p.pos) ∧ ∀ t, p.listener t ≠ .off → p.loaded = true) (by simp [Prog.init, Spec.BeforeLoad]) (fun _ _ => Prog.load_inv)).2 t hl

/-! ## C137: mistakes are found before anything is served -/

/-- How far the main goroutine is. -/
def RunAt.idx : RunAt → Nat
  | .flags => 0 | .http => 1 | .binds => 2 | .loading => 3 | .plain => 4 | .tls => 5 | .ssh => 6 | .routine => 7 | .loop => 8

/-- Where the goroutine of a listener is started. -/
def Spec.startIdx : Transport → Nat
  | .tcp => 4 | .tls => 5 | .ssh => 6

/-- The number of steps that remain, at most. -/
def Prog.remaining (p : Prog) : Nat :=
  if p.ended.isSome then 0 else
  (8 - p.pos.idx) +
  (match p.http with | .off => 2 | .registering => 2 | .binding => 1 | .serving => 0) +
  ((if p.listener .tcp = .listening then 0 else 1) + (if p.listener .tls = .listening then 0 else 1) + (if p.listener .ssh = .listening then 0 else 1))

/-- Which goroutines run is decided by where the main one is. -/
def Prog.Formed (f : StartFlags) (p : Prog) : Prop :=
  (if p.pos.idx ≤ 1 then p.http = .off else (p.http = .off ↔ f.metricsAddr = [])) ∧
  ∀ t, if p.pos.idx ≤ Spec.startIdx t then p.listener t = .off else (p.listener t = .off ↔ address f t = [])

theorem Prog.formed_step {f : StartFlags} {w : StartWorld} {p q : Prog} (h : p.Formed f) (hs : Prog.Step f w p q) : q.Formed f ∧ q.remaining < p.remaining := by
  obtain ⟨h1, h2⟩ := h
  have hT := h2 .tcp
  have hL := h2 .tls
  have hS := h2 .ssh
  have hall : ∀ {q : Prog}, (if q.pos.idx ≤ 4 then q.listener .tcp = .off else (q.listener .tcp = .off ↔ f.bind = [])) →
      (if q.pos.idx ≤ 5 then q.listener .tls = .off else (q.listener .tls = .off ↔ f.bindTLS = [])) →
      (if q.pos.idx ≤ 6 then q.listener .ssh = .off else (q.listener .ssh = .off ↔ f.bindSSH = [])) →
      ∀ t, if q.pos.idx ≤ Spec.startIdx t then q.listener t = .off else (q.listener t = .off ↔ address f t = []) := by
    intro q a b c t; cases t <;> assumption
  cases hs with
  | main h =>
    have he := Prog.mainStep_running h
    rcases Prog.mainStep_cases h with ⟨e, rfl, hne⟩ | h | h | h | h | h | h | h | h | h | h | h | h
    · refine ⟨⟨h1, h2⟩, ?_⟩
      cases hp : p.pos <;> simp_all [Prog.remaining, RunAt.idx] <;> omega
    all_goals
      obtain ⟨hp, h⟩ := h
      simp only [hp, RunAt.idx, Spec.startIdx, address] at h1 hT hL hS
      simp only [Nat.reduceLeDiff, if_true, if_false] at h1 hT hL hS
    · obtain ⟨_, _, rfl⟩ := h; exact ⟨⟨by simp [RunAt.idx, h1], hall (by simp [RunAt.idx, hT]) (by simp [RunAt.idx, hL]) (by simp [RunAt.idx, hS])⟩, by simp [Prog.remaining, he, hp, RunAt.idx]⟩
    · obtain ⟨_, rfl⟩ := h; exact ⟨⟨by simp_all [RunAt.idx], hall (by simp [RunAt.idx, hT]) (by simp [RunAt.idx, hL]) (by simp [RunAt.idx, hS])⟩, by simp [Prog.remaining, he, hp, RunAt.idx]⟩
    · obtain ⟨_, _, _, rfl⟩ := h; exact ⟨⟨by simp_all [RunAt.idx], hall (by simp [RunAt.idx, hT]) (by simp [RunAt.idx, hL]) (by simp [RunAt.idx, hS])⟩, by simp [Prog.remaining, he, hp, h1, RunAt.idx]⟩
    · obtain ⟨_, rfl⟩ := h; exact ⟨⟨by simp [RunAt.idx, h1], hall (by simp [RunAt.idx, hT]) (by simp [RunAt.idx, hL]) (by simp [RunAt.idx, hS])⟩, by simp [Prog.remaining, he, hp, RunAt.idx]⟩
    · subst h; exact ⟨⟨by simp [RunAt.idx, h1], hall (by simp [RunAt.idx, hT]) (by simp [RunAt.idx, hL]) (by simp [RunAt.idx, hS])⟩, by simp [Prog.remaining, he, hp, RunAt.idx]⟩
    all_goals try
      obtain ⟨_, rfl⟩ := h; exact ⟨⟨by simp_all [RunAt.idx, Prog.setListener], hall (by simp_all [RunAt.idx, Prog.setListener]) (by simp_all [RunAt.idx, Prog.setListener]) (by simp_all [RunAt.idx, Prog.setListener])⟩, by simp [Prog.remaining, Prog.setListener, he, hp, hT, hL, hS, RunAt.idx]⟩
  | http h =>
    have he := Prog.httpStep_running h
    rcases Prog.httpStep_cases h with ⟨hh, ⟨m, _, rfl⟩ | ⟨_, rfl⟩⟩ | ⟨hh, ⟨_, rfl⟩ | ⟨_, rfl⟩⟩
    all_goals
      refine ⟨⟨?_, h2⟩, ?_⟩
      · simp only [hh] at h1 ⊢
        try simpa using h1
      · simp only [Prog.remaining, he, hh]
        simp
        try omega
  | listen t h =>
    have he := Prog.listenStep_running h
    rcases Prog.listenStep_cases h with ⟨hl, ⟨_, rfl⟩ | ⟨_, rfl⟩⟩
    · refine ⟨⟨h1, ?_⟩, ?_⟩
      · intro t'
        have := h2 t'
        by_cases ht : t' = t
        · subst ht
          simp only [hl, Prog.setListener, if_true] at this ⊢
          simpa using this
        · simpa only [Prog.setListener, ht, if_false] using this
      · cases t <;> simp [Prog.remaining, Prog.setListener, he, hl] <;> omega
    · refine ⟨⟨h1, h2⟩, ?_⟩
      cases t <;> simp [Prog.remaining, he, hl] <;> omega

theorem Prog.formed_runs {f : StartFlags} {w : StartWorld} {n : Nat} {p : Prog} (h : Prog.Runs f w n .init p) : p.Formed f ∧ n + p.remaining ≤ 13 := by
  generalize hq : Prog.init = q at h
  induction h with
  | nil q => subst hq; exact ⟨⟨by simp [Prog.init, RunAt.idx], fun t => by simp [Prog.init, RunAt.idx]⟩, by decide⟩
  | snoc h s ih =>
    obtain ⟨h1, h2⟩ := ih hq
    obtain ⟨h3, h4⟩ := Prog.formed_step h1 s
    exact ⟨h3, by omega⟩

/-! ### Paths -/

/-- A path that can be registered: it has a slash. -/
def Spec.HasSlash (p : Str) : Prop := '/' ∈ p

theorem patternPath_nil (p : Str) : patternPath p = [] ↔ ¬ Spec.HasSlash p := by
  unfold patternPath Spec.HasSlash
  induction p with
  | nil => simp
  | cons a p ih =>
    by_cases ha : a = '/'
    · subst ha; simp
    · rw [List.dropWhile_cons_of_pos (by simpa using ha), ih]
      simp [Ne.symm ha]

/-- `handle` succeeds exactly if there is a slash and the pattern is new. -/
theorem Mux.handle_ok {m m' : Mux} {p : Str} {h : HttpHandler} : m.handle p h = .ok m' ↔ Spec.HasSlash p ∧ (∀ x ∈ m, x.1 ≠ p) ∧ m' = m ++ [(p, h)] := by
  unfold Mux.handle
  by_cases h1 : Spec.HasSlash p
  · rw [if_neg (by rw [patternPath_nil]; simpa using h1)]
    by_cases h2 : m.any (fun x => x.1 == p) = true
    · rw [if_pos h2]
      simp only [List.any_eq_true, beq_iff_eq] at h2
      obtain ⟨x, hx, e⟩ := h2
      constructor
      · intro h; cases h
      · rintro ⟨_, h, _⟩; exact absurd e (h x hx)
    · rw [if_neg h2]
      simp only [List.any_eq_true, beq_iff_eq, not_exists, not_and] at h2
      simp only [GoRes.ok.injEq]
      exact ⟨fun e => ⟨h1, h2, e.symm⟩, fun ⟨_, _, e⟩ => e.symm⟩
  · rw [if_pos (by rw [patternPath_nil]; exact h1)]
    constructor
    · intro h; cases h
    · rintro ⟨h, _⟩; exact absurd h h1

theorem Mux.handle_panic {m : Mux} {p : Str} {h : HttpHandler} : m.handle p h = .panic ↔ ¬ (Spec.HasSlash p ∧ ∀ x ∈ m, x.1 ≠ p) := by
  constructor
  · intro e hh
    have := (Mux.handle_ok (h := h)).2 ⟨hh.1, hh.2, rfl⟩
    rw [e] at this; cases this
  · intro hn
    cases e : m.handle p h with
    | ok m' => exact absurd ((Mux.handle_ok.1 e).imp_right (·.1)) hn
    | panic => rfl
    | err => unfold Mux.handle at e; split at e <;> (try split at e) <;> cases e

/-- The paths of the flags, with what each of them is for. -/
def Spec.paths (f : StartFlags) : List (Str × HttpHandler) :=
  (if f.exportPath = [] then [] else [(f.exportPath, .exporter)]) ++ (if f.updateEndpoint then [("/api/update".toList, .updateNow)] else []) ++ [(f.metricsPath, .metrics)]

/-- The paths of the flags can be used together. -/
def Spec.PathsFit (f : StartFlags) : Prop := (∀ x ∈ Spec.paths f, Spec.HasSlash x.1) ∧ ((Spec.paths f).map (·.1)).Nodup

instance Spec.decHasSlash (p : Str) : Decidable (Spec.HasSlash p) := inferInstanceAs (Decidable ('/' ∈ p))
instance Spec.decPathsFit (f : StartFlags) : Decidable (Spec.PathsFit f) := inferInstanceAs (Decidable (_ ∧ _))

theorem update_slash : Spec.HasSlash "/api/update".toList := by decide

theorem runPaths_aux (u e mp : Str) (b : Bool) (hu : Spec.HasSlash u) :
    let l : Mux := (if e = [] then [] else [(e, .exporter)]) ++ (if b then [(u, .updateNow)] else []) ++ [(mp, .metrics)]
    (((if e ≠ [] then Mux.handle [] e .exporter else .ok []).bind fun m => if b then m.handle u .updateNow else .ok m).bind fun m => m.handle mp .metrics) =
      if (∀ x ∈ l, Spec.HasSlash x.1) ∧ (l.map (·.1)).Nodup then .ok l else .panic := by
  have key : ∀ (m : Mux) (p : Str) (h : HttpHandler), m.handle p h = if Spec.HasSlash p ∧ (∀ x ∈ m, x.1 ≠ p) then .ok (m ++ [(p, h)]) else .panic := by
    intro m p h
    split
    · rename_i hh; exact Mux.handle_ok.2 ⟨hh.1, hh.2, rfl⟩
    · rename_i hh; exact Mux.handle_panic.2 hh
  simp only [key]
  by_cases h1 : e = [] <;> cases b
  · simp [h1, GoRes.bind]
  · simp [h1, GoRes.bind, hu]
  · simp only [h1, GoRes.bind]
    by_cases h3 : Spec.HasSlash e <;> simp [h1, h3]
  · simp only [h1, GoRes.bind]
    by_cases h3 : Spec.HasSlash e
    · by_cases h6 : e = u
      · subst h6; simp [h1, h3]
      · simp [h1, h3, h6, hu]
    · simp [h1, h3]

/-- The registrations of the program, one after the other. -/
theorem runPaths_metrics (f : StartFlags) : ((runPaths f).bind fun m => m.handle f.metricsPath .metrics) = if Spec.PathsFit f then .ok (Spec.paths f) else .panic :=
  runPaths_aux "/api/update".toList f.exportPath f.metricsPath f.updateEndpoint update_slash

theorem runPaths_ok {f : StartFlags} (h : Spec.PathsFit f) : ∃ m, runPaths f = .ok m ∧ m.handle f.metricsPath .metrics = .ok (Spec.paths f) := by
  have := runPaths_metrics f
  rw [if_pos h] at this
  cases hr : runPaths f with
  | ok m => rw [hr] at this; exact ⟨m, rfl, this⟩
  | err => rw [hr] at this; cases this
  | panic => rw [hr] at this; cases this

/-! ### Good settings -/

/-- The addresses of the flags. -/
def Spec.addresses (f : StartFlags) : List Str := [f.metricsAddr, f.bind, f.bindTLS, f.bindSSH].filter (· ≠ [])

/-- Settings without mistakes: no stray arguments, an address for routers, all addresses different and free, paths that fit, files that can be read, a refresh interval from a second to 292 years. -/
structure Spec.Good (f : StartFlags) (w : StartWorld) : Prop where
  args : f.args = false
  version : f.version = false
  paths : f.metricsAddr ≠ [] → Spec.PathsFit f
  binds : f.bind ≠ [] ∨ f.bindTLS ≠ [] ∨ f.bindSSH ≠ []
  certificate : f.bindTLS ≠ [] → w.certificate = true
  hostKey : f.bindSSH ≠ [] → w.hostKeyRead = true ∧ w.hostKeyParsed = true
  keys : f.bindSSH ≠ [] → f.enableKey = true → f.keysFile ≠ [] → w.keysRead = true
  interval : 1 ≤ f.interval.toNat ∧ f.interval.toNat ≤ 9223372036
  distinct : (Spec.addresses f).Nodup
  free : ∀ taken a, a ∈ Spec.addresses f → a ∉ taken → taken ⊆ Spec.addresses f → w.listenOk taken a = true

/-- Everything that is configured is being served, and the update loop runs. -/
def Spec.Up (f : StartFlags) (p : Prog) : Prop :=
  p.ended = none ∧ p.pos = .loop ∧ (∀ t, address f t ≠ [] → p.serves t) ∧ (f.metricsAddr ≠ [] → p.http = .serving ∧ p.mux = Spec.paths f)

/-- The addresses taken are those being served. -/
def Prog.TakenOf (f : StartFlags) (p : Prog) (a : Str) : Prop := (p.http = .serving ∧ a = f.metricsAddr ∧ a ≠ []) ∨ ∃ t, p.listener t = .listening ∧ a = address f t ∧ a ≠ []

theorem Spec.address_mem {f : StartFlags} {t : Transport} (h : address f t ≠ []) : address f t ∈ Spec.addresses f := by
  unfold Spec.addresses
  rw [List.mem_filter]
  cases t <;> exact ⟨by simp [address], by simpa using h⟩

theorem Spec.metrics_mem {f : StartFlags} (h : f.metricsAddr ≠ []) : f.metricsAddr ∈ Spec.addresses f := by
  unfold Spec.addresses
  rw [List.mem_filter]
  exact ⟨by simp, by simpa using h⟩

theorem Spec.address_inj {f : StartFlags} (h : (Spec.addresses f).Nodup) {t t' : Transport} (hn : address f t ≠ []) (e : address f t = address f t') : t = t' := by
  unfold Spec.addresses at h
  have hn' : address f t' ≠ [] := e ▸ hn
  apply Classical.byContradiction
  intro hne
  cases t <;> cases t' <;> first | exact absurd rfl hne | (simp only [address] at hn hn' e; by_cases hm : f.metricsAddr = [] <;> by_cases h1 : f.bind = [] <;> by_cases h2 : f.bindTLS = [] <;> by_cases h3 : f.bindSSH = [] <;> simp_all)

theorem Spec.metrics_ne {f : StartFlags} (h : (Spec.addresses f).Nodup) {t : Transport} (hn : f.metricsAddr ≠ []) : f.metricsAddr ≠ address f t := by
  unfold Spec.addresses at h
  intro e
  have hn' : address f t ≠ [] := e ▸ hn
  cases t <;> (simp only [address] at hn hn' e; by_cases h1 : f.bind = [] <;> by_cases h2 : f.bindTLS = [] <;> by_cases h3 : f.bindSSH = [] <;> simp_all)

/-- The invariant of runs with good settings. -/
structure Prog.GoodInv (f : StartFlags) (p : Prog) : Prop where
  formed : p.Formed f
  ended : p.ended = none
  taken : ∀ a ∈ p.taken, p.TakenOf f a
  reg : p.http = .registering → runPaths f = .ok p.mux
  regd : p.http = .binding ∨ p.http = .serving → p.mux = Spec.paths f

theorem Prog.TakenOf.mem {f : StartFlags} {p : Prog} {a : Str} (h : p.TakenOf f a) : a ∈ Spec.addresses f := by
  rcases h with ⟨_, rfl, hn⟩ | ⟨t, _, rfl, hn⟩
  · exact Spec.metrics_mem hn
  · exact Spec.address_mem hn

theorem Prog.good_step {f : StartFlags} {w : StartWorld} (g : Spec.Good f w) {p q : Prog} (h : p.GoodInv f) (hs : Prog.Step f w p q) : q.GoodInv f := by
  have hform := (Prog.formed_step h.formed hs).1
  obtain ⟨hf, he, ht, hr, hb⟩ := h
  cases hs with
  | main hm =>
    have hq := hm
    unfold Prog.mainStep at hm
    rw [if_neg (by simp [he])] at hm
    cases hp : p.pos <;> simp only [hp, Option.some.injEq, reduceCtorEq] at hm
    · rw [if_neg (by simp [g.args]), if_neg (by simp [g.version])] at hm
      subst hm; exact ⟨hform, he, ht, hr, hb⟩
    · have ho : p.http = .off := by have := hf.1; rw [hp] at this; simpa [RunAt.idx] using this
      by_cases hmA : f.metricsAddr = []
      · rw [if_pos hmA] at hm; subst hm; exact ⟨hform, he, ht, hr, hb⟩
      · rw [if_neg hmA] at hm
        obtain ⟨m, e, _⟩ := runPaths_ok (g.paths hmA)
        rw [e] at hm
        subst hm
        refine ⟨hform, he, fun a ha => ?_, fun _ => e, by simp⟩
        rcases ht a ha with ⟨h', _⟩ | h'
        · rw [ho] at h'; cases h'
        · exact .inr h'
    · rw [if_neg (by rcases g.binds with h | h | h <;> simp [h])] at hm
      subst hm; exact ⟨hform, he, ht, hr, hb⟩
    · subst hm; exact ⟨hform, he, ht, hr, hb⟩
    · have ho : p.listener .tcp = .off := by have := hf.2 .tcp; rw [hp] at this; simpa [RunAt.idx, Spec.startIdx] using this
      split at hm
      · subst hm
        refine ⟨hform, he, fun a ha => ?_, hr, hb⟩
        rcases ht a ha with h' | ⟨t, h1, h2⟩
        · exact .inl h'
        · refine .inr ⟨t, ?_, h2⟩
          have : t ≠ .tcp := by rintro rfl; rw [ho] at h1; cases h1
          simpa [Prog.setListener, this] using h1
      · subst hm; exact ⟨hform, he, ht, hr, hb⟩
    · have ho : p.listener .tls = .off := by have := hf.2 .tls; rw [hp] at this; simpa [RunAt.idx, Spec.startIdx] using this
      split at hm
      · rename_i hb'
        rw [if_pos (g.certificate hb')] at hm
        subst hm
        refine ⟨hform, he, fun a ha => ?_, hr, hb⟩
        rcases ht a ha with h' | ⟨t, h1, h2⟩
        · exact .inl h'
        · refine .inr ⟨t, ?_, h2⟩
          have : t ≠ .tls := by rintro rfl; rw [ho] at h1; cases h1
          simpa [Prog.setListener, this] using h1
      · subst hm; exact ⟨hform, he, ht, hr, hb⟩
    · have ho : p.listener .ssh = .off := by have := hf.2 .ssh; rw [hp] at this; simpa [RunAt.idx, Spec.startIdx] using this
      split at hm
      · rename_i hb'
        rw [if_pos ⟨(g.hostKey hb').1, (g.hostKey hb').2, g.keys hb'⟩] at hm
        subst hm
        refine ⟨hform, he, fun a ha => ?_, hr, hb⟩
        rcases ht a ha with h' | ⟨t, h1, h2⟩
        · exact .inl h'
        · refine .inr ⟨t, ?_, h2⟩
          have : t ≠ .ssh := by rintro rfl; rw [ho] at h1; cases h1
          simpa [Prog.setListener, this] using h1
      · subst hm; exact ⟨hform, he, ht, hr, hb⟩
    · rw [C85_positive_partial f.interval g.interval.1 g.interval.2] at hm
      subst hm; exact ⟨hform, he, ht, hr, hb⟩
  | http hm =>
    have hne : ∀ {s}, p.http = s → s ≠ .off → f.metricsAddr ≠ [] := by
      intro s e hs' hA
      have := hf.1
      split at this
      · exact hs' (e ▸ this)
      · exact hs' (e ▸ this.2 hA)
    rcases Prog.httpStep_cases hm with ⟨hh, ⟨m, e, rfl⟩ | ⟨hno, rfl⟩⟩ | ⟨hh, ⟨_, rfl⟩ | ⟨hno, rfl⟩⟩
    · obtain ⟨m', e1, e2⟩ := runPaths_ok (g.paths (hne hh (by simp)))
      rw [hr hh] at e1
      cases e1
      rw [e2] at e
      cases e
      refine ⟨hform, he, fun a ha => ?_, by simp, fun _ => rfl⟩
      rcases ht a ha with ⟨h', _⟩ | h'
      · rw [hh] at h'; cases h'
      · exact .inr h'
    · obtain ⟨m', e1, e2⟩ := runPaths_ok (g.paths (hne hh (by simp)))
      rw [hr hh] at e1
      cases e1
      exact absurd e2 (hno _)
    · refine ⟨hform, he, fun a ha => ?_, by simp, fun _ => hb (.inl hh)⟩
      rcases List.mem_append.1 ha with ha | ha
      · rcases ht a ha with ⟨h', _⟩ | h'
        · rw [hh] at h'; cases h'
        · exact .inr h'
      · rw [List.mem_singleton.1 ha]; exact .inl ⟨rfl, rfl, hne hh (by simp)⟩
    · exfalso
      have hA := hne hh (by simp)
      have := g.free p.taken f.metricsAddr (Spec.metrics_mem hA) ?_ (fun a ha => (ht a ha).mem)
      · rw [hno] at this; cases this
      · intro hmem
        rcases ht _ hmem with ⟨h', _⟩ | ⟨t, _, h2, _⟩
        · rw [hh] at h'; cases h'
        · exact Spec.metrics_ne g.distinct hA h2
  | listen t hm =>
    rcases Prog.listenStep_cases hm with ⟨hl, hcase⟩
    have hA : address f t ≠ [] := by
      intro hA
      have := hf.2 t
      split at this
      · rw [hl] at this; cases this
      · rw [hl] at this; exact absurd (this.2 hA) (by simp)
    rcases hcase with ⟨_, rfl⟩ | ⟨hno, rfl⟩
    · refine ⟨hform, he, fun a ha => ?_, hr, hb⟩
      rcases List.mem_append.1 ha with ha | ha
      · rcases ht a ha with h' | ⟨t', h1, h2⟩
        · exact .inl h'
        · refine .inr ⟨t', ?_, h2⟩
          have : t' ≠ t := by rintro rfl; rw [hl] at h1; cases h1
          simpa [Prog.setListener, this] using h1
      · rw [List.mem_singleton.1 ha]; exact .inr ⟨t, by simp [Prog.setListener], rfl, hA⟩
    · exfalso
      have := g.free p.taken (address f t) (Spec.address_mem hA) ?_ (fun a ha => (ht a ha).mem)
      · rw [hno] at this; cases this
      · intro hmem
        rcases ht _ hmem with ⟨_, h2, h3⟩ | ⟨t', h1, h2, _⟩
        · exact Spec.metrics_ne g.distinct (h2 ▸ h3) h2.symm
        · cases Spec.address_inj g.distinct hA h2
          rw [hl] at h1; cases h1

theorem Prog.good_runs {f : StartFlags} {w : StartWorld} (g : Spec.Good f w) {n : Nat} {p : Prog} (h : Prog.Runs f w n .init p) : p.GoodInv f :=
  h.inv (Prog.GoodInv f) ⟨⟨by simp [Prog.init, RunAt.idx], fun t => by simp [Prog.init, RunAt.idx]⟩, rfl, by simp [Prog.init], by simp [Prog.init], by simp [Prog.init]⟩ (fun _ _ => Prog.good_step g)

/-- With good settings, in every schedule: the program does not end, it makes at most 13 steps of its start, and when none is left everything configured is served and the update loop runs. -/
theorem C137_good_partial {f : StartFlags} {w : StartWorld} (g : Spec.Good f w) {n : Nat} {p : Prog} (h : Prog.Runs f w n .init p) :
    p.ended = none ∧ n ≤ 13 ∧ ((∀ q, ¬ Prog.Step f w p q) → Spec.Up f p) := by
  obtain ⟨hf, he, ht, hr, hb⟩ := Prog.good_runs g h
  refine ⟨he, by have := (Prog.formed_runs h).2; omega, fun hno => ?_⟩
  have hpos : p.pos = .loop := by
    cases hp : p.pos
    case loop => rfl
    all_goals
      exfalso
      cases hm : p.mainStep f w with
      | some q => exact hno q (.main hm)
      | none =>
        unfold Prog.mainStep at hm
        rw [if_neg (by simp [he])] at hm
        simp [hp] at hm
  obtain ⟨h1, h2⟩ := hf
  rw [hpos] at h1 h2
  refine ⟨he, hpos, fun t hA => ⟨he, ?_⟩, fun hA => ?_⟩
  · have := h2 t
    rw [if_neg (by cases t <;> simp [RunAt.idx, Spec.startIdx])] at this
    cases hl : p.listener t with
    | off => exact absurd (this.1 hl) hA
    | listening => rfl
    | starting =>
      exfalso
      cases hm : p.listenStep f w t with
      | some q => exact hno q (.listen t hm)
      | none =>
        unfold Prog.listenStep at hm
        rw [if_neg (by simp [he])] at hm
        simp [hl] at hm
  · rw [if_neg (by simp [RunAt.idx])] at h1
    have hs : p.http = .serving := by
      cases hh : p.http with
      | off => exact absurd (h1.1 hh) hA
      | serving => rfl
      | registering | binding =>
        exfalso
        cases hm : p.httpStep f w with
        | some q => exact hno q (.http hm)
        | none =>
          unfold Prog.httpStep at hm
          rw [if_neg (by simp [he])] at hm
          simp [hh] at hm
    exact ⟨hs, hb (.inr hs)⟩

/-- The path for the export cannot be used: it has no slash, or it is the one of the update endpoint. -/
def Spec.ExportRefused (f : StartFlags) : Prop := f.exportPath ≠ [] ∧ ('/' ∉ f.exportPath ∨ f.updateEndpoint = true ∧ f.exportPath = "/api/update".toList)

/-- The mistakes that are found at once: arguments that are no flags, no address for routers, paths that cannot be registered; and the request for the version. -/
def Spec.Refused (f : StartFlags) : Prop :=
  f.args = true ∨ f.version = true ∨ (f.bind = [] ∧ f.bindTLS = [] ∧ f.bindSSH = []) ∨ (f.metricsAddr ≠ [] ∧ Spec.ExportRefused f)

theorem runPaths_refused (f : StartFlags) : (∃ m, runPaths f = .ok m) ↔ ¬ Spec.ExportRefused f := by
  have hu := update_slash
  unfold runPaths Spec.ExportRefused
  generalize "/api/update".toList = u at *
  by_cases h1 : f.exportPath = []
  · rw [if_neg (by simpa using h1)]
    refine ⟨fun _ h => h.1 h1, fun _ => ?_⟩
    cases hb : f.updateEndpoint with
    | false => exact ⟨[], rfl⟩
    | true => exact ⟨_, Mux.handle_ok.2 ⟨hu, by simp, rfl⟩⟩
  · rw [if_pos h1]
    by_cases h2 : '/' ∈ f.exportPath
    · rw [Mux.handle_ok.2 ⟨h2, by simp, rfl⟩, GoRes.bind]
      cases hb : f.updateEndpoint with
      | false => exact ⟨fun _ h => by simp [h2] at h, fun _ => ⟨_, rfl⟩⟩
      | true =>
        by_cases h3 : f.exportPath = u
        · refine ⟨?_, fun h => absurd ⟨h1, .inr ⟨rfl, h3⟩⟩ h⟩
          rintro ⟨m, e⟩
          exact absurd h3 ((Mux.handle_ok.1 e).2.1 (f.exportPath, .exporter) (by simp))
        · refine ⟨fun _ h => by simp [h2, h3] at h, fun _ => ⟨_, Mux.handle_ok.2 ⟨hu, by simpa using h3, rfl⟩⟩⟩
    · rw [Mux.handle_panic.2 (fun hh => h2 hh.1)]
      refine ⟨?_, fun h => absurd ⟨h1, .inl h2⟩ h⟩
      rintro ⟨m, e⟩
      cases e

/-- These end the program, in every schedule, before anything is loaded and before routers can connect. -/
theorem C137_early_partial {f : StartFlags} {w : StartWorld} (g : Spec.Refused f) {n : Nat} {p : Prog} (h : Prog.Runs f w n .init p) :
    p.loaded = false ∧ (∀ t, p.listener t = .off) ∧ ((∀ q, ¬ Prog.Step f w p q) → p.ended ≠ none) := by
  have hinv : (p.pos = .flags ∨ p.pos = .http ∨ p.pos = .binds) ∧ p.loaded = false ∧ (∀ t, p.listener t = .off) ∧ (p.pos ≠ .flags → f.args = false ∧ f.version = false) ∧
      (p.pos = .binds → f.metricsAddr ≠ [] → ∃ m, runPaths f = .ok m) := by
    refine h.inv (fun p => (p.pos = .flags ∨ p.pos = .http ∨ p.pos = .binds) ∧ p.loaded = false ∧ (∀ t, p.listener t = .off) ∧ (p.pos ≠ .flags → f.args = false ∧ f.version = false) ∧
      (p.pos = .binds → f.metricsAddr ≠ [] → ∃ m, runPaths f = .ok m)) (by simp [Prog.init]) ?_
    rintro a b ⟨h1, h2, h3, h4, h5⟩ hs
    cases hs with
    | main hm =>
      rcases Prog.mainStep_cases hm with ⟨e, rfl, _⟩ | ⟨hp, h⟩ | ⟨hp, h⟩ | ⟨hp, h⟩ | ⟨hp, h⟩ | ⟨hp, h⟩ | ⟨hp, h⟩ | ⟨hp, h⟩ | ⟨hp, h⟩ | ⟨hp, h⟩ | ⟨hp, h⟩ | ⟨hp, h⟩ | ⟨hp, h⟩
      · exact ⟨h1, h2, h3, h4, h5⟩
      · obtain ⟨e1, e2, rfl⟩ := h; exact ⟨by simp, h2, h3, fun _ => ⟨e1, e2⟩, by simp⟩
      · obtain ⟨e1, rfl⟩ := h; exact ⟨by simp, h2, h3, fun _ => h4 (by simp [hp]), fun _ hA => absurd e1 hA⟩
      · obtain ⟨e1, m, e2, rfl⟩ := h; exact ⟨by simp, h2, h3, fun _ => h4 (by simp [hp]), fun _ _ => ⟨m, e2⟩⟩
      · exfalso
        obtain ⟨ea, ev⟩ := h4 (by simp [hp])
        rcases g with g | g | g | ⟨gA, g⟩
        · rw [g] at ea; cases ea
        · rw [g] at ev; cases ev
        · exact h.1 g
        · exact (runPaths_refused f).1 (h5 hp gA) g
      all_goals (rw [hp] at h1; simp at h1)
    | http hm =>
      rcases Prog.httpStep_cases hm with ⟨_, ⟨m, _, rfl⟩ | ⟨_, rfl⟩⟩ | ⟨_, ⟨_, rfl⟩ | ⟨_, rfl⟩⟩ <;> exact ⟨h1, h2, h3, h4, h5⟩
    | listen t hm =>
      rcases Prog.listenStep_cases hm with ⟨hl, _⟩
      rw [h3 t] at hl; cases hl
  refine ⟨hinv.2.1, hinv.2.2.1, fun hno he => ?_⟩
  cases hm : p.mainStep f w with
  | some q => exact hno q (.main hm)
  | none =>
    unfold Prog.mainStep at hm
    rw [if_neg (by simp [he])] at hm
    rcases hinv.1 with hp | hp | hp <;> simp [hp] at hm

/-- The status of the program, if it exits on its own: 2 only with arguments that are no flags, 0 only if the version is asked for. Every other end is an error. -/
theorem C137_status {f : StartFlags} {w : StartWorld} {n : Nat} {p : Prog} (h : Prog.Runs f w n .init p) (c : Nat) (he : p.ended = some (.exit c)) : (c = 2 ∧ f.args = true) ∨ (c = 0 ∧ f.args = false ∧ f.version = true) := by
  refine h.inv (fun p => ∀ c, p.ended = some (.exit c) → (c = 2 ∧ f.args = true) ∨ (c = 0 ∧ f.args = false ∧ f.version = true)) (by simp [Prog.init]) ?_ c he
  clear he h p
  intro a b ih hs c he
  cases hs with
  | main hm =>
    unfold Prog.mainStep at hm
    split at hm
    · cases hm
    · next hend =>
      have hend : a.ended = none := by simpa using hend
      split at hm <;> simp only [Option.some.injEq, reduceCtorEq] at hm <;> subst hm
      · split at he
        · next h => cases he; exact .inl ⟨rfl, h⟩
        · next h =>
          split at he
          · next h' => cases he; exact .inr ⟨rfl, by simpa using h, h'⟩
          · simp [hend] at he
      all_goals (repeat' split at he) <;> simp_all [Prog.setListener]
  | http hm =>
    rcases Prog.httpStep_cases hm with ⟨_, ⟨m, _, rfl⟩ | ⟨_, rfl⟩⟩ | ⟨_, ⟨_, rfl⟩ | ⟨_, rfl⟩⟩ <;> first | exact ih c he | cases he
  | listen t hm =>
    unfold Prog.listenStep at hm
    (repeat' split at hm) <;> simp only [Option.some.injEq, reduceCtorEq] at hm <;> subst hm <;> first | exact ih c he | (cases t <;> exact ih c he) | (cases he)

/-- `f` and `w` are found wanting only after routers could connect over TCP. -/
def Spec.Late (f : StartFlags) (w : StartWorld) : Prop :=
  ∃ n p m q, Prog.Runs f w n .init p ∧ p.serves .tcp ∧ Prog.Runs f w m p q ∧ q.ended ≠ none

theorem Prog.Runs.trans {f : StartFlags} {w : StartWorld} {n m : Nat} {p q r : Prog} (h : Prog.Runs f w n p q) (h' : Prog.Runs f w m q r) : Prog.Runs f w (n + m) p r := by
  induction h' with
  | nil => exact h
  | snoc _ s ih => exact .snoc (ih h) s

theorem Prog.Runs.one {f : StartFlags} {w : StartWorld} {p q : Prog} (h : Prog.Step f w p q) : Prog.Runs f w 1 p q := .snoc (.nil p) h

/-- The settings get the program as far as its first listener. -/
structure Spec.FirstUp (f : StartFlags) (w : StartWorld) : Prop where
  args : f.args = false
  version : f.version = false
  paths : f.metricsAddr ≠ [] → ¬ Spec.ExportRefused f
  bind : f.bind ≠ []
  free : w.listenOk [] f.bind = true

/-- Routers can connect over TCP, and nothing else has been done. -/
theorem Prog.first_up {f : StartFlags} {w : StartWorld} (h : Spec.FirstUp f w) : ∃ n m x, Prog.Runs f w n .init ⟨.tls, m, x, fun t => if t = .tcp then .listening else .off, [f.bind], true, none⟩ ∧
    (if f.metricsAddr = [] then m = [] ∧ x = .off else x = .registering ∧ runPaths f = .ok m) := by
  have s1 : Prog.Step f w .init { Prog.init with pos := .http } := .main (by simp [Prog.mainStep, Prog.init, h.args, h.version])
  obtain ⟨m, x, s2, hx⟩ : ∃ m x, Prog.Step f w { Prog.init with pos := .http } { Prog.init with pos := .binds, mux := m, http := x } ∧
      (if f.metricsAddr = [] then m = [] ∧ x = .off else x = .registering ∧ runPaths f = .ok m) := by
    by_cases hA : f.metricsAddr = []
    · exact ⟨[], .off, .main (by simp [Prog.mainStep, Prog.init, hA]), by simp [hA]⟩
    · obtain ⟨m, hm⟩ := (runPaths_refused f).2 (h.paths hA)
      exact ⟨m, .registering, .main (by simp [Prog.mainStep, Prog.init, hA, hm]), by simp [hA, hm]⟩
  have s3 : Prog.Step f w { Prog.init with pos := .binds, mux := m, http := x } { Prog.init with pos := .loading, mux := m, http := x } := .main (by simp [Prog.mainStep, Prog.init, h.bind])
  have s4 : Prog.Step f w { Prog.init with pos := .loading, mux := m, http := x } { Prog.init with pos := .plain, mux := m, http := x, loaded := true } := .main (by simp [Prog.mainStep, Prog.init])
  have s5 : Prog.Step f w { Prog.init with pos := .plain, mux := m, http := x, loaded := true } ⟨.tls, m, x, fun t => if t = .tcp then .starting else .off, [], true, none⟩ :=
    .main (by simp [Prog.mainStep, Prog.init, Prog.setListener, h.bind])
  have s6 : Prog.Step f w ⟨.tls, m, x, fun t => if t = .tcp then .starting else .off, [], true, none⟩ ⟨.tls, m, x, fun t => if t = .tcp then .listening else .off, [f.bind], true, none⟩ := by
    refine .listen .tcp ?_
    simp only [Prog.listenStep, Prog.setListener, address, h.free, Option.isSome_none, if_true, List.nil_append, Bool.false_eq_true, if_false, Option.some.injEq, Prog.mk.injEq, and_true, true_and]
    funext t; split <;> rfl
  exact ⟨_, m, x, .snoc (.snoc (.snoc (.snoc (.snoc (.snoc (.nil _) s1) s2) s3) s4) s5) s6, hx⟩

/-- Mistakes found late, if the address for TCP is good: the certificate for TLS does not load; or, without TLS, the host key for SSH does not load; or, with neither, the refresh interval is not positive or
too long; or the path for metrics cannot be registered. -/
theorem C137_late_false (f : StartFlags) (w : StartWorld) (h : Spec.FirstUp f w)
    (hd : f.bindTLS ≠ [] ∧ w.certificate = false ∨ f.bindTLS = [] ∧ f.bindSSH ≠ [] ∧ w.hostKeyRead = false ∨ f.bindTLS = [] ∧ f.bindSSH = [] ∧ newTicker f.interval = .panic ∨
      f.metricsAddr ≠ [] ∧ ¬ Spec.PathsFit f) : Spec.Late f w := by
  obtain ⟨n, m, x, hr, hx⟩ := Prog.first_up h
  suffices ∃ k q, Prog.Runs f w k ⟨.tls, m, x, fun t => if t = .tcp then .listening else .off, [f.bind], true, none⟩ q ∧ q.ended ≠ none by
    obtain ⟨k, q, h1, h2⟩ := this
    exact ⟨n, _, k, q, hr, ⟨rfl, rfl⟩, h1, h2⟩
  rcases hd with ⟨h1, h2⟩ | ⟨h1, h2, h3⟩ | ⟨h1, h2, h3⟩ | ⟨h1, h2⟩
  · exact ⟨1, _, .one (.main (by simp [Prog.mainStep, h1, h2]; rfl)), by simp⟩
  · exact ⟨_, _, .snoc (.one (.main (by simp [Prog.mainStep, h1]; rfl))) (.main (by simp [Prog.mainStep, h2, h3]; rfl)), by simp⟩
  · exact ⟨_, _, .snoc (.snoc (.one (.main (by simp [Prog.mainStep, h1]; rfl))) (.main (by simp [Prog.mainStep, h2]; rfl))) (.main (by simp [Prog.mainStep, h3]; rfl)), by simp⟩
  · rw [if_neg h1] at hx
    obtain ⟨rfl, hm⟩ := hx
    have := runPaths_metrics f
    rw [if_neg h2, hm] at this
    have this : m.handle f.metricsPath .metrics = .panic := this
    exact ⟨1, _, .one (.http (by simp [Prog.httpStep, this]; rfl)), by simp⟩

/-- So does an address that is taken: two listeners on the same address, of which the second cannot listen. -/
theorem C137_port_false (f : StartFlags) (w : StartWorld) (h : Spec.FirstUp f w) (h1 : f.bindTLS = f.bind) (h2 : w.certificate = true) (h3 : w.listenOk [f.bind] f.bind = false) : Spec.Late f w := by
  obtain ⟨n, m, x, hr, hx⟩ := Prog.first_up h
  suffices ∃ k q, Prog.Runs f w k ⟨.tls, m, x, fun t => if t = .tcp then .listening else .off, [f.bind], true, none⟩ q ∧ q.ended ≠ none by
    obtain ⟨k, q, h1, h2⟩ := this
    exact ⟨n, _, k, q, hr, ⟨rfl, rfl⟩, h1, h2⟩
  have hb := h.bind
  exact ⟨_, _, .snoc (.one (.main (by simp [Prog.mainStep, h1, hb, h2]; rfl))) (.listen .tls (by simp [Prog.listenStep, Prog.setListener, address, h1, h3]; rfl)), by simp⟩

/-- But the HTTP server may answer before the first load, for as long as that takes, and what it exports then is a list without payloads and without a list of them. -/
theorem C136_http_false (f : StartFlags) (w : StartWorld) (h1 : f.args = false) (h2 : f.version = false) (h3 : f.metricsAddr ≠ []) (h4 : Spec.PathsFit f) (h5 : w.listenOk [] f.metricsAddr = true) :
    (∃ n p, Prog.Runs f w n .init p ∧ p.ended = none ∧ p.http = .serving ∧ p.mux = Spec.paths f ∧ p.loaded = false) ∧
    ∀ a b, exportFile (UState.init a b) =
      (["{\"metadata\":{\"vrps\":0,", "\"bgpsec_pubkeys\":0,\"serial\":0},", "\"roas\":null}\n"].flatMap String.toList).map (fun c => BitVec.ofNat 8 c.toNat) := by
  constructor
  · obtain ⟨m, e1, e2⟩ := runPaths_ok h4
    have s1 : Prog.Step f w .init { Prog.init with pos := .http } := .main (by simp [Prog.mainStep, Prog.init, h1, h2])
    have s2 : Prog.Step f w { Prog.init with pos := .http } { Prog.init with pos := .binds, mux := m, http := .registering } := .main (by simp [Prog.mainStep, Prog.init, h3, e1])
    have s3 : Prog.Step f w { Prog.init with pos := .binds, mux := m, http := .registering } { Prog.init with pos := .binds, mux := Spec.paths f, http := .binding } := .http (by simp [Prog.httpStep, Prog.init, e2])
    have s4 : Prog.Step f w { Prog.init with pos := .binds, mux := Spec.paths f, http := .binding } { Prog.init with pos := .binds, mux := Spec.paths f, http := .serving, taken := [f.metricsAddr] } :=
      .http (by simp [Prog.httpStep, Prog.init, h5])
    exact ⟨_, _, .snoc (.snoc (.snoc (.snoc (.nil _) s1) s2) s3) s4, rfl, rfl, rfl, rfl⟩
  · intro a b
    cases a <;> cases b <;> decide +kernel

/-! ## C138: the paths of the HTTP servers -/

/-- The program registers its paths exactly as the flags say, or panics: exactly if a path has no slash or two paths are the same. -/
theorem C138_registered (f : StartFlags) : ((runPaths f).bind fun m => m.handle f.metricsPath .metrics) = if Spec.PathsFit f then .ok (Spec.paths f) else .panic := runPaths_metrics f

/-- rtrmon: the difference, the metrics and the index. -/
theorem C138_monitor (outFile metricsPath : Str) :
    monMux outFile metricsPath =
      if '/' ∈ metricsPath ∧ metricsPath ≠ ['/'] ∧ outFile ≠ [] ∧ metricsPath ≠ '/' :: outFile then .ok [('/' :: outFile, .diff), (metricsPath, .metrics), (['/'], .index)] else .panic := by
  unfold monMux
  rw [Mux.handle_ok.2 ⟨List.mem_cons_self, by simp, rfl⟩]
  simp only [GoRes.bind, List.nil_append]
  by_cases h1 : '/' ∈ metricsPath ∧ metricsPath ≠ '/' :: outFile
  · rw [Mux.handle_ok.2 ⟨h1.1, by simpa using h1.2.symm, rfl⟩]
    simp only [List.cons_append, List.nil_append]
    by_cases h2 : metricsPath ≠ ['/'] ∧ outFile ≠ []
    · rw [if_pos ⟨h1.1, h2.1, h2.2, h1.2⟩]
      exact Mux.handle_ok.2 ⟨by decide, by simp [h2], rfl⟩
    · rw [if_neg (fun h => h2 ⟨h.2.1, h.2.2.1⟩)]
      refine Mux.handle_panic.2 (fun h => h2 ⟨?_, ?_⟩)
      · simpa using h.2 (metricsPath, .metrics) (by simp)
      · simpa using h.2 ('/' :: outFile, .diff) (by simp)
  · rw [if_neg (fun h => h1 ⟨h.1, h.2.2.2⟩)]
    rw [Mux.handle_panic.2 (fun h => h1 ⟨h.1, by simpa using (h.2 ('/' :: outFile, .diff) (by simp)).symm⟩)]

/-- What the flags accept can make the programs panic: the path of the metrics used for the export, too; a path without its slash; rtrmon with an empty name for the file. -/
theorem C138_panics_false :
    (∀ f : StartFlags, f.exportPath = f.metricsPath → f.exportPath ≠ [] → ((runPaths f).bind fun m => m.handle f.metricsPath .metrics) = .panic) ∧
    (∀ f : StartFlags, '/' ∉ f.metricsPath → ((runPaths f).bind fun m => m.handle f.metricsPath .metrics) = .panic) ∧ ∀ metricsPath, monMux [] metricsPath = .panic := by
  refine ⟨fun f h1 h2 => ?_, fun f h => ?_, fun mp => ?_⟩
  · rw [C138_registered, if_neg]
    rintro ⟨_, hn⟩
    unfold Spec.paths at hn
    rw [if_neg h2] at hn
    rw [h1] at hn
    generalize "/api/update".toList = u at hn
    cases hb : f.updateEndpoint
    · rw [hb] at hn; simp at hn
    · rw [hb] at hn; simp at hn
  · rw [C138_registered, if_neg]
    rintro ⟨hh, _⟩
    exact h (hh (f.metricsPath, .metrics) (List.mem_append_right _ List.mem_cons_self))
  · rw [C138_monitor, if_neg (by simp)]

/-- Which pattern a path belongs to: itself, or a directory above it. -/
def Spec.Under (pattern path : Str) : Prop := pattern = path ∨ (pattern.getLast? = some '/' ∧ pattern <+: path)

theorem pathMatches_iff (pattern path : Str) : pathMatches pattern path = true ↔ Spec.Under pattern path := by
  unfold pathMatches Spec.Under
  simp [List.isPrefixOf_iff_prefix]

/-- The step of the search for the longest pattern. -/
def Mux.pick (path : Str) (b : Option (Nat × HttpHandler)) (x : Str × HttpHandler) : Option (Nat × HttpHandler) :=
  if pathMatches (patternPath x.1) path then
    match b with
    | some (n, h) => if n < (patternPath x.1).length then some ((patternPath x.1).length, x.2) else some (n, h)
    | none => some ((patternPath x.1).length, x.2)
  else b

theorem Mux.best_eq (m : Mux) (path : Str) : m.best path = (m.foldl (Mux.pick path) none).map (·.2) := rfl

theorem patternPath_slash {p : Str} (h : p.head? = some '/') : patternPath p = p ∧ patternHost p = [] := by
  cases p with
  | nil => cases h
  | cons a p => simp only [List.head?_cons, Option.some.injEq] at h; subst h; simp [patternPath, patternHost]

theorem Mux.pick_short {path : Str} {b : Option (Nat × HttpHandler)} {x : Str × HttpHandler} (hx : x.1.head? = some '/') (hne : x.1 ≠ path) (hb : ∀ n h, b = some (n, h) → n < path.length) :
    ∀ n h, Mux.pick path b x = some (n, h) → n < path.length := by
  intro n h e
  unfold Mux.pick at e
  rw [(patternPath_slash hx).1] at e
  split at e
  · rename_i hm
    have hlen : x.1.length < path.length := by
      rcases (pathMatches_iff _ _).1 hm with h | ⟨_, h⟩
      · exact absurd h hne
      · rcases Nat.lt_or_ge x.1.length path.length with h' | h'
        · exact h'
        · exact absurd (List.IsPrefix.eq_of_length h (Nat.le_antisymm h.length_le h')) hne
    cases b with
    | none => simp only [Option.some.injEq, Prod.mk.injEq] at e; omega
    | some b =>
      simp only at e
      split at e
      · simp only [Option.some.injEq, Prod.mk.injEq] at e; omega
      · have := hb b.1 b.2 rfl
        simp only [Option.some.injEq, Prod.mk.injEq] at e; omega
  · exact hb n h e

theorem Mux.pick_keep {path : Str} {h : HttpHandler} {x : Str × HttpHandler} (hx : x.1.head? = some '/') : Mux.pick path (some (path.length, h)) x = some (path.length, h) := by
  unfold Mux.pick
  rw [(patternPath_slash hx).1]
  split
  · rename_i hm
    have : ¬ path.length < x.1.length := by
      rcases (pathMatches_iff _ _).1 hm with e | ⟨_, e⟩
      · rw [e]; omega
      · have := e.length_le; omega
    simp [this]
  · rfl

theorem Mux.pick_hit {path : Str} {b : Option (Nat × HttpHandler)} {x : Str × HttpHandler} (hx : x.1.head? = some '/') (he : x.1 = path) (hb : ∀ n h, b = some (n, h) → n < path.length) :
    Mux.pick path b x = some (path.length, x.2) := by
  unfold Mux.pick
  rw [(patternPath_slash hx).1, if_pos ((pathMatches_iff _ _).2 (.inl he)), he]
  cases b with
  | none => rfl
  | some b => simp [hb b.1 b.2 rfl]

theorem Mux.best_exact {m : Mux} (hs : ∀ x ∈ m, x.1.head? = some '/') (hn : (m.map (·.1)).Nodup) {x : Str × HttpHandler} (hx : x ∈ m) : m.best x.1 = some x.2 := by
  obtain ⟨l1, l2, rfl⟩ := List.append_of_mem hx
  have hne : ∀ y ∈ l1, y.1 ≠ x.1 := by
    intro y hy e
    rw [List.map_append, List.nodup_append] at hn
    exact hn.2.2 y.1 (List.mem_map_of_mem hy) x.1 (by simp) e
  have h1 : ∀ (l : Mux) b, (∀ y ∈ l, y.1.head? = some '/' ∧ y.1 ≠ x.1) → (∀ n h, b = some (n, h) → n < x.1.length) → ∀ n h, l.foldl (Mux.pick x.1) b = some (n, h) → n < x.1.length := by
    intro l
    induction l with
    | nil => intro b _ hb; exact hb
    | cons y l ih =>
      intro b hl hb
      exact ih _ (fun z hz => hl z (List.mem_cons_of_mem _ hz)) (Mux.pick_short (hl y List.mem_cons_self).1 (hl y List.mem_cons_self).2 hb)
  have h2 : ∀ (l : Mux), (∀ y ∈ l, y.1.head? = some '/') → l.foldl (Mux.pick x.1) (some (x.1.length, x.2)) = some (x.1.length, x.2) := by
    intro l
    induction l with
    | nil => intro _; rfl
    | cons y l ih =>
      intro hl
      rw [List.foldl_cons, Mux.pick_keep (hl y List.mem_cons_self)]
      exact ih (fun z hz => hl z (List.mem_cons_of_mem _ hz))
  rw [Mux.best_eq, List.foldl_append, List.foldl_cons,
    Mux.pick_hit (hs x hx) rfl (h1 l1 none (fun y hy => ⟨hs y (List.mem_append_left _ hy), hne y hy⟩) (by simp)),
    h2 l2 (fun y hy => hs y (by simp [hy]))]
  rfl

theorem Mux.best_some {m : Mux} {path : Str} {h : HttpHandler} (e : m.best path = some h) : ∃ x ∈ m, x.2 = h ∧ Spec.Under (patternPath x.1) path := by
  rw [Mux.best_eq] at e
  have : ∀ (l : Mux) b, (∀ n h, b = some (n, h) → ∃ x ∈ m, x.2 = h ∧ Spec.Under (patternPath x.1) path) → l ⊆ m →
      ∀ n h, l.foldl (Mux.pick path) b = some (n, h) → ∃ x ∈ m, x.2 = h ∧ Spec.Under (patternPath x.1) path := by
    intro l
    induction l with
    | nil => intro b hb _; exact hb
    | cons y l ih =>
      intro b hb hl
      refine ih _ ?_ (fun z hz => hl (List.mem_cons_of_mem _ hz))
      intro n h e
      unfold Mux.pick at e
      split at e
      · rename_i hm
        have hU := (pathMatches_iff _ _).1 hm
        cases b with
        | none => simp only [Option.some.injEq, Prod.mk.injEq] at e; exact ⟨y, hl List.mem_cons_self, e.2, hU⟩
        | some b =>
          simp only at e
          split at e
          · simp only [Option.some.injEq, Prod.mk.injEq] at e; exact ⟨y, hl List.mem_cons_self, e.2, hU⟩
          · simp only [Option.some.injEq, Prod.mk.injEq] at e; exact hb b.1 h (by rw [← e.2])
      · exact hb n h e
  cases hf : m.foldl (Mux.pick path) none with
  | none => rw [hf] at e; cases e
  | some b =>
    rw [hf] at e
    simp only [Option.map_some, Option.some.injEq] at e
    exact this m none (by simp) (fun _ h => h) b.1 h (by rw [hf, ← e])

theorem Mux.serve_nohost {m : Mux} (hs : ∀ x ∈ m, x.1.head? = some '/') (host path : Str) : m.serve host path = m.best path := by
  unfold Mux.serve
  have e1 : m.filter (fun x => patternHost x.1 ≠ [] ∧ patternHost x.1 = host) = [] := by
    rw [List.filter_eq_nil_iff]
    intro x hx
    simp [(patternPath_slash (hs x hx)).2]
  have e2 : m.filter (fun x => patternHost x.1 = []) = m := by
    rw [List.filter_eq_self]
    intro x hx
    simp [(patternPath_slash (hs x hx)).2]
  rw [e1, e2]
  rfl

/-- Paths that begin with their slash and fit: each is answered by its own handler, whatever the host of the request; and any other path only by the handler of a directory above it. -/
theorem C138_answers (m : Mux) (hs : ∀ x ∈ m, x.1.head? = some '/') (hn : (m.map (·.1)).Nodup) (host : Str) :
    (∀ x ∈ m, m.serve host x.1 = some x.2) ∧
    ∀ path h, m.serve host path = some h → ∃ x ∈ m, x.2 = h ∧ Spec.Under x.1 path := by
  refine ⟨fun x hx => ?_, fun path h e => ?_⟩
  · rw [Mux.serve_nohost hs]; exact Mux.best_exact hs hn hx
  · rw [Mux.serve_nohost hs] at e
    obtain ⟨x, hx, e1, e2⟩ := Mux.best_some e
    rw [(patternPath_slash (hs x hx)).1] at e2
    exact ⟨x, hx, e1, e2⟩

/-! ### Patterns with a host -/

theorem split_host {h p : Str} (hh : '/' ∉ h) : patternHost (h ++ '/' :: p) = h ∧ patternPath (h ++ '/' :: p) = '/' :: p := by
  induction h with
  | nil => simp [patternHost, patternPath]
  | cons c h ih =>
    simp only [List.mem_cons, not_or] at hh
    have hc : c ≠ '/' := fun e => hh.1 e.symm
    obtain ⟨h1, h2⟩ := ih hh.2
    constructor
    · show List.takeWhile _ (c :: (h ++ '/' :: p)) = _
      rw [List.takeWhile_cons_of_pos (by simpa using hc)]
      exact congrArg (c :: ·) h1
    · show List.dropWhile _ (c :: (h ++ '/' :: p)) = _
      rw [List.dropWhile_cons_of_pos (by simpa using hc)]
      exact h2

theorem host_split {x : Str} (h : '/' ∈ x) : ∃ p, x = patternHost x ++ '/' :: p ∧ '/' ∉ patternHost x ∧ patternPath x = '/' :: p := by
  obtain ⟨a, b, rfl, ha⟩ := List.eq_append_cons_of_mem h
  exact ⟨b, by rw [(split_host ha).1], by rw [(split_host ha).1]; exact ha, (split_host ha).2⟩

/-- The paths of the patterns only. -/
def Mux.paths (m : Mux) : Mux := m.map fun x => (patternPath x.1, x.2)

theorem Mux.best_paths {m : Mux} (hs : ∀ x ∈ m, '/' ∈ x.1) (path : Str) : m.best path = m.paths.best path := by
  rw [Mux.best_eq, Mux.best_eq, Mux.paths, List.foldl_map]
  congr 1
  have : ∀ (l : Mux), l ⊆ m → ∀ b, l.foldl (Mux.pick path) b = l.foldl (fun b x => Mux.pick path b (patternPath x.1, x.2)) b := by
    intro l
    induction l with
    | nil => intros; rfl
    | cons y l ih =>
      intro hl b
      obtain ⟨p, -, -, hp⟩ := host_split (hs y (hl List.mem_cons_self))
      have : Mux.pick path b y = Mux.pick path b (patternPath y.1, y.2) := by
        unfold Mux.pick
        simp only [hp, (patternPath_slash (p := '/' :: p) rfl).1]
      rw [List.foldl_cons, List.foldl_cons, this]
      exact ih (fun z hz => hl (List.mem_cons_of_mem _ hz)) _
  exact this m (fun _ h => h) none

/-- Patterns of one host, all different: each is answered by its own handler. -/
theorem Mux.best_host {m : Mux} (hs : ∀ x ∈ m, '/' ∈ x.1) (hn : (m.map (·.1)).Nodup) {h : Str} (hh : ∀ x ∈ m, patternHost x.1 = h) {x : Str × HttpHandler} (hx : x ∈ m) : m.best (patternPath x.1) = some x.2 := by
  rw [Mux.best_paths hs]
  refine Mux.best_exact (m := m.paths) (x := (patternPath x.1, x.2)) ?_ ?_ (List.mem_map_of_mem hx)
  · intro y hy
    obtain ⟨z, hz, rfl⟩ := List.mem_map.mp hy
    obtain ⟨p, -, -, hp⟩ := host_split (hs z hz)
    simp [hp]
  · have he : m.paths.map (·.1) = (m.map (·.1)).map patternPath := by simp [Mux.paths]
    rw [he]
    refine List.pairwise_map.mpr (List.Pairwise.imp_of_mem ?_ hn)
    intro a b ha hb hne hab
    apply hne
    obtain ⟨y, hy, rfl⟩ := List.mem_map.mp ha
    obtain ⟨z, hz, rfl⟩ := List.mem_map.mp hb
    obtain ⟨p, e1, -, e2⟩ := host_split (hs y hy)
    obtain ⟨q, e3, -, e4⟩ := host_split (hs z hz)
    rw [e2, e4] at hab
    rw [e1, e3, hh y hy, hh z hz, hab]

theorem Mux.best_none {m : Mux} {path : Str} (h : ∀ x ∈ m, ¬ Spec.Under (patternPath x.1) path) : m.best path = none := by
  cases hb : m.best path with
  | none => rfl
  | some k =>
    obtain ⟨x, hx, -, hu⟩ := Mux.best_some hb
    exact absurd hu (h x hx)

/-- Paths that may begin with the name of a host: one with a host is answered by its own handler on that host, one without on every host that has no pattern of its own for the path; and every answer comes from a pattern of the
host of the request or of no host. -/
theorem C138_hosts (m : Mux) (hs : ∀ x ∈ m, '/' ∈ x.1) (hn : (m.map (·.1)).Nodup) (host : Str) :
    (∀ h p k, (h ++ '/' :: p, k) ∈ m → '/' ∉ h → h = host → h ≠ [] → m.serve host ('/' :: p) = some k) ∧
    (∀ p k, ('/' :: p, k) ∈ m → (∀ q l, (host ++ '/' :: q, l) ∈ m → host ≠ [] → ¬ Spec.Under ('/' :: q) ('/' :: p)) → m.serve host ('/' :: p) = some k) ∧
    ∀ path k, m.serve host path = some k → ∃ h p, (h ++ '/' :: p, k) ∈ m ∧ '/' ∉ h ∧ (h = host ∨ h = []) ∧ Spec.Under ('/' :: p) path := by
  have hnf : ∀ f : Str × HttpHandler → Bool, ((m.filter f).map (·.1)).Nodup := fun f => hn.sublist (List.filter_sublist.map _)
  refine ⟨?_, ?_, ?_⟩
  · rintro h p k hm hh rfl hne
    unfold Mux.serve
    have := Mux.best_host (m := m.filter fun x => patternHost x.1 ≠ [] ∧ patternHost x.1 = h) (fun x hx => hs x (List.mem_filter.mp hx).1) (hnf _) (h := h)
      (fun x hx => by have := (List.mem_filter.mp hx).2; simp only [decide_eq_true_eq] at this; exact this.2) (x := (h ++ '/' :: p, k))
      (List.mem_filter.mpr ⟨hm, by simp only [decide_eq_true_eq]; exact ⟨by rw [(split_host hh).1]; exact hne, (split_host hh).1⟩⟩)
    rw [(split_host hh).2] at this
    rw [this]
  · intro p k hm hnone
    unfold Mux.serve
    have h1 : Mux.best (m.filter fun x => patternHost x.1 ≠ [] ∧ patternHost x.1 = host) ('/' :: p) = none := by
      refine Mux.best_none fun x hx => ?_
      obtain ⟨hx1, hx2⟩ := List.mem_filter.mp hx
      simp only [decide_eq_true_eq] at hx2
      obtain ⟨q, e1, -, e2⟩ := host_split (hs x hx1)
      rw [e2]
      refine hnone q x.2 ?_ (hx2.2 ▸ hx2.1)
      rw [← hx2.2, ← e1]
      exact hx1
    rw [h1]
    have := Mux.best_host (m := m.filter fun x => patternHost x.1 = []) (fun x hx => hs x (List.mem_filter.mp hx).1) (hnf _) (h := [])
      (fun x hx => by have := (List.mem_filter.mp hx).2; simpa using this) (x := ('/' :: p, k)) (List.mem_filter.mpr ⟨hm, by simp [(patternPath_slash (p := '/' :: p) rfl).2]⟩)
    rw [(patternPath_slash (p := '/' :: p) rfl).1] at this
    exact this
  · intro path k hk
    unfold Mux.serve at hk
    split at hk
    · rename_i l hl
      cases hk
      obtain ⟨x, hx, rfl, hu⟩ := Mux.best_some hl
      obtain ⟨hx1, hx2⟩ := List.mem_filter.mp hx
      simp only [decide_eq_true_eq] at hx2
      obtain ⟨q, e1, e3, e2⟩ := host_split (hs x hx1)
      exact ⟨patternHost x.1, q, by rw [← e1]; exact hx1, e3, .inl hx2.2, by rw [← e2]; exact hu⟩
    · obtain ⟨x, hx, rfl, hu⟩ := Mux.best_some hk
      obtain ⟨hx1, hx2⟩ := List.mem_filter.mp hx
      simp only [decide_eq_true_eq] at hx2
      obtain ⟨q, e1, e3, e2⟩ := host_split (hs x hx1)
      exact ⟨patternHost x.1, q, by rw [← e1]; exact hx1, e3, .inr hx2, by rw [← e2]; exact hu⟩

/-- The export on one host only, the metrics on all. -/
example : Mux.serve [("a.net/rpki.json".toList, .exporter), ("/metrics".toList, .metrics)] "a.net".toList "/rpki.json".toList = some .exporter ∧
    Mux.serve [("a.net/rpki.json".toList, .exporter), ("/metrics".toList, .metrics)] "b.net".toList "/rpki.json".toList = none ∧
    Mux.serve [("a.net/rpki.json".toList, .exporter), ("/metrics".toList, .metrics)] "a.net".toList "/metrics".toList = some .metrics := by decide +kernel

/-! ## C139: the answer of the update endpoint -/

/-- The answer: status 200 exactly if the request was taken, 500 if not; the body says the same. -/
theorem C139_answer (l : Loop) :
    (l.updateNow.2.1 = 200 ∧ l.pending = false ∧ l.updateNow.1 = { l with pending := true } ∧
      l.updateNow.2.2 = (["{\"message\":\"Update triggered ", "successfully\",\"status\":\"success\"}\n"].flatMap String.toList).map (fun c => BitVec.ofNat 8 c.toNat)) ∨
    (l.updateNow.2.1 = 500 ∧ l.pending = true ∧ l.updateNow.1 = l ∧
      l.updateNow.2.2 = (["{\"message\":\"Update not triggered. ", "Queue is full or not ready\",\"status\":\"error\"}\n"].flatMap String.toList).map (fun c => BitVec.ofNat 8 c.toNat)) := by
  obtain ⟨a, p, h⟩ := l
  cases p
  · refine .inl ⟨rfl, rfl, rfl, ?_⟩
    show encodeFile _ = _
    decide +kernel
  · refine .inr ⟨rfl, rfl, rfl, ?_⟩
    show encodeFile _ = _
    decide +kernel

/-- After either answer a refresh starts later or is waiting to start; and a refusal means that an earlier request, answered with 200, was still waiting. -/
theorem C139_truth {l1 l2 : Loop} {before after : List LoopEvent} (h1 : LoopRun .init before l1) (ha : l1.at_ ≠ .ended) (h2 : LoopRun l1.updateNow.1 after l2) :
    (.start ∈ after ∨ l2.pending = true) ∧ (l1.updateNow.2.1 = 500 → ∃ b1 b2, before = b1 ++ .trigger true :: b2 ∧ .trigger true ∉ b2) := by
  have happ : ∀ {a b c : Loop} {x y}, LoopRun a x b → LoopRun b y c → LoopRun a (x ++ y) c := by
    intro a b c x y hx hy
    induction hx with
    | nil => exact hy
    | cons s _ ih => exact .cons s (ih hy)
  rcases C139_answer l1 with ⟨e1, hp, e2, _⟩ | ⟨e1, hp, e2, _⟩
  · rw [e2] at h2
    refine ⟨C57_accepted (happ h1 (.cons (.accept l1 hp ha) h2)), fun h => ?_⟩
    rw [e1] at h; cases h
  · rw [e2] at h2
    have := C57_refused (happ h1 (.cons (.refuse l1 hp ha) h2))
    exact ⟨this.2, fun _ => this.1⟩

/-! ## Examples -/

/-- The default settings. -/
def Example.flags : StartFlags := ⟨false, false, ":9847".toList, "/metrics".toList, "/rpki.json".toList, true, ":8282".toList, [], [], false, [], 600⟩

/-- A machine on which every address that is not taken can be used. -/
def Example.world : StartWorld := ⟨fun taken a => !taken.contains a, true, true, true, true⟩

/-- Good settings exist: the defaults. -/
example : Spec.Good Example.flags Example.world where
  args := rfl
  version := rfl
  paths := fun _ => by decide +kernel
  binds := by decide
  certificate := fun _ => rfl
  hostKey := fun _ => ⟨rfl, rfl⟩
  keys := fun _ _ _ => rfl
  interval := by decide
  distinct := by decide
  free := by intro t a _ h _; simpa [Example.world] using h

/-- A request for the export, on any host, gets the export; one below it gets nothing. -/
example : Mux.serve (Spec.paths Example.flags) "host".toList "/rpki.json".toList = some .exporter ∧ Mux.serve (Spec.paths Example.flags) [] "/rpki.json/x".toList = none ∧
    Mux.serve (Spec.paths Example.flags) [] "/api/update".toList = some .updateNow := by decide +kernel

/-- In rtrmon the index answers every path that is not another's. -/
example : ∃ m, monMux "diff.json".toList "/metrics".toList = .ok m ∧ m.serve [] "/diff.json".toList = some .diff ∧ m.serve [] "/other".toList = some .index := by
  rw [C138_monitor, if_pos (by decide)]
  exact ⟨_, rfl, by decide +kernel, by decide +kernel⟩

/-- A mistake found at once. -/
example : Spec.Refused { Example.flags with exportPath := "rpki.json".toList } := by
  refine .inr (.inr (.inr ⟨by decide, by decide, .inl ?_⟩))
  decide

/-- Arguments that are no flags, and the version asked for. -/
example : (∃ p, Prog.Runs { Example.flags with args := true, version := true } Example.world 1 .init p ∧ p.ended = some (.exit 2)) ∧
    ∃ p, Prog.Runs { Example.flags with version := true } Example.world 1 .init p ∧ p.ended = some (.exit 0) :=
  ⟨⟨_, .snoc (.nil _) (.main rfl), rfl⟩, ⟨_, .snoc (.nil _) (.main rfl), rfl⟩⟩

/-- A mistake found late: a certificate that does not load. -/
example : Spec.Late { Example.flags with bindTLS := ":8283".toList } { Example.world with certificate := false } :=
  C137_late_false _ _ ⟨rfl, rfl, fun _ h => by revert h; unfold Spec.ExportRefused; decide +kernel, by decide, rfl⟩ (.inl ⟨by decide, rfl⟩)

/-- And two listeners on one address. -/
example : Spec.Late { Example.flags with bindTLS := ":8282".toList } Example.world :=
  C137_port_false _ _ ⟨rfl, rfl, fun _ h => by revert h; unfold Spec.ExportRefused; decide +kernel, by decide, rfl⟩ rfl rfl (by decide)

/-- The HTTP server of the default settings answers before the load. -/
example : ∃ n p, Prog.Runs Example.flags Example.world n .init p ∧ p.http = .serving ∧ p.loaded = false := by
  obtain ⟨⟨n, p, h1, _, h2, _, h3⟩, _⟩ := C136_http_false Example.flags Example.world rfl rfl (by decide) (by decide +kernel) (by decide)
  exact ⟨n, p, h1, h2, h3⟩

/-- A second request while the first waits. -/
example : LoopRun .init [.trigger true] ⟨.starting, true, false⟩ ∧ (Loop.updateNow ⟨.starting, true, false⟩).2.1 = 500 :=
  ⟨.cons (.accept .init rfl (by decide)) (.nil _), rfl⟩

end StayRTR
