import Verif.Model.Loop

/-!
# C57, C84-C86: when refreshes happen
-/

namespace StayRTR

theorem LoopRun.append {l l1 l2 : Loop} {a b : List LoopEvent} (h1 : LoopRun l a l1) (h2 : LoopRun l1 b l2) : LoopRun l (a ++ b) l2 := by
  induction h1 with
  | nil l => exact h2
  | cons h _ ih => exact .cons h (ih h2)

theorem LoopRun.split {a b : List LoopEvent} : ∀ {l l2 : Loop}, LoopRun l (a ++ b) l2 → ∃ l1, LoopRun l a l1 ∧ LoopRun l1 b l2 := by
  induction a with
  | nil => intro l l2 h; exact ⟨l, .nil l, h⟩
  | cons ev a ih =>
    intro l l2 h
    cases h with
    | cons hs hr =>
      obtain ⟨l1, h1, h2⟩ := ih hr
      exact ⟨l1, .cons hs h1, h2⟩

/-! ## C57: triggers -/

/-- What is pending stays pending until a refresh starts. -/
theorem pending_stays {l l' : Loop} {evs : List LoopEvent} (h : LoopRun l evs l') (hp : l.pending = true) (hno : LoopEvent.start ∉ evs) : l'.pending = true := by
  induction h with
  | nil l => exact hp
  | cons hs _ ih =>
    simp only [List.mem_cons, not_or] at hno
    refine ih ?_ hno.2
    cases hs with
    | accept _ _ => rfl
    | refuse _ _ => exact hp
    | kill _ => exact hp
    | signal _ => exact hp
    | enter _ => exact hp
    | tick _ => exact absurd rfl hno.1
    | onHup _ _ => exact absurd rfl hno.1
    | onTrigger _ _ => exact absurd rfl hno.1
    | done _ => exact hp

/-- After an accepted trigger: a refresh has started since, or the trigger is still pending. In particular a refresh that was running does not swallow it. -/
theorem C57_accepted {l l' : Loop} {before after : List LoopEvent} (h : LoopRun l (before ++ .trigger true :: after) l') : .start ∈ after ∨ l'.pending = true := by
  obtain ⟨l1, _, h2⟩ := h.split
  cases h2 with
  | cons hs hr =>
    by_cases hm : LoopEvent.start ∈ after
    · exact .inl hm
    · right
      refine pending_stays hr ?_ hm
      cases hs with
      | accept _ _ => rfl

/-- A refused trigger means that one is pending: it was accepted before and no refresh that would have consumed it has started since. And it will be served: again a refresh starts later, or it stays pending. -/
theorem C57_refused {l' : Loop} {before after : List LoopEvent} (h : LoopRun .init (before ++ .trigger false :: after) l') :
    (∃ b1 b2, before = b1 ++ .trigger true :: b2 ∧ .trigger true ∉ b2) ∧ (.start ∈ after ∨ l'.pending = true) := by
  obtain ⟨l1, h1, h2⟩ := h.split
  cases h2 with
  | cons hs hr =>
    cases hs with
    | refuse hp ha =>
      constructor
      · clear hr h
        have key : ∀ (evs : List LoopEvent) (l l1 : Loop), LoopRun l evs l1 → l.pending = false → l1.pending = true → ∃ b1 b2, evs = b1 ++ .trigger true :: b2 ∧ LoopEvent.trigger true ∉ b2 := by
          intro evs
          induction evs with
          | nil => intro l l1 hr h0 hp; cases hr; rw [h0] at hp; exact absurd hp (by decide)
          | cons ev evs ih =>
            intro l l1 hr h0 hp
            by_cases hm : LoopEvent.trigger true ∈ evs
            · -- the last accepted trigger is later
              have last : ∀ evs : List LoopEvent, LoopEvent.trigger true ∈ evs → ∃ b1 b2, evs = b1 ++ .trigger true :: b2 ∧ LoopEvent.trigger true ∉ b2 := by
                intro evs
                induction evs with
                | nil => intro h; cases h
                | cons ev evs ih =>
                  intro h
                  by_cases hm : LoopEvent.trigger true ∈ evs
                  · obtain ⟨b1, b2, he, hn⟩ := ih hm
                    exact ⟨ev :: b1, b2, by rw [he]; rfl, hn⟩
                  · rcases List.mem_cons.mp h with rfl | h
                    · exact ⟨[], evs, rfl, hm⟩
                    · exact absurd h hm
              exact last (ev :: evs) (List.mem_cons_of_mem _ hm)
            · cases hr with
              | cons hs hr =>
                rename_i l2
                by_cases hl2 : l2.pending = true
                · have : ev = .trigger true := by
                    cases hs with
                    | accept _ _ => rfl
                    | refuse _ _ => rw [h0] at hl2; exact absurd hl2 (by decide)
                    | kill _ => exact absurd (h0 ▸ hl2) (by decide)
                    | signal _ => exact absurd (h0 ▸ hl2) (by decide)
                    | enter _ => exact absurd (h0 ▸ hl2) (by decide)
                    | tick _ => exact absurd (h0 ▸ hl2) (by decide)
                    | onHup _ _ => exact absurd (h0 ▸ hl2) (by decide)
                    | onTrigger _ _ => simp at hl2
                    | done _ => exact absurd (h0 ▸ hl2) (by decide)
                  exact ⟨[], evs, by rw [this]; rfl, hm⟩
                · obtain ⟨b1, b2, he, hn⟩ := ih l2 l1 hr (by simpa using hl2) hp
                  exact absurd (by rw [he]; simp) hm
        exact key before _ _ h1 rfl hp
      · by_cases hm : LoopEvent.start ∈ after
        · exact .inl hm
        · exact .inr (pending_stays hr hp hm)

/-- Nothing is lost by waiting: while a trigger is pending and the program runs, the loop itself can always go on, and as soon as it has made two moves, one of them was the start of a refresh. Missing: that the loop does move, which fails when a fetch never ends (`C84_hang_false`) or a signal ends the program (`C86_start_false`). -/
theorem C57_progress_partial {l : Loop} (hp : l.pending = true) (ha : l.at_ ≠ .ended) :
    (∃ ev l', (ev = .start ∨ ev = .finish) ∧ LoopStep l ev l') ∧
    ∀ evs l', LoopRun l evs l' → 2 ≤ evs.countP (fun ev => ev == .start || ev == .finish) → .start ∈ evs := by
  constructor
  · cases h : l.at_ with
    | starting => exact ⟨.finish, _, .inr rfl, .enter l h⟩
    | waiting => exact ⟨.start, _, .inl rfl, .onTrigger l h hp⟩
    | refreshing => exact ⟨.finish, _, .inr rfl, .done l h⟩
    | ended => exact absurd h ha
  · have waits : ∀ (evs : List LoopEvent) (l l' : Loop), LoopRun l evs l' → l.at_ = .waiting → 1 ≤ evs.countP (fun ev => ev == .start || ev == .finish) → LoopEvent.start ∈ evs := by
      intro evs
      induction evs with
      | nil => intro l l' _ _ h; simp at h
      | cons ev evs ih =>
        intro l l' hr hw hc
        cases hr with
        | cons hs hr =>
          cases hs with
          | accept _ _ => exact List.mem_cons_of_mem _ (ih _ _ hr hw (by simpa using hc))
          | refuse _ _ => exact List.mem_cons_of_mem _ (ih _ _ hr hw (by simpa using hc))
          | kill hk => rw [hw] at hk; exact absurd hk (by decide)
          | signal _ => exact List.mem_cons_of_mem _ (ih _ _ hr hw (by simpa using hc))
          | enter hk => rw [hw] at hk; exact absurd hk (by decide)
          | tick _ => exact List.mem_cons_self
          | onHup _ _ => exact List.mem_cons_self
          | onTrigger _ _ => exact List.mem_cons_self
          | done hk => rw [hw] at hk; exact absurd hk (by decide)
    intro evs
    clear hp ha
    induction evs generalizing l with
    | nil => intro l' _ h; simp at h
    | cons ev evs ih =>
      intro l' hr hc
      cases hr with
      | cons hs hr =>
        cases hs with
        | accept _ _ => exact List.mem_cons_of_mem _ (ih l' hr (by simpa using hc))
        | refuse _ _ => exact List.mem_cons_of_mem _ (ih l' hr (by simpa using hc))
        | kill hk => exact List.mem_cons_of_mem _ (ih l' hr (by simpa using hc))
        | signal _ => exact List.mem_cons_of_mem _ (ih l' hr (by simpa using hc))
        | enter hk => exact List.mem_cons_of_mem _ (waits evs _ l' hr rfl (by simpa using hc))
        | tick _ => exact List.mem_cons_self
        | onHup _ _ => exact List.mem_cons_self
        | onTrigger _ _ => exact List.mem_cons_self
        | done hk => exact List.mem_cons_of_mem _ (waits evs _ l' hr rfl (by simpa using hc))

/-- Triggers coalesce: without the start of a refresh in between at most one trigger is accepted, and none if one is pending already. -/
theorem C57_coalesce {l l' : Loop} {evs : List LoopEvent} (h : LoopRun l evs l') (hno : LoopEvent.start ∉ evs) :
    evs.countP (fun ev => ev == .trigger true) + (if l.pending then 1 else 0) ≤ 1 := by
  induction h with
  | nil l => cases l.pending <;> decide
  | @cons l l1 l2 ev evs hs hr ih =>
    simp only [List.mem_cons, not_or] at hno
    have i := ih hno.2
    cases hs with
    | accept hp _ => simp [hp] at i ⊢; exact i
    | refuse hp _ => simp [hp] at i ⊢; exact i
    | kill _ => simpa using i
    | signal _ => simpa using i
    | enter _ => simpa using i
    | tick _ => exact absurd rfl hno.1
    | onHup _ _ => exact absurd rfl hno.1
    | onTrigger _ _ => exact absurd rfl hno.1
    | done _ => simpa using i

/-- A trigger during a refresh, a second one refused, and the refresh for it. -/
example : LoopRun .init [.finish, .start, .trigger true, .trigger false, .finish, .start] ⟨.refreshing, false, false⟩ :=
  .cons (.enter _ rfl) (.cons (.tick _ rfl) (.cons (.accept _ rfl (by decide)) (.cons (.refuse _ rfl (by decide)) (.cons (.done _ rfl) (.cons (.onTrigger _ rfl rfl) (.nil _))))))

/-! ## C84: a source that does not answer -/

/-- The request has no time limit (utils/utils.go:57-73 limits only dialling and the TLS handshake). If a fetch never ends, then nothing the program does from then on is a refresh: for every run in which the running refresh does not end, no
refresh starts, and at most one further trigger is accepted. -/
theorem C84_hang_false {l l' : Loop} {evs : List LoopEvent} (h : LoopRun l evs l') (hat : l.at_ = .refreshing ∨ l.at_ = .starting) (hno : LoopEvent.finish ∉ evs) :
    LoopEvent.start ∉ evs ∧ evs.countP (fun ev => ev == .trigger true) ≤ 1 := by
  have h1 : LoopEvent.start ∉ evs := by
    have key : ∀ {l l' : Loop} {evs : List LoopEvent}, LoopRun l evs l' → l.at_ ≠ .waiting → LoopEvent.finish ∉ evs → LoopEvent.start ∉ evs := by
      intro l l' evs h
      induction h with
      | nil l => intro _ _; simp
      | cons hs _ ih =>
        intro hat hno
        simp only [List.mem_cons, not_or] at hno ⊢
        cases hs with
        | accept _ _ => exact ⟨by decide, ih hat hno.2⟩
        | refuse _ _ => exact ⟨by decide, ih hat hno.2⟩
        | kill hk => exact ⟨by decide, ih (by simp) hno.2⟩
        | signal _ => exact ⟨by decide, ih hat hno.2⟩
        | enter _ => exact absurd rfl hno.1
        | tick hk => exact absurd hk hat
        | onHup hk _ => exact absurd hk hat
        | onTrigger hk _ => exact absurd hk hat
        | done _ => exact absurd rfl hno.1
    exact key h (by rcases hat with h | h <;> rw [h] <;> decide) hno
  refine ⟨h1, ?_⟩
  have := C57_coalesce h h1
  omega

/-- If every refresh that starts also ends, the loop is back in its `select` after each one, and from there any of the timer, a signal or a trigger starts the next. Missing: a fetch that never ends. -/
theorem C84_returns_partial (l : Loop) (h : l.at_ = .refreshing) :
    ∃ l', LoopStep l .finish l' ∧ l'.at_ = .waiting ∧ (∃ l2, LoopStep l' .start l2) ∧ l'.pending = l.pending ∧ l'.hup = l.hup :=
  ⟨_, .done l h, rfl, ⟨_, .tick _ rfl⟩, rfl, rfl⟩

example : LoopRun ⟨.refreshing, false, false⟩ [.trigger true, .signal, .trigger false] ⟨.refreshing, true, true⟩ :=
  .cons (.accept _ rfl (by decide)) (.cons (.signal _ (.inr rfl)) (.cons (.refuse _ rfl (by decide)) (.nil _)))

/-! ## C85: the refresh interval -/

/-- The interval 0 is accepted on the command line and ends the program when the loop starts. -/
theorem C85_zero_false : newTicker 0 = .panic ∧ newTicker (-1) = .panic ∧ newTicker 9223372037 = .panic := by decide

/-- Every interval from one second to 292 years works. -/
theorem C85_positive_partial (interval : BitVec 64) (h1 : 1 ≤ interval.toNat) (h2 : interval.toNat ≤ 9223372036) : newTicker interval = .ok () := by
  unfold newTicker
  rw [if_pos]
  unfold tickerDuration
  rw [BitVec.toInt_eq_toNat_cond, BitVec.toNat_mul]
  have : (1000000000#64).toNat = 1000000000 := by decide
  rw [this, Nat.mod_eq_of_lt (by omega), if_pos (by omega)]
  omega

example : newTicker 600 = .ok () := C85_positive_partial 600 (by decide) (by decide)

/-! ## C86: SIGHUP -/

/-- A SIGHUP before the first load has ended ends the program. -/
theorem C86_start_false : LoopRun .init [.signal] ⟨.ended, false, false⟩ := .cons (.kill _ rfl) (.nil _)

theorem hup_stays {l l' : Loop} {evs : List LoopEvent} (h : LoopRun l evs l') (hp : l.hup = true) (hno : LoopEvent.start ∉ evs) : l'.hup = true := by
  induction h with
  | nil l => exact hp
  | cons hs _ ih =>
    simp only [List.mem_cons, not_or] at hno
    refine ih ?_ hno.2
    cases hs with
    | accept _ _ => exact hp
    | refuse _ _ => exact hp
    | kill _ => exact hp
    | signal _ => rfl
    | enter _ => exact hp
    | tick _ => exact absurd rfl hno.1
    | onHup _ _ => exact absurd rfl hno.1
    | onTrigger _ _ => exact absurd rfl hno.1
    | done _ => exact hp

/-- Later a SIGHUP never ends the program, and a refresh starts after it, or it is still pending. Missing: before the loop is entered. -/
theorem C86_later_partial {l l' : Loop} {before after : List LoopEvent} (hat : l.at_ = .waiting ∨ l.at_ = .refreshing) (h : LoopRun l (before ++ .signal :: after) l') :
    l'.at_ ≠ .ended ∧ (.start ∈ after ∨ l'.hup = true) := by
  have alive : ∀ {l l' : Loop} {evs : List LoopEvent}, LoopRun l evs l' → (l.at_ = .waiting ∨ l.at_ = .refreshing) → (l'.at_ = .waiting ∨ l'.at_ = .refreshing) := by
    intro l l' evs h
    induction h with
    | nil l => exact id
    | cons hs _ ih =>
      intro hat
      apply ih
      cases hs with
      | accept _ _ => exact hat
      | refuse _ _ => exact hat
      | kill hk => rcases hat with h | h <;> rw [h] at hk <;> exact absurd hk (by decide)
      | signal _ => exact hat
      | enter hk => exact .inl rfl
      | tick _ => exact .inr rfl
      | onHup _ _ => exact .inr rfl
      | onTrigger _ _ => exact .inr rfl
      | done _ => exact .inl rfl
  refine ⟨by rcases alive h hat with h | h <;> rw [h] <;> decide, ?_⟩
  obtain ⟨l1, h1, h2⟩ := h.split
  have hat1 := alive h1 hat
  cases h2 with
  | cons hs hr =>
    by_cases hm : LoopEvent.start ∈ after
    · exact .inl hm
    · right
      refine hup_stays hr ?_ hm
      cases hs with
      | kill hk => rcases hat1 with h | h <;> rw [h] at hk <;> exact absurd hk (by decide)
      | signal _ => rfl

example : LoopRun ⟨.refreshing, false, false⟩ [.signal, .finish, .start] ⟨.refreshing, false, false⟩ :=
  .cons (.signal _ (.inr rfl)) (.cons (.done _ rfl) (.cons (.onHup _ rfl rfl) (.nil _)))

end StayRTR
