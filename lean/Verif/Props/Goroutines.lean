import Verif.Model.Goroutines
import Verif.Props.Connection

/-! C33-C35, C73: delivery, blocking and termination of the goroutines of a connection. -/

namespace StayRTR
open Spec

namespace Link

theorem enqueue_cases {p : Pdu} {l l' : Link} (h : enqueue p l = some l') :
    (l.sender = .parked ∧ l' = { l with sender := .writing p, queued := l.queued ++ [p] }) ∨
    (l.sender ≠ .parked ∧ l.queue.length < transmitsCap ∧ l' = { l with queue := l.queue ++ [p], queued := l.queued ++ [p] }) := by
  unfold enqueue at h
  split at h
  · left; exact ⟨by assumption, by simpa using h.symm⟩
  · split at h
    · right; exact ⟨by assumption, by assumption, by simpa using h.symm⟩
    · simp at h

/-- What every reachable state of a connection satisfies. -/
structure Good (l : Link) : Prop where
  pre : l.wire <+: l.queued
  all : l.broken = false → l.wire ++ l.inFlight ++ l.queue = l.queued
  cap : l.queue.length ≤ transmitsCap
  parked : l.sender = .parked → l.queue = []

theorem Good.enqueue {p : Pdu} {l l' : Link} (g : Good l) (h : Link.enqueue p l = some l') : Good l' := by
  rcases enqueue_cases h with ⟨hp, rfl⟩ | ⟨hp, hq, rfl⟩
  · have hq := g.parked hp
    refine ⟨g.pre.trans (List.prefix_append _ _), ?_, g.cap, by simp⟩
    intro hb
    have := g.all hb
    simp only [inFlight, hp, hq, List.append_nil] at this ⊢
    rw [this]
  · refine ⟨g.pre.trans (List.prefix_append _ _), ?_, ?_, fun h => absurd h hp⟩
    · intro hb
      have := g.all hb
      simp only [inFlight] at this ⊢
      rw [← this]; simp
    · simp; omega

theorem Good.quit {l : Link} (g : Good l) : Good l.signalQuit := by
  unfold signalQuit
  split
  · rename_i h
    refine ⟨g.pre, ?_, g.cap, by simp⟩
    intro hb
    have := g.all hb
    simpa [inFlight, h] using this
  · exact g

theorem Good.reader {l : Link} (g : Good l) (r : Reader) : Good { l with reader := r } := ⟨g.pre, g.all, g.cap, g.parked⟩

theorem Good.dropped {l : Link} (g : Good l) : Good { l with connected := false } := ⟨g.pre, g.all, g.cap, g.parked⟩

theorem Good.act {x : Act} {l l' : Link} (g : Good l) (h : Link.act x l = some l') : Good l' := by
  cases x with
  | send p => exact g.enqueue h
  | drop => simp only [Link.act, Option.some.injEq] at h; subst h; exact g.dropped
  | quit => simp only [Link.act, Option.some.injEq] at h; subst h; exact g.quit

theorem Good.own {l l' : Link} (g : Good l) (h : Own l l') : Good l' := by
  cases h with
  | readerCheck h => exact g.reader _
  | readClosed h hs => exact g.reader _
  | readerAct h he => exact (g.reader _).act he
  | readerNext h => exact g.reader _
  | senderCheck h =>
    refine ⟨g.pre, ?_, g.cap, ?_⟩
    · intro hb
      have := g.all hb
      simp only [inFlight, h] at this ⊢
      cases hc : l.connected <;> simpa using this
    · dsimp only; split <;> simp
  | take h hq =>
    refine ⟨g.pre, ?_, ?_, by simp⟩
    · intro hb
      have := g.all hb
      simpa [inFlight, h, hq] using this
    · have := g.cap; rw [hq] at this; simp at this ⊢; omega
  | park h hq =>
    refine ⟨g.pre, ?_, g.cap, fun _ => hq⟩
    intro hb
    have := g.all hb
    simpa [inFlight, h] using this
  | write h hb =>
    have := g.all hb
    simp only [inFlight, h] at this
    refine ⟨⟨_, this⟩, ?_, g.cap, by simp⟩
    intro _
    simpa [inFlight] using this
  | writeFails h => exact ⟨g.pre, by simp, g.cap, by simp⟩

theorem Good.step {l l' : Link} (g : Good l) (h : Step l l') : Good l' := by
  rcases h with h | h | h
  · exact g.own h
  · cases h <;> exact g.reader _
  · obtain ⟨x, he⟩ := h; exact g.act he

theorem Good.init : Good init := by constructor <;> simp [Link.init, inFlight]

theorem Good.steps {l l' : Link} (g : Good l) (h : Steps Step l l') : Good l' := by
  induction h with
  | refl => exact g
  | tail _ s ih => exact ih.step s

theorem Steps.trans {r : Link → Link → Prop} {l m n : Link} (h : Steps r l m) (h' : Steps r m n) : Steps r l n := by
  induction h' with
  | refl => exact h
  | tail _ s ih => exact .tail ih s

theorem Steps.one {r : Link → Link → Prop} {l m : Link} (h : r l m) : Steps r l m := .tail .refl h

theorem Steps.mono {r r' : Link → Link → Prop} (hr : ∀ l m, r l m → r' l m) {l m : Link} (h : Steps r l m) : Steps r' l m := by
  induction h with
  | refl => exact .refl
  | tail _ s ih => exact .tail ih (hr _ _ s)

/-- The reader can fill the queue by itself. -/
theorem fill (ps : List Pdu) (rest : List Act) (ret : Bool) : ∀ l : Link, l.sender ≠ .parked → l.queue.length + ps.length ≤ transmitsCap →
    l.reader = .acting (ps.map Act.send ++ rest) ret →
    Steps Own l { l with reader := .acting rest ret, queue := l.queue ++ ps, queued := l.queued ++ ps } := by
  induction ps with
  | nil =>
    intro l _ _ hr
    have : l = { l with reader := .acting rest ret, queue := l.queue ++ [], queued := l.queued ++ [] } := by
      cases l; simp_all
    rw [← this]; exact .refl
  | cons p ps ih =>
    intro l hs hl hr
    simp only [List.length_cons] at hl
    have h1 : Own l { l with reader := .acting (ps.map Act.send ++ rest) ret, queue := l.queue ++ [p], queued := l.queued ++ [p] } := by
      refine .readerAct (x := .send p) (by simpa using hr) ?_
      simp only [Link.act, enqueue, hs, if_false]
      rw [if_pos (by omega)]
    have h2 := ih { l with reader := .acting (ps.map Act.send ++ rest) ret, queue := l.queue ++ [p], queued := l.queued ++ [p] }
      hs (by simp; omega) rfl
    refine (Steps.one h1).trans ?_
    simpa using h2

end Link

/-! ## C33 -/

/-- **C33**: whatever the goroutines do, what the peer got is a prefix of what was queued; unless a write failed, what was queued
is exactly what the peer got, then what is being written, then what is buffered; and at most 256 PDUs are buffered. -/
theorem C33_in_order {l : Link} (h : Link.Steps Link.Step Link.init l) :
    l.wire <+: l.queued ∧ (l.broken = false → l.wire ++ l.inFlight ++ l.queue = l.queued) ∧ l.queue.length ≤ 256 :=
  let g := Link.Good.init.steps h
  ⟨g.pre, g.all, g.cap⟩

/-- The history only grows: nothing delivered is ever taken back, and nothing queued is reordered later. -/
theorem C33_history_grows {l m : Link} (h : Link.Steps Link.Step l m) : l.wire <+: m.wire ∧ l.queued <+: m.queued := by
  have act : ∀ (x : Act) (l m : Link), Link.act x l = some m → l.wire <+: m.wire ∧ l.queued <+: m.queued := by
    intro x l m he
    cases x with
    | send p => rcases Link.enqueue_cases he with ⟨_, rfl⟩ | ⟨_, _, rfl⟩ <;> exact ⟨List.prefix_rfl, List.prefix_append _ _⟩
    | drop => simp only [Link.act, Option.some.injEq] at he; subst he; exact ⟨List.prefix_rfl, List.prefix_rfl⟩
    | quit =>
      simp only [Link.act, Option.some.injEq, Link.signalQuit] at he; subst he
      split <;> exact ⟨List.prefix_rfl, List.prefix_rfl⟩
  have step : ∀ l m : Link, Link.Step l m → l.wire <+: m.wire ∧ l.queued <+: m.queued := by
    intro l m h
    rcases h with h | h | h
    · cases h with
      | @readerAct _ x a r h he => exact act x { l with reader := .acting a r } m he
      | write => exact ⟨List.prefix_append _ _, List.prefix_rfl⟩
      | _ => exact ⟨List.prefix_rfl, List.prefix_rfl⟩
    · cases h <;> exact ⟨List.prefix_rfl, List.prefix_rfl⟩
    · obtain ⟨x, he⟩ := h; exact act x l m he
  induction h with
  | refl => exact ⟨List.prefix_rfl, List.prefix_rfl⟩
  | tail _ s ih => exact ⟨ih.1.trans (step _ _ s).1, ih.2.trans (step _ _ s).2⟩

/-- The PDUs among the actions. -/
def sendsOf (a : List Act) : List Pdu := a.filterMap (fun | .send p => some p | _ => none)

theorem sendsOf_actions (e : List Effect) : sendsOf (actions e) = sent e := by
  induction e with
  | nil => rfl
  | cons x e ih => cases x <;> simp_all [sendsOf, actions, sent]

/-- What the reader sends for a request is queued in the order of the handler's effects: at every moment `queued` has grown by exactly
the PDUs of the part already done, as long as no other goroutine sends to the client. -/
theorem C33_reader_order {l m : Link} {e : List Effect} {ret : Bool} (h : Link.Steps Link.Own l m) (hr : l.reader = .acting (actions e) ret) :
    (∃ done rest, actions e = done ++ rest ∧ m.reader = .acting rest ret ∧ m.queued = l.queued ++ sendsOf done) ∨
    (m.queued = l.queued ++ sent e) := by
  have quiet : ∀ (x : Act) (l m : Link), Link.act x l = some m →
      m.queued = l.queued ++ sendsOf [x] ∧ m.reader = l.reader := by
    intro x l m he
    cases x with
    | send p => rcases Link.enqueue_cases he with ⟨_, rfl⟩ | ⟨_, _, rfl⟩ <;> simp [sendsOf]
    | drop => simp only [Link.act, Option.some.injEq] at he; subst he; simp [sendsOf]
    | quit =>
      simp only [Link.act, Option.some.injEq, Link.signalQuit] at he; subst he
      split <;> simp [sendsOf]
  -- after the request only the actions of `Disconnect` are left, which send nothing
  have key : (∃ done rest, actions e = done ++ rest ∧ m.reader = .acting rest ret ∧ m.queued = l.queued ++ sendsOf done) ∨
      (m.queued = l.queued ++ sent e ∧ ∀ a r, m.reader = .acting a r → sendsOf a = []) := by
    induction h with
    | refl => exact .inl ⟨[], _, rfl, hr, by simp [sendsOf]⟩
    | @tail m n _ s ih =>
      rcases ih with ⟨dn, rest, h1, h2, h3⟩ | ⟨h1, h2⟩
      · cases s with
        | readerCheck h => rw [h] at h2; simp at h2
        | readClosed h hs => rw [h] at h2; simp at h2
        | @readerAct _ x a r h he =>
          rw [h] at h2
          simp only [Reader.acting.injEq] at h2
          obtain ⟨rfl, rfl⟩ := h2
          obtain ⟨hq, hrd⟩ := quiet _ _ _ he
          refine .inl ⟨dn ++ [x], a, by simp [h1], hrd, ?_⟩
          rw [hq]; simp only; rw [h3]; simp [sendsOf, List.filterMap_append]
        | readerNext h =>
          rw [h] at h2
          simp only [Reader.acting.injEq] at h2
          obtain ⟨rfl, rfl⟩ := h2
          refine .inr ⟨?_, ?_⟩
          · rw [← sendsOf_actions, h1]; simpa using h3
          · intro a r; dsimp only; split <;> simp
        | _ => exact .inl ⟨dn, rest, h1, h2, h3⟩
      · refine .inr ?_
        cases s with
        | readerCheck h => exact ⟨h1, by intro a r; dsimp only; split <;> simp⟩
        | readClosed h hs => exact ⟨h1, by rintro a r ⟨⟩; rfl⟩
        | @readerAct _ x a r h he =>
          obtain ⟨hq, hrd⟩ := quiet _ _ _ he
          have := h2 _ _ h
          have hx : sendsOf [x] = [] := by cases x <;> simp_all [sendsOf]
          have ha : sendsOf a = [] := by cases x <;> simp_all [sendsOf]
          refine ⟨by rw [hq, hx]; simpa using h1, ?_⟩
          intro b r' hb
          rw [hrd] at hb
          simp only [Reader.acting.injEq] at hb
          rw [← hb.1]; exact ha
        | readerNext h => exact ⟨h1, by intro a r; dsimp only; split <;> simp⟩
        | _ => exact ⟨h1, h2⟩
  rcases key with h | h
  · exact .inl h
  · exact .inr h.1

/-- Non-vacuity: a reachable state in which one PDU was delivered, one is being written and one is buffered. -/
example : ∃ l, Link.Steps Link.Step Link.init l ∧ l.wire = [.cacheReset 1] ∧ l.inFlight = [.cacheReset 0] ∧ l.queue = [.cacheReset 2] := by
  have s1 : Link.Steps Link.Step Link.init ⟨true, .check, [.cacheReset 1, .cacheReset 0, .cacheReset 2], .check, false,
      [.cacheReset 1, .cacheReset 0, .cacheReset 2], []⟩ :=
    ((Link.Steps.one (.inr (.inr (.act (.send (.cacheReset 1)) rfl)))).tail (.inr (.inr (.act (.send (.cacheReset 0)) rfl)))).tail
      (.inr (.inr (.act (.send (.cacheReset 2)) rfl)))
  exact ⟨_, ((((s1.tail (.inl (.senderCheck rfl))).tail (.inl (.take rfl rfl))).tail (.inl (.write rfl rfl))).tail
    (.inl (.senderCheck rfl))).tail (.inl (.take rfl rfl)), rfl, rfl, rfl⟩

/-! ## C35 -/

namespace Link

/-- An upper bound for the steps left on a dropped connection. -/
def work (l : Link) : Nat :=
  4 * (match l.reader with | .check => 2 | .reading => 6 | .acting a _ => a.length + 3 | .done => 0) +
  (match l.sender with | .select => 4 | .writing _ => 3 | .check => 2 | .parked => 1 | .done => 0)

theorem work_own {l m : Link} (hc : l.connected = false) (h : Own l m) : m.connected = false ∧ work m < work l := by
  cases h with
  | readerCheck h => simp [hc, work, h]
  | readClosed h hs => simp [hc, work, h]
  | @readerAct _ x a r h he =>
    cases x with
    | send p =>
      rcases enqueue_cases he with ⟨hs, rfl⟩ | ⟨hs, hq, rfl⟩
      · simp only at hs; refine ⟨hc, ?_⟩; simp only [work, h, hs, List.length_cons]; omega
      · refine ⟨hc, ?_⟩; simp only [work, h, List.length_cons]; omega
    | drop =>
      simp only [Link.act, Option.some.injEq] at he; subst he
      refine ⟨rfl, ?_⟩; simp only [work, h, List.length_cons]; omega
    | quit =>
      simp only [Link.act, Option.some.injEq, signalQuit] at he; subst he
      split
      · rename_i hs
        refine ⟨hc, ?_⟩; simp only [work, h, hs, List.length_cons]; omega
      · refine ⟨hc, ?_⟩; simp only [work, h, List.length_cons]; omega
  | @readerNext r h =>
    refine ⟨hc, ?_⟩
    cases r <;> simp only [work, h] <;> simp
  | senderCheck h => refine ⟨hc, ?_⟩; simp [work, h, hc]
  | take h hq => refine ⟨hc, ?_⟩; simp [work, h]
  | park h hq => refine ⟨hc, ?_⟩; simp [work, h]
  | write h hb => refine ⟨hc, ?_⟩; simp [work, h]
  | writeFails h => refine ⟨hc, ?_⟩; simp [work, h]

theorem work_run {k : Nat} {l m : Link} (h : OwnRun k l m) : l.connected = false → k + work m ≤ work l := by
  induction h with
  | refl => intro; omega
  | head s _ ih => intro hc; have := work_own hc s; have := ih this.1; omega

theorem OwnRun.steps {k : Nat} {l m : Link} (h : OwnRun k l m) : Steps Own l m := by
  induction h with
  | refl => exact .refl
  | head s _ ih => exact (Steps.one s).trans ih

theorem halted_cases {l : Link} (g : Good l) (hc : l.connected = false) (h : Halted l) :
    (l.reader = .done ∧ l.sender = .done) ∨
    (l.sender = .done ∧ l.queue.length = transmitsCap ∧ ∃ p a ret, l.reader = .acting (.send p :: a) ret) ∨
    (l.sender = .parked ∧ l.queue = [] ∧ (l.reader = .done ∨ l.reader = .reading)) := by
  have hs : l.sender = .done ∨ l.sender = .parked := by
    cases hs : l.sender with
    | check => exact absurd (Own.senderCheck hs) (h _)
    | select =>
      cases hq : l.queue with
      | nil => exact absurd (Own.park hs hq) (h _)
      | cons p q => exact absurd (Own.take hs hq) (h _)
    | parked => exact .inr rfl
    | writing p => exact absurd (Own.writeFails hs) (h _)
    | done => exact .inl rfl
  cases hr : l.reader with
  | check => exact absurd (Own.readerCheck hr) (h _)
  | reading =>
    rcases hs with hs | hs
    · exact absurd (Own.readClosed hr hs) (h _)
    · exact .inr (.inr ⟨hs, g.parked hs, .inr rfl⟩)
  | acting a r =>
    cases a with
    | nil => exact absurd (Own.readerNext hr) (h _)
    | cons x a =>
      cases x with
      | drop => exact absurd (Own.readerAct hr rfl) (h _)
      | quit => exact absurd (Own.readerAct hr rfl) (h _)
      | send p =>
        have : enqueue p { l with reader := .acting a r } = none := by
          cases he : enqueue p { l with reader := .acting a r } with
          | none => rfl
          | some l' => exact absurd (Own.readerAct hr he) (h _)
        unfold enqueue at this
        rcases hs with hs | hs
        · simp only [hs] at this
          right; left
          refine ⟨hs, ?_, p, a, r, rfl⟩
          have hcap := g.cap
          simp at this
          omega
        · simp [hs] at this
  | done =>
    rcases hs with hs | hs
    · exact .inl ⟨rfl, hs⟩
    · exact .inr (.inr ⟨hs, g.parked hs, .inl rfl⟩)

end Link

/-- **C35** in full: once a connection was dropped, its goroutines finish (both return, so the connection is closed). -/
def GoroutinesFinish : Prop := ∀ l : Link, Link.Steps Link.Step Link.init l → l.connected = false → Link.Halted l →
  l.reader = .done ∧ l.sender = .done

/-- The code does not have this property: the peer goes away while `sendLoop` is between its loop condition and its `select`; the signal on
`quit` is lost and `sendLoop` waits for ever, never closing the connection. -/
theorem C35_sender_leak_false : ¬ GoroutinesFinish := by
  intro h
  have s : Link.Steps Link.Step Link.init ⟨false, .done, [], .parked, false, [], []⟩ := by
    refine .tail (.tail (.tail (.tail (.tail (.tail (.tail .refl (.inl (.readerCheck rfl))) (.inl (.senderCheck rfl)))
      (.inr (.inl (.readFails rfl)))) (.inl (.readerAct rfl rfl))) (.inl (.readerAct rfl rfl))) (.inl (.readerNext rfl))) (.inl (.park rfl rfl))
  have := (h _ s rfl (by intro l' ho; cases ho <;> simp_all)).2
  simp at this

/-- Nor by the other goroutine: a Reset Query of an unacceptable version to a server whose answer has at least 256 PDUs. The reader is told to drop the
connection but goes on to send the answer; with `sendLoop` gone it blocks for ever on the full channel. -/
theorem C35_reader_leak_false {cfg : ServerConfig} {sid : U16} {c c' : Client} (h : Conn (newServer cfg sid) c) {st1 st2 : Store} {v : U8}
    {pkt : Bytes} {e : List Effect} (hd : decodeBytes pkt = .ok (.resetQuery v)) (ha : ¬ Acceptable c v)
    (hp : (newServer cfg sid).processRead st1 st2 c pkt = .ok (c', e)) (hbig : 256 < (sent e).length) :
    ∃ l l', Link.Steps Link.Step Link.init l ∧ l.reader = .acting (actions e) false ∧ Link.Steps Link.Own l l' ∧ l'.connected = false ∧
      Link.Halted l' ∧ l'.reader ≠ .done ∧ l'.wire = [] := by
  rw [processRead_pdu hd] at hp
  obtain ⟨hc', e', he', rfl⟩ := unacceptable_processed h.ok (p := .resetQuery v) ha hp
  have okc : ConnOk (newServer cfg sid) c' := by rw [hc']; exact h.ok.dropped.noteQuery _
  have hsend : ∃ ps : List Pdu, e' = ps.map Effect.send := by
    simp only [Server.passSimpleHandler] at he'
    rw [requestCache_eq okc] at he'
    simp only [GoRes.ok.injEq] at he'
    split at he'
    · exact ⟨[_], he'.symm⟩
    · exact ⟨_, he'.symm⟩
  obtain ⟨ps, rfl⟩ := hsend
  obtain ⟨er, her⟩ : ∃ er, c.sendWrongVersionError = Effect.send er := ⟨_, rfl⟩
  rw [her] at hbig ⊢
  have hlen : 256 ≤ ps.length := by
    have := sent_map_send ps
    simp only [sent, List.filterMap_cons, List.length_cons] at hbig this
    rw [this] at hbig; omega
  have hact : actions (.send er :: .disconnect :: ps.map Effect.send) = .send er :: .drop :: .quit :: ps.map Act.send := by
    have : ∀ ps : List Pdu, actions (ps.map Effect.send) = ps.map Act.send := by
      intro ps; induction ps with
      | nil => rfl
      | cons p ps ih => simp [actions, ih]
    simp [actions, this]
  obtain ⟨q, hq⟩ : ∃ q : List Pdu, q = ps.take 255 := ⟨_, rfl⟩
  obtain ⟨x, r, hxr⟩ : ∃ x r, ps.drop 255 = x :: r := by
    cases hdr : ps.drop 255 with
    | nil => have := congrArg List.length hdr; simp at this; omega
    | cons x r => exact ⟨x, r, rfl⟩
  have hps : ps = q ++ x :: r := by rw [hq, ← hxr, List.take_append_drop]
  have hql : q.length = 255 := by rw [hq, List.length_take]; omega
  rw [hact]
  let l0 : Link := ⟨true, .acting (.send er :: .drop :: .quit :: ps.map Act.send) false, [], .check, false, [], []⟩
  let l1 : Link := ⟨false, .acting (ps.map Act.send) false, [er], .done, false, [er], []⟩
  have s0 : Link.Steps Link.Step Link.init l0 :=
    .tail (.tail .refl (.inl (.readerCheck rfl))) (.inr (.inl (.request _ rfl (by simp [Link.init]))))
  have s1 : Link.Steps Link.Own l0 l1 :=
    .tail (.tail (.tail (.tail .refl (.readerAct rfl rfl)) (.readerAct rfl rfl)) (.readerAct rfl rfl)) (.senderCheck rfl)
  have s2 := Link.fill q ((x :: r).map Act.send) false l1 (by simp [l1]) (by simp [l1, transmitsCap, hql]) (by simp [l1, hps])
  refine ⟨l0, _, s0, rfl, s1.trans s2, rfl, ?_, by simp, rfl⟩
  intro l' ho
  cases ho with
  | @readerAct _ y a ret h he =>
    simp only [List.map_cons, Reader.acting.injEq, List.cons.injEq] at h
    obtain ⟨⟨rfl, _⟩, _⟩ := h
    rcases Link.enqueue_cases he with ⟨hp, _⟩ | ⟨_, hlt, _⟩
    · simp [l1] at hp
    · simp [l1, transmitsCap, hql] at hlt
  | readerCheck h => simp at h
  | readClosed h => simp at h
  | readerNext h => simp at h
  | senderCheck h => simp [l1] at h
  | take h => simp [l1] at h
  | park h => simp [l1] at h
  | write h => simp [l1] at h
  | writeFails h => simp [l1] at h

/-- **C35**, partial: on a dropped connection the two goroutines take only a bounded number of further steps (without new input), and when they
come to rest they have both returned, or one of the two leaks above has happened. Missing: that the leaks do not happen, refuted above. -/
theorem C35_two_leaks_partial {l : Link} (hl : Link.Steps Link.Step Link.init l) (hc : l.connected = false) :
    (∃ bound, ∀ k m, Link.OwnRun k l m → k ≤ bound) ∧
    ∀ k m, Link.OwnRun k l m → Link.Halted m →
      (m.reader = .done ∧ m.sender = .done) ∨
      (m.sender = .done ∧ m.queue.length = 256 ∧ ∃ p a ret, m.reader = .acting (.send p :: a) ret) ∨
      (m.sender = .parked ∧ m.queue = [] ∧ (m.reader = .done ∨ m.reader = .reading)) := by
  refine ⟨⟨Link.work l, fun k m h => by have := Link.work_run h hc; omega⟩, ?_⟩
  intro k m h hm
  have hs := h.steps
  have g : Link.Good m := Link.Good.init.steps (hl.trans (hs.mono fun _ _ => Or.inl))
  have hcm : m.connected = false := by
    clear hm g hs hl
    induction h with
    | refl => exact hc
    | head s _ ih => exact ih (Link.work_own hc s).1
  exact Link.halted_cases g hcm hm

/-- **C35**, partial: if `sendLoop` is not about to wait when the connection is dropped, and what the reader still sends fits the channel,
both goroutines return. -/
theorem C35_clean_partial {l : Link} (hl : Link.Steps Link.Step Link.init l) (hc : l.connected = false)
    (hs : l.sender ≠ .select ∧ l.sender ≠ .parked)
    (hr : ∀ a ret, l.reader = .acting a ret → l.queue.length + (sendsOf a).length ≤ 256)
    {k : Nat} {m : Link} (h : Link.OwnRun k l m) (hm : Link.Halted m) : m.reader = .done ∧ m.sender = .done := by
  have hcases := (C35_two_leaks_partial hl hc).2 k m h hm
  have inv : (m.sender ≠ .select ∧ m.sender ≠ .parked) ∧ (∀ a ret, m.reader = .acting a ret → m.queue.length + (sendsOf a).length ≤ 256) := by
    have g : Link.Good l := Link.Good.init.steps hl
    clear hcases hm hl
    induction h with
    | refl => exact ⟨hs, hr⟩
    | @head k l m n s _ ih =>
      refine ih (Link.work_own hc s).1 ?_ ?_ (g.own s)
      · cases s with
        | @readerAct _ x a r h he =>
          cases x with
          | send p => rcases Link.enqueue_cases he with ⟨hp, rfl⟩ | ⟨hp, hq, rfl⟩ <;> simp_all
          | drop => simp only [Link.act, Option.some.injEq] at he; subst he; exact hs
          | quit => simp only [Link.act, Option.some.injEq, Link.signalQuit] at he; subst he; split <;> simp_all
        | senderCheck h => simp [hc]
        | take h => exact absurd h hs.1
        | park h => exact absurd h hs.1
        | write => simp
        | writeFails => simp
        | _ => exact hs
      · intro a ret ha
        cases s with
        | @readerAct _ x b r h he =>
          have := hr _ _ h
          cases x with
          | send p =>
            rcases Link.enqueue_cases he with ⟨hp, rfl⟩ | ⟨hp, hq, rfl⟩
            · exact absurd hp hs.2
            · simp only [Reader.acting.injEq] at ha
              obtain ⟨rfl, rfl⟩ := ha
              simp only [sendsOf, List.filterMap_cons, List.length_cons, List.length_append, List.length_nil] at this ⊢
              omega
          | drop =>
            simp only [Link.act, Option.some.injEq] at he; subst he
            simp only [Reader.acting.injEq] at ha
            obtain ⟨rfl, rfl⟩ := ha
            simpa [sendsOf] using this
          | quit =>
            simp only [Link.act, Option.some.injEq, Link.signalQuit] at he; subst he
            rw [if_neg hs.2] at ha ⊢
            simp only [Reader.acting.injEq] at ha
            obtain ⟨rfl, rfl⟩ := ha
            simpa [sendsOf] using this
        | readerCheck h => simp [hc] at ha
        | readClosed h hs =>
          simp only [Reader.acting.injEq] at ha
          obtain ⟨rfl, rfl⟩ := ha
          have := g.cap
          simpa [sendsOf, transmitsCap] using this
        | readerNext h => dsimp only at ha; split at ha <;> simp at ha
        | take h => exact absurd h hs.1
        | park h => exact absurd h hs.1
        | _ => exact hr _ _ ha
  rcases hcases with h | ⟨h1, h2, p, a, ret, h3⟩ | ⟨h1, _⟩
  · exact h
  · have := inv.2 _ _ h3
    simp only [sendsOf, List.filterMap_cons, List.length_cons] at this
    omega
  · exact absurd h1 inv.1.2

/-- **C35**, partial: if `sendLoop` is idle when the reader disconnects, the signal on `quit` arrives and both goroutines return (given room for what the
reader sends afterwards). -/
theorem C35_idle_partial {l : Link} (hl : Link.Steps Link.Step Link.init l) (hs : l.sender = .parked) {a : List Act} {ret : Bool}
    (hr : l.reader = .acting (.drop :: .quit :: a) ret) (hfit : (sendsOf a).length ≤ 256)
    {k : Nat} {m : Link} (h : Link.OwnRun k l m) (hm : Link.Halted m) : m.reader = .done ∧ m.sender = .done := by
  have first : ∀ {l n : Link} {x : Act} {a : List Act}, Link.Own l n → l.sender = .parked → l.reader = .acting (x :: a) ret →
      Link.act x { l with reader := .acting a ret } = some n := by
    intro l n x a ho hs hr
    cases ho with
    | readerAct h he =>
      rw [hr] at h
      simp only [Reader.acting.injEq, List.cons.injEq] at h
      obtain ⟨⟨rfl, rfl⟩, rfl⟩ := h
      exact he
    | readerCheck h => rw [hr] at h; simp at h
    | readClosed h => rw [hr] at h; simp at h
    | readerNext h => rw [hr] at h; simp at h
    | senderCheck h => rw [hs] at h; simp at h
    | take h => rw [hs] at h; simp at h
    | park h => rw [hs] at h; simp at h
    | write h => rw [hs] at h; simp at h
    | writeFails h => rw [hs] at h; simp at h
  have hq : l.queue = [] := (Link.Good.init.steps hl).parked hs
  cases h with
  | refl => exact absurd (Link.Own.readerAct hr rfl) (hm _)
  | head s1 h =>
    have e1 := first s1 hs hr
    simp only [Link.act, Option.some.injEq] at e1
    subst e1
    cases h with
    | refl => exact absurd (Link.Own.readerAct rfl rfl) (hm _)
    | head s2 h =>
      have e2 := first s2 hs rfl
      simp only [Link.act, Link.signalQuit, hs, if_true, Option.some.injEq] at e2
      subst e2
      refine C35_clean_partial ((hl.tail (.inl s1)).tail (.inl s2)) rfl ⟨nofun, nofun⟩ ?_ h hm
      intro b r hb
      simp only [Reader.acting.injEq] at hb
      obtain ⟨rfl, rfl⟩ := hb
      simpa [hq] using hfit

/-- Non-vacuity: a connection dropped by the reader while `sendLoop` is writing. -/
example : ∃ l, Link.Steps Link.Step Link.init l ∧ l.connected = false ∧ (l.sender ≠ .select ∧ l.sender ≠ .parked) ∧
    l.reader = .acting [.quit] true :=
  ⟨_, .tail (.tail (.tail (.tail (.tail (.tail .refl (.inl (.senderCheck rfl))) (.inr (.inr (.act (.send (.cacheReset 1)) rfl))))
    (.inl (.take rfl rfl))) (.inl (.readerCheck rfl))) (.inr (.inl (.readFails rfl)))) (.inl (.readerAct rfl rfl)), rfl, by decide, rfl⟩

/-! ## C34 -/

/-- **C34** in full: even if the peer of connection `k` never takes anything from its socket again, the notifying goroutine can get the notifications
for all other clients out. -/
def StalledClientHarmless : Prop := ∀ (k : Nat) (n : Net), (∀ i, Link.Steps Link.Step Link.init (n.link i)) →
  ∃ n', Net.StallSteps k n n' ∧ ∀ x ∈ n'.pending, x.1 = k

namespace Link

/-- A connection whose peer asked for a lot of data and stopped reading. -/
def clogged : Link :=
  ⟨true, .acting [] false, List.replicate 256 (.cacheReset 1), .writing (.cacheReset 1), false, .cacheReset 1 :: List.replicate 256 (.cacheReset 1), []⟩

theorem clogged_reachable : Steps Step init clogged := by
  let l1 : Link := ⟨true, .acting ((List.replicate 256 (Pdu.cacheReset 1)).map Act.send ++ []) false, [], .writing (.cacheReset 1), false,
    [.cacheReset 1], []⟩
  have s1 : Steps Step init l1 :=
    .tail (.tail (.tail (.tail (.tail .refl (.inl (.readerCheck rfl)))
      (.inr (.inl (.request (.send (.cacheReset 1) :: ((List.replicate 256 (Pdu.cacheReset 1)).map Act.send ++ [])) rfl (by simp [init])))))
      (.inl (.senderCheck rfl))) (.inl (.readerAct rfl rfl))) (.inl (.take rfl rfl))
  have s2 := fill (List.replicate 256 (.cacheReset 1)) [] false l1 nofun
    (by rw [List.length_replicate]; exact Nat.le_of_eq (Nat.zero_add _)) rfl
  exact s1.trans (s2.mono fun _ _ => Or.inl)

end Link

/-- While a connection with a full queue is not read by its peer, the notifying goroutine does not get past it. -/
theorem stalled_blocks {k : Nat} {n m : Net} (h : Net.StallSteps k n m) (hq : (n.link k).queue.length = transmitsCap)
    (hs : ∃ p, (n.link k).sender = .writing p) {p : Pdu} {rest : List (Nat × Pdu)} (hp : n.pending = (k, p) :: rest) : m.pending = n.pending := by
  have blocked : ∀ (l l' : Link) (p : Pdu), l.queue.length = transmitsCap → (∃ p, l.sender = .writing p) → ¬ Link.enqueue p l = some l' := by
    rintro l l' p h1 ⟨q, h2⟩ he
    rcases Link.enqueue_cases he with ⟨h, _⟩ | ⟨_, h, _⟩
    · rw [h2] at h; simp at h
    · omega
  have key : m.pending = n.pending ∧ (m.link k).queue.length = transmitsCap ∧ ∃ p, (m.link k).sender = .writing p := by
    induction h with
    | refl => exact ⟨rfl, hq, hs⟩
    | @tail m m' _ s ih =>
      obtain ⟨ih1, ih2, ih3⟩ := ih
      cases s with
      | notify hn =>
        obtain ⟨hpe, he⟩ := hn
        rw [ih1, hp] at hpe
        simp only [List.cons.injEq, Prod.mk.injEq] at hpe
        obtain ⟨⟨rfl, rfl⟩, _⟩ := hpe
        exact absurd he (blocked _ _ _ ih2 ih3)
      | @own i l' ho hk =>
        refine ⟨ih1, ?_⟩
        by_cases hik : i = k
        · subst hik
          obtain ⟨q, hq'⟩ := ih3
          have hsnd := hk rfl q hq'
          refine ⟨?_, q, by simpa [Net.set] using hsnd⟩
          simp only [Net.set, if_true]
          cases ho with
          | @readerAct _ x a r h he =>
            cases x with
            | send p => exact absurd he (blocked { m.link i with reader := .acting a r } l' p ih2 ⟨q, hq'⟩)
            | drop => simp only [Link.act, Option.some.injEq] at he; subst he; exact ih2
            | quit => simp only [Link.act, Option.some.injEq, Link.signalQuit] at he; subst he; split <;> exact ih2
          | take h => rw [h] at hq'; simp at hq'
          | _ => exact ih2
        · have : k ≠ i := fun h => hik h.symm
          simpa [Net.set, this] using ⟨ih2, ih3⟩
      | @input i l' hi =>
        refine ⟨ih1, ?_⟩
        by_cases hik : i = k
        · subst hik
          simp only [Net.set, if_true]
          cases hi <;> exact ⟨ih2, ih3⟩
        · have : k ≠ i := fun h => hik h.symm
          simpa [Net.set, this] using ⟨ih2, ih3⟩
  exact key.1

/-- The code does not have this property: one peer that asked for 256 records or more and does not read blocks the notifying goroutine before the second
client. That goroutine is the one that performs the updates (cmd/stayrtr/stayrtr.go:430, 539-629). -/
theorem C34_stall_false : ¬ StalledClientHarmless := by
  intro h
  obtain ⟨n', hn, hp⟩ := h 0 ⟨fun i => if i = 0 then Link.clogged else Link.init, [(0, .serialNotify 1 7 1), (1, .serialNotify 1 7 1)]⟩
    (by intro i; dsimp only; split; exacts [Link.clogged_reachable, .refl])
  have := stalled_blocks hn (List.length_replicate (n := 256)) ⟨.cacheReset 1, rfl⟩ rfl
  rw [this] at hp
  have := hp (1, .serialNotify 1 7 1) (by simp)
  simp at this

/-- The notifications for client `i`. -/
def pendingFor (i : Nat) (l : List (Nat × Pdu)) : List Pdu := (l.filter (·.1 = i)).map (·.2)

/-- **C34**, partial: as long as every channel has room, the notifying goroutine needs nobody's help: it queues for each client exactly its notifications.
Missing: a client with a full channel, refuted above. -/
theorem C34_room_partial (n : Net) (hg : ∀ i, Link.Steps Link.Step Link.init (n.link i))
    (hroom : ∀ i, (n.link i).queue.length + (pendingFor i n.pending).length ≤ 256) :
    ∃ n', Net.Notifies n n' ∧ n'.pending = [] ∧ ∀ i, (n'.link i).queued = (n.link i).queued ++ pendingFor i n.pending := by
  obtain ⟨pend, hpe⟩ : ∃ p, p = n.pending := ⟨_, rfl⟩
  induction pend generalizing n with
  | nil => exact ⟨n, .refl, hpe.symm, by simp [pendingFor, ← hpe]⟩
  | cons x rest ih =>
    obtain ⟨i, p⟩ := x
    have hi := hroom i
    have hlen : (n.link i).queue.length < transmitsCap := by
      simp [← hpe, pendingFor] at hi
      simp only [transmitsCap]; omega
    obtain ⟨l', he⟩ : ∃ l', Link.enqueue p (n.link i) = some l' := by
      unfold Link.enqueue
      split
      · exact ⟨_, rfl⟩
      · exact ⟨_, rfl⟩
    have hl' : l'.queued = (n.link i).queued ++ [p] ∧ l'.queue.length ≤ (n.link i).queue.length + 1 := by
      rcases Link.enqueue_cases he with ⟨_, rfl⟩ | ⟨_, _, rfl⟩ <;> simp
    have hstep : Net.Notify n { n.set i l' with pending := rest } := .send hpe.symm he
    obtain ⟨n', h1, h2, h3⟩ := ih { n.set i l' with pending := rest } (by
        intro j
        simp only [Net.set]
        split
        · exact .tail (hg i) (.inr (.inr (.act (.send p) he)))
        · exact hg j) (by
        intro j
        have hj := hroom j
        simp only [Net.set]
        rw [← hpe] at hj
        split
        · rename_i hji
          subst hji
          simp only [pendingFor, List.filter_cons, decide_true, if_true, List.map_cons, List.length_cons] at hj ⊢
          omega
        · rename_i hji
          have : ¬ i = j := fun h => hji h.symm
          simpa [pendingFor, List.filter_cons, this] using hj) rfl
    refine ⟨n', .head hstep h1, h2, ?_⟩
    intro j
    rw [h3 j, ← hpe]
    simp only [Net.set]
    split
    · rename_i hji
      subst hji
      simp [pendingFor, hl'.1]
    · rename_i hji
      have : ¬ i = j := fun h => hji h.symm
      simp [pendingFor, List.filter_cons, this]

/-- Non-vacuity: two fresh clients to notify. -/
example : ∃ n : Net, (∀ i, Link.Steps Link.Step Link.init (n.link i)) ∧ n.pending = [(0, .serialNotify 1 7 1), (1, .serialNotify 0 7 1)] ∧
    ∀ i, (n.link i).queue.length + (pendingFor i n.pending).length ≤ 256 :=
  ⟨⟨fun _ => Link.init, [(0, .serialNotify 1 7 1), (1, .serialNotify 0 7 1)]⟩, fun _ => .refl, rfl, by
    intro i
    have : (pendingFor i [(0, Pdu.serialNotify 1 7 1), (1, .serialNotify 0 7 1)]).length ≤ 2 := by
      unfold pendingFor
      rw [List.length_map]
      exact List.length_filter_le _ _
    simp only [Link.init, List.length_nil]
    omega⟩

/-! ## C73 -/

/-- **C73** in full: an Error Report queued before the connection is dropped reaches the peer, unless writing fails. -/
def ErrorReportsArrive : Prop := ∀ (l m : Link) (p : Pdu) (a : List Act), Link.Steps Link.Step Link.init l →
  l.reader = .acting (.send p :: .drop :: .quit :: a) false → Link.Steps Link.Own l m → Link.Halted m → m.broken = true ∨ p ∈ m.wire

/-- The code does not have this property: `sendLoop` finds `connected` false and returns with the report still in the channel. -/
theorem C73_report_lost_false : ¬ ErrorReportsArrive := by
  intro h
  let er : Pdu := .errorReport 1 4 [] []
  have s1 : Link.Steps Link.Step Link.init ⟨true, .acting [.send er, .drop, .quit] false, [], .check, false, [], []⟩ :=
    .tail (.tail .refl (.inl (.readerCheck rfl))) (.inr (.inl (.request _ rfl (by simp [Link.init]))))
  have s2 : Link.Steps Link.Own ⟨true, .acting [.send er, .drop, .quit] false, [], .check, false, [], []⟩
      ⟨false, .done, [er], .done, false, [er], []⟩ :=
    .tail (.tail (.tail (.tail (.tail (.tail .refl (.readerAct rfl rfl)) (.readerAct rfl rfl)) (.readerAct rfl rfl)) (.senderCheck rfl))
      (.readerNext rfl)) (.readerCheck rfl)
  have := h _ _ er [] s1 rfl s2 (by intro l' ho; cases ho <;> simp_all)
  simp at this

/-- **C73**, partial: if `sendLoop` is idle when the reader starts on the request, the first PDU the reader sends is written (or writing fails) before
the connection is closed. Missing: a busy `sendLoop`, refuted above. -/
theorem C73_idle_sender_partial {l m : Link} {p : Pdu} {a : List Act} {ret : Bool} (hs : l.sender = .parked)
    (hr : l.reader = .acting (.send p :: a) ret) (h : Link.Steps Link.Own l m) (hm : Link.Halted m) :
    m.broken = true ∨ l.wire ++ [p] <+: m.wire := by
  have key : (m.reader = l.reader ∧ m.sender = .parked ∧ m.wire = l.wire) ∨ (m.sender = .writing p ∧ m.wire = l.wire) ∨
      m.broken = true ∨ l.wire ++ [p] <+: m.wire := by
    clear hm
    induction h with
    | refl => exact .inl ⟨rfl, hs, rfl⟩
    | @tail m n _ s ih =>
      rcases ih with ⟨h1, h2, h3⟩ | ⟨h1, h2⟩ | h1 | h1
      · rw [hr] at h1
        cases s with
        | @readerAct _ x b r h he =>
          rw [h1] at h
          simp only [Reader.acting.injEq, List.cons.injEq] at h
          obtain ⟨⟨rfl, rfl⟩, rfl⟩ := h
          rcases Link.enqueue_cases he with ⟨_, rfl⟩ | ⟨hp, _⟩
          · exact .inr (.inl ⟨rfl, h3⟩)
          · exact absurd h2 hp
        | readerCheck h => rw [h1] at h; simp at h
        | readClosed h => rw [h1] at h; simp at h
        | readerNext h => rw [h1] at h; simp at h
        | senderCheck h => rw [h2] at h; simp at h
        | take h => rw [h2] at h; simp at h
        | park h => rw [h2] at h; simp at h
        | write h => rw [h2] at h; simp at h
        | writeFails h => rw [h2] at h; simp at h
      · cases s with
        | @readerAct _ x b r h he =>
          right; left
          cases x with
          | send p =>
            rcases Link.enqueue_cases he with ⟨hp, rfl⟩ | ⟨hp, _, rfl⟩
            · simp only at hp; rw [hp] at h1; simp at h1
            · exact ⟨h1, h2⟩
          | drop => simp only [Link.act, Option.some.injEq] at he; subst he; exact ⟨h1, h2⟩
          | quit =>
            simp only [Link.act, Option.some.injEq, Link.signalQuit, h1] at he; subst he
            simp [h2]
        | write h hb =>
          rw [h1] at h; simp only [Sender.writing.injEq] at h; subst h
          refine .inr (.inr (.inr ?_))
          simp only [h2]; exact List.prefix_rfl
        | writeFails h => exact .inr (.inr (.inl rfl))
        | senderCheck h => rw [h1] at h; simp at h
        | take h => rw [h1] at h; simp at h
        | park h => rw [h1] at h; simp at h
        | _ => exact .inr (.inl ⟨h1, h2⟩)
      · right; right; left
        cases s with
        | @readerAct _ x b r h he =>
          cases x with
          | send p => rcases Link.enqueue_cases he with ⟨hp, rfl⟩ | ⟨hp, _, rfl⟩ <;> exact h1
          | drop => simp only [Link.act, Option.some.injEq] at he; subst he; exact h1
          | quit => simp only [Link.act, Option.some.injEq, Link.signalQuit] at he; subst he; split <;> exact h1
        | writeFails => rfl
        | _ => exact h1
      · exact .inr (.inr (.inr (h1.trans (C33_history_grows (.one (.inl s))).1)))
  rcases key with ⟨h1, h2, _⟩ | ⟨h1, _⟩ | h | h
  · rw [hr] at h1
    exact absurd (Link.Own.readerAct h1 (by simp only [Link.act, Link.enqueue, h2, if_true]; rfl)) (hm _)
  · exact absurd (Link.Own.writeFails h1) (hm _)
  · exact .inl h
  · exact .inr h

end StayRTR
