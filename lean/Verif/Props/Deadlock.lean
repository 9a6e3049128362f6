import Verif.Props.Goroutines

/-!
# A router can stop all updates for ever

`NotifyClientsLatest` sends to the channel of every client of a copied list, blocking on a full channel (lib/server.go:631-637, 1011-1013). When the
connection of such a client is dropped, nobody empties the channel any more.
-/

namespace StayRTR

/-- **C142** as stated: whatever happened on the connections, the notifying goroutine can get on. -/
def NotifierGetsOn : Prop := ∀ (pending : List (Nat × Pdu)) (n : Net), Net.Steps (Net.fresh pending) n → n.pending ≠ [] →
  ∃ n', Net.Steps n n' ∧ n'.pending ≠ n.pending

namespace Link

/-- The states of a connection in which a send to it never completes: the channel is full and nobody will receive from it again. -/
def Dead (l : Link) : Prop := l.queue.length = 256 ∧
  (l.sender = .done ∨ (l.connected = false ∧ (l.sender = .check ∨ ∃ p, l.sender = .writing p)))

theorem Dead.not_parked {l : Link} (d : Dead l) : l.sender ≠ .parked := by
  rcases d.2 with h | ⟨_, h | ⟨p, h⟩⟩ <;> rw [h] <;> nofun

theorem Dead.enqueue {l l' : Link} (d : Dead l) (p : Pdu) : Link.enqueue p l ≠ some l' := by
  intro he
  rcases enqueue_cases he with ⟨h, _⟩ | ⟨_, h, _⟩
  · exact d.not_parked h
  · rw [d.1] at h; exact absurd h (by decide)

theorem Dead.act {l l' : Link} {x : Act} (d : Dead l) (h : Link.act x l = some l') : Dead l' := by
  cases x with
  | send p => exact absurd h (d.enqueue p)
  | drop =>
    simp only [Link.act, Option.some.injEq] at h
    subst h
    refine ⟨d.1, ?_⟩
    rcases d.2 with h | ⟨_, h⟩
    exacts [.inl h, .inr ⟨rfl, h⟩]
  | quit =>
    simp only [Link.act, Option.some.injEq, signalQuit, if_neg d.not_parked] at h
    subst h
    exact d

theorem Dead.reader {l : Link} (d : Dead l) (r : Reader) : Dead { l with reader := r } := d

/-- Once dead, always dead. -/
theorem Dead.step {l l' : Link} (d : Dead l) (h : Step l l') : Dead l' := by
  rcases h with h | h | h
  · cases h with
    | readerCheck h => exact d.reader _
    | readClosed h hs => exact d.reader _
    | readerNext h => exact d.reader _
    | readerAct h he => exact Dead.act (Dead.reader d _) he
    | senderCheck h =>
      refine ⟨d.1, .inl ?_⟩
      rcases d.2 with h' | ⟨h', _⟩
      · rw [h] at h'; simp at h'
      · simp [h']
    | take h hq => rcases d.2 with h' | ⟨_, h' | ⟨_, h'⟩⟩ <;> rw [h] at h' <;> simp at h'
    | park h hq => rcases d.2 with h' | ⟨_, h' | ⟨_, h'⟩⟩ <;> rw [h] at h' <;> simp at h'
    | write h hb =>
      refine ⟨d.1, ?_⟩
      rcases d.2 with h' | ⟨h', _⟩
      · rw [h] at h'; simp at h'
      · exact .inr ⟨h', .inl rfl⟩
    | writeFails h =>
      refine ⟨d.1, ?_⟩
      rcases d.2 with h' | ⟨h', _⟩
      · rw [h] at h'; simp at h'
      · exact .inr ⟨h', .inl rfl⟩
  · cases h <;> exact d.reader _
  · obtain ⟨x, he⟩ := h
    exact d.act he

end Link

namespace Net

theorem Steps.trans {l m n : Net} (h : Steps l m) (h' : Steps m n) : Steps l n := by
  induction h' with
  | refl => exact h
  | tail _ s ih => exact .tail ih s

theorem set_same (n : Net) (i : Nat) : n.set i (n.link i) = n := by
  cases n with
  | mk link pending =>
    simp only [set, Net.mk.injEq, and_true]
    funext j
    split
    · next h => rw [h]
    · rfl

theorem set_set (n : Net) (i : Nat) (l m : Link) : (n.set i l).set i m = n.set i m := by
  simp only [set, Net.mk.injEq, and_true]
  funext j
  split <;> rfl

/-- Steps of one connection as steps of the whole. -/
theorem Steps.link {n : Net} {i : Nat} {l' : Link} (h : Link.Steps Link.Step (n.link i) l') : Steps n (n.set i l') := by
  generalize hl : n.link i = l at h
  induction h with
  | refl => rw [← hl, set_same]; exact .refl
  | tail _ s ih =>
    have := Steps.tail ih (.link (i := i) (l' := _) (by simpa [set] using s))
    rwa [set_set] at this

theorem enqueue_other {p : Pdu} {l l' : Link} (h : Link.enqueue p l = some l') : Link.Step l l' := .inr (.inr (.act (.send p) h))

/-- Every connection of a reachable state is reachable by itself. -/
theorem Steps.reach {pending : List (Nat × Pdu)} {n : Net} (h : Steps (fresh pending) n) (i : Nat) :
    Link.Steps Link.Step Link.init (n.link i) := by
  induction h with
  | refl => exact .refl
  | tail _ s ih =>
    cases s with
    | notify hn =>
      obtain ⟨hpe, he⟩ := hn
      dsimp only [set]
      split
      · next hi => subst hi; exact .tail ih (enqueue_other he)
      · exact ih
    | link hs =>
      dsimp only [set]
      split
      · next hi => subst hi; exact .tail ih hs
      · exact ih

/-- Behind a dead connection nothing moves. -/
theorem dead_blocks {n m : Net} {k : Nat} {p : Pdu} {rest : List (Nat × Pdu)} (h : Steps n m) (hp : n.pending = (k, p) :: rest)
    (d : Link.Dead (n.link k)) : m.pending = n.pending ∧ Link.Dead (m.link k) := by
  induction h with
  | refl => exact ⟨rfl, d⟩
  | tail _ s ih =>
    obtain ⟨ih1, ih2⟩ := ih
    cases s with
    | notify hn =>
      obtain ⟨hpe, he⟩ := hn
      rw [ih1, hp] at hpe
      simp only [List.cons.injEq, Prod.mk.injEq] at hpe
      obtain ⟨⟨rfl, rfl⟩, _⟩ := hpe
      exact absurd he (ih2.enqueue _)
    | @link i l' hs =>
      refine ⟨ih1, ?_⟩
      dsimp only [set]
      split
      · next hi => subst hi; exact ih2.step hs
      · exact ih2

end Net

namespace Link

/-- A connection whose peer asked for 256 records and left before the first of them was written. -/
def abandoned : Link :=
  ⟨false, .done, List.replicate 256 (.cacheReset 1), .done, false, List.replicate 256 (.cacheReset 1), []⟩

theorem abandoned_reachable : Steps Step init abandoned := by
  let l1 : Link := ⟨true, .acting ((List.replicate 256 (Pdu.cacheReset 1)).map Act.send ++ []) false, [], .check, false, [], []⟩
  have s1 : Steps Step init l1 :=
    .tail (.tail .refl (.inl (.readerCheck rfl)))
      (.inr (.inl (.request ((List.replicate 256 (Pdu.cacheReset 1)).map Act.send ++ []) rfl (by simp [init]))))
  have s2 := (fill (List.replicate 256 (.cacheReset 1)) [] false l1 nofun
    (by rw [List.length_replicate]; exact Nat.le_of_eq (Nat.zero_add _)) rfl).mono (r' := Step) fun _ _ => Or.inl
  refine (s1.trans s2).trans ?_
  have t1 := Steps.one (r := Step) (l := ⟨true, .acting [] false, List.replicate 256 (Pdu.cacheReset 1), .check, false,
    List.replicate 256 (Pdu.cacheReset 1), []⟩) (.inl (.readerNext rfl))
  have t2 := t1.tail (.inl (.readerCheck rfl))
  have t3 := t2.tail (.inr (.inl (.readFails rfl)))
  have t4 := t3.tail (.inl (.readerAct rfl rfl))
  have t5 := t4.tail (.inl (.readerAct rfl rfl))
  have t6 := t5.tail (.inl (.readerNext rfl))
  exact t6.tail (.inl (.senderCheck rfl))

/-- A live connection gets room by at most three steps of its own sender. -/
theorem gets_room {l : Link} (g : Good l) (d : ¬ Dead l) (p : Pdu) :
    ∃ l' l'', Steps Own l l' ∧ Link.enqueue p l' = some l'' := by
  by_cases hq : l.queue.length < transmitsCap
  · by_cases hs : l.sender = .parked
    · exact ⟨l, _, .refl, by rw [Link.enqueue, if_pos hs]⟩
    · exact ⟨l, _, .refl, by rw [Link.enqueue, if_neg hs, if_pos hq]⟩
  have hlen : l.queue.length = 256 := by have := g.cap; simp only [transmitsCap] at hq this; omega
  have room : ∀ m : Link, m.sender = .select → m.queue.length = 256 → ∃ l' l'', Steps Own m l' ∧ Link.enqueue p l' = some l'' := by
    intro m hm hl
    cases hqm : m.queue with
    | nil => rw [hqm] at hl; simp at hl
    | cons q qs =>
      rw [hqm] at hl
      have he : Link.enqueue p { m with sender := .writing q, queue := qs } =
          some { m with sender := .writing q, queue := qs ++ [p], queued := m.queued ++ [p] } := by
        rw [Link.enqueue, if_neg nofun, if_pos (by simp only [transmitsCap]; simp only [List.length_cons] at hl; omega)]
      exact ⟨_, _, .one (.take hm hqm), he⟩
  have check : ∀ m : Link, m.sender = .check → m.connected = true → m.queue.length = 256 →
      ∃ l' l'', Steps Own m l' ∧ Link.enqueue p l' = some l'' := by
    intro m hm hc hl
    obtain ⟨l', l'', h1, h2⟩ := room { m with sender := .select } rfl hl
    refine ⟨l', l'', (Steps.one ?_).trans h1, h2⟩
    have := Own.senderCheck hm
    simpa [hc] using this
  cases hs : l.sender with
  | done => exact absurd ⟨hlen, .inl hs⟩ d
  | parked =>
    have := g.parked hs
    rw [this] at hlen; simp at hlen
  | select => exact room l hs hlen
  | check =>
    cases hc : l.connected with
    | false => exact absurd ⟨hlen, .inr ⟨hc, .inl hs⟩⟩ d
    | true => exact check l hs hc hlen
  | writing q =>
    cases hc : l.connected with
    | false => exact absurd ⟨hlen, .inr ⟨hc, .inr ⟨q, hs⟩⟩⟩ d
    | true =>
      obtain ⟨l', l'', h1, h2⟩ := check { l with sender := .check, broken := true } rfl hc hlen
      exact ⟨l', l'', (Steps.one (.writeFails hs)).trans h1, h2⟩

end Link

/-- The code does not have this property: a router asks for 256 records, closes the connection before they are written, and the notifying goroutine,
whose copy of the client list still has that client, waits for ever, whatever anyone does. -/
theorem C142_deadlock_false : ¬ NotifierGetsOn := by
  intro h
  have s : Net.Steps (Net.fresh [(0, .serialNotify 1 7 1), (1, .serialNotify 1 7 1)])
      ((Net.fresh [(0, .serialNotify 1 7 1), (1, .serialNotify 1 7 1)]).set 0 Link.abandoned) := .link Link.abandoned_reachable
  obtain ⟨n', hn, hp⟩ := h _ _ s (by simp [Net.set, Net.fresh])
  exact hp (Net.dead_blocks hn rfl ⟨List.length_replicate (n := 256), .inl rfl⟩).1

/-- **C142**, partial: exactly one situation stops the notifying goroutine for good: the next client's channel is full and its sender has returned, or will
return without receiving again because the connection was dropped. In every other state the goroutine can get on by steps of that client's sender alone.
Missing: that situation, which occurs. -/
theorem C142_exact_partial {pending : List (Nat × Pdu)} {n : Net} (h : Net.Steps (Net.fresh pending) n) {i : Nat} {p : Pdu}
    {rest : List (Nat × Pdu)} (hp : n.pending = (i, p) :: rest) :
    (∃ n', Net.Steps n n' ∧ n'.pending = rest) ↔
    ¬ ((n.link i).queue.length = 256 ∧ ((n.link i).sender = .done ∨
      ((n.link i).connected = false ∧ ((n.link i).sender = .check ∨ ∃ q, (n.link i).sender = .writing q)))) := by
  constructor
  · rintro ⟨n', hn, hr⟩ d
    have := (Net.dead_blocks hn hp d).1
    rw [hr, hp] at this
    simp at this
  · intro d
    obtain ⟨l', l'', hl, he⟩ := Link.gets_room (Link.Good.init.steps (h.reach i)) d p
    refine ⟨{ (n.set i l').set i l'' with pending := rest }, ?_, rfl⟩
    exact .tail (.link (hl.mono fun _ _ => Or.inl)) (.notify (.send (n := n.set i l') hp (by simpa [Net.set] using he)))

/-- A client whose channel is full and whose sender is inside `Write` does not stop the notifying goroutine while it is connected. -/
example : ∃ n', Net.Steps ((Net.fresh [(0, .serialNotify 1 7 1), (1, .serialNotify 1 7 1)]).set 0 Link.clogged) n' ∧
    n'.pending = [(1, .serialNotify 1 7 1)] := by
  refine (C142_exact_partial (i := 0) (Net.Steps.link Link.clogged_reachable) rfl).2 ?_
  rintro ⟨_, h | ⟨h, _⟩⟩ <;> cases h

/-- What the others lose: from then on no client of the rest of the list is notified, and the notifying goroutine, which is the one that refreshes the
data (cmd/stayrtr/stayrtr.go:539-629), never returns from the call. -/
theorem C142_forever_false {n m : Net} {i : Nat} {p : Pdu} {rest : List (Nat × Pdu)} (hp : n.pending = (i, p) :: rest)
    (hq : (n.link i).queue.length = 256) (hs : (n.link i).sender = .done) (h : Net.Steps n m) : m.pending = (i, p) :: rest := by
  rw [← hp]; exact (Net.dead_blocks h hp ⟨hq, .inl hs⟩).1

example {m : Net} (h : Net.Steps ((Net.fresh [(0, .serialNotify 1 7 1), (1, .serialNotify 1 7 1)]).set 0 Link.abandoned) m) :
    m.pending = [(0, .serialNotify 1 7 1), (1, .serialNotify 1 7 1)] :=
  C142_forever_false (i := 0) rfl (List.length_replicate (n := 256)) rfl h

end StayRTR
