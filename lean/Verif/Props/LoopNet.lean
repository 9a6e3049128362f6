import Verif.Model.LoopNet
import Verif.Props.Deadlock

/-!
# C144: a client and the refreshes
-/

namespace StayRTR

/-- **C144** as stated: whatever the clients did, as long as the program runs another refresh can start. -/
def RefreshingGoesOn : Prop := ∀ (k : Int) (evs : List LoopEvent) (s : LoopNet), LoopNet.Runs (.start k) evs s → s.loop.at_ ≠ .ended →
  ∃ evs' s', LoopNet.Runs s evs' s' ∧ LoopEvent.start ∈ evs'

namespace LoopNet

theorem Runs.trans {s t u : LoopNet} {a b : List LoopEvent} (h : Runs s a t) (h' : Runs t b u) : Runs s (a ++ b) u := by
  induction h' with
  | refl => rwa [List.append_nil]
  | tail _ hs ih => rw [← List.append_assoc]; exact .tail ih hs

theorem Runs.net {s : LoopNet} {n : Net} (ha : s.loop.at_ ≠ .ended) (h : Net.Steps s.net n) : Runs s [] { s with net := n } := by
  generalize hm : s.net = m at h
  induction h with
  | refl => subst hm; exact .refl
  | tail _ hs ih => exact .tail (ev := none) ih (.net hs ha)

/-- What holds in every reachable state. -/
structure Ok (s : LoopNet) : Prop where
  nodup : (s.net.pending.map Prod.fst).Nodup
  quiet : s.loop.at_ ≠ .refreshing → s.net.pending = []
  good : ∀ i, Link.Good (s.net.link i)

theorem good_net {n n' : Net} (h : Net.Step n n') (hg : ∀ i, Link.Good (n.link i)) (i : Nat) : Link.Good (n'.link i) := by
  cases h with
  | notify hn =>
    obtain ⟨_, he⟩ := hn
    dsimp only [Net.set]
    split
    · next hi => subst hi; exact (hg _).step (Net.enqueue_other he)
    · exact hg i
  | link hs =>
    dsimp only [Net.set]
    split
    · next hi => subst hi; exact (hg _).step hs
    · exact hg i

theorem pending_net {n n' : Net} (h : Net.Step n n') : n'.pending = n.pending ∨ ∃ x, n.pending = x :: n'.pending := by
  cases h with
  | notify hn => obtain ⟨hp, _⟩ := hn; exact .inr ⟨_, hp⟩
  | link hs => exact .inl rfl

theorem Ok.runs {k : Int} {evs : List LoopEvent} {s : LoopNet} (h : Runs (.start k) evs s) : Ok s := by
  generalize hs0 : LoopNet.start k = s0 at h
  induction h with
  | refl => subst hs0; exact ⟨List.nodup_nil, fun _ => rfl, fun _ => Link.Good.init⟩
  | tail _ hs ih =>
    cases hs with
    | loop h hp =>
      refine ⟨ih.nodup, fun hn => ?_, ih.good⟩
      cases h with
      | done hat => exact hp rfl
      | accept h1 h2 => exact ih.quiet hn
      | refuse h1 h2 => exact ih.quiet hn
      | kill hat => exact ih.quiet (by rw [hat]; nofun)
      | signal hat => exact ih.quiet hn
      | enter hat => exact hp rfl
      | tick hat => exact absurd rfl hn
      | onHup hat h2 => exact absurd rfl hn
      | onTrigger hat h2 => exact absurd rfl hn
    | publish new pending ha hp hx' hn => exact ⟨hn, fun h => absurd ha h, ih.good⟩
    | net h ha =>
      refine ⟨?_, fun hn => ?_, good_net h ih.good⟩
      · rcases pending_net h with hp | ⟨x, hp⟩
        · rw [hp]; exact ih.nodup
        · have := ih.nodup
          rw [hp, List.map_cons] at this
          exact (List.nodup_cons.1 this).2
      · have := ih.quiet hn
        rcases pending_net h with hp | ⟨x, hp⟩
        · rw [hp, this]
        · rw [this] at hp; cases hp

/-- With no client to be notified that is dead, the notifying goroutine can return. -/
theorem all_notified : ∀ (pending : List (Nat × Pdu)) (n : Net), n.pending = pending → (pending.map Prod.fst).Nodup → (∀ i, Link.Good (n.link i)) →
    (∀ x ∈ pending, ¬ Link.Dead (n.link x.1)) → ∃ n', Net.Steps n n' ∧ n'.pending = []
  | [], n, hp, _, _, _ => ⟨n, .refl, hp⟩
  | (i, p) :: rest, n, hp, hn, hg, hd => by
    obtain ⟨l', l'', hl, he⟩ := Link.gets_room (hg i) (hd _ List.mem_cons_self) p
    have hst : Net.Steps n { (n.set i l').set i l'' with pending := rest } :=
      .tail (.link (hl.mono fun _ _ => Or.inl)) (.notify (.send (n := n.set i l') hp (by simpa [Net.set] using he)))
    rw [List.map_cons, List.nodup_cons] at hn
    have hgl : Link.Good l'' := ((hg i).steps (hl.mono fun _ _ => Or.inl)).step (Net.enqueue_other he)
    obtain ⟨n', h1, h2⟩ := all_notified rest { (n.set i l').set i l'' with pending := rest } rfl hn.2 (by
        intro j
        dsimp only [Net.set]
        by_cases hj : j = i
        · rw [if_pos hj]; exact hgl
        · rw [if_neg hj, if_neg hj]; exact hg j) (by
        intro x hx
        have hne : x.1 ≠ i := fun h => hn.1 (List.mem_map.2 ⟨x, hx, h⟩)
        dsimp only [Net.set]
        rw [if_neg hne, if_neg hne]
        exact hd x (List.mem_cons_of_mem _ hx))
    exact ⟨n', hst.trans h1, h2⟩

/-- Before a dead client that is to be notified nothing moves on. -/
theorem stuck_net {n n' : Net} (h : Net.Step n n') {x : Nat × Pdu} (hx : x ∈ n.pending) (hd : Link.Dead (n.link x.1)) : x ∈ n'.pending ∧ Link.Dead (n'.link x.1) := by
  cases h with
  | notify hn =>
    obtain ⟨hp, he⟩ := hn
    rename_i i p rest l'
    have hne : x ≠ (i, p) := by rintro rfl; exact hd.enqueue _ he
    rw [hp] at hx
    refine ⟨(List.mem_cons.1 hx).resolve_left hne, ?_⟩
    dsimp only [Net.set]
    split
    · next hi => rw [← hi] at he; exact absurd he (hd.enqueue _)
    · exact hd
  | link hs =>
    refine ⟨hx, ?_⟩
    dsimp only [Net.set]
    split
    · next hi => rw [← hi] at hs; exact hd.step hs
    · exact hd

theorem stuck {s s' : LoopNet} {evs : List LoopEvent} (h : Runs s evs s') (ha : s.loop.at_ = .refreshing) {x : Nat × Pdu} (hx : x ∈ s.net.pending) (hd : Link.Dead (s.net.link x.1)) :
    s'.loop.at_ = .refreshing ∧ s'.store = s.store ∧ x ∈ s'.net.pending ∧ Link.Dead (s'.net.link x.1) ∧ .start ∉ evs ∧ .finish ∉ evs := by
  induction h with
  | refl => exact ⟨ha, rfl, hx, hd, nofun, nofun⟩
  | tail _ hs ih =>
    obtain ⟨i1, i2, i3, i4, i5, i6⟩ := ih
    cases hs with
    | loop h hp =>
      have hne : ∀ {l : List (Nat × Pdu)}, l = [] → x ∉ l := by rintro _ rfl; nofun
      cases h with
      | done hat => exact absurd i3 (hne (hp rfl))
      | enter hat => rw [i1] at hat; cases hat
      | kill hat => rw [i1] at hat; cases hat
      | tick hat => rw [i1] at hat; cases hat
      | onHup hat => rw [i1] at hat; cases hat
      | onTrigger hat => rw [i1] at hat; cases hat
      | accept => exact ⟨i1, i2, i3, i4, by simp [i5], by simp [i6]⟩
      | refuse => exact ⟨i1, i2, i3, i4, by simp [i5], by simp [i6]⟩
      | signal => exact ⟨i1, i2, i3, i4, by simp [i5], by simp [i6]⟩
    | publish new pending ha hp hx' hn => rw [hp] at i3; cases i3
    | net h ha => exact ⟨i1, i2, (stuck_net h i3 i4).1, (stuck_net h i3 i4).2, by simpa using i5, by simpa using i6⟩

/-- The state of the witness: a router asked for 256 records and left, then the data changed. -/
def left : LoopNet := ⟨⟨.refreshing, false, false⟩, ⟨fun j => if j = 0 then Link.abandoned else Link.init, [(0, .serialNotify 1 7 0), (1, .serialNotify 1 7 0)]⟩,
  ((Store.init 3).addData [.vrp ⟨⟨.v4 0x0a000000, 8⟩, 64496, 8, 0⟩]).1⟩

theorem left_reachable : ∃ evs, Runs (.start 3) evs left := by
  have h1 := Runs.net (s := .start 3) (by nofun) (Net.Steps.link (i := 0) Link.abandoned_reachable)
  have h2 := Runs.tail h1 (.loop (.enter _ rfl) (fun _ => rfl))
  have h3 := Runs.tail h2 (.loop (.tick _ rfl) (fun _ => rfl))
  exact ⟨_, Runs.tail h3 (.publish [.vrp ⟨⟨.v4 0x0a000000, 8⟩, 64496, 8, 0⟩] [(0, .serialNotify 1 7 0), (1, .serialNotify 1 7 0)] rfl rfl (by decide +kernel) (by decide))⟩

theorem left_dead : Link.Dead (left.net.link 0) := ⟨List.length_replicate (n := 256), .inl rfl⟩

end LoopNet

/-- The code does not have this property: a router that asks for 256 records and closes its connection stops refreshing for ever, of the data of all routers. -/
theorem C144_stuck_false : ¬ RefreshingGoesOn := by
  intro h
  obtain ⟨evs, hr⟩ := LoopNet.left_reachable
  obtain ⟨evs', s', h1, h2⟩ := h 3 evs _ hr (by nofun)
  exact (LoopNet.stuck h1 rfl (List.mem_cons_self) LoopNet.left_dead).2.2.2.2.1 h2

/-- What that means: whatever comes, timer, SIGHUP or update endpoint, the refresh does not end and no other begins; what is served stays as it is, however old, and whatever the file says. -/
theorem C144_frozen_false {s s' : LoopNet} {evs : List LoopEvent} (h : LoopNet.Runs s evs s') (ha : s.loop.at_ = .refreshing) {i : Nat} {p : Pdu} (hx : (i, p) ∈ s.net.pending)
    (hq : (s.net.link i).queue.length = 256) (hs : (s.net.link i).sender = .done) : s'.store = s.store ∧ s'.loop.at_ = .refreshing ∧ .start ∉ evs ∧ .finish ∉ evs :=
  have := LoopNet.stuck h ha hx ⟨hq, .inl hs⟩
  ⟨this.2.1, this.1, this.2.2.2.2⟩

example {s : LoopNet} {evs : List LoopEvent} (h : LoopNet.Runs LoopNet.left evs s) : s.store.serial = 0 ∧ s.store.current.length = 1 := by
  rw [(C144_frozen_false h rfl (i := 0) List.mem_cons_self (List.length_replicate (n := 256)) rfl).1]
  decide +kernel

/-- **C144**, exactly (partial): another refresh can start, unless there is a client still to be notified whose channel is full and whose sender has returned or will return without receiving again. Missing: that situation,
which occurs. -/
theorem C144_exact_partial {k : Int} {evs : List LoopEvent} {s : LoopNet} (h : LoopNet.Runs (.start k) evs s) (ha : s.loop.at_ ≠ .ended) :
    (∃ evs' s', LoopNet.Runs s evs' s' ∧ LoopEvent.start ∈ evs') ↔
    ∀ i p, (i, p) ∈ s.net.pending → ¬ ((s.net.link i).queue.length = 256 ∧ ((s.net.link i).sender = .done ∨
      ((s.net.link i).connected = false ∧ ((s.net.link i).sender = .check ∨ ∃ q, (s.net.link i).sender = .writing q)))) := by
  have ok := LoopNet.Ok.runs h
  constructor
  · rintro ⟨evs', s', h1, h2⟩ i p hx hd
    have har : s.loop.at_ = .refreshing := by
      by_cases hr : s.loop.at_ = .refreshing
      · exact hr
      · rw [ok.quiet hr] at hx; cases hx
    exact (LoopNet.stuck h1 har hx hd).2.2.2.2.1 h2
  · intro hd
    obtain ⟨n', h1, h2⟩ := LoopNet.all_notified _ s.net rfl ok.nodup ok.good (fun x hx => hd x.1 x.2 hx)
    have r1 := LoopNet.Runs.net ha h1
    cases hat : s.loop.at_ with
    | ended => exact absurd hat ha
    | waiting => exact ⟨_, _, .tail r1 (.loop (.tick _ hat) nofun), by simp⟩
    | starting => exact ⟨_, _, .tail (.tail r1 (.loop (.enter _ hat) (fun _ => h2))) (.loop (.tick _ rfl) nofun), by simp⟩
    | refreshing => exact ⟨_, _, .tail (.tail r1 (.loop (.done _ hat) (fun _ => h2))) (.loop (.tick _ rfl) nofun), by simp⟩

/-- While the peer is connected, a full channel is no obstacle. -/
example : ∃ s : LoopNet, ∃ evs, LoopNet.Runs (.start 3) evs s ∧ (s.net.link 0).queue.length = 256 ∧ s.net.pending ≠ [] ∧ ∃ evs' s', LoopNet.Runs s evs' s' ∧ LoopEvent.start ∈ evs' := by
  have h1 := LoopNet.Runs.net (s := .start 3) (by nofun) (Net.Steps.link (i := 0) Link.clogged_reachable)
  have h2 := LoopNet.Runs.tail h1 (.loop (.enter _ rfl) (fun _ => rfl))
  have h3 := LoopNet.Runs.tail h2 (.loop (.tick _ rfl) (fun _ => rfl))
  have h4 := LoopNet.Runs.tail h3 (.publish [.vrp ⟨⟨.v4 0x0a000000, 8⟩, 64496, 8, 0⟩] [(0, .serialNotify 1 7 0)] rfl rfl (by decide +kernel) (by decide))
  refine ⟨_, _, h4, List.length_replicate (n := 256), nofun, (C144_exact_partial h4 nofun).2 ?_⟩
  intro i p hx
  simp only [List.mem_singleton, Prod.mk.injEq] at hx
  obtain ⟨rfl, _⟩ := hx
  rintro ⟨_, h | ⟨h, _⟩⟩ <;> cases h

end StayRTR
