import Verif.Model.Accept
import Verif.Model.Hub
import Mathlib.Data.List.Basic
import Mathlib.Data.List.Induction
import Mathlib.Algebra.BigOperators.Group.List.Basic

/-!
# C118-C121: the accept loop, SSH connections, the counter
-/

namespace StayRTR

/-! ## C118: accepting -/

namespace Spec

/-- The connection was handed to a goroutine of its own, or closed. -/
def Decided (a : Acceptor) (i : Nat) : Prop := i ∈ a.served ∨ i ∈ a.closed

end Spec

open Spec

namespace Acceptor

theorem run_nil {t : Transport} {shake : Nat → Handshake} {a b : Acceptor} : run t shake a [] = some b ↔ a = b := by simp [run]

theorem run_cons {t : Transport} {shake : Nat → Handshake} {a b : Acceptor} {x : AcceptEvent} {l : List AcceptEvent} : run t shake a (x :: l) = some b ↔ ∃ c, step t shake a x = some c ∧ run t shake c l = some b := by
  simp [run, List.foldlM_cons, Option.bind_eq_some_iff]

/-- What one step does to a connection. -/
theorem step_decided {t : Transport} {shake : Nat → Handshake} {a b : Acceptor} {x : AcceptEvent} (h : step t shake a x = some b) {i : Nat} (hd : Decided a i) : Decided b i := by
  unfold Decided at *
  cases x <;> simp only [step] at h <;> (repeat' split at h) <;> cases h <;> (try simp only [List.mem_append, List.mem_singleton]) <;> rcases hd with hd | hd <;> simp only [hd, true_or, or_true]

theorem run_decided {t : Transport} {shake : Nat → Handshake} {b : Acceptor} {l : List AcceptEvent} : ∀ {a : Acceptor}, run t shake a l = some b → ∀ {i : Nat}, Decided a i → Decided b i := by
  induction l with
  | nil => intro a h i hd; rw [run_nil] at h; exact h ▸ hd
  | cons x l ih =>
    intro a h i hd
    obtain ⟨c, h1, h2⟩ := run_cons.1 h
    exact ih h2 (step_decided h1 hd)

/-- The connection is decided within `k` moves of the loop. -/
def Within (a : Acceptor) (i k : Nat) : Prop :=
  Decided a i ∨ (a.busy = some i ∧ 1 ≤ k) ∨ ∃ n, a.backlog[n]? = some i ∧ 2 * (n + 1) + (if a.busy.isSome = true then 1 else 0) ≤ k

theorem step_within {t : Transport} {shake : Nat → Handshake} {a b : Acceptor} {x : AcceptEvent} (h : step t shake a x = some b) {i k : Nat} (hw : Within a i k) :
    Within b i (if x.own = true then k - 1 else k) := by
  rcases hw with hd | hw
  · exact .inl (step_decided h hd)
  cases x with
  | arrive j =>
    cases h
    refine .inr (hw.imp id ?_)
    rintro ⟨n, hn, hk⟩
    exact ⟨n, by rw [List.getElem?_append_left (by by_contra hc; rw [List.getElem?_eq_none (by omega)] at hn; cases hn)]; exact hn, hk⟩
  | acceptError =>
    simp only [step] at h
    split at h <;> cases h
    exact .inr hw
  | accept admit =>
    simp only [step] at h
    split at h
    · rename_i j rest hb hl
      simp only [AcceptEvent.own, if_true]
      have hw : ∃ n, (j :: rest)[n]? = some i ∧ 2 * (n + 1) ≤ k := by
        rcases hw with ⟨hw, -⟩ | ⟨n, hn, hk⟩
        · rw [hb] at hw; cases hw
        · rw [hl] at hn; rw [hb] at hk; exact ⟨n, hn, by simpa using hk⟩
      obtain ⟨n, hn, hk⟩ := hw
      cases n with
      | zero =>
        simp only [List.getElem?_cons_zero, Option.some.injEq] at hn
        subst hn
        (repeat' split at h) <;> cases h
        · exact .inl (.inr (by simp))
        · exact .inr (.inl ⟨rfl, by omega⟩)
        · exact .inl (.inl (by simp))
      | succ n =>
        rw [List.getElem?_cons_succ] at hn
        (repeat' split at h) <;> cases h <;> refine .inr (.inr ⟨n, hn, ?_⟩)
        · simp only [hb, Option.isSome_none, Bool.false_eq_true, if_false]; omega
        · simp only [Option.isSome_some, if_true]; omega
        · simp only [hb, Option.isSome_none, Bool.false_eq_true, if_false]; omega
    · cases h
  | shaken =>
    simp only [step] at h
    split at h
    · cases h
    · rename_i j hb
      simp only [AcceptEvent.own, if_true]
      rcases hw with ⟨hw, hk⟩ | ⟨n, hn, hk⟩
      · rw [hb] at hw
        cases hw
        split at h <;> cases h
        · exact .inl (.inl (by simp))
        · exact .inl (.inr (by simp))
      · rw [hb] at hk
        simp only [Option.isSome_some, if_true] at hk
        split at h <;> cases h <;> exact .inr (.inr ⟨n, hn, by simp; omega⟩)

theorem run_within {t : Transport} {shake : Nat → Handshake} {b : Acceptor} {l : List AcceptEvent} : ∀ {a : Acceptor} {k : Nat}, run t shake a l = some b → ∀ {i : Nat}, Within a i k → Within b i (k - l.countP AcceptEvent.own) := by
  induction l with
  | nil => intro a k h i hd; rw [run_nil] at h; subst h; simpa using hd
  | cons x l ih =>
    intro a k h i hd
    obtain ⟨c, h1, h2⟩ := run_cons.1 h
    have := ih h2 (step_within h1 hd)
    rw [List.countP_cons]
    split at this <;> rename_i hx
    · rw [if_pos hx]; rwa [Nat.sub_sub, Nat.add_comm] at this
    · rw [if_neg hx]; exact this

theorem run_busy {t : Transport} {shake : Nat → Handshake} (ht : t ≠ .ssh) {b : Acceptor} {l : List AcceptEvent} : ∀ {a : Acceptor}, run t shake a l = some b → a.busy = none → b.busy = none := by
  induction l with
  | nil => intro a h hb; rw [run_nil] at h; exact h ▸ hb
  | cons x l ih =>
    intro a h hb
    obtain ⟨c, h1, h2⟩ := run_cons.1 h
    refine ih h2 ?_
    cases x <;> simp only [step, hb] at h1 <;> (repeat' split at h1) <;> first | (cases h1; done) | (cases h1; exact hb) | (cases h1; rfl) | contradiction

theorem run_stuck {shake : Nat → Handshake} {b : Acceptor} {l : List AcceptEvent} : ∀ {a : Acceptor} {i : Nat}, run .ssh shake a l = some b → a.busy = some i → shake i = .never → b.busy = some i ∧ b.served = a.served ∧ b.closed = a.closed := by
  induction l with
  | nil => intro a i h hb hs; rw [run_nil] at h; subst h; exact ⟨hb, rfl, rfl⟩
  | cons x l ih =>
    intro a i h hb hs
    obtain ⟨c, h1, h2⟩ := run_cons.1 h
    have : c.busy = some i ∧ c.served = a.served ∧ c.closed = a.closed := by
      cases x <;> simp only [step, hb, hs] at h1 <;> cases h1
      exact ⟨rfl, rfl, rfl⟩
    obtain ⟨e1, e2, e3⟩ := ih h2 this.1 hs
    exact ⟨e1, e2.trans this.2.1, e3.trans this.2.2⟩

end Acceptor

/-- **C118.** On every listener, a connection at place `n` of the queue is served or closed as soon as the accept loop has moved `2 * n + 3` times, whatever else happens meanwhile. -/
theorem C118_turn (t : Transport) (shake : Nat → Handshake) (a b : Acceptor) (n i : Nat) (hi : a.backlog[n]? = some i) (l : List AcceptEvent) (h : Acceptor.run t shake a l = some b) (hk : 2 * n + 3 ≤ l.countP AcceptEvent.own) :
    Decided b i := by
  have := Acceptor.run_within h (k := 2 * n + 3) (.inr (.inr ⟨n, hi, by split <;> omega⟩))
  rw [Nat.sub_eq_zero_of_le hk] at this
  rcases this with h | ⟨-, h⟩ | ⟨m, -, h⟩
  · exact h
  · omega
  · omega

/-- **C118** (partial: on TCP and TLS, and on SSH if every handshake ends). As long as a connection waits, the accept loop can move. -/
theorem C118_moves_partial (t : Transport) (shake : Nat → Handshake) (ht : t = .ssh → ∀ i, shake i ≠ .never) (l : List AcceptEvent) (a : Acceptor) (h : Acceptor.run t shake .init l = some a) (i : Nat)
    (hi : i ∈ a.backlog ∨ a.busy = some i) : ∃ x b, x.own = true ∧ Acceptor.step t shake a x = some b := by
  cases hb : a.busy with
  | none =>
    rw [hb] at hi
    cases hl : a.backlog with
    | nil => rw [hl] at hi; simp at hi
    | cons j rest =>
      refine ⟨.accept false, { a with backlog := rest, closed := a.closed ++ [j] }, rfl, ?_⟩
      simp only [Acceptor.step, hb, hl, if_true]
  | some j =>
    by_cases hs : t = .ssh
    · cases hj : shake j with
      | never => exact (ht hs j hj).elim
      | succeeds => exact ⟨.shaken, { a with busy := none, served := a.served ++ [j] }, rfl, by simp only [Acceptor.step, hb, hj]⟩
      | fails => exact ⟨.shaken, { a with busy := none, closed := a.closed ++ [j] }, rfl, by simp only [Acceptor.step, hb, hj]⟩
    · rw [Acceptor.run_busy hs h rfl] at hb
      cases hb

/-- **C118.** Not so on SSH: a client that does not finish its handshake keeps everybody else out for good, with all slots free. -/
theorem C118_ssh_false (shake : Nat → Handshake) (h0 : shake 0 = .never) :
    ∃ l a, Acceptor.run .ssh shake .init l = some a ∧ 1 ∈ a.backlog ∧ ∀ l' b, Acceptor.run .ssh shake a l' = some b → ¬ Decided b 1 ∧ ∀ i, ¬ Decided b i := by
  refine ⟨[.arrive 0, .arrive 1, .accept true], ⟨[1], some 0, [], []⟩, rfl, by simp, fun l' b h => ?_⟩
  obtain ⟨-, h1, h2⟩ := Acceptor.run_stuck h rfl h0
  have : ∀ i, ¬ Decided b i := fun i hd => by
    unfold Decided at hd
    rw [h1, h2] at hd
    simp at hd
  exact ⟨this 1, this⟩

/-- The same connections over TLS: both are served. -/
example : ∃ b, Acceptor.run .tls (fun i => if i = 0 then .never else .succeeds) .init [.arrive 0, .arrive 1, .accept true, .accept true] = some b ∧ b.served = [0, 1] := ⟨_, rfl, rfl⟩

/-- The hypotheses of `C118_turn` can be met: the second connection of an SSH listener is served after the first one is refused by its handshake. -/
example : ∃ a b, Acceptor.run .ssh (fun i => if i = 0 then .fails else .succeeds) .init [.arrive 0, .arrive 1] = some a ∧ a.backlog[1]? = some 1 ∧
    Acceptor.run .ssh (fun i => if i = 0 then .fails else .succeeds) a [.accept true, .shaken, .accept true, .arrive 2, .shaken, .accept true] = some b ∧ b.served = [1] ∧ b.closed = [0] :=
  ⟨⟨[0, 1], none, [], []⟩, _, rfl, rfl, rfl, rfl, rfl⟩

/-! ## C119, C120: SSH connections -/

namespace Spec

/-- A string on the wire of SSH, RFC 4251 section 5: length in four bytes, then the bytes. -/
def sshString (s : Str) : Bytes := [0, 0, BitVec.ofNat 8 (s.length / 256), BitVec.ofNat 8 s.length] ++ s.map fun c => BitVec.ofNat 8 c.toNat

/-- The request of RFC 8210 section 9.1: the subsystem rpki-rtr. -/
def AsksRtr (r : SshRequest) : Prop := r.type = "subsystem".toList ∧ r.payload = sshString "rpki-rtr".toList

end Spec

namespace SshConn

theorem run_nil {a b : SshConn} : run a [] = some b ↔ a = b := by simp [run]

theorem run_cons {a b : SshConn} {x : SshEvent} {l : List SshEvent} : run a (x :: l) = some b ↔ ∃ c, step a x = some c ∧ run c l = some b := by
  simp [run, List.foldlM_cons, Option.bind_eq_some_iff]

theorem run_snoc {a b : SshConn} {x : SshEvent} {l : List SshEvent} : run a (l ++ [x]) = some b ↔ ∃ c, run a l = some c ∧ step c x = some b := by
  simp [run, List.foldlM_append, Option.bind_eq_some_iff]

theorem isRtr_iff (r : SshRequest) : isRtr r = true ↔ AsksRtr r := by
  unfold isRtr AsksRtr
  rw [Bool.and_eq_true, beq_iff_eq, beq_iff_eq]
  exact Iff.and Iff.rfl (by rw [show sshString "rpki-rtr".toList = [0, 0, 0, 8, 114, 112, 107, 105, 45, 114, 116, 114] from by decide +kernel])

/-- What holds of a connection after the events `l`. -/
structure Inv (l : List SshEvent) (c : SshConn) : Prop where
  requests : ∀ r ∈ c.requests, SshEvent.gotRequest r ∈ l
  channels : ∀ ch ∈ c.channels, SshEvent.gotChannel ch ∈ l
  accepted : c.pos = .requests ∨ c.pos = .session → SshAction.accept ∈ c.done
  opened : SshAction.accept ∈ c.done → ∃ ch, SshEvent.gotChannel ch ∈ l ∧ ch.type = "session".toList
  close : ∀ k, c.done[k]? = some .close → k + 1 = c.done.length ∧ c.pos = .ended
  ended : c.pos = .ended → SshAction.close ∈ c.done
  starts : ∀ k, c.done[k]? = some .start → ∃ m r j, k = m + 1 ∧ c.done[m]? = some (.grant r) ∧ AsksRtr r ∧ r.replyOk = true ∧ SshEvent.gotRequest r ∈ l ∧ j < m ∧ c.done[j]? = some .accept
  grants : ∀ k r, c.done[k]? = some (.grant r) → c.done[k + 1]? = some .start
  count : c.done.count .start = l.count .sessionOver + if c.pos = .session then 1 else 0

/-- Events that leave what was done as it is. -/
theorem Inv.quiet {l : List SshEvent} {c c' : SshConn} {x : SshEvent} (h : Inv l c) (hd : c'.done = c.done)
    (hr : ∀ r ∈ c'.requests, r ∈ c.requests ∨ x = .gotRequest r) (hc : ∀ r ∈ c'.channels, r ∈ c.channels ∨ x = .gotChannel r)
    (hp : c'.pos = c.pos ∧ x ≠ .sessionOver ∨ c.pos = .requests ∧ c'.pos = .waiting ∧ x ≠ .sessionOver ∨ c.pos = .session ∧ c'.pos = .requests ∧ x = .sessionOver) : Inv (l ++ [x]) c' where
  requests r hm := by
    rcases hr r hm with hm | rfl
    · exact List.mem_append_left _ (h.requests r hm)
    · simp
  channels r hm := by
    rcases hc r hm with hm | rfl
    · exact List.mem_append_left _ (h.channels r hm)
    · simp
  accepted hq := by
    rw [hd]
    rcases hp with ⟨hp, -⟩ | ⟨-, hp, -⟩ | ⟨hp, -, -⟩
    · exact h.accepted (hp ▸ hq)
    · rw [hp] at hq; rcases hq with hq | hq <;> cases hq
    · exact h.accepted (.inr hp)
  opened hq := by
    obtain ⟨ch, h1, h2⟩ := h.opened (hd ▸ hq)
    exact ⟨ch, List.mem_append_left _ h1, h2⟩
  close k hk := by
    rw [hd] at hk ⊢
    obtain ⟨h1, h2⟩ := h.close k hk
    refine ⟨h1, ?_⟩
    rcases hp with ⟨hp, -⟩ | ⟨hp, -, -⟩ | ⟨hp, -, -⟩
    · rw [hp, h2]
    · rw [hp] at h2; cases h2
    · rw [hp] at h2; cases h2
  ended hq := by
    rw [hd]
    rcases hp with ⟨hp, -⟩ | ⟨-, hp, -⟩ | ⟨-, hp, -⟩
    · exact h.ended (hp ▸ hq)
    · rw [hp] at hq; cases hq
    · rw [hp] at hq; cases hq
  starts k hk := by
    rw [hd] at hk ⊢
    obtain ⟨m, r, j, h1, h2, h3, h4, h5, h6⟩ := h.starts k hk
    exact ⟨m, r, j, h1, h2, h3, h4, List.mem_append_left _ h5, h6⟩
  grants := by rw [hd]; exact h.grants
  count := by
    rw [hd, h.count, List.count_append]
    rcases hp with ⟨hp, hx⟩ | ⟨hp, hp', hx⟩ | ⟨hp, hp', hx⟩
    · rw [hp, List.count_eq_zero (l := [x]).2 (by simpa using hx.symm)]; omega
    · rw [hp, hp', List.count_eq_zero (l := [x]).2 (by simpa using hx.symm)]; simp
    · rw [hp, hp', hx]; simp

/-- Events with which the goroutine does one thing more, other than granting a request. -/
theorem Inv.loud {l : List SshEvent} {c c' : SshConn} {x : SshEvent} (h : Inv l c) (y : SshAction) (hd : c'.done = c.done ++ [y]) (hy : y ≠ .start ∧ ∀ r, y ≠ .grant r) (hn : c.pos = .waiting ∨ c.pos = .requests)
    (hr : ∀ r ∈ c'.requests, r ∈ c.requests) (hc : ∀ r ∈ c'.channels, r ∈ c.channels) (hx : x ≠ .sessionOver)
    (hp : c.pos = .waiting ∧ c'.pos = .waiting ∧ y ≠ .accept ∧ y ≠ .close ∨ c'.pos = .ended ∧ y = .close ∨ c'.pos = .requests ∧ y = .accept ∧ ∃ ch ∈ c.channels, ch.type = "session".toList) : Inv (l ++ [x]) c' where
  requests r hm := List.mem_append_left _ (h.requests r (hr r hm))
  channels r hm := List.mem_append_left _ (h.channels r (hc r hm))
  accepted hq := by
    rw [hd]
    rcases hp with ⟨-, hp, -⟩ | ⟨hp, -⟩ | ⟨hp, hy, -⟩
    · rw [hp] at hq; rcases hq with hq | hq <;> cases hq
    · rw [hp] at hq; rcases hq with hq | hq <;> cases hq
    · simp [hy]
  opened hq := by
    rw [hd, List.mem_append, List.mem_singleton] at hq
    have : ∃ ch, SshEvent.gotChannel ch ∈ l ∧ ch.type = "session".toList := by
      rcases hq with hq | hq
      · exact h.opened hq
      · rcases hp with ⟨-, -, hp, -⟩ | ⟨-, hp⟩ | ⟨-, -, ch, hm, ht⟩
        · exact (hp hq.symm).elim
        · rw [hp] at hq; cases hq
        · exact ⟨ch, h.channels ch hm, ht⟩
    obtain ⟨ch, h1, h2⟩ := this
    exact ⟨ch, List.mem_append_left _ h1, h2⟩
  close k hk := by
    rw [hd] at hk ⊢
    rw [List.getElem?_append] at hk
    split at hk
    · have := (h.close k hk).2
      rcases hn with hn | hn <;> rw [hn] at this <;> cases this
    · rename_i hlt
      obtain ⟨h0, h1⟩ : k - c.done.length = 0 ∧ y = .close := by
        cases hkk : k - c.done.length with
        | zero => rw [hkk] at hk; exact ⟨rfl, by simpa using hk⟩
        | succ m => rw [hkk] at hk; simp at hk
      refine ⟨by rw [List.length_append, List.length_singleton]; omega, ?_⟩
      rcases hp with ⟨-, -, -, hp⟩ | ⟨hp, -⟩ | ⟨-, hp, -⟩
      · exact (hp h1).elim
      · exact hp
      · rw [hp] at h1; cases h1
  ended hq := by
    rw [hd]
    rcases hp with ⟨-, hp, -⟩ | ⟨-, hy⟩ | ⟨hp, -, -⟩
    · rw [hp] at hq; cases hq
    · simp [hy]
    · rw [hp] at hq; cases hq
  starts k hk := by
    rw [hd] at hk ⊢
    rw [List.getElem?_append] at hk
    split at hk
    · rename_i hlt
      obtain ⟨m, r, j, h1, h2, h3, h4, h5, h6, h7⟩ := h.starts k hk
      exact ⟨m, r, j, h1, by rw [List.getElem?_append_left (by omega)]; exact h2, h3, h4, List.mem_append_left _ h5, h6, by rw [List.getElem?_append_left (by omega)]; exact h7⟩
    · cases hkk : k - c.done.length with
      | zero => rw [hkk] at hk; exact (hy.1 (by simpa using hk)).elim
      | succ m => rw [hkk] at hk; simp at hk
  grants k r hk := by
    rw [hd] at hk ⊢
    rw [List.getElem?_append] at hk
    split at hk
    · have := h.grants k r hk
      rw [List.getElem?_append_left (by by_contra hc; rw [List.getElem?_eq_none (by omega)] at this; cases this)]
      exact this
    · cases hkk : k - c.done.length with
      | zero => rw [hkk] at hk; exact (hy.2 r (by simpa using hk)).elim
      | succ m => rw [hkk] at hk; simp at hk
  count := by
    have h1 : c.pos ≠ .session := by rcases hn with hn | hn <;> rw [hn] <;> simp
    have h2 : c'.pos ≠ .session := by rcases hp with ⟨-, hp, -⟩ | ⟨hp, -⟩ | ⟨hp, -⟩ <;> rw [hp] <;> simp
    rw [hd, List.count_append, List.count_append, h.count, if_neg h1, if_neg h2, List.count_eq_zero (l := [y]).2 (by simpa using hy.1.symm), List.count_eq_zero (l := [x]).2 (by simpa using hx.symm)]

theorem Inv.granted {l : List SshEvent} {c c' : SshConn} {r : SshRequest} (h : Inv l c) (hn : c.pos = .requests) (hm : r ∈ c.requests) (ha : AsksRtr r) (hk : r.replyOk = true)
    (hd : c'.done = c.done ++ [.grant r, .start]) (hr : ∀ r ∈ c'.requests, r ∈ c.requests) (hc : c'.channels = c.channels) (hp : c'.pos = .session) : Inv (l ++ [.takeRequest]) c' where
  requests r hm := List.mem_append_left _ (h.requests r (hr r hm))
  channels r hm := List.mem_append_left _ (h.channels r (hc ▸ hm))
  accepted _ := by rw [hd]; exact List.mem_append_left _ (h.accepted (.inl hn))
  opened hq := by
    have : SshAction.accept ∈ c.done := by rw [hd] at hq; simpa using hq
    obtain ⟨ch, h1, h2⟩ := h.opened this
    exact ⟨ch, List.mem_append_left _ h1, h2⟩
  close k hk := by
    rw [hd, List.getElem?_append] at hk
    split at hk
    · have := (h.close k hk).2
      rw [hn] at this; cases this
    · match hkk : k - c.done.length with
      | 0 => rw [hkk] at hk; simp at hk
      | 1 => rw [hkk] at hk; simp at hk
      | n + 2 => rw [hkk] at hk; simp at hk
  ended hq := by rw [hp] at hq; cases hq
  starts k hk' := by
    rw [hd] at hk' ⊢
    rw [List.getElem?_append] at hk'
    split at hk'
    · rename_i hlt
      obtain ⟨m, r, j, h1, h2, h3, h4, h5, h6, h7⟩ := h.starts k hk'
      exact ⟨m, r, j, h1, by rw [List.getElem?_append_left (by omega)]; exact h2, h3, h4, List.mem_append_left _ h5, h6, by rw [List.getElem?_append_left (by omega)]; exact h7⟩
    · match hkk : k - c.done.length with
      | 0 => rw [hkk] at hk'; simp at hk'
      | 1 =>
        obtain ⟨j, hj⟩ := List.mem_iff_getElem?.1 (h.accepted (.inl hn))
        have hjl : j < c.done.length := by by_contra hc; rw [List.getElem?_eq_none (by omega)] at hj; cases hj
        refine ⟨c.done.length, r, j, by omega, ?_, ha, hk, List.mem_append_left _ (h.requests r hm), hjl, ?_⟩
        · rw [List.getElem?_append_right (by omega)]; simp
        · rw [List.getElem?_append_left hjl]; exact hj
      | n + 2 => rw [hkk] at hk'; simp at hk'
  grants k r' hk' := by
    rw [hd] at hk' ⊢
    rw [List.getElem?_append] at hk'
    split at hk'
    · have := h.grants k r' hk'
      rw [List.getElem?_append_left (by by_contra hc; rw [List.getElem?_eq_none (by omega)] at this; cases this)]
      exact this
    · match hkk : k - c.done.length with
      | 0 => rw [show k = c.done.length by omega, List.getElem?_append_right (by omega)]; simp
      | 1 => rw [hkk] at hk'; simp at hk'
      | n + 2 => rw [hkk] at hk'; simp at hk'
  count := by
    rw [hd, List.count_append, List.count_append, h.count, hn, hp]
    simp

theorem Inv.step {l : List SshEvent} {c c' : SshConn} {x : SshEvent} (h : Inv l c) (hs : step c x = some c') : Inv (l ++ [x]) c' := by
  cases x with
  | gotGlobal w =>
    simp only [SshConn.step] at hs
    split at hs <;> cases hs
    exact h.quiet rfl (fun _ hm => .inl hm) (fun _ hm => .inl hm) (.inl ⟨rfl, by simp⟩)
  | endGlobals => cases hs; exact h.quiet rfl (fun _ hm => .inl hm) (fun _ hm => .inl hm) (.inl ⟨rfl, by simp⟩)
  | gotChannel ch =>
    simp only [SshConn.step] at hs
    split at hs <;> cases hs
    exact h.quiet rfl (fun _ hm => .inl hm) (fun r hm => by simpa [eq_comm] using hm) (.inl ⟨rfl, by simp⟩)
  | endChannels => cases hs; exact h.quiet rfl (fun _ hm => .inl hm) (fun _ hm => .inl hm) (.inl ⟨rfl, by simp⟩)
  | gotRequest r =>
    simp only [SshConn.step] at hs
    split at hs <;> cases hs
    exact h.quiet rfl (fun r hm => by simpa [eq_comm] using hm) (fun _ hm => .inl hm) (.inl ⟨rfl, by simp⟩)
  | endRequests => cases hs; exact h.quiet rfl (fun _ hm => .inl hm) (fun _ hm => .inl hm) (.inl ⟨rfl, by simp⟩)
  | sessionOver =>
    simp only [SshConn.step] at hs
    split at hs <;> cases hs
    rename_i hp
    exact h.quiet rfl (fun _ hm => .inl hm) (fun _ hm => .inl hm) (.inr (.inr ⟨hp, rfl, rfl⟩))
  | takeGlobal =>
    simp only [SshConn.step] at hs
    split at hs
    · rename_i hp
      split at hs
      · cases hs; exact h.loud .refuse rfl (by simp) (.inl hp) (fun _ hm => hm) (fun _ hm => hm) (by simp) (.inl ⟨hp, hp, by simp⟩)
      · cases hs; exact h.quiet rfl (fun _ hm => .inl hm) (fun _ hm => .inl hm) (.inl ⟨rfl, by simp⟩)
      · split at hs <;> cases hs
        exact h.loud .close rfl (by simp) (.inl hp) (fun _ hm => hm) (fun _ hm => hm) (by simp) (.inr (.inl ⟨rfl, rfl⟩))
    · cases hs
  | takeChannel =>
    simp only [SshConn.step] at hs
    split at hs
    · rename_i hp
      split at hs
      · rename_i ch rest hl
        have hsub : ∀ r ∈ rest, r ∈ c.channels := fun r hm => by rw [hl]; exact List.mem_cons_of_mem _ hm
        (repeat' split at hs) <;> cases hs
        · exact h.loud .reject rfl (by simp) (.inl hp) (fun _ hm => hm) hsub (by simp) (.inl ⟨hp, hp, by simp⟩)
        · rename_i ht _
          exact h.loud .accept rfl (by simp) (.inl hp) (fun _ hm => (nomatch hm)) hsub (by simp) (.inr (.inr ⟨rfl, rfl, ch, by rw [hl]; simp, by simpa using ht⟩))
        · exact h.loud .close rfl (by simp) (.inl hp) (fun _ hm => hm) hsub (by simp) (.inr (.inl ⟨rfl, rfl⟩))
      · split at hs <;> cases hs
        exact h.loud .close rfl (by simp) (.inl hp) (fun _ hm => hm) (fun _ hm => hm) (by simp) (.inr (.inl ⟨rfl, rfl⟩))
    · cases hs
  | takeRequest =>
    simp only [SshConn.step] at hs
    split at hs
    · rename_i hp
      split at hs
      · rename_i r rest hl
        have hsub : ∀ r ∈ rest, r ∈ c.requests := fun r hm => by rw [hl]; exact List.mem_cons_of_mem _ hm
        (repeat' split at hs) <;> cases hs
        · exact h.loud .close rfl (by simp) (.inr hp) hsub (fun _ hm => hm) (by simp) (.inr (.inl ⟨rfl, rfl⟩))
        · rename_i hr hk
          exact h.granted hp (by rw [hl]; simp) ((isRtr_iff r).1 (by simpa using hr)) hk rfl hsub rfl rfl
        · exact h.loud .close rfl (by simp) (.inr hp) hsub (fun _ hm => hm) (by simp) (.inr (.inl ⟨rfl, rfl⟩))
      · split at hs <;> cases hs
        exact h.quiet rfl (fun _ hm => .inl hm) (fun _ hm => .inl hm) (.inr (.inl ⟨hp, rfl, by simp⟩))
    · cases hs

theorem run_inv {l : List SshEvent} {c : SshConn} (h : run init l = some c) : Inv l c := by
  induction l using List.reverseRecOn generalizing c with
  | nil =>
    rw [run_nil] at h
    subst h
    constructor <;> simp [init]
  | append_singleton l x ih =>
    obtain ⟨b, h1, h2⟩ := run_snoc.1 h
    exact (ih h1).step h2

end SshConn

/-- **C119.** Every session on an SSH connection is what the client asked for: it is started right after a request for the subsystem rpki-rtr was granted, on a channel of type session that was accepted before. -/
theorem C119_start (l : List SshEvent) (c : SshConn) (h : SshConn.run .init l = some c) (k : Nat) (hk : c.done[k]? = some .start) :
    ∃ m r j ch, k = m + 1 ∧ c.done[m]? = some (.grant r) ∧ AsksRtr r ∧ r.replyOk = true ∧ SshEvent.gotRequest r ∈ l ∧ j < m ∧ c.done[j]? = some .accept ∧ SshEvent.gotChannel ch ∈ l ∧ ch.type = "session".toList := by
  obtain ⟨m, r, j, h1, h2, h3, h4, h5, h6, h7⟩ := (SshConn.run_inv h).starts k hk
  obtain ⟨ch, h8, h9⟩ := (SshConn.run_inv h).opened (List.mem_of_getElem? h7)
  exact ⟨m, r, j, ch, h1, h2, h3, h4, h5, h6, h7, h8, h9⟩

/-- **C119.** A request that is granted is served. -/
theorem C119_granted (l : List SshEvent) (c : SshConn) (h : SshConn.run .init l = some c) (k : Nat) (r : SshRequest) (hk : c.done[k]? = some (.grant r)) : c.done[k + 1]? = some .start :=
  (SshConn.run_inv h).grants k r hk

/-- **C119.** The sessions of a connection follow one another: one more has begun than has ended while the goroutine is in a session, as many otherwise. -/
theorem C119_one_at_a_time (l : List SshEvent) (c : SshConn) (h : SshConn.run .init l = some c) : c.done.count .start = l.count .sessionOver + if c.pos = .session then 1 else 0 :=
  (SshConn.run_inv h).count

/-- **C119.** The connection is closed once, when the goroutine ends, and nothing is done after that. -/
theorem C119_close (l : List SshEvent) (c : SshConn) (h : SshConn.run .init l = some c) :
    (c.pos = .ended ↔ SshAction.close ∈ c.done) ∧ ∀ k, c.done[k]? = some .close → k + 1 = c.done.length := by
  refine ⟨⟨(SshConn.run_inv h).ended, fun hm => ?_⟩, fun k hk => ((SshConn.run_inv h).close k hk).1⟩
  obtain ⟨k, hk⟩ := List.mem_iff_getElem?.1 hm
  exact ((SshConn.run_inv h).close k hk).2

/-- What can make the goroutine end. -/
def Spec.SshEnds (l : List SshEvent) : Prop :=
  SshEvent.endGlobals ∈ l ∨ SshEvent.endChannels ∈ l ∨ (∃ ch, SshEvent.gotChannel ch ∈ l ∧ ch.type = "session".toList ∧ ch.acceptOk = false) ∨
    ∃ r, SshEvent.gotRequest r ∈ l ∧ (¬ AsksRtr r ∨ r.replyOk = false)

theorem Spec.SshEnds.mono {l : List SshEvent} (h : SshEnds l) (x : SshEvent) : SshEnds (l ++ [x]) := by
  rcases h with h | h | ⟨ch, h, h'⟩ | ⟨r, h, h'⟩
  · exact .inl (List.mem_append_left _ h)
  · exact .inr (.inl (List.mem_append_left _ h))
  · exact .inr (.inr (.inl ⟨ch, List.mem_append_left _ h, h'⟩))
  · exact .inr (.inr (.inr ⟨r, List.mem_append_left _ h, h'⟩))

/-- **C119.** The connection lives on until the client or the network ends it, an answer cannot be sent, or the client makes a request that is not for rpki-rtr: channels of other types, global requests and the ends of sessions and channels do not end it. -/
theorem C119_lives (l : List SshEvent) (c : SshConn) (h : SshConn.run .init l = some c) (hp : c.pos = .ended) : SshEnds l := by
  have key : (c.pos = .ended → SshEnds l) ∧ (c.globalsClosed = true → SshEvent.endGlobals ∈ l) ∧ (c.channelsClosed = true → SshEvent.endChannels ∈ l) := by
    clear hp
    induction l using List.reverseRecOn generalizing c with
    | nil => rw [SshConn.run_nil] at h; subst h; simp [SshConn.init]
    | append_singleton l x ih =>
      obtain ⟨b, h1, h2⟩ := SshConn.run_snoc.1 h
      obtain ⟨i1, i2, i3⟩ := ih b h1
      have inv := SshConn.run_inv h1
      have keep : ∀ {y : SshEvent}, y ∈ l → y ∈ l ++ [x] := fun hy => List.mem_append_left _ hy
      cases x with
      | gotGlobal w =>
        simp only [SshConn.step] at h2
        split at h2 <;> cases h2
        exact ⟨fun hp => (i1 hp).mono _, fun hp => keep (i2 hp), fun hp => keep (i3 hp)⟩
      | endGlobals => cases h2; exact ⟨fun hp => (i1 hp).mono _, fun _ => by simp, fun hp => keep (i3 hp)⟩
      | gotChannel ch =>
        simp only [SshConn.step] at h2
        split at h2 <;> cases h2
        exact ⟨fun hp => (i1 hp).mono _, fun hp => keep (i2 hp), fun hp => keep (i3 hp)⟩
      | endChannels => cases h2; exact ⟨fun hp => (i1 hp).mono _, fun hp => keep (i2 hp), fun _ => by simp⟩
      | gotRequest r =>
        simp only [SshConn.step] at h2
        split at h2 <;> cases h2
        exact ⟨fun hp => (i1 hp).mono _, fun hp => keep (i2 hp), fun hp => keep (i3 hp)⟩
      | endRequests => cases h2; exact ⟨fun hp => (i1 hp).mono _, fun hp => keep (i2 hp), fun hp => keep (i3 hp)⟩
      | sessionOver =>
        simp only [SshConn.step] at h2
        split at h2 <;> cases h2
        exact ⟨fun hp => (nomatch hp), fun hp => keep (i2 hp), fun hp => keep (i3 hp)⟩
      | takeGlobal =>
        simp only [SshConn.step] at h2
        split at h2
        · split at h2
          · cases h2; exact ⟨fun hp => (i1 hp).mono _, fun hp => keep (i2 hp), fun hp => keep (i3 hp)⟩
          · cases h2; exact ⟨fun hp => (i1 hp).mono _, fun hp => keep (i2 hp), fun hp => keep (i3 hp)⟩
          · split at h2 <;> cases h2
            rename_i hc
            exact ⟨fun _ => .inl (keep (i2 hc)), fun hp => keep (i2 hp), fun hp => keep (i3 hp)⟩
        · cases h2
      | takeChannel =>
        simp only [SshConn.step] at h2
        split at h2
        · split at h2
          · rename_i ch rest hl
            have hm := inv.channels ch (by rw [hl]; simp)
            (repeat' split at h2) <;> cases h2
            · exact ⟨fun hp => (i1 hp).mono _, fun hp => keep (i2 hp), fun hp => keep (i3 hp)⟩
            · exact ⟨fun hp => (nomatch hp), fun hp => keep (i2 hp), fun hp => keep (i3 hp)⟩
            · rename_i ht hk
              exact ⟨fun _ => .inr (.inr (.inl ⟨ch, keep hm, by simpa using ht, by simpa using hk⟩)), fun hp => keep (i2 hp), fun hp => keep (i3 hp)⟩
          · split at h2 <;> cases h2
            rename_i hc
            exact ⟨fun _ => .inr (.inl (keep (i3 hc))), fun hp => keep (i2 hp), fun hp => keep (i3 hp)⟩
        · cases h2
      | takeRequest =>
        simp only [SshConn.step] at h2
        split at h2
        · split at h2
          · rename_i r rest hl
            have hm := inv.requests r (by rw [hl]; simp)
            (repeat' split at h2) <;> cases h2
            · rename_i hr
              exact ⟨fun _ => .inr (.inr (.inr ⟨r, keep hm, .inl fun ha => by rw [(SshConn.isRtr_iff r).2 ha] at hr; cases hr⟩)), fun hp => keep (i2 hp), fun hp => keep (i3 hp)⟩
            · exact ⟨fun hp => (nomatch hp), fun hp => keep (i2 hp), fun hp => keep (i3 hp)⟩
            · rename_i hk
              exact ⟨fun _ => .inr (.inr (.inr ⟨r, keep hm, .inr (by simpa using hk)⟩)), fun hp => keep (i2 hp), fun hp => keep (i3 hp)⟩
          · split at h2 <;> cases h2
            exact ⟨fun hp => (nomatch hp), fun hp => keep (i2 hp), fun hp => keep (i3 hp)⟩
        · cases h2
  exact key.1 hp

/-- **C119** (partial: the request is the first one on its channel that the goroutine has not seen). A client that asks for rpki-rtr gets a session with the next step of the goroutine. -/
theorem C119_asked_partial (c : SshConn) (hp : c.pos = .requests) (r : SshRequest) (rest : List SshRequest) (hr : c.requests = r :: rest) (ha : AsksRtr r) (hk : r.replyOk = true) :
    ∃ c', SshConn.step c .takeRequest = some c' ∧ c'.pos = .session ∧ c'.done = c.done ++ [.grant r, .start] ∧ SshConn.step c .takeGlobal = none ∧ SshConn.step c .takeChannel = none := by
  refine ⟨{ c with requests := rest, pos := .session, done := c.done ++ [.grant r, .start] }, ?_, rfl, rfl, ?_, ?_⟩
  rotate_left
  · simp [SshConn.step, hp]
  · simp [SshConn.step, hp]
  · simp only [SshConn.step, hp, hr, (SshConn.isRtr_iff r).2 ha, hk, if_true, Bool.true_eq_false, if_false]

namespace SshConn

theorem run_ended {b : SshConn} {l : List SshEvent} : ∀ {a : SshConn}, run a l = some b → a.pos = .ended → b.pos = .ended ∧ b.done = a.done := by
  induction l with
  | nil => intro a h hp; rw [run_nil] at h; subst h; exact ⟨hp, rfl⟩
  | cons x l ih =>
    intro a h hp
    obtain ⟨c, h1, h2⟩ := run_cons.1 h
    have : c.pos = .ended ∧ c.done = a.done := by
      cases x <;> simp only [step, hp, reduceCtorEq, if_false, if_true] at h1 <;> (try split at h1) <;> cases h1 <;> exact ⟨by first | exact hp | rfl, rfl⟩
    obtain ⟨e1, e2⟩ := ih h2 this.1
    exact ⟨e1, e2.trans this.2⟩

theorem run_other {b : SshConn} {l : List SshEvent} : ∀ {a : SshConn} {r : SshRequest} {rest : List SshRequest}, run a l = some b → a.pos = .requests → a.requests = r :: rest → ¬ AsksRtr r →
    b.done = a.done ∨ b.done = a.done ++ [.close] := by
  induction l with
  | nil => intro a r rest h hp hr ha; rw [run_nil] at h; subst h; exact .inl rfl
  | cons x l ih =>
    intro a r rest h hp hr ha
    obtain ⟨c, h1, h2⟩ := run_cons.1 h
    by_cases hx : x = .takeRequest
    · subst hx
      have hf : isRtr r = false := by rw [← Bool.not_eq_true]; exact fun hc => ha ((isRtr_iff r).1 hc)
      simp only [step, hp, hr, hf, if_true] at h1
      cases h1
      exact .inr (run_ended h2 rfl).2
    · have : c.done = a.done ∧ c.pos = .requests ∧ ∃ rest', c.requests = r :: rest' := by
        cases x with
        | takeRequest => exact (hx rfl).elim
        | _ =>
          simp only [step, hp, reduceCtorEq, if_false] at h1
          try split at h1
          all_goals cases h1
          all_goals exact ⟨rfl, by first | exact hp | rfl, by simp [hr]⟩
      obtain ⟨e1, e2, rest', e3⟩ := this
      rw [← e1]
      exact ih h2 e2 e3 ha

theorem run_session {b : SshConn} {l : List SshEvent} : ∀ {a : SshConn}, run a l = some b → a.pos = .session → SshEvent.sessionOver ∉ l → b.done = a.done ∧ b.pos = .session := by
  induction l with
  | nil => intro a h hp _; rw [run_nil] at h; subst h; exact ⟨rfl, hp⟩
  | cons x l ih =>
    intro a h hp hl
    obtain ⟨c, h1, h2⟩ := run_cons.1 h
    rw [List.mem_cons, not_or] at hl
    have : c.done = a.done ∧ c.pos = .session := by
      cases x <;> simp only [step, hp, reduceCtorEq, if_false, if_true] at h1 <;> (try split at h1) <;> cases h1 <;>
        first | exact (hl.1 rfl).elim | exact ⟨rfl, by first | exact hp | rfl⟩ | contradiction
    obtain ⟨e1, e2⟩ := ih h2 this.2 hl.2
    exact ⟨e1.trans this.1, e2⟩

end SshConn

/-- **C119.** A client that sends another request first is not served, though it asks for rpki-rtr: any request that is not for the subsystem, such as the environment variable of RFC 4254 section 6.4, ends the connection. -/
theorem C119_env_false (env : SshRequest) (henv : ¬ AsksRtr env) (r : SshRequest) :
    ∃ c, SshConn.run .init [.gotChannel ⟨"session".toList, true⟩, .takeChannel, .gotRequest env, .gotRequest r] = some c ∧
      ∀ l b, SshConn.run c l = some b → SshAction.start ∉ b.done := by
  refine ⟨⟨.requests, [], false, [], false, [env, r], false, [.accept]⟩, rfl, fun l b h => ?_⟩
  rcases SshConn.run_other h rfl rfl henv with e | e <;> rw [e] <;> simp

/-- The client of `C119_env_false`, and that it asks for rpki-rtr. -/
example : ¬ AsksRtr ⟨"env".toList, Spec.sshString "LANG".toList ++ Spec.sshString "C".toList, true⟩ ∧ AsksRtr ⟨"subsystem".toList, Spec.sshString "rpki-rtr".toList, true⟩ := ⟨fun h => by simp [AsksRtr] at h, rfl, rfl⟩

/-- A client as RFC 8210 section 9.1 has it, that asks for a forwarded port and an X11 channel besides. -/
example : SshConn.run .init [.gotGlobal true, .takeGlobal, .gotChannel ⟨"x11".toList, true⟩, .takeChannel, .gotChannel ⟨"session".toList, true⟩, .takeChannel,
      .gotRequest ⟨"subsystem".toList, [0, 0, 0, 8, 114, 112, 107, 105, 45, 114, 116, 114], true⟩, .takeRequest, .sessionOver, .endRequests, .takeRequest, .endChannels, .takeChannel] =
    some ⟨.ended, [], false, [], true, [], true, [.refuse, .reject, .accept, .grant ⟨"subsystem".toList, [0, 0, 0, 8, 114, 112, 107, 105, 45, 114, 116, 114], true⟩, .start, .close]⟩ := by decide +kernel

/-- **C120.** During a session nothing else that the client sends is answered: neither the keepalives of the SSH client, which are global requests that want a reply, nor other channels, nor other requests. -/
theorem C120_session_false (c : SshConn) (hp : c.pos = .session) (l : List SshEvent) (b : SshConn) (h : SshConn.run c l = some b) (hl : SshEvent.sessionOver ∉ l) : b.done = c.done ∧ b.pos = .session :=
  SshConn.run_session h hp hl

/-- **C120.** A client of `C120_session_false`: in its session it asks whether the server is alive, three times. -/
theorem C120_keepalive_false : ∃ l c, SshConn.run .init l = some c ∧ c.pos = .session ∧ ∃ b, SshConn.run c [.gotGlobal true, .gotGlobal true, .gotGlobal true] = some b ∧
    ∀ l' b', SshConn.run b l' = some b' → SshEvent.sessionOver ∉ l' → SshAction.refuse ∉ b'.done ∧ b'.done = c.done := by
  refine ⟨[.gotChannel ⟨"session".toList, true⟩, .takeChannel, .gotRequest ⟨"subsystem".toList, Spec.sshString "rpki-rtr".toList, true⟩, .takeRequest],
    ⟨.session, [], false, [], false, [], false, [.accept, .grant ⟨"subsystem".toList, Spec.sshString "rpki-rtr".toList, true⟩, .start]⟩, by decide +kernel, rfl,
    ⟨.session, [true, true, true], false, [], false, [], false, [.accept, .grant ⟨"subsystem".toList, Spec.sshString "rpki-rtr".toList, true⟩, .start]⟩, by decide +kernel, fun l' b' h hl => ?_⟩
  have := (SshConn.run_session h rfl hl).1
  exact ⟨by rw [this]; simp, this⟩

/-- **C120** (partial: outside a session and with no channel accepted). Each global request is taken; if it wants a reply, it gets one. -/
theorem C120_answer_partial (c : SshConn) (hp : c.pos = .waiting) (w : Bool) (rest : List Bool) (hg : c.globals = w :: rest) :
    ∃ c', SshConn.step c .takeGlobal = some c' ∧ c'.globals = rest ∧ c'.pos = .waiting ∧ c'.done = c.done ++ if w = true then [.refuse] else [] := by
  cases w
  · exact ⟨{ c with globals := rest }, by simp only [SshConn.step, hp, hg, if_true], rfl, hp, by simp⟩
  · exact ⟨{ c with globals := rest, done := c.done ++ [.refuse] }, by simp only [SshConn.step, hp, hg, if_true], rfl, hp, by simp⟩

/-- **C120.** No reply without a request, and none lost: the requests that want a reply are those answered and those still waiting. -/
theorem C120_count (l : List SshEvent) (c : SshConn) (h : SshConn.run .init l = some c) : l.count (.gotGlobal true) = c.done.count .refuse + c.globals.count true := by
  induction l using List.reverseRecOn generalizing c with
  | nil => rw [SshConn.run_nil] at h; subst h; rfl
  | append_singleton l x ih =>
    obtain ⟨b, h1, h2⟩ := SshConn.run_snoc.1 h
    have := ih b h1
    rw [List.count_append, this]
    cases x with
    | gotGlobal w =>
      simp only [SshConn.step] at h2
      split at h2 <;> cases h2
      cases w <;> simp [List.count_append] <;> omega
    | takeGlobal =>
      simp only [SshConn.step] at h2
      split at h2
      · split at h2
        · rename_i hg; cases h2; simp [List.count_append, hg]; omega
        · rename_i hg; cases h2; simp [hg]
        · rename_i hg
          split at h2 <;> cases h2
          simp [SshConn.stop, List.count_append]
      · cases h2
    | _ =>
      simp only [SshConn.step] at h2
      (repeat' split at h2) <;> cases h2 <;> simp [SshConn.stop, List.count_append]

/-! ## C121: the counter -/

namespace CountState

/-- What holds as long as every goroutine takes the lock. -/
structure Inv (g : Nat → Counting) (s : CountState) : Prop where
  sum : s.counter = (s.writes.map fun i => (g i).change).sum
  rest : ∀ i, s.lock ≠ some i → s.pos i = .before ∨ s.pos i = .over
  holder : ∀ i v, s.pos i = .read v → v = s.counter

theorem reached_inv {g : Nat → Counting} (hg : ∀ i, (g i).locks = true) {s : CountState} (h : CountReached g s) : Inv g s := by
  induction h with
  | init => exact ⟨rfl, fun _ _ => .inl rfl, fun _ _ h => (nomatch h)⟩
  | @step s s' _ hs ih =>
    cases hs with
    | lock i hl hp hf =>
      refine ⟨ih.sum, fun j hj => ?_, fun j v hv => ?_⟩
      · simp only [ne_eq, Option.some.injEq] at hj
        simp only [if_neg (Ne.symm hj)]
        exact ih.rest j (by rw [hf]; simp)
      · by_cases h : j = i
        · simp [h] at hv
        · simp only [if_neg h] at hv; exact ih.holder j v hv
    | read i hp =>
      rw [hg i, if_pos rfl] at hp
      refine ⟨ih.sum, fun j hj => ?_, fun j v hv => ?_⟩
      · by_cases h : j = i
        · subst h
          rcases ih.rest j hj with h | h <;> rw [hp] at h <;> cases h
        · simp only [if_neg h]; exact ih.rest j hj
      · by_cases h : j = i
        · simp only [if_pos h] at hv; cases hv; rfl
        · simp only [if_neg h] at hv; exact ih.holder j v hv
    | write i v hp =>
      have hv := ih.holder i v hp
      refine ⟨?_, fun j hj => ?_, fun j w hw => ?_⟩
      · simp only [List.map_append, List.map_cons, List.map_nil, List.sum_append, List.sum_cons, List.sum_nil, hv, ih.sum, Int.add_zero]
      · by_cases h : j = i
        · subst h
          rcases ih.rest j hj with h | h <;> rw [hp] at h <;> cases h
        · simp only [if_neg h]; exact ih.rest j hj
      · by_cases h : j = i
        · simp [h] at hw
        · simp only [if_neg h] at hw
          exfalso
          by_cases h1 : s.lock = some i
          · rcases ih.rest j (by rw [h1]; simpa using Ne.symm h) with e | e <;> rw [hw] at e <;> cases e
          · rcases ih.rest i h1 with e | e <;> rw [hp] at e <;> cases e
    | unlock i hl hp =>
      refine ⟨ih.sum, fun j _ => ?_, fun j w hw => ?_⟩
      · by_cases h : j = i
        · simp [h]
        · simp only [if_neg h]
          by_cases h1 : s.lock = some i
          · exact ih.rest j (by rw [h1]; simpa using Ne.symm h)
          · rcases ih.rest i h1 with e | e <;> rw [hp] at e <;> cases e
      · by_cases h : j = i
        · simp [h] at hw
        · simp only [if_neg h] at hw; exact ih.holder j w hw

end CountState

/-- **C121** (partial: every goroutine takes the lock, as those of TCP and TLS do). In every interleaving the counter is the sum of the changes made: no update is lost. -/
theorem C121_locked_partial (g : Nat → Counting) (hg : ∀ i, (g i).locks = true) (s : CountState) (h : CountReached g s) : s.counter = (s.writes.map fun i => (g i).change).sum :=
  (CountState.reached_inv hg h).sum

/-- The counter when two goroutines have read it before either has written it. -/
theorem CountReached.race {g : Nat → Counting} {s : CountState} (h : CountReached g s) (i j : Nat) (hij : i ≠ j) (hi : (g i).locks = false) (hj : (g j).locks = false) (hpi : s.pos i = .before) (hpj : s.pos j = .before) :
    ∃ s', CountReached g s' ∧ s'.counter = s.counter + (g j).change ∧ s'.lock = s.lock ∧ s'.writes = s.writes ++ [i, j] ∧ s'.pos i = .written ∧ s'.pos j = .written ∧ ∀ k, k ≠ i → k ≠ j → s'.pos k = s.pos k := by
  have h1 := h.step (.read i (by rw [hi]; exact hpi))
  have h2 := h1.step (.read j (by rw [hj]; simp only [if_neg (Ne.symm hij)]; exact hpj))
  have h3 := h2.step (.write i s.counter (by simp only [if_neg hij, if_true]))
  have h4 := h3.step (.write j s.counter (by simp only [if_neg (Ne.symm hij), if_true]))
  refine ⟨_, h4, rfl, rfl, by simp, by simp [hij], by simp, fun k hki hkj => by simp [hki, hkj]⟩

/-- **C121.** Not so on SSH, where the goroutine of a connection counts without the lock: of two connections that begin at once, one can be left out of the count. -/
theorem C121_ssh_false (g : Nat → Counting) (h0 : g 0 = ⟨1, false⟩) (h1 : g 1 = ⟨1, false⟩) : ∃ s, CountReached g s ∧ s.writes = [0, 1] ∧ s.counter = 1 ∧ (s.writes.map fun i => (g i).change).sum = 2 := by
  obtain ⟨s, hs, hc, -, hw, -⟩ := (CountReached.init (g := g)).race 0 1 (by simp) (by rw [h0]) (by rw [h1]) rfl rfl
  exact ⟨s, hs, by simpa using hw, by rw [hc, h1]; rfl, by rw [hw]; simp [h0, h1]⟩

/-- **C121.** The lock of the others does not help: one goroutine that locks and one that does not are enough. -/
theorem C121_mixed_false (g : Nat → Counting) (h0 : g 0 = ⟨1, true⟩) (h1 : g 1 = ⟨1, false⟩) : ∃ s, CountReached g s ∧ s.lock = none ∧ s.writes = [1, 0] ∧ s.counter = 1 ∧ (s.writes.map fun i => (g i).change).sum = 2 := by
  have e1 := (CountReached.init (g := g)).step (.lock 0 (by rw [h0]) rfl rfl)
  have e2 := e1.step (.read 0 (by rw [h0]; rfl))
  have e3 := e2.step (.read 1 (by rw [h1]; rfl))
  have e4 := e3.step (.write 1 0 rfl)
  have e5 := e4.step (.write 0 0 rfl)
  have e6 := e5.step (.unlock 0 (by rw [h0]) rfl)
  exact ⟨_, e6, rfl, rfl, by simp [h0], by simp [h0, h1]⟩

/-- **C121.** What that costs: two SSH connections come one after the other and go at the same time; nobody is connected, the counter says 1, and a server with one slot refuses everybody from then on. -/
theorem C121_slot_false (g : Nat → Counting) (h0 : g 0 = ⟨1, false⟩) (h1 : g 1 = ⟨1, false⟩) (h2 : g 2 = ⟨-1, false⟩) (h3 : g 3 = ⟨-1, false⟩) :
    ∃ s, CountReached g s ∧ s.writes = [0, 1, 2, 3] ∧ (s.writes.map fun i => (g i).change).sum = 0 ∧ s.counter = 1 ∧ Hub.admits { counter := s.counter, clients := [], max := 1, starting := [] } = false := by
  have a1 := (CountReached.init (g := g)).step (.read 0 (by rw [h0]; rfl))
  have a2 := a1.step (.write 0 0 rfl)
  have a3 := a2.step (.read 1 (by rw [h1]; rfl))
  have a4 := a3.step (.write 1 _ rfl)
  obtain ⟨s, hs, hc, -, hw, -⟩ := a4.race 2 3 (by simp) (by rw [h2]) (by rw [h3]) rfl rfl
  have hc' : s.counter = 1 := by rw [hc]; simp [h0, h1, h3]
  exact ⟨s, hs, by simpa using hw, by rw [hw]; simp [h0, h1, h2, h3], hc', by rw [hc']; rfl⟩

/-- The hypothesis of `C121_locked_partial` can be met: two goroutines that lock, one after the other. -/
example : ∃ s, CountReached (fun _ => ⟨1, true⟩) s ∧ s.writes = [0, 1] ∧ s.counter = 2 := by
  have e1 := (CountReached.init (g := fun _ => ⟨1, true⟩)).step (.lock 0 rfl rfl rfl)
  have e2 := (e1.step (.read 0 rfl)).step (.write 0 0 rfl)
  have e3 := (e2.step (.unlock 0 rfl rfl)).step (.lock 1 rfl rfl rfl)
  exact ⟨_, (e3.step (.read 1 rfl)).step (.write 1 1 rfl), rfl, rfl⟩

end StayRTR
