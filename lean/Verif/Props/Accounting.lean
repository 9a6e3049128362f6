import Verif.Props.Hub

/-!
# What the connection counter counts

The value of the counter of lib/server.go:126-134 after any events at all, and from it the number of clients the limit of line 587 lets in.
-/

namespace StayRTR

/-- The connections accepted by a list of events. -/
def accepted : List HubEvent → List Nat
  | [] => []
  | .accept i :: l => i :: accepted l
  | _ :: l => accepted l

/-- The calls of `Disconnect` for a client that is not in the list (any more). -/
def superfluous : Hub → List HubEvent → Nat
  | _, [] => 0
  | h, .disconnect i :: l => (if i ∈ h.clients then 0 else 1) + superfluous (h.step (.disconnect i)) l
  | h, e :: l => superfluous (h.step e) l

/-- Disconnecting the first `n` clients, whatever the counter says. -/
theorem disconnect_first_counter (n : Nat) : ∀ h : Hub, (h.clients ++ h.starting).Nodup →
    ((h.clients.take n).foldl Hub.clientDisconnected h).clients = h.clients.drop n ∧
    ((h.clients.take n).foldl Hub.clientDisconnected h).starting = h.starting ∧
    ((h.clients.take n).foldl Hub.clientDisconnected h).counter = h.counter - (h.clients.take n).length ∧
    ((h.clients.take n).foldl Hub.clientDisconnected h).max = h.max := by
  induction n with
  | zero => intro h _; simp
  | succ n ih =>
    intro h nd
    cases hc : h.clients with
    | nil => simp [hc]
    | cons x xs =>
      have hcl : (h.clientDisconnected x).clients = xs := by
        have hnd := (List.nodup_append.mp nd).1
        rw [hc, List.nodup_cons] at hnd
        simp only [Hub.clientDisconnected, hc]
        rw [List.filter_cons_of_neg (by simp)]
        rw [List.filter_eq_self]
        intro y hy
        simp only [decide_eq_true_eq]
        rintro rfl; exact hnd.1 hy
      have nd' : ((h.clientDisconnected x).clients ++ (h.clientDisconnected x).starting).Nodup :=
        nd.sublist (List.Sublist.append List.filter_sublist (List.Sublist.refl _))
      obtain ⟨h1, h2, h3, h4⟩ := ih _ nd'
      rw [hcl] at h1 h2 h3 h4
      simp only [List.take_succ_cons, List.foldl_cons, List.drop_succ_cons]
      refine ⟨h1, h2, ?_, h4⟩
      rw [h3]
      simp only [Hub.clientDisconnected, List.length_cons]
      omega

/-- One event: the list of clients and starting connections stays free of repetitions, and what the event adds to the difference between the counter
and the number of clients. -/
theorem books_step {h : Hub} (nd : (h.clients ++ h.starting).Nodup) (e : HubEvent) (hf : ∀ i, e = .accept i → i ∉ h.clients ++ h.starting) :
    ((h.step e).clients ++ (h.step e).starting).Nodup ∧
    ((h.step e).counter - (h.step e).clients.length = h.counter - h.clients.length +
      (match e with | .sshOpen => 1 | .sshClose => -1 | .disconnect i => if i ∈ h.clients then 0 else -1 | _ => (0 : Int))) ∧
    ∀ j ∈ (h.step e).clients ++ (h.step e).starting, e = .accept j ∨ j ∈ h.clients ++ h.starting := by
  cases e with
  | accept i =>
    simp only [Hub.step]
    split
    · refine ⟨?_, by simp, ?_⟩
      · rw [← List.append_assoc]
        refine List.nodup_append.mpr ⟨nd, by simp, ?_⟩
        intro a ha b hb hab
        simp only [List.mem_singleton] at hb
        subst hab; subst hb
        exact hf _ rfl ha
      · intro j hj
        rw [← List.append_assoc, List.mem_append, List.mem_singleton] at hj
        rcases hj with hj | rfl
        exacts [.inr hj, .inl rfl]
    · exact ⟨nd, by simp, fun j hj => .inr hj⟩
  | start i =>
    simp only [Hub.step]
    split
    · rename_i hi
      have hp : (h.clients ++ h.starting).Perm (h.clients ++ [i] ++ h.starting.erase i) := by
        rw [List.append_assoc]
        exact List.Perm.append_left _ (List.perm_cons_erase hi)
      refine ⟨hp.nodup_iff.mp nd, ?_, fun j hj => .inr (hp.mem_iff.mpr hj)⟩
      simp only [Hub.clientConnected, List.length_append, List.length_singleton]
      omega
    · exact ⟨nd, by simp, fun j hj => .inr hj⟩
  | disconnect i =>
    have hsub : ((h.clients.filter (· ≠ i)) ++ h.starting).Sublist (h.clients ++ h.starting) :=
      List.Sublist.append List.filter_sublist (List.Sublist.refl _)
    refine ⟨nd.sublist hsub, ?_, fun j hj => .inr (hsub.subset hj)⟩
    simp only [Hub.step, Hub.clientDisconnected]
    split
    · next hi => rw [filter_ne_length (List.nodup_append.mp nd).1 hi]; omega
    · next hi =>
      have : h.clients.filter (· ≠ i) = h.clients := by
        rw [List.filter_eq_self]; intro y hy; simp only [decide_eq_true_eq]; rintro rfl; exact hi hy
      rw [this]; omega
  | sshOpen => exact ⟨nd, by simp only [Hub.step]; omega, fun j hj => .inr hj⟩
  | sshClose => exact ⟨nd, by simp only [Hub.step]; omega, fun j hj => .inr hj⟩
  | setMax m =>
    simp only [Hub.step, Hub.setMaxConnections]
    split
    · obtain ⟨h1, h2, h3, _⟩ := disconnect_first_counter (h.counter - m).toNat h nd
      have hsub : (h.clients.drop (h.counter - m).toNat ++ h.starting).Sublist (h.clients ++ h.starting) :=
        List.Sublist.append (List.drop_sublist _ _) (List.Sublist.refl _)
      rw [h1, h2, h3]
      refine ⟨nd.sublist hsub, ?_, fun j hj => .inr (hsub.subset hj)⟩
      rw [List.length_drop, List.length_take]
      omega
    · exact ⟨nd, by simp, fun j hj => .inr hj⟩

theorem books_run (l : List HubEvent) : ∀ h : Hub, (h.clients ++ h.starting).Nodup → (accepted l).Nodup →
    (∀ i ∈ accepted l, i ∉ h.clients ++ h.starting) →
    (h.run l).counter - (h.run l).clients.length =
      h.counter - h.clients.length + l.count .sshOpen - l.count .sshClose - superfluous h l := by
  induction l with
  | nil => intro h _ _ _; simp [Hub.run, superfluous]
  | cons e l ih =>
    intro h nd ha hf
    obtain ⟨s1, s2, s3⟩ := books_step nd e (by rintro i rfl; exact hf i (by simp [accepted]))
    have ha' : (accepted l).Nodup := by
      cases e with
      | accept i => exact (List.nodup_cons.mp ha).2
      | _ => exact ha
    have := ih (h.step e) s1 ha' (by
      intro i hi hmem
      rcases s3 i hmem with rfl | hm
      · exact (List.nodup_cons.mp ha).1 hi
      · refine hf i ?_ hm
        cases e <;> simp [accepted, hi])
    simp only [Hub.run, List.foldl_cons] at this ⊢
    rw [this, s2]
    cases e <;> simp [superfluous] <;> try omega
    split <;> omega

/-- **C31**, exactly, for any events (connections being different from each other): the counter is the number of clients in the list, plus the SSH
connections that are open, less the disconnects of clients that were not in the list. -/
theorem C31_accounting_partial {m : Int} {l : List HubEvent} (ha : (accepted l).Nodup) :
    ((Hub.init m).run l).counter = ((Hub.init m).run l).clients.length + (l.count .sshOpen - l.count .sshClose) -
      superfluous (Hub.init m) l := by
  have := books_run l (Hub.init m) (by simp [Hub.init]) ha (by simp [Hub.init])
  simp only [Hub.init] at this ⊢
  simp only [List.length_nil] at this
  omega

/-- A run with an SSH connection, a client that is disconnected twice and a lowered limit: 2 + (1 - 0) - 1. -/
example : (accepted [.accept 0, .sshOpen, .start 0, .accept 1, .start 1, .accept 2, .start 2, .disconnect 1, .disconnect 1, .setMax 2]).Nodup ∧
    superfluous (Hub.init 9) [.accept 0, .sshOpen, .start 0, .accept 1, .start 1, .accept 2, .start 2, .disconnect 1, .disconnect 1, .setMax 2] = 1 ∧
    (Hub.init 9).run [.accept 0, .sshOpen, .start 0, .accept 1, .start 1, .accept 2, .start 2, .disconnect 1, .disconnect 1, .setMax 2] =
      ⟨2, [0, 2], [], 2⟩ := by decide

theorem superfluous_append (a b : List HubEvent) : ∀ h : Hub, superfluous h (a ++ b) = superfluous h a + superfluous (h.run a) b := by
  induction a with
  | nil => intro h; simp [superfluous, Hub.run]
  | cons e a ih =>
    intro h
    cases e <;> simp [superfluous, ih, Hub.run, Nat.add_assoc]

theorem accepted_append (a b : List HubEvent) : accepted (a ++ b) = accepted a ++ accepted b := by
  induction a with
  | nil => rfl
  | cons e a ih => cases e <;> simp [accepted, ih]

theorem run_max (a : List HubEvent) (hno : ∀ x, HubEvent.setMax x ∉ a) : ∀ h : Hub, (h.run a).max = h.max := by
  induction a with
  | nil => intro h; rfl
  | cons e a ih =>
    intro h
    have := ih (fun x hx => hno x (List.mem_cons_of_mem _ hx)) (h.step e)
    simp only [Hub.run, List.foldl_cons] at this ⊢
    rw [this]
    cases e with
    | setMax x => exact absurd (List.mem_cons_self ..) (hno x)
    | accept i => simp only [Hub.step]; split <;> rfl
    | start i => simp only [Hub.step]; split <;> rfl
    | _ => rfl

/-- **C32**, for all runs: how far the limit can be exceeded. If no more than `k` accepted connections ever wait to be counted, the number of clients exceeds the
limit by at most `k - 1` and the number of superfluous disconnects; SSH connections only lower the bound. Missing: the limit itself. -/
theorem C32_overshoot_partial {m : Int} {l : List HubEvent} {k : Nat} (hm : 0 < m) (hk : 1 ≤ k) (ha : (accepted l).Nodup)
    (hno : ∀ x, HubEvent.setMax x ∉ l)
    (hssh : ∀ a b, l = a ++ b → a.count .sshClose ≤ a.count .sshOpen)
    (hst : ∀ a b, l = a ++ b → ((Hub.init m).run a).starting.length ≤ k) :
    (((Hub.init m).run l).clients.length : Int) + ((Hub.init m).run l).starting.length ≤ m + (k - 1) + superfluous (Hub.init m) l := by
  have key : ∀ n a b, a.length = n → l = a ++ b →
      (((Hub.init m).run a).clients.length : Int) + ((Hub.init m).run a).starting.length ≤ m + (k - 1) + superfluous (Hub.init m) a := by
    intro n
    induction n with
    | zero =>
      intro a b hn _
      rw [List.length_eq_zero_iff.mp hn]
      simp [Hub.run, Hub.init, superfluous]
      omega
    | succ n ih =>
      intro a b hn hl
      obtain ⟨a', e, rfl⟩ : ∃ a' e, a = a' ++ [e] := by
        rcases List.eq_nil_or_concat a with rfl | ⟨a', e, h⟩
        · simp at hn
        · exact ⟨a', e, by simpa using h⟩
      have ih := ih a' ([e] ++ b) (by simpa using hn) (by rw [hl]; simp)
      have hacc : (accepted a').Nodup := by
        rw [hl, accepted_append, accepted_append] at ha
        exact (List.nodup_append.mp (List.nodup_append.mp ha).1).1
      have bal := C31_accounting_partial (m := m) hacc
      have hc := hssh a' ([e] ++ b) (by rw [hl]; simp)
      have hs := hst (a' ++ [e]) b hl
      have hmax := run_max a' (fun x hx => hno x (by rw [hl]; simp [hx])) (Hub.init m)
      rw [superfluous_append]
      have hr : (Hub.init m).run (a' ++ [e]) = ((Hub.init m).run a').step e := by simp [Hub.run]
      rw [hr] at hs ⊢
      generalize (Hub.init m).run a' = h at *
      cases e with
      | accept i =>
        simp only [Hub.step, superfluous] at hs ⊢
        split
        · next had =>
          rw [if_pos had] at hs
          simp only [Hub.admits, Bool.not_eq_true', Bool.and_eq_false_iff, decide_eq_false_iff_not, hmax, Hub.init] at had
          simp only at hs ⊢
          omega
        · simpa using ih
      | start i =>
        simp only [Hub.step, superfluous] at hs ⊢
        split
        · next hi =>
          have hl := List.length_erase_of_mem hi
          have := List.length_pos_of_mem hi
          simp only [Hub.clientConnected, List.length_append, List.length_singleton, hl]
          omega
        · simpa using ih
      | disconnect i =>
        have hle := List.length_filter_le (· ≠ i) h.clients
        simp only [Hub.step, Hub.clientDisconnected, superfluous] at hs ⊢
        omega
      | sshOpen => simpa [Hub.step, superfluous] using ih
      | sshClose => simpa [Hub.step, superfluous] using ih
      | setMax x => exact absurd (show HubEvent.setMax x ∈ l by rw [hl]; simp) (hno x)
  exact key _ l [] rfl (by simp)

/-- Both terms are reached: two connections wait at once and one client is disconnected twice, so that four clients are connected at limit 2. -/
example : (Hub.init 2).run [.accept 0, .start 0, .disconnect 0, .disconnect 0, .accept 1, .start 1, .accept 2, .start 2, .accept 3, .accept 4,
      .start 3, .start 4] = ⟨3, [1, 2, 3, 4], [], 2⟩ ∧
    superfluous (Hub.init 2) [.accept 0, .start 0, .disconnect 0, .disconnect 0, .accept 1, .start 1, .accept 2, .start 2, .accept 3, .accept 4,
      .start 3, .start 4] = 1 := by decide

end StayRTR
