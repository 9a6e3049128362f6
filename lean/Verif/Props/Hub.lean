import Verif.Model.Hub
import Verif.Props.Goroutines

/-! C31, C32, C70, C74, C75: counting connections, the connection limit, and the command line. -/

namespace StayRTR
open Spec

/-- Executions in which connections have distinct numbers and a client is disconnected only after it connected. -/
inductive HubReach (m : Int) : List HubEvent → Hub → Prop
  | init : HubReach m [] (Hub.init m)
  | accept {l h i} (r : HubReach m l h) (hi : .accept i ∉ l) : HubReach m (l ++ [.accept i]) (h.step (.accept i))
  | start {l h i} (r : HubReach m l h) : HubReach m (l ++ [.start i]) (h.step (.start i))
  | disconnect {l h i} (r : HubReach m l h) (hi : .start i ∈ l) : HubReach m (l ++ [.disconnect i]) (h.step (.disconnect i))
  | sshOpen {l h} (r : HubReach m l h) : HubReach m (l ++ [.sshOpen]) (h.step .sshOpen)
  | sshClose {l h} (r : HubReach m l h) (hi : l.count .sshClose < l.count .sshOpen) : HubReach m (l ++ [.sshClose]) (h.step .sshClose)

/-! ## C31 -/

/-- **C31** in full: the counter is the number of connected clients (so it is never negative). -/
def CounterExact : Prop := ∀ m l h, HubReach m l h → h.counter = h.clients.length

/-- The code does not have this property: one packet of a router can make the server disconnect it twice (a Serial Query of a wrong version and
with a wrong session), after which the counter is -1 with no client connected. -/
theorem C31_double_disconnect_false : ¬ CounterExact ∧
    ∃ e : List Effect, (newServer exCfg 7).processRead exStore exStore exV1 [0, 1, 0, 0, 0, 0, 0, 12, 0, 0, 0, 0] =
        .ok (exV1.disconnected, e) ∧
      HubReach 5 ([.accept 0, .start 0] ++ hubEvents 0 e) ((Hub.init 5).run ([.accept 0, .start 0] ++ hubEvents 0 e)) ∧
      ((Hub.init 5).run ([.accept 0, .start 0] ++ hubEvents 0 e)).counter = -1 ∧
      ((Hub.init 5).run ([.accept 0, .start 0] ++ hubEvents 0 e)).clients = [] := by
  have r : HubReach 5 [.accept 0, .start 0, .disconnect 0, .disconnect 0] ⟨-1, [], [], 5⟩ :=
    .disconnect (l := [.accept 0, .start 0, .disconnect 0])
      (.disconnect (l := [.accept 0, .start 0]) (.start (l := [.accept 0]) (.accept (l := []) .init (by simp))) (by simp)) (by simp)
  refine ⟨fun h => by have := h _ _ _ r; simp at this,
    [.send (.errorReport 1 4 [] (strBytes "Bad protocol version")), .disconnect,
     .send (.errorReport 1 0 [] (strBytes "Session ID mismatch: client is desynchronized")), .disconnect], by decide, r, rfl, rfl⟩

/-- Nor for SSH: a connection counts twice, in `acceptClientSSH` and in `ClientConnected`. -/
theorem C31_ssh_false : ∃ h, HubReach 5 [.accept 0, .sshOpen, .start 0] h ∧ h.clients = [0] ∧ h.counter = 2 :=
  ⟨_, .start (l := [.accept 0, .sshOpen]) (.sshOpen (l := [.accept 0]) (.accept (l := []) .init (by simp))), rfl, rfl⟩

/-- Nor if the server disconnects an idle client (`SetMaxConnections`): closing the connection makes the reader's `Read` fail, and it calls `Disconnect` again. -/
theorem C31_closed_by_server_false : ∃ l l1 l2 l3 : Link, Link.Steps Link.Step Link.init l ∧ l.connected = true ∧
    Link.act .drop l = some l1 ∧ Link.act .quit l1 = some l2 ∧ Link.Own l2 l3 ∧ l3.reader = .acting [.drop, .quit] true :=
  ⟨⟨true, .reading, [], .parked, false, [], []⟩, _, _, _,
    .tail (.tail (.tail .refl (.inl (.readerCheck rfl))) (.inl (.senderCheck rfl))) (.inl (.park rfl rfl)), rfl, rfl, rfl,
    .readClosed rfl rfl, rfl⟩

/-- What is required of events for the counter to be right: no SSH, connections have different numbers, a client is disconnected
only while it is in the list. -/
def TidyEvent (h : Hub) : HubEvent → Prop
  | .accept i => i ∉ h.clients ∧ i ∉ h.starting
  | .start _ => True
  | .disconnect i => i ∈ h.clients
  | .sshOpen => False
  | .sshClose => False
  | .setMax m => 0 ≤ m

/-- All events of a run are tidy. -/
def Tidy : Hub → List HubEvent → Prop
  | _, [] => True
  | h, e :: l => TidyEvent h e ∧ Tidy (h.step e) l

/-- The invariant of tidy runs. -/
structure HubOk (h : Hub) : Prop where
  exact : h.counter = h.clients.length
  nodup : (h.clients ++ h.starting).Nodup

theorem filter_ne_length {l : List Nat} {i : Nat} (hn : l.Nodup) (hi : i ∈ l) : ((l.filter (· ≠ i)).length : Int) = l.length - 1 := by
  have h1 : l.erase i = l.filter (· ≠ i) := by rw [hn.erase_eq_filter]; congr 1; funext x; by_cases h : x = i <;> simp [h]
  rw [← h1, List.length_erase_of_mem hi]
  have := List.length_pos_of_mem hi
  omega

theorem HubOk.disconnect {h : Hub} (ok : HubOk h) {i : Nat} (hi : i ∈ h.clients) : HubOk (h.clientDisconnected i) := by
  refine ⟨?_, ?_⟩
  · simp only [Hub.clientDisconnected]
    rw [filter_ne_length (List.nodup_append.mp ok.nodup).1 hi, ok.exact]
  · exact ok.nodup.sublist (List.Sublist.append List.filter_sublist (List.Sublist.refl _))

/-- Disconnecting the first `n` clients leaves the others. -/
theorem disconnect_first (n : Nat) : ∀ h : Hub, HubOk h →
    HubOk ((h.clients.take n).foldl Hub.clientDisconnected h) ∧
    ((h.clients.take n).foldl Hub.clientDisconnected h).clients = h.clients.drop n ∧
    ((h.clients.take n).foldl Hub.clientDisconnected h).starting = h.starting := by
  induction n with
  | zero => intro h ok; exact ⟨ok, rfl, rfl⟩
  | succ n ih =>
    intro h ok
    cases hc : h.clients with
    | nil => simp [ok, hc]
    | cons x xs =>
      have ok' := ok.disconnect (i := x) (by simp [hc])
      have hcl : (h.clientDisconnected x).clients = xs := by
        have hnd := (List.nodup_append.mp ok.nodup).1
        rw [hc, List.nodup_cons] at hnd
        simp only [Hub.clientDisconnected, hc]
        rw [List.filter_cons_of_neg (by simp)]
        rw [List.filter_eq_self]
        intro y hy
        simp only [decide_eq_true_eq]
        rintro rfl; exact hnd.1 hy
      have := ih _ ok'
      rw [hcl] at this
      simp only [List.take_succ_cons, List.foldl_cons, List.drop_succ_cons]
      exact ⟨this.1, this.2.1, this.2.2⟩

theorem HubOk.step {h : Hub} (ok : HubOk h) {e : HubEvent} (he : TidyEvent h e) : HubOk (h.step e) := by
  cases e with
  | accept i =>
    simp only [Hub.step]
    split
    · refine ⟨ok.exact, ?_⟩
      have h1 := ok.nodup
      rw [← List.append_assoc]
      refine List.nodup_append.mpr ⟨h1, by simp, ?_⟩
      intro a ha b hb hab
      simp only [List.mem_singleton] at hb
      subst hab; subst hb
      rcases List.mem_append.mp ha with h | h
      exacts [he.1 h, he.2 h]
    · exact ok
  | start i =>
    simp only [Hub.step]
    split
    · rename_i hi
      refine ⟨by simp [Hub.clientConnected, ok.exact], ?_⟩
      have hp : (h.clients ++ h.starting).Perm (h.clients ++ [i] ++ h.starting.erase i) := by
        rw [List.append_assoc]
        exact List.Perm.append_left _ (List.perm_cons_erase hi)
      exact hp.nodup_iff.mp ok.nodup
    · exact ok
  | disconnect i => exact ok.disconnect he
  | sshOpen => exact he.elim
  | sshClose => exact he.elim
  | setMax m =>
    simp only [Hub.step, Hub.setMaxConnections]
    split
    · have := (disconnect_first (h.counter - m).toNat h ok).1
      exact ⟨this.exact, this.nodup⟩
    · exact ⟨ok.exact, ok.nodup⟩

/-- **C31**, partial: without SSH, and if every client calls `Disconnect` once, the counter is the number of clients throughout.
Missing: SSH and repeated disconnects, refuted above. -/
theorem C31_tidy_partial {m : Int} {l : List HubEvent} (ht : Tidy (Hub.init m) l) :
    ((Hub.init m).run l).counter = ((Hub.init m).run l).clients.length ∧ ((Hub.init m).run l).clients.Nodup := by
  have key : ∀ (l : List HubEvent) (h : Hub), HubOk h → Tidy h l → HubOk (h.run l) := by
    intro l
    induction l with
    | nil => intro h ok _; exact ok
    | cons e l ih => intro h ok ht; exact ih _ (ok.step ht.1) ht.2
  have := key l _ ⟨rfl, by simp [Hub.init]⟩ ht
  exact ⟨this.exact, (List.nodup_append.mp this.nodup).1⟩

/-- The client list is kept exactly: starting adds the client, a disconnect removes that client and no other, nothing else
but a lowered limit changes it. -/
theorem C31_clients_exact (h : Hub) (i j : Nat) :
    (j ∈ (h.step (.start i)).clients ↔ j ∈ h.clients ∨ (j = i ∧ i ∈ h.starting)) ∧
    (j ∈ (h.step (.disconnect i)).clients ↔ j ∈ h.clients ∧ j ≠ i) ∧
    (h.step (.accept i)).clients = h.clients ∧ (h.step .sshOpen).clients = h.clients ∧ (h.step .sshClose).clients = h.clients := by
  refine ⟨?_, ?_, ?_, rfl, rfl⟩
  · simp only [Hub.step]
    split
    · rename_i hi; simp [Hub.clientConnected, hi]
    · rename_i hi; simp [hi]
  · simp [Hub.step, Hub.clientDisconnected]
  · simp only [Hub.step]; split <;> rfl

/-- Which packets disconnect once: all whose version is acceptable. -/
theorem C31_one_disconnect_partial {cfg : ServerConfig} {sid : U16} {c c' : Client} (h : Conn (newServer cfg sid) c) {st1 st2 : Store} {pkt : Bytes}
    {e : List Effect} (ha : ∀ p, decodeBytes pkt = .ok p → Acceptable c p.getVersion)
    (hp : (newServer cfg sid).processRead st1 st2 c pkt = .ok (c', e)) (i : Nat) :
    hubEvents i e = [] ∨ (hubEvents i e = [.disconnect i] ∧ c'.connected = false) := by
  by_cases hd : Effect.disconnect ∈ e
  · obtain ⟨pre, post, rfl, hpre⟩ := List.append_of_mem hd |>.elim fun a ⟨b, hb⟩ => (⟨a, b, hb, trivial⟩ : ∃ a b, e = a ++ Effect.disconnect :: b ∧ True)
    obtain ⟨h1, h2⟩ := (C30_partial h ha hp).1 pre post rfl
    subst h1
    right
    refine ⟨?_, h2⟩
    have hpre' : hubEvents i pre = [] := by
      by_contra hne
      have : Effect.disconnect ∈ pre := by
        by_contra hmem
        apply hne
        unfold hubEvents
        rw [List.filterMap_eq_nil_iff]
        intro a ha
        cases a with
        | send p => rfl
        | disconnect => exact absurd ha hmem
      obtain ⟨a, b, hab⟩ := List.append_of_mem this
      have := ((C30_partial h ha hp).1 a (b ++ [.disconnect]) (by rw [hab]; simp)).1
      simp at this
    simp only [hubEvents, List.filterMap_append] at hpre' ⊢
    rw [hpre']; rfl
  · left
    unfold hubEvents
    rw [List.filterMap_eq_nil_iff]
    intro a ha
    cases a with
    | send p => rfl
    | disconnect => exact absurd ha hd

/-- Non-vacuity: a tidy run with two clients, one of which leaves. -/
example : Tidy (Hub.init 2) [.accept 0, .start 0, .accept 1, .start 1, .accept 2, .disconnect 0] ∧
    (Hub.init 2).run [.accept 0, .start 0, .accept 1, .start 1, .accept 2, .disconnect 0] = ⟨1, [1], [], 2⟩ := by
  refine ⟨?_, by decide⟩
  simp [Tidy, TidyEvent, Hub.init, Hub.step, Hub.admits, Hub.clientConnected]

/-! ## C32 -/

/-- **C32** in full: a positive limit is never exceeded. -/
def LimitHolds : Prop := ∀ m l h, HubReach m l h → 0 < m → (h.clients.length : Int) ≤ m

/-- The code does not have this property: a second connection can be accepted before the first is counted. -/
theorem C32_race_false : ¬ LimitHolds := by
  intro h
  have r : HubReach 1 [.accept 0, .accept 1, .start 0, .start 1] ⟨2, [0, 1], [], 1⟩ :=
    .start (l := [.accept 0, .accept 1, .start 0]) (.start (l := [.accept 0, .accept 1]) (.accept (l := [.accept 0]) (.accept (l := []) .init (by simp)) (by simp)))
  have := h _ _ _ r (by simp)
  simp at this

/-- Nor without any race, once a client was disconnected twice (C31): after that one client too many is admitted. -/
theorem C32_miscount_false : ∃ h, HubReach 1 [.accept 0, .start 0, .disconnect 0, .disconnect 0, .accept 1, .start 1, .accept 2, .start 2] h ∧
    h.clients = [1, 2] := by
  refine ⟨⟨1, [1, 2], [], 1⟩, ?_, rfl⟩
  have r : HubReach 1 [.accept 0, .start 0, .disconnect 0, .disconnect 0] ⟨-1, [], [], 1⟩ :=
    .disconnect (l := [.accept 0, .start 0, .disconnect 0])
      (.disconnect (l := [.accept 0, .start 0]) (.start (l := [.accept 0]) (.accept (l := []) .init (by simp))) (by simp)) (by simp)
  exact .start (l := [.accept 0, .start 0, .disconnect 0, .disconnect 0, .accept 1, .start 1, .accept 2])
    (.accept (l := [.accept 0, .start 0, .disconnect 0, .disconnect 0, .accept 1, .start 1])
      (.start (l := [.accept 0, .start 0, .disconnect 0, .disconnect 0, .accept 1])
        (.accept (l := [.accept 0, .start 0, .disconnect 0, .disconnect 0]) r (by simp))) (by simp))

/-- A new connection or limit is only considered when every accepted connection is counted. -/
def Prompt : Hub → List HubEvent → Prop
  | _, [] => True
  | h, e :: l => (match e with | .accept _ => h.starting = [] | .setMax _ => h.starting = [] | _ => True) ∧ Prompt (h.step e) l

/-- **C32**, partial: the limit in force (positive) is never exceeded by runs that are tidy (C31) and in which accepting waits for the goroutine of the previous
connection. Missing: other runs, refuted above. -/
theorem C32_prompt_partial {m : Int} {l : List HubEvent} (ht : Tidy (Hub.init m) l) (hp : Prompt (Hub.init m) l)
    (hpos : 0 < ((Hub.init m).run l).max) : (((Hub.init m).run l).clients.length : Int) ≤ ((Hub.init m).run l).max := by
  have key : ∀ (l : List HubEvent) (h : Hub), HubOk h → (0 < h.max → ((h.clients.length + h.starting.length : Nat) : Int) ≤ h.max) →
      Tidy h l → Prompt h l → (0 < (h.run l).max → (((h.run l).clients.length + (h.run l).starting.length : Nat) : Int) ≤ (h.run l).max) := by
    intro l
    induction l with
    | nil => intro h _ hm _ _; exact hm
    | cons e l ih =>
      intro h ok hm ht hp
      refine ih _ (ok.step ht.1) ?_ ht.2 hp.2
      have hex := ok.exact
      cases e with
      | accept i =>
        have hst : h.starting = [] := hp.1
        intro hpos
        simp only [Hub.step] at hpos ⊢
        split
        · rename_i had
          rw [if_pos had] at hpos
          simp only at hpos
          simp only [Hub.admits, Bool.not_eq_true', Bool.and_eq_false_iff, decide_eq_false_iff_not] at had
          simp only [hst, List.nil_append, List.length_singleton]
          omega
        · rename_i had
          rw [if_neg had] at hpos
          exact hm hpos
      | start i =>
        intro hpos
        simp only [Hub.step] at hpos ⊢
        split
        · rename_i hi
          rw [if_pos hi] at hpos
          simp only [Hub.clientConnected] at hpos ⊢
          have := hm hpos
          have hl := List.length_erase_of_mem hi
          have := List.length_pos_of_mem hi
          simp only [List.length_append, List.length_singleton, hl]
          omega
        · rename_i hi
          rw [if_neg hi] at hpos
          exact hm hpos
      | disconnect i =>
        intro hpos
        have := hm hpos
        have hle := List.length_filter_le (· ≠ i) h.clients
        simp only [Hub.step, Hub.clientDisconnected] at *
        omega
      | sshOpen => exact ht.1.elim
      | sshClose => exact ht.1.elim
      | setMax m =>
        have hst : h.starting = [] := hp.1
        have hm0 : 0 ≤ m := ht.1
        intro _
        simp only [Hub.step, Hub.setMaxConnections]
        split
        · rename_i hgt
          obtain ⟨_, h2, h3⟩ := disconnect_first (h.counter - m).toNat h ok
          rw [h2, h3, hst, List.length_drop]
          simp only [List.length_nil]
          omega
        · rw [hst]; simp only [List.length_nil]; omega
  have := key l _ ⟨rfl, by simp [Hub.init]⟩ (by intro h; simp [Hub.init] at h ⊢; omega) ht hp hpos
  omega

/-- Non-vacuity: the third connection is refused at limit 2. -/
example : Prompt (Hub.init 2) [.accept 0, .start 0, .accept 1, .start 1, .accept 2, .start 2] ∧
    (Hub.init 2).run [.accept 0, .start 0, .accept 1, .start 1, .accept 2, .start 2] = ⟨2, [0, 1], [], 2⟩ := by
  refine ⟨?_, by decide⟩
  simp [Prompt, Hub.init, Hub.step, Hub.admits, Hub.clientConnected]

/-! ## C70 -/

/-- **C70** in full: the flags reach the server. -/
def FlagsWired : Prop := ∀ (f : Flags) (sid : U16), (newServer f.serverConfiguration sid).maxconn = f.maxConn ∧
  (newServer f.serverConfiguration sid).enableNODELAY = f.enableNODELAY

/-- An example command line. -/
def exFlags : Flags := ⟨1, 3600, 600, 7200, false, false, true, 100⟩

/-- The code does not have this property: whatever `-maxconn` says, no limit is set. -/
theorem C70_maxconn_false : ¬ FlagsWired ∧ ∀ (f : Flags) (sid : U16), (newServer f.serverConfiguration sid).maxconn = 0 ∧
    ∀ h : Hub, h.max = (newServer f.serverConfiguration sid).maxconn → h.admits = true := by
  refine ⟨fun h => absurd (h exFlags 7).1 (by decide), ?_⟩
  intro f sid
  refine ⟨rfl, ?_⟩
  intro h hm
  have : h.max = 0 := hm
  simp [Hub.admits, this]

/-- Nor for `-enable.nodelay`: it never has an effect. -/
theorem C70_nodelay_false : ∃ f : Flags, f.enableNODELAY = true ∧ ∀ sid, (newServer f.serverConfiguration sid).enableNODELAY = false :=
  ⟨exFlags, rfl, fun _ => rfl⟩

/-- **C70**, partial: `-enforce.version` and `-disable.bgpsec` reach the server (the latter not SSH clients, C24); it keeps three change sets whatever the flags (C16_program). Missing: `-maxconn` and
`-enable.nodelay`, refuted above. -/
theorem C70_others_partial (f : Flags) (sid : U16) : (newServer f.serverConfiguration sid).enforceVersion = f.enforceVersion ∧
    (newServer f.serverConfiguration sid).disableBGPSec = f.disableBGPSec ∧ f.serverConfiguration.keepDifference = 3 := ⟨rfl, rfl, rfl⟩

example : (newServer { exFlags with disableBGPSec := true }.serverConfiguration 7).acceptClientTCP.dontSendBGPsecKeys = true := by decide

/-! ## C74 -/

/-- **C74** in full: the server speaks the version given on the command line. -/
def ProtocolFlagHonoured : Prop := ∀ (f : Flags) (sid : U16), ((newServer f.serverConfiguration sid).baseVersion.toNat : Int) = f.protocol

/-- The code does not have this property: an unsupported version is not refused; the server silently runs version 0. -/
theorem C74_unsupported_false : ¬ ProtocolFlagHonoured ∧
    ∀ (f : Flags) (sid : U16), f.protocol ≠ 1 → (newServer f.serverConfiguration sid).baseVersion = 0 := by
  refine ⟨fun h => absurd (h { exFlags with protocol := 2 } 7) (by decide), ?_⟩
  intro f sid h
  simp [newServer, Flags.serverConfiguration, protoverToLib, h]

/-- **C74**, partial: versions 0 and 1 are used as given, and the server then has a session for every version it accepts. -/
theorem C74_supported_partial (f : Flags) (sid : U16) (h : f.protocol = 0 ∨ f.protocol = 1) :
    ((newServer f.serverConfiguration sid).baseVersion.toNat : Int) = f.protocol ∧
    ((newServer f.serverConfiguration sid).sessId.length : Int) = f.protocol + 1 := by
  rcases h with h | h <;> simp [newServer, Flags.serverConfiguration, protoverToLib, h]

example : (newServer exFlags.serverConfiguration 7).sessId = [7, 107] := by decide

/-! ## C75 -/

/-- **C75** in full: a server that starts announces intervals within the ranges of RFC 8210 section 6, and they are the configured ones. -/
def IntervalsValid : Prop := ∀ (f : Flags) (sid : U16),
  ((newServer f.serverConfiguration sid).refresh.toNat : Int) = f.refresh ∧ 1 ≤ f.refresh ∧ f.refresh ≤ 86400 ∧
  ((newServer f.serverConfiguration sid).retry.toNat : Int) = f.retry ∧ 1 ≤ f.retry ∧ f.retry ≤ 7200 ∧
  ((newServer f.serverConfiguration sid).expire.toNat : Int) = f.expire ∧ 600 ≤ f.expire ∧ f.expire ≤ 172800

/-- The code does not have this property: values are not checked; a negative one is announced as about 136 years, 2^32+1 as one second. -/
theorem C75_unchecked_false : ¬ IntervalsValid ∧ (newServer { exFlags with refresh := -1 }.serverConfiguration 7).refresh = 4294967295 ∧
    (newServer { exFlags with retry := 4294967297 }.serverConfiguration 7).retry = 1 := by
  refine ⟨fun h => absurd (h { exFlags with refresh := -1 } 7).2.1 (by decide), by decide, by decide⟩

/-- The intervals of a client. -/
def Client.intervals (c : Client) : U32 × U32 × U32 := (c.refresh, c.retry, c.expire)

theorem end_intervals {c : Client} {sid : U16} {n m : U32} {l : List SD} {v s r1 r2 r3} (h : .send (.endOfData v s m r1 r2 r3) ∈ c.sendSDs sid n l) : (r1, r2, r3) = c.intervals := by
  have hd : ∀ x, .send (.endOfData v s m r1 r2 r3) ∉ c.sendData x := by
    intro x hx
    unfold Client.sendData at hx
    cases x <;> simp only at hx <;> (repeat' split at hx) <;> simp [Client.sendPDU, Pdu.setVersion] at hx
  unfold Client.sendSDs at h
  rcases List.mem_append.1 h with h | h
  · rcases List.mem_append.1 h with h | h
    · rw [List.mem_singleton] at h; cases h
    · obtain ⟨x, -, hx⟩ := List.mem_flatMap.1 h
      exact absurd hx (hd x)
  · rw [List.mem_singleton] at h; cases h; rfl

theorem passSimpleHandler_intervals {srv : Server} {st1 st2 : Store} {c : Client} {p : Pdu} {es : List Effect} (h : srv.passSimpleHandler st1 st2 c p = .ok es) {v s m r1 r2 r3} (he : .send (.endOfData v s m r1 r2 r3) ∈ es) :
    (r1, r2, r3) = c.intervals := by
  cases p
  case serialQuery v a b =>
    change srv.requestNewVersion st1 st2 c a b = .ok es at h
    unfold Server.requestNewVersion at h
    cases hs : srv.getSessionId c.version with
    | err => rw [hs] at h; cases h
    | panic => rw [hs] at h; cases h
    | ok s =>
      rw [hs] at h
      change (if a ≠ s then _ else _) = _ at h
      split at h
      · cases h; simp [Client.sendCorruptData, Client.sendPDU, Pdu.setVersion] at he
      · change (if _ = false then _ else _) = _ at h
        split at h
        · cases h; simp [Client.sendNoDataError, Client.sendPDU, Pdu.setVersion] at he
        · cases hd : st2.getSDsSerialDiff b with
          | err => rw [hd] at h; cases h
          | panic => rw [hd] at h; cases h
          | ok o =>
            rw [hd] at h
            cases o with
            | none => cases h; simp [Client.sendCacheReset, Client.sendPDU, Pdu.setVersion] at he
            | some d => cases h; exact end_intervals he
  case resetQuery v =>
    change srv.requestCache st1 st2 c = .ok es at h
    unfold Server.requestCache at h
    cases hs : srv.getSessionId c.version with
    | err => rw [hs] at h; cases h
    | panic => rw [hs] at h; cases h
    | ok s =>
      rw [hs] at h
      change (if _ = false then _ else _) = _ at h
      split at h
      · cases h; simp [Client.sendNoDataError, Client.sendPDU, Pdu.setVersion] at he
      · cases h; exact end_intervals he
  all_goals cases h; cases he

theorem processPdu_intervals {srv : Server} {st1 st2 : Store} {c c' : Client} {p : Pdu} {es : List Effect} (h : srv.processPdu st1 st2 c p = .ok (c', es)) :
    c'.intervals = c.intervals ∧ ∀ v s m r1 r2 r3, .send (.endOfData v s m r1 r2 r3) ∈ es → (r1, r2, r3) = c.intervals := by
  have hcv : ∀ (c : Client) w, (c.checkVersion w).1.intervals = c.intervals ∧ ∀ v s m r1 r2 r3, .send (.endOfData v s m r1 r2 r3) ∉ (c.checkVersion w).2 := by
    intro c w
    unfold Client.checkVersion
    split
    · exact ⟨rfl, fun _ _ _ _ _ _ h => nomatch h⟩
    · exact ⟨rfl, fun _ _ _ _ _ _ h => by simp [Client.sendWrongVersionError, Client.sendPDU, Pdu.setVersion] at h⟩
  have hnq : ∀ (c : Client), (c.noteQuery p).intervals = c.intervals := by intro c; cases p <;> rfl
  have hh : ∀ (c : Client), (srv.handlePDU c).1.intervals = c.intervals ∧ ∀ v s m r1 r2 r3, .send (.endOfData v s m r1 r2 r3) ∉ (srv.handlePDU c).2 := by
    intro c
    unfold Server.handlePDU
    split
    rename_i c1 e1 h1
    split at h1 <;> cases h1
    · refine ⟨?_, fun _ _ _ _ _ _ h => by simp [Client.sendWrongVersionError, Client.sendPDU, Pdu.setVersion] at h⟩
      simp only
      split <;> rfl
    · refine ⟨?_, fun _ _ _ _ _ _ h => nomatch h⟩
      simp only
      split <;> rfl
  unfold Server.processPdu at h
  have h1 : ∃ c1 e1, (if c.disableVersionCheck = false then c.checkVersion p.getVersion else (c, [])) = (c1, e1) ∧ c1.intervals = c.intervals ∧ ∀ v s m r1 r2 r3, .send (.endOfData v s m r1 r2 r3) ∉ e1 := by
    split
    · exact ⟨_, _, rfl, hcv c _⟩
    · exact ⟨_, _, rfl, rfl, fun _ _ _ _ _ _ h => nomatch h⟩
  obtain ⟨c1, e1, q1, i1, n1⟩ := h1
  rw [q1] at h
  simp only at h
  have h2 : ∃ c2 e2, (if c1.enforceVersion = true ∧ isCorrectPDUVersion p c1.version = false then (c1.disconnected, [c1.sendWrongVersionError, .disconnect]) else (c1, [])) = (c2, e2) ∧ c2.intervals = c.intervals ∧
      ∀ v s m r1 r2 r3, .send (.endOfData v s m r1 r2 r3) ∉ e2 := by
    split
    · exact ⟨_, _, rfl, i1, fun _ _ _ _ _ _ h => by simp [Client.sendWrongVersionError, Client.sendPDU, Pdu.setVersion] at h⟩
    · exact ⟨_, _, rfl, i1, fun _ _ _ _ _ _ h => nomatch h⟩
  obtain ⟨c2, e2, q2, i2, n2⟩ := h2
  rw [q2] at h
  simp only at h
  obtain ⟨i3, n3⟩ := hh (c2.noteQuery p)
  rw [hnq, i2] at i3
  cases h4 : srv.passSimpleHandler st1 st2 (srv.handlePDU (c2.noteQuery p)).1 p with
  | err => rw [h4] at h; cases h
  | panic => rw [h4] at h; cases h
  | ok e4 =>
    rw [h4] at h
    cases h
    refine ⟨?_, fun v s m r1 r2 r3 hm => ?_⟩
    · split <;> exact i3
    · rcases List.mem_append.1 hm with hm | hm
      · rcases List.mem_append.1 hm with hm | hm
        · rcases List.mem_append.1 hm with hm | hm
          · exact absurd hm (n1 _ _ _ _ _ _)
          · exact absurd hm (n2 _ _ _ _ _ _)
        · exact absurd hm (n3 _ _ _ _ _ _)
      · rw [passSimpleHandler_intervals h4 hm]; exact i3

theorem readLoop_intervals {srv : Server} : ∀ (reads : List (Store × Store × Bytes)) {c c' : Client} {es : List Effect}, srv.readLoop c reads = .ok (c', es) →
    ∀ v s m r1 r2 r3, .send (.endOfData v s m r1 r2 r3) ∈ es → (r1, r2, r3) = c.intervals
  | [], c, c', es, h, v, s, m, r1, r2, r3, hm => by cases h; cases hm
  | (st1, st2, pkt) :: rest, c, c', es, h, v, s, m, r1, r2, r3, hm => by
    unfold Server.readLoop at h
    split at h
    · cases h; cases hm
    · have hp : ∀ c1 e1, srv.processRead st1 st2 c pkt = .ok (c1, e1) → c1.intervals = c.intervals ∧ ∀ v s m r1 r2 r3, .send (.endOfData v s m r1 r2 r3) ∈ e1 → (r1, r2, r3) = c.intervals := by
        intro c1 e1 h1
        unfold Server.processRead at h1
        split at h1
        · cases h1; exact ⟨rfl, fun _ _ _ _ _ _ h => by simp at h⟩
        · split at h1
          · cases h1
          · cases h1; exact ⟨rfl, fun _ _ _ _ _ _ h => by simp at h⟩
          · exact processPdu_intervals h1
      cases h1 : srv.processRead st1 st2 c pkt with
      | err => rw [h1] at h; cases h
      | panic => rw [h1] at h; cases h
      | ok x =>
        obtain ⟨c1, e1⟩ := x
        rw [h1] at h
        obtain ⟨i1, n1⟩ := hp c1 e1 h1
        change (srv.readLoop c1 rest).bind _ = _ at h
        cases h2 : srv.readLoop c1 rest with
        | err => rw [h2] at h; cases h
        | panic => rw [h2] at h; cases h
        | ok y =>
          obtain ⟨c2, e2⟩ := y
          rw [h2] at h
          cases h
          rcases List.mem_append.1 hm with hm | hm
          · exact n1 _ _ _ _ _ _ hm
          · rw [readLoop_intervals rest h2 _ _ _ _ _ _ hm, i1]

/-- **C75**, partial: values of 32 bits are announced as configured, with the defaults 3600, 600, 7200 in place of 0: in every End of Data of every connection, on TCP, TLS or SSH, whatever the router sends and whatever the data are. -/
theorem C75_configured_partial (f : Flags) (sid : U16) (h1 : 0 ≤ f.refresh ∧ f.refresh < 4294967296) (h2 : 0 ≤ f.retry ∧ f.retry < 4294967296)
    (h3 : 0 ≤ f.expire ∧ f.expire < 4294967296) (c c' : Client) (hc : c = (newServer f.serverConfiguration sid).acceptClientTCP ∨ c = (newServer f.serverConfiguration sid).acceptClientSSH)
    (reads : List (Store × Store × Bytes)) (es : List Effect) (hr : (newServer f.serverConfiguration sid).readLoop c reads = .ok (c', es)) (v : U8) (s : U16) (n r1 r2 r3 : U32)
    (he : .send (.endOfData v s n r1 r2 r3) ∈ es) :
      (r1.toNat : Int) = (if f.refresh = 0 then 3600 else f.refresh) ∧
      (r2.toNat : Int) = (if f.retry = 0 then 600 else f.retry) ∧
      (r3.toNat : Int) = (if f.expire = 0 then 7200 else f.expire) := by
  have key : ∀ (x : Int) (d : U32), 0 ≤ x ∧ x < 4294967296 →
      ((if BitVec.ofInt 32 x ≠ 0 then BitVec.ofInt 32 x else d : U32).toNat : Int) = if x = 0 then (d.toNat : Int) else x := by
    intro x d hx
    obtain ⟨k, rfl⟩ := Int.eq_ofNat_of_zero_le hx.1
    have hk : k < 2 ^ 32 := by omega
    have ht : (BitVec.ofInt 32 (k : Int)).toNat = k := by simp [BitVec.toNat_ofInt]; omega
    by_cases h0 : k = 0
    · subst h0; simp
    · have : BitVec.ofInt 32 (k : Int) ≠ 0 := by
        intro h; rw [h] at ht; exact h0 ht.symm
      rw [if_pos this, ht, if_neg (by omega)]
  have hi := readLoop_intervals reads hr _ _ _ _ _ _ he
  have hc' : c.intervals = ((newServer f.serverConfiguration sid).refresh, (newServer f.serverConfiguration sid).retry, (newServer f.serverConfiguration sid).expire) := by
    rcases hc with rfl | rfl
    · unfold Server.acceptClientTCP Client.intervals
      simp only
      split <;> rfl
    · rfl
  rw [hc'] at hi
  cases hi
  exact ⟨key _ 3600 h1, key _ 600 h2, key _ 7200 h3⟩

/-- A Reset Query to a server of given flags, whose retry interval is the default. -/
example : (newServer { exFlags with refresh := 7, retry := 0 }.serverConfiguration 7).readLoop (newServer { exFlags with refresh := 7, retry := 0 }.serverConfiguration 7).acceptClientSSH [(exStore, { exStore with current := [] }, [1, 2, 0, 0, 0, 0, 0, 8])] =
    .ok ((newServer { exFlags with refresh := 7, retry := 0 }.serverConfiguration 7).acceptClientSSH.setVersion 1, [.send (.cacheResponse 1 107), .send (.endOfData 1 107 exStore.serial 7 600 7200)]) := by decide +kernel

example : dataAnswer exFlags.serverConfiguration 7 1 true 4 [] = [.cacheResponse 1 107, .endOfData 1 107 4 3600 600 7200] := by decide

end StayRTR
