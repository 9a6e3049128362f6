import Verif.Model.Metrics
import Verif.Spec.Metrics
import Verif.Props.Hub
import Verif.Props.Wire

/-!
C130, C131: the metrics `rtr_pdus` and `rtr_clients`.
-/

namespace StayRTR
open Spec

/-! ## C130 -/

theorem decodeBytes_pdu (b : Bytes) : (∀ p, decodeBytes b = .ok p → BeginsWithPdu b ∧ p.getType.toNat = field b 1 1) ∧ (BeginsWithPdu b → ∃ p, decodeBytes b = .ok p) := by
  constructor
  · intro p h
    unfold decodeBytes at h
    rw [GoRes.bind_eq_ok] at h
    obtain ⟨⟨q, rest⟩, h1, h2⟩ := h
    simp only [GoRes.pure_eq, GoRes.ok.injEq] at h2
    subst h2
    obtain ⟨h8, hmax, hlen, -⟩ := C06_consumes_declared_length b rest q h1
    obtain ⟨hb, -, ht, he⟩ := C07_accepted_only_if b rest q h1
    exact ⟨⟨h8, hmax, hlen, by omega, hb, he⟩, ht⟩
  · rintro ⟨h8, hmax, hlen, hl, hb, he⟩
    obtain ⟨p, hp⟩ := C07_accepted_if b hl ⟨h8, hmax, hlen⟩ hb he
    exact ⟨p, by unfold decodeBytes; rw [hp]; rfl⟩

theorem pduLabel_name (b : Bytes) (h : BeginsWithPdu b) (t : U8) (ht : t.toNat = field b 1 1) : pduLabel t = pduName (field b 1 1) := by
  have hb := h.2.2.2.2.1
  have key : ∀ k : Nat, k < 256 → t.toNat = k → t = BitVec.ofNat 8 k := by
    intro k hk he
    apply BitVec.eq_of_toNat_eq
    rw [he, BitVec.toNat_ofNat]
    omega
  rcases hb with hb | hb | hb | hb | hb | hb | hb | hb | hb | hb <;> rw [hb.1] at ht ⊢ <;> rw [key _ (by decide) ht] <;> decide +kernel

/-- The names are different for different types. -/
theorem C130_names (b b' : Bytes) (h : BeginsWithPdu b) (h' : BeginsWithPdu b') (he : pduName (field b 1 1) = pduName (field b' 1 1)) : field b 1 1 = field b' 1 1 := by
  rcases h.2.2.2.2.1 with hb | hb | hb | hb | hb | hb | hb | hb | hb | hb <;> rcases h'.2.2.2.2.1 with hb' | hb' | hb' | hb' | hb' | hb' | hb' | hb' | hb' | hb' <;> rw [hb.1, hb'.1] at he ⊢ <;>
    exact absurd he (by decide)

open Classical in
/-- What a read is to count. -/
noncomputable def countedAs (b : Bytes) : Option Str := if BeginsWithPdu b then some (pduName (field b 1 1)) else none

theorem meteredRead_label {s : Server} {st1 st2 : Store} {c c' : Client} {pkt : Bytes} {e : List Effect} {l : List Str} (h : s.meteredRead st1 st2 c pkt = .ok (c', e, l)) :
    s.processRead st1 st2 c pkt = .ok (c', e) ∧ l = (countedAs pkt).toList := by
  unfold Server.meteredRead at h
  rw [GoRes.bind_eq_ok] at h
  obtain ⟨⟨c1, e1⟩, h1, h2⟩ := h
  simp only [GoRes.pure_eq, GoRes.ok.injEq, Prod.mk.injEq] at h2
  obtain ⟨rfl, rfl, rfl⟩ := h2
  refine ⟨h1, ?_⟩
  obtain ⟨d1, d2⟩ := decodeBytes_pdu pkt
  by_cases hp : BeginsWithPdu pkt
  · obtain ⟨p, hd⟩ := d2 hp
    have hne : pkt ≠ [] := by rintro rfl; have := hp.2.2.2.1; simp at this
    rw [if_neg hne, hd, countedAs, if_pos hp]
    simp only [Option.toList]
    rw [pduLabel_name pkt hp _ (d1 p hd).2]
  · rw [countedAs, if_neg hp]
    split
    · rfl
    · split
      · rename_i dec hd
        exact absurd (d1 dec hd).1 hp
      · rfl

/-- **C130** in full: the counter counts every PDU of a connection that goes on, under the name of its type. -/
def CountsAll : Prop := ∀ (cfg : ServerConfig) (sid : U16) (c c' : Client) (st : Store) (bs : List Bytes) (ps : List Pdu) (e : List Effect) (l : List Str),
  Conn (newServer cfg sid) c → Stream bs.flatten ps → (newServer cfg sid).meteredLoop c (bs.map (fun b => (st, st, b))) = .ok (c', e, l) → c'.connected = true →
  l = ps.map (fun p => pduName p.getType.toNat)

/-- The code does not have this property: of two PDUs in one segment only the first is counted. -/
theorem C130_merged_false : ¬ CountsAll := by
  intro h
  have hs : Stream [[1, 2, 0, 0, 0, 0, 0, 8, 1, 2, 0, 0, 0, 0, 0, 8]].flatten [.resetQuery 1, .resetQuery 1] := .step (rest := [1, 2, 0, 0, 0, 0, 0, 8]) (by decide) (.step (rest := []) (by decide) .eof)
  have := h exCfg 7 exV1 exV1 exStore [[1, 2, 0, 0, 0, 0, 0, 8, 1, 2, 0, 0, 0, 0, 0, 8]] _ ((dataAnswer exCfg 7 1 true 0 [exA, exK]).map .send) ["reset_query".toList] exV1_conn hs (by decide) (by decide)
  exact absurd this (by decide)

/-- **C130**, partial: the counter does not change what the connection does; up to the end of the connection every read that begins with a PDU is counted, under the name of the type of that PDU, and
nothing else is. Missing: further PDUs in the same read, refuted above. -/
theorem C130_reads_partial (s : Server) (c c' : Client) (reads : List (Store × Store × Bytes)) (e : List Effect) (l : List Str) (h : s.meteredLoop c reads = .ok (c', e, l)) :
    s.readLoop c reads = .ok (c', e) ∧
    ∃ n, n ≤ reads.length ∧ l = (reads.take n).filterMap (fun r => countedAs r.2.2) ∧ (n = reads.length ∨ c'.connected = false) ∧
      ∀ i, i < n → ∃ ci ei, s.readLoop c (reads.take i) = .ok (ci, ei) ∧ ci.connected = true := by
  induction reads generalizing c e l with
  | nil =>
    simp only [Server.meteredLoop, GoRes.ok.injEq, Prod.mk.injEq] at h
    obtain ⟨rfl, rfl, rfl⟩ := h
    exact ⟨rfl, 0, Nat.le_refl _, rfl, .inl rfl, fun i hi => absurd hi (Nat.not_lt_zero i)⟩
  | cons r rest ih =>
    obtain ⟨st1, st2, pkt⟩ := r
    unfold Server.meteredLoop at h
    by_cases hc : c.connected = false
    · rw [if_pos hc] at h
      simp only [GoRes.ok.injEq, Prod.mk.injEq] at h
      obtain ⟨rfl, rfl, rfl⟩ := h
      exact ⟨by simp [Server.readLoop, hc], 0, Nat.zero_le _, rfl, .inr hc, fun i hi => absurd hi (Nat.not_lt_zero i)⟩
    · rw [if_neg hc, GoRes.bind_eq_ok] at h
      obtain ⟨⟨c1, e1, l1⟩, h1, h⟩ := h
      simp only at h
      rw [GoRes.bind_eq_ok] at h
      obtain ⟨⟨c2, e2, l2⟩, h2, h⟩ := h
      simp only [GoRes.pure_eq, GoRes.ok.injEq, Prod.mk.injEq] at h
      obtain ⟨rfl, rfl, rfl⟩ := h
      obtain ⟨hp, hl⟩ := meteredRead_label h1
      obtain ⟨hr, n, hn, hl2, hend, hbefore⟩ := ih _ _ _ h2
      refine ⟨?_, n + 1, by simpa using hn, ?_, hend.imp (by simp) id, ?_⟩
      · unfold Server.readLoop
        rw [if_neg hc, hp]
        change GoRes.bind _ _ = _
        simp only [GoRes.bind]
        rw [hr]
        rfl
      · rw [List.take_succ_cons, List.filterMap_cons, hl, hl2]
        cases countedAs pkt <;> rfl
      · intro i hi
        cases i with
        | zero => exact ⟨c, [], by rw [List.take_zero]; rfl, by simpa using hc⟩
        | succ i =>
          obtain ⟨ci, ei, hri, hci⟩ := hbefore i (by omega)
          refine ⟨ci, e1 ++ ei, ?_, hci⟩
          rw [List.take_succ_cons]
          unfold Server.readLoop
          rw [if_neg hc, hp]
          change GoRes.bind _ _ = _
          simp only [GoRes.bind]
          rw [hri]
          rfl

/-- Three reads: a query, an unknown PDU, which ends the connection, and another query, which is not counted. -/
example : (newServer exCfg 7).meteredLoop exV1 [(exStore, exStore, [1, 2, 0, 0, 0, 0, 0, 8]), (exStore, exStore, [1, 5, 0, 0, 0, 0, 0, 8]), (exStore, exStore, [1, 2, 0, 0, 0, 0, 0, 8])] =
    .ok (exV1.disconnected, (dataAnswer exCfg 7 1 true 0 [exA, exK]).map .send ++ [.disconnect], ["reset_query".toList]) := by decide

/-! ## C131 -/

theorem MHub.foldl_hub (addr : Nat → Str) (l : List Nat) : ∀ h : MHub, (l.foldl (clientDisconnected addr) h).hub = l.foldl Hub.clientDisconnected h.hub := by
  induction l with
  | nil => intro h; rfl
  | cons i l ih => intro h; exact ih _

theorem MHub.step_hub (addr : Nat → Str) (h : MHub) (e : HubEvent) : (h.step addr e).hub = h.hub.step e := by
  cases e with
  | start i =>
    simp only [step, Hub.step]
    split <;> rfl
  | setMax m =>
    simp only [step, Hub.step, Hub.setMaxConnections]
    split
    · rw [foldl_hub]
    · rfl
  | _ => rfl

/-- The gauge does not change what happens to connections. -/
theorem MHub.run_hub (addr : Nat → Str) (l : List HubEvent) : ∀ h : MHub, (h.run addr l).hub = h.hub.run l := by
  induction l with
  | nil => intro h; rfl
  | cons e l ih =>
    intro h
    have := ih (h.step addr e)
    rw [step_hub] at this
    exact this

/-- **C131** in full: for every local address the gauge is the number of connected clients with that address. -/
def GaugeExact : Prop := ∀ (addr : Nat → Str) (m : Int) (l : List HubEvent) (h : Hub) (a : Str), HubReach m l h →
  ((MHub.init m).run addr l).gauge a = (h.clients.filter (fun i => addr i = a)).length

/-- The code does not have this property: one packet can make the server disconnect a router twice (see `C31_double_disconnect_false`), and the gauge becomes -1. -/
theorem C131_double_disconnect_false : ¬ GaugeExact ∧
    ∃ e : List Effect, (newServer exCfg 7).processRead exStore exStore exV1 [0, 1, 0, 0, 0, 0, 0, 12, 0, 0, 0, 0] = .ok (exV1.disconnected, e) ∧
      ∀ (addr : Nat → Str), ((MHub.init 5).run addr ([.accept 0, .start 0] ++ hubEvents 0 e)).gauge (addr 0) = -1 := by
  have r : HubReach 5 [.accept 0, .start 0, .disconnect 0, .disconnect 0] ⟨-1, [], [], 5⟩ :=
    .disconnect (l := [.accept 0, .start 0, .disconnect 0])
      (.disconnect (l := [.accept 0, .start 0]) (.start (l := [.accept 0]) (.accept (l := []) .init (by simp))) (by simp)) (by simp)
  have hg : ∀ (addr : Nat → Str), ((MHub.init 5).run addr [.accept 0, .start 0, .disconnect 0, .disconnect 0]).gauge (addr 0) = -1 := by
    intro addr
    simp [MHub.run, MHub.step, MHub.init, Hub.step, Hub.init, Hub.admits, MHub.clientConnected, MHub.clientDisconnected, Hub.clientConnected, Hub.clientDisconnected]
  refine ⟨fun h => ?_, [.send (.errorReport 1 4 [] (strBytes "Bad protocol version")), .disconnect,
     .send (.errorReport 1 0 [] (strBytes "Session ID mismatch: client is desynchronized")), .disconnect], by decide, hg⟩
  have := h (fun _ => []) 5 _ _ [] r
  rw [hg (fun _ => [])] at this
  simp at this

/-- What is required of events for the gauge to be right: connections have different numbers, a client is disconnected only while it is in the list. SSH is allowed. -/
def GaugeTidyEvent (h : Hub) : HubEvent → Prop
  | .accept i => i ∉ h.clients ∧ i ∉ h.starting
  | .disconnect i => i ∈ h.clients
  | _ => True

/-- All events of a run are so. -/
def GaugeTidy : Hub → List HubEvent → Prop
  | _, [] => True
  | h, e :: l => GaugeTidyEvent h e ∧ GaugeTidy (h.step e) l

/-- The invariant: the gauge is right, and no number is used twice. -/
structure MHub.Right (addr : Nat → Str) (h : MHub) : Prop where
  exact : ∀ a, h.gauge a = (h.hub.clients.filter (fun i => addr i = a)).length
  nodup : (h.hub.clients ++ h.hub.starting).Nodup

theorem MHub.Right.disconnect {addr : Nat → Str} {h : MHub} (ok : h.Right addr) {i : Nat} (hi : i ∈ h.hub.clients) : (h.clientDisconnected addr i).Right addr := by
  have hn := (List.nodup_append.mp ok.nodup).1
  refine ⟨?_, ok.nodup.sublist (List.Sublist.append List.filter_sublist (List.Sublist.refl _))⟩
  intro a
  simp only [clientDisconnected, Hub.clientDisconnected]
  rw [List.filter_filter]
  have hcomm : (h.hub.clients.filter fun j => decide (addr j = a) && decide (j ≠ i)) = (h.hub.clients.filter fun j => decide (addr j = a)).filter (· ≠ i) := by
    rw [List.filter_filter]
    congr 1
    funext j
    exact Bool.and_comm _ _
  by_cases ha : a = addr i
  · rw [if_pos ha, hcomm, filter_ne_length (hn.sublist List.filter_sublist) (List.mem_filter.mpr ⟨hi, by simp [ha]⟩), ok.exact]
  · rw [if_neg ha, hcomm, ok.exact]
    congr 2
    symm
    rw [List.filter_eq_self]
    intro j hj
    simp only [decide_eq_true_eq]
    rintro rfl
    exact ha (of_decide_eq_true (List.mem_filter.mp hj).2).symm

theorem MHub.Right.disconnects {addr : Nat → Str} (n : Nat) : ∀ h : MHub, h.Right addr → ((h.hub.clients.take n).foldl (clientDisconnected addr) h).Right addr := by
  induction n with
  | zero => intro h ok; exact ok
  | succ n ih =>
    intro h ok
    cases hc : h.hub.clients with
    | nil => exact ok
    | cons x xs =>
      have ok' := ok.disconnect (i := x) (by simp [hc])
      have hcl : (h.clientDisconnected addr x).hub.clients = xs := by
        have hnd := (List.nodup_append.mp ok.nodup).1
        rw [hc, List.nodup_cons] at hnd
        simp only [clientDisconnected, Hub.clientDisconnected, hc]
        rw [List.filter_cons_of_neg (by simp), List.filter_eq_self]
        intro y hy
        simp only [decide_eq_true_eq]
        rintro rfl; exact hnd.1 hy
      have := ih _ ok'
      rw [hcl] at this
      exact this

theorem MHub.Right.step {addr : Nat → Str} {h : MHub} (ok : h.Right addr) {e : HubEvent} (he : GaugeTidyEvent h.hub e) : (h.step addr e).Right addr := by
  cases e with
  | accept i =>
    simp only [MHub.step, Hub.step]
    split
    · refine ⟨ok.exact, ?_⟩
      rw [← List.append_assoc]
      refine List.nodup_append.mpr ⟨ok.nodup, by simp, ?_⟩
      intro a ha b hb hab
      simp only [List.mem_singleton] at hb
      subst hab; subst hb
      rcases List.mem_append.mp ha with h | h
      · exact he.1 h
      · exact he.2 h
    · exact ok
  | start i =>
    simp only [MHub.step]
    split
    · rename_i hi
      refine ⟨?_, ?_⟩
      · intro a
        simp only [clientConnected, Hub.clientConnected]
        rw [List.filter_append, List.length_append]
        by_cases ha : a = addr i
        · rw [if_pos ha, ok.exact, List.filter_cons_of_pos (by simp [ha])]
          simp
        · rw [if_neg ha, ok.exact, List.filter_cons_of_neg (by simpa using fun h => ha h.symm)]
          simp
      · have hp : (h.hub.clients ++ h.hub.starting).Perm (h.hub.clients ++ [i] ++ h.hub.starting.erase i) := by
          rw [List.append_assoc]
          exact List.Perm.append_left _ (List.perm_cons_erase hi)
        exact hp.nodup_iff.mp ok.nodup
    · exact ok
  | disconnect i => exact ok.disconnect he
  | sshOpen => exact ⟨ok.exact, ok.nodup⟩
  | sshClose => exact ⟨ok.exact, ok.nodup⟩
  | setMax m =>
    simp only [MHub.step]
    split
    · have := MHub.Right.disconnects (h.hub.counter - m).toNat h ok
      exact ⟨this.exact, this.nodup⟩
    · exact ⟨ok.exact, ok.nodup⟩

/-- **C131**, partial: if every client is disconnected once, the gauge of every local address is the number of connected clients with that address, also with SSH, for which the counter of C31 is wrong.
Missing: repeated disconnects, refuted above. -/
theorem C131_tidy_partial (addr : Nat → Str) {m : Int} {l : List HubEvent} (ht : GaugeTidy (Hub.init m) l) (a : Str) :
    ((MHub.init m).run addr l).gauge a = (((Hub.init m).run l).clients.filter (fun i => addr i = a)).length := by
  have key : ∀ (l : List HubEvent) (h : MHub), h.Right addr → GaugeTidy h.hub l → (h.run addr l).Right addr := by
    intro l
    induction l with
    | nil => intro h ok _; exact ok
    | cons e l ih =>
      intro h ok ht
      exact ih _ (ok.step ht.1) (by rw [MHub.step_hub]; exact ht.2)
  have h := (key l (MHub.init m) ⟨fun _ => rfl, by simp [MHub.init, Hub.init]⟩ ht).exact a
  rw [h, MHub.run_hub]
  rfl

/-- The counter of the server is the sum of the gauges and of the open SSH connections, whatever happens. -/
theorem C131_counter (addr : Nat → Str) (m : Int) (l : List HubEvent) (as : List Str) (hn : as.Nodup) (ha : ∀ i, addr i ∈ as) :
    ((Hub.init m).run l).counter = (as.map ((MHub.init m).run addr l).gauge).sum + ((l.count .sshOpen : Int) - l.count .sshClose) := by
  have hsum : ∀ (as : List Str), as.Nodup → ∀ (b : Str), b ∈ as → ∀ (f : Str → Int) (d : Int), (as.map (fun a => if a = b then f a + d else f a)).sum = (as.map f).sum + d := by
    intro as
    induction as with
    | nil => intro _ b hb; simp at hb
    | cons x xs ih =>
      intro hn b hb f d
      rw [List.nodup_cons] at hn
      simp only [List.map_cons, List.sum_cons]
      by_cases hx : x = b
      · subst hx
        rw [if_pos rfl]
        have : xs.map (fun a => if a = x then f a + d else f a) = xs.map f := by
          apply List.map_congr_left
          intro a ha
          rw [if_neg (fun h : a = x => hn.1 (h ▸ ha))]
        rw [this]
        omega
      · rw [if_neg hx, ih hn.2 b ((List.mem_cons.mp hb).resolve_left (fun h => hx h.symm)) f d]
        omega
  have hdis : ∀ (xs : List Nat) (h : MHub) (k : Int), h.hub.counter = (as.map h.gauge).sum + k →
      (xs.foldl (MHub.clientDisconnected addr) h).hub.counter = (as.map (xs.foldl (MHub.clientDisconnected addr) h).gauge).sum + k := by
    intro xs
    induction xs with
    | nil => intro h k hk; exact hk
    | cons x xs ih =>
      intro h k hk
      refine ih _ k ?_
      simp only [MHub.clientDisconnected, Hub.clientDisconnected]
      have := hsum as hn (addr x) (ha x) h.gauge (-1)
      simp only [← Int.sub_eq_add_neg] at this
      rw [this, hk]
      omega
  have key : ∀ (l : List HubEvent) (h : MHub) (k : Int), h.hub.counter = (as.map h.gauge).sum + k →
      (h.run addr l).hub.counter = (as.map (h.run addr l).gauge).sum + (k + l.count .sshOpen - l.count .sshClose) := by
    intro l
    induction l with
    | nil => intro h k hk; simpa [MHub.run] using hk
    | cons e l ih =>
      intro h k hk
      have step : ∃ k', (h.step addr e).hub.counter = (as.map (h.step addr e).gauge).sum + k' ∧ k' + l.count .sshOpen - l.count .sshClose = k + (e :: l).count .sshOpen - (e :: l).count .sshClose := by
        cases e with
        | accept i =>
          refine ⟨k, ?_, by rw [List.count_cons_of_ne (by simp), List.count_cons_of_ne (by simp)]⟩
          simp only [MHub.step, Hub.step]
          split <;> exact hk
        | start i =>
          refine ⟨k, ?_, by rw [List.count_cons_of_ne (by simp), List.count_cons_of_ne (by simp)]⟩
          simp only [MHub.step]
          split
          · simp only [MHub.clientConnected, Hub.clientConnected]
            rw [hsum as hn (addr i) (ha i) h.gauge 1, hk]
            omega
          · exact hk
        | disconnect i =>
          exact ⟨k, hdis [i] h k hk, by rw [List.count_cons_of_ne (by simp), List.count_cons_of_ne (by simp)]⟩
        | sshOpen =>
          refine ⟨k + 1, ?_, by rw [List.count_cons_self, List.count_cons_of_ne (by simp)]; omega⟩
          simp only [MHub.step, Hub.step]
          omega
        | sshClose =>
          refine ⟨k - 1, ?_, by rw [List.count_cons_self, List.count_cons_of_ne (by simp)]; omega⟩
          simp only [MHub.step, Hub.step]
          omega
        | setMax m =>
          refine ⟨k, ?_, by rw [List.count_cons_of_ne (by simp), List.count_cons_of_ne (by simp)]⟩
          simp only [MHub.step]
          split
          · exact hdis _ h k hk
          · exact hk
      obtain ⟨k', h1, h2⟩ := step
      rw [← h2]
      exact ih _ k' h1
  have h := key l (MHub.init m) 0 (by
    have : (as.map (MHub.init m).gauge).sum = 0 := by
      clear hn ha hsum hdis key
      induction as with
      | nil => rfl
      | cons x xs ih => rw [List.map_cons, List.sum_cons, ih]; rfl
    rw [this]; rfl)
  rw [MHub.run_hub] at h
  rw [show ((Hub.init m).run l).counter = ((MHub.init m).hub.run l).counter from rfl, h]
  omega

/-- Clients on two local addresses, one over SSH. -/
example : GaugeTidy (Hub.init 0) [.accept 0, .start 0, .accept 1, .sshOpen, .start 1, .accept 2, .start 2, .disconnect 0] ∧
    ((MHub.init 0).run (fun i => if i = 1 then "b".toList else "a".toList) [.accept 0, .start 0, .accept 1, .sshOpen, .start 1, .accept 2, .start 2, .disconnect 0]).gauge "a".toList = 1 := by
  refine ⟨?_, by decide⟩
  simp [GaugeTidy, GaugeTidyEvent, Hub.step, Hub.init, Hub.admits, Hub.clientConnected, Hub.clientDisconnected]

end StayRTR
