import Verif.Props.Mon

/-!
# rtrmon with an RTR source: C63 to C65, C91, C92, C95
-/

namespace StayRTR

open Spec MonMap

/-- Data PDUs as events. -/
def dataEvents (l : List (Int × Pdu)) : List MonEvent := l.map fun x => .pdu x.1 x.2

/-- The map has no other names than those of real records. -/
def OnlyReal (m : MonMap) : Prop := ∀ k e, m.get k = some e → ∃ r, RealRec r ∧ recName r = k ∧ entryName e = k ∧ e.visible = true

theorem onlyReal_feed (brk : Bool) (l : List (Int × Pdu)) (c : MonClient) (hd : ∀ x ∈ l, IsData x.2) (hv : ∀ x ∈ l, ∀ r, pduRecord x.2 = some r → RealRec r) (hc : OnlyReal c.vrpsRtr) :
    OnlyReal (monFeed brk c l).vrpsRtr := by
  induction l generalizing c with
  | nil => exact hc
  | cons x l ih =>
    obtain ⟨now, p⟩ := x
    have hp := hd _ List.mem_cons_self
    obtain ⟨r, hr⟩ := Option.isSome_iff_exists.mp hp
    obtain ⟨f, hf⟩ := pduFlag_of_record hr
    obtain ⟨e, he, -, hvis, hname⟩ := monPdu_data now brk c hr hf
    show OnlyReal (monFeed brk (monPdu now brk c p).1 l).vrpsRtr
    rw [he]
    refine ih _ (fun y hy => hd y (List.mem_cons_of_mem _ hy)) (fun y hy => hv y (List.mem_cons_of_mem _ hy)) ?_
    intro k e' hk
    simp only at hk
    rw [record_get] at hk
    by_cases hkr : recName r = k
    · rw [if_pos hkr] at hk
      by_cases hf1 : f = 1
      · rw [if_pos hf1] at hk
        cases hk
        exact ⟨r, hv (now, p) List.mem_cons_self r hr, hkr, by rw [hname, hkr], hvis⟩
      · rw [if_neg hf1] at hk
        cases hk
    · rw [if_neg hkr] at hk
      exact hc k e' hk

/-- The state after End of Data. -/
theorem step_endOfData (brk : Bool) (c : MonClient) (v : U8) (now : Int) (pv : U8) (sid : U16) (n refresh retry expire : U32) :
    (MonState.step brk ⟨c, ⟨v, true⟩, false⟩ (.pdu now (.endOfData pv sid n refresh retry expire))).1.client =
      { c with serial := n, vrps := c.vrpsRtr, rtrRefresh := refresh, rtrRetry := retry, rtrExpire := expire, lastUpdate := some now } := by
  cases brk <;> rfl

/-! ## C63: the view -/

/-- **C63** (partial: records with a real prefix). In a session, after any data PDUs the view has exactly the records whose last PDU announced them, or that were there before and were not mentioned; what is published is
untouched until End of Data, which publishes exactly the view. -/
theorem C63_view_partial (brk : Bool) (s : MonState) (l : List (Int × Pdu)) (hc : s.session.connected = true) (he : s.ended = false) (hd : ∀ x ∈ l, IsData x.2)
    (hv : ∀ x ∈ l, ∀ r, pduRecord x.2 = some r → RealRec r) (hs : OnlyReal s.client.vrpsRtr)
    (now : Int) (pv : U8) (sid : U16) (n refresh retry expire : U32) :
    let s1 := (s.run brk (dataEvents l)).1
    let s2 := (s1.step brk (.pdu now (.endOfData pv sid n refresh retry expire))).1
    s1.client.vrps = s.client.vrps ∧ s2.client.vrps = s1.client.vrpsRtr ∧ s2.client.serial = n ∧ OnlyReal s2.client.vrps ∧
    ∀ r, RealRec r → (Holds s2.client.vrps r ↔ HeldAfter (Holds s.client.vrpsRtr) (l.map (·.2)) r) := by
  obtain ⟨v, hrun⟩ := run_data brk s l hc he hd
  have hoth : (monFeed brk s.client l).vrps = s.client.vrps := by have := congrArg MonClient.vrps (monFeed_others brk l s.client hd); exact this
  simp only
  rw [show dataEvents l = l.map fun x => MonEvent.pdu x.1 x.2 from rfl, hrun]
  simp only
  rw [step_endOfData]
  refine ⟨hoth, rfl, rfl, onlyReal_feed brk l s.client hd hv hs, fun r hr => ?_⟩
  exact monFeed_holds brk l s.client hd hv r hr

/-- **C63.** It does not hold for records whose prefix length is too large: they all have the same name. Two different records are announced, one of them is withdrawn, and neither is left. The bytes are decoded as such PDUs. -/
theorem C63_view_false : ∃ (p1 p2 p3 : Pdu) (b1 b2 : Bytes), decode b1 = .ok (p1, []) ∧ decode b2 = .ok (p2, []) ∧ pduRecord p1 ≠ pduRecord p2 ∧ pduRecord p3 = pduRecord p2 ∧
    pduFlag p1 = some 1 ∧ pduFlag p2 = some 1 ∧ pduFlag p3 = some 0 ∧
    ((MonState.run false MonState.init (.connect :: dataEvents [(0, p1), (0, p2), (0, p3)])).1.client.vrpsRtr = []) := by
  refine ⟨.ipv4Prefix 1 1 ⟨.v4 0x0a000000, 0⟩ 33 1, .ipv4Prefix 1 1 ⟨.v4 0x0b000000, 0⟩ 33 1, .ipv4Prefix 1 0 ⟨.v4 0x0b000000, 0⟩ 33 1,
    [1, 4, 0, 0, 0, 0, 0, 20, 1, 33, 33, 0, 10, 0, 0, 0, 0, 0, 0, 1], [1, 4, 0, 0, 0, 0, 0, 20, 1, 33, 33, 0, 11, 0, 0, 0, 0, 0, 0, 1], ?_⟩
  decide +kernel

/-- A data PDU for the examples. -/
def exPdu (flag : U8) (n : U32) : Pdu := .ipv4Prefix 1 flag ⟨.v4 0x0a000000, 9⟩ 24 n

/-- Announced, withdrawn, announced again; announced and withdrawn: the hypotheses are met and the view has one record. -/
example : let l : List (Int × Pdu) := [(1, exPdu 1 1), (2, exPdu 1 2), (3, exPdu 0 1), (4, exPdu 1 1), (5, exPdu 0 2)]
    (∀ x ∈ l, (pduRecord x.2).isSome = true) ∧
    ((MonState.run false MonState.init (.connect :: dataEvents l)).1.client.vrpsRtr.map (·.1)) = ["10.0.0.0/8-24-1".toList] := by decide +kernel

/-! ## C64: reconnecting -/

/-- A full answer: Cache Response, announcements, End of Data. -/
def fullSync (now : Int) (sid : U16) (n : U32) (l : List (Int × Pdu)) : List MonEvent :=
  .connect :: .pdu now (.cacheResponse 1 sid) :: dataEvents l ++ [.pdu now (.endOfData 1 sid n 3600 600 7200)]

theorem fullSync_client (brk : Bool) (s : MonState) (hc : s.session.connected = false) (he : s.ended = false) (now : Int) (sid : U16) (n : U32) (l : List (Int × Pdu)) (hd : ∀ x ∈ l, IsData x.2) :
    (s.run brk (fullSync now sid n l)).1.client.vrps = (monFeed brk { s.client with sessionID := sid } l).vrpsRtr := by
  have h1 : ∃ v, (s.run brk [.connect, .pdu now (.cacheResponse 1 sid)]).1 = ⟨{ s.client with sessionID := sid }, ⟨v, true⟩, false⟩ := by
    obtain ⟨c, ⟨v, cn⟩, en⟩ := s
    simp only at hc he
    subst hc he
    exact ⟨1, rfl⟩
  obtain ⟨v, h1⟩ := h1
  have e : fullSync now sid n l = [.connect, .pdu now (.cacheResponse 1 sid)] ++ (dataEvents l ++ [.pdu now (.endOfData 1 sid n 3600 600 7200)]) := rfl
  rw [e, run_append, run_append, h1]
  obtain ⟨v', h2⟩ := run_data brk ⟨{ s.client with sessionID := sid }, ⟨v, true⟩, false⟩ l rfl rfl hd
  simp only
  rw [show dataEvents l = l.map fun x => MonEvent.pdu x.1 x.2 from rfl, h2]
  simp only [MonState.run]
  have := congrArg MonClient.vrps (step_endOfData brk (monFeed brk { s.client with sessionID := sid } l) v' now 1 sid n 3600 600 7200)
  exact this

theorem heldAfter_announced {held : Rec → Prop} {ps : List Pdu} (h : ∀ p ∈ ps, pduFlag p = some 1) (r : Rec) : HeldAfter held ps r ↔ held r ∨ r ∈ ps.filterMap pduRecord := by
  unfold HeldAfter lastAbout
  cases hl : (ps.filter fun p => decide (pduRecord p = some r)).getLast? with
  | some p =>
    have hm := List.mem_of_getLast? hl
    rw [List.mem_filter, decide_eq_true_eq] at hm
    simp only [h p hm.1, true_iff]
    exact .inr (List.mem_filterMap.mpr ⟨p, hm.1, hm.2⟩)
  | none =>
    rw [List.getLast?_eq_none_iff, List.filter_eq_nil_iff] at hl
    simp only
    constructor
    · exact .inl
    · rintro (h | h)
      · exact h
      · obtain ⟨p, hp, hr⟩ := List.mem_filterMap.mp h
        exact absurd hr (by simpa using hl p hp)

/-- **C64** (partial: the view of the session before is not thrown away). After a new session with a full answer, the published set is the server's set together with the view of the sessions before. -/
theorem C64_union_partial (brk : Bool) (s : MonState) (hc : s.session.connected = false) (he : s.ended = false) (now : Int) (sid : U16) (n : U32) (l : List (Int × Pdu)) (hd : ∀ x ∈ l, IsData x.2)
    (hv : ∀ x ∈ l, ∀ r, pduRecord x.2 = some r → RealRec r) (hf : ∀ x ∈ l, pduFlag x.2 = some 1) (r : Rec) (hr : RealRec r) :
    Holds (s.run brk (fullSync now sid n l)).1.client.vrps r ↔ Holds s.client.vrpsRtr r ∨ r ∈ l.filterMap (fun x => pduRecord x.2) := by
  rw [fullSync_client brk s hc he now sid n l hd, monFeed_holds brk l _ hd hv r hr, heldAfter_announced]
  · rw [List.filterMap_map]
    rfl
  · intro p hp
    obtain ⟨x, hx, rfl⟩ := List.mem_map.mp hp
    exact hf x hx

/-- **C64** (partial). So it is the server's set when the server still has everything of the view: in particular in the first session. -/
theorem C64_exact_partial (brk : Bool) (s : MonState) (hc : s.session.connected = false) (he : s.ended = false) (now : Int) (sid : U16) (n : U32) (l : List (Int × Pdu)) (hd : ∀ x ∈ l, IsData x.2)
    (hv : ∀ x ∈ l, ∀ r, pduRecord x.2 = some r → RealRec r) (hf : ∀ x ∈ l, pduFlag x.2 = some 1)
    (hold : ∀ r, RealRec r → Holds s.client.vrpsRtr r → r ∈ l.filterMap (fun x => pduRecord x.2)) (r : Rec) (hr : RealRec r) :
    Holds (s.run brk (fullSync now sid n l)).1.client.vrps r ↔ r ∈ l.filterMap (fun x => pduRecord x.2) := by
  rw [C64_union_partial brk s hc he now sid n l hd hv hf r hr]
  exact ⟨fun h => h.elim (hold r hr) id, .inr⟩

/-- **C64.** It fails in general: with `-primary.rtr.break`, the server has records 1 and 2 in the first session and only record 1 in the second; the monitor publishes both for ever. -/
theorem C64_exact_false : ∃ (l1 l2 : List (Int × Pdu)), (∀ x ∈ l2, pduFlag x.2 = some 1) ∧ l2.length = 1 ∧
    ((MonState.run true MonState.init (fullSync 10 7 1 l1 ++ fullSync 20 7 2 l2)).1.client.vrps.map (·.1)) = ["10.0.0.0/8-24-1".toList, "10.0.0.0/8-24-2".toList] :=
  ⟨[(10, exPdu 1 1), (10, exPdu 1 2)], [(20, exPdu 1 1)], by decide +kernel⟩

/-- The first session starts without a session and with an empty view. -/
example : MonState.init.session.connected = false ∧ MonState.init.ended = false ∧ MonState.init.client.vrpsRtr = [] := by decide

/-! ## C65: Cache Reset -/

/-- A Reset Query. -/
def IsReset : Pdu → Prop
  | .resetQuery _ => True
  | _ => False

theorem isReset_setVersion (p : Pdu) (v : U8) : IsReset (p.setVersion v) ↔ IsReset p := by cases p <;> exact .rfl

/-- **C65** (partial: there is no resynchronisation within a session). A new session starts with exactly one Reset Query, of version 1. -/
theorem C65_connect_partial (brk : Bool) (s : MonState) (hc : s.session.connected = false) (he : s.ended = false) : (s.step brk .connect).2 = [.resetQuery 1] ∧ (s.step brk .connect).1.session = ⟨1, true⟩ := by
  obtain ⟨c, ⟨v, cn⟩, en⟩ := s
  simp only at hc he
  subst hc he
  exact ⟨rfl, rfl⟩

/-- **C65.** Nothing else makes the monitor send a Reset Query: whatever is received and however long it waits, without a new session only Serial Queries are sent. So a Cache Reset is never followed up. -/
theorem C65_never_false (brk : Bool) (s : MonState) (es : List MonEvent) (hc : s.session.connected = true) (hno : ∀ e ∈ es, e ≠ .connect) : ∀ p ∈ (s.run brk es).2, ¬ IsReset p := by
  clear hc
  induction es generalizing s with
  | nil => intro p hp; cases hp
  | cons e es ih =>
    intro p hp
    simp only [MonState.run] at hp
    rcases List.mem_append.mp hp with hp | hp
    · have hne := hno e List.mem_cons_self
      unfold MonState.step at hp
      split at hp
      · cases hp
      · cases e with
        | connect => exact absurd rfl hne
        | connectFails => simp only at hp; split at hp <;> cases hp
        | lost => simp only at hp; split at hp <;> cases hp
        | timer =>
          simp only at hp
          split at hp
          · simp only [CSession.act, List.mem_singleton] at hp
            subst hp
            exact fun h => h
          · cases hp
        | pdu now q =>
          simp only at hp
          split at hp
          · exfalso
            revert hp
            unfold CSession.onPdu
            cases q <;> simp [monPdu, CSession.act]
            split <;> simp [CSession.act]
          · cases hp
    · exact ih _ (fun e he => hno e (List.mem_cons_of_mem _ he)) p hp

/-- **C65.** A concrete session: the server answers the Serial Query with Cache Reset, and from then on gets the same Serial Query again and again; the published data stay as they are. -/
theorem C65_stuck_false (n : Nat) : let s := (MonState.run false MonState.init (fullSync 10 7 1 [(10, exPdu 1 1)])).1
    (s.run false ((List.replicate n [MonEvent.timer, .pdu 20 (.cacheReset 1)]).flatten)) = (s, List.replicate n (.serialQuery 1 7 1)) := by
  intro s
  induction n with
  | zero => rfl
  | succ n ih =>
    rw [List.replicate_succ, List.flatten_cons, run_append]
    have h : s.run false [MonEvent.timer, .pdu 20 (.cacheReset 1)] = (s, [.serialQuery 1 7 1]) := by decide +kernel
    rw [h]
    simp only
    rw [ih]
    rfl

/-! ## C91: first seen -/

/-- **C91** (partial: no other PDU about the record). Within a session the first-seen time of a record is the time of its announcement, until another PDU about it arrives. -/
theorem C91_kept_partial (brk : Bool) (c : MonClient) (now : Int) (p : Pdu) (r : Rec) (hp : pduRecord p = some r) (hf : pduFlag p = some 1) (hr : RealRec r)
    (l : List (Int × Pdu)) (hd : ∀ x ∈ l, IsData x.2) (hv : ∀ x ∈ l, ∀ r', pduRecord x.2 = some r' → RealRec r' ∧ r' ≠ r) :
    ∃ e, (monFeed brk c ((now, p) :: l)).vrpsRtr.get (recName r) = some e ∧ e.firstSeen = now := by
  have key : ∀ (l : List (Int × Pdu)) (c : MonClient), (∀ x ∈ l, IsData x.2) → (∀ x ∈ l, ∀ r', pduRecord x.2 = some r' → RealRec r' ∧ r' ≠ r) →
      (monFeed brk c l).vrpsRtr.get (recName r) = c.vrpsRtr.get (recName r) := by
    intro l
    induction l with
    | nil => intro c _ _; rfl
    | cons x l ih =>
      intro c hd hv
      obtain ⟨t, q⟩ := x
      obtain ⟨r', hr'⟩ := Option.isSome_iff_exists.mp (hd _ List.mem_cons_self)
      obtain ⟨f, hf'⟩ := pduFlag_of_record hr'
      obtain ⟨e, he, -⟩ := monPdu_data t brk c hr' hf'
      show (monFeed brk (monPdu t brk c q).1 l).vrpsRtr.get (recName r) = _
      rw [ih _ (fun y hy => hd y (List.mem_cons_of_mem _ hy)) (fun y hy => hv y (List.mem_cons_of_mem _ hy)), he]
      obtain ⟨h1, h2⟩ := hv _ List.mem_cons_self r' hr'
      simp only
      rw [record_get, if_neg]
      intro h
      exact h2 (recName_inj h1 hr h)
  obtain ⟨e, he, h1, -⟩ := monPdu_data now brk c hp hf
  refine ⟨e, ?_, h1⟩
  show (monFeed brk (monPdu now brk c p).1 l).vrpsRtr.get (recName r) = _
  rw [key l _ hd hv, he]
  simp only
  rw [record_get, if_pos rfl, if_pos rfl]

/-- **C91.** Over sessions it fails: a record the server has announced at 1000 and still announces at 5000 is first seen at 5000, so it is not counted for any threshold above zero, though the other source never had it. -/
theorem C91_first_seen_false : let s := (MonState.run true MonState.init (fullSync 1000 7 1 [(1000, exPdu 1 1)] ++ fullSync 5000 7 1 [(5000, exPdu 1 1)])).1
    (s.client.vrps.map fun x => (x.1, x.2.firstSeen)) = [("10.0.0.0/8-24-1".toList, 5000)] ∧ countUnmatched (monDiff s.client.vrps []) [] (5000 - 56) = 0 ∧
    countUnmatched (monDiff s.client.vrps []) [] 5000 = 1 := by decide +kernel

/-! ## C92: a lost connection -/

theorem ended_stays (brk : Bool) (s : MonState) (he : s.ended = true) (es : List MonEvent) : s.run brk es = (s, []) := by
  induction es with
  | nil => rfl
  | cons e es ih =>
    simp only [MonState.run, MonState.step, he, if_true]
    rw [ih]
    rfl

/-- **C92.** It fails: when the connection is lost, or a new one cannot be made, the program ends; nothing happens afterwards, for either source. -/
theorem C92_lost_false (brk : Bool) (s : MonState) (he : s.ended = false) (e : MonEvent) (hl : (e = .lost ∧ s.session.connected = true) ∨ (e = .connectFails ∧ s.session.connected = false)) (es : List MonEvent) :
    (s.run brk (e :: es)).1.ended = true ∧ (s.run brk (e :: es)).2 = [] ∧ (s.run brk (e :: es)).1.client = s.client := by
  have h1 : (s.step brk e).1.ended = true ∧ (s.step brk e).2 = [] ∧ (s.step brk e).1.client = s.client := by
    rcases hl with ⟨rfl, h⟩ | ⟨rfl, h⟩ <;> simp [MonState.step, he, h]
  simp only [MonState.run]
  rw [ended_stays brk _ h1.1]
  exact ⟨h1.1, by simp [h1.2.1], h1.2.2⟩

/-- **C92** (partial: the server says goodbye with an Error Report). After an Error Report the monitor goes on: it disconnects, and the next session starts with a Reset Query; the published data stay. -/
theorem C92_error_partial (brk : Bool) (s : MonState) (he : s.ended = false) (hc : s.session.connected = true) (now : Int) (v : U8) (code : U16) (b m : Bytes) :
    let s1 := (s.step brk (.pdu now (.errorReport v code b m))).1
    s1.ended = false ∧ s1.session.connected = false ∧ s1.client = s.client ∧ (s1.step brk .connect).2 = [.resetQuery 1] ∧ (s1.step brk .connect).1.session = ⟨1, true⟩ := by
  have h : (s.step brk (.pdu now (.errorReport v code b m))).1.ended = false ∧ (s.step brk (.pdu now (.errorReport v code b m))).1.session.connected = false ∧
      (s.step brk (.pdu now (.errorReport v code b m))).1.client = s.client := by
    simp [MonState.step, he, hc, CSession.onPdu, monPdu, CSession.act]
  exact ⟨h.1, h.2.1, h.2.2, C65_connect_partial brk _ h.2.1 h.1⟩

/-! ## C95: withdrawals over RTR -/

/-- **C95.** With an RTR source `vrp_diff` does not have its meaning: a record that both sources had for hours and that the RTR source withdrew at this very moment is counted as missing there for every threshold. -/
theorem C95_rtr_false : let s := (MonState.run false MonState.init (fullSync 0 7 1 [(0, .ipv4Prefix 1 1 ⟨.v4 0x0a000000, 9⟩ 8 1)] ++
      [.pdu 9999 (.ipv4Prefix 1 0 ⟨.v4 0x0a000000, 9⟩ 8 1), .pdu 9999 (.endOfData 1 7 2 3600 600 7200)])).1
    let m := mapAfter (fun _ => 0) 3600 [(9999, .unchanged), (0, .file [exFileA] [])]
    ∀ v ∈ defaultThresholds, countUnmatched (monDiff m s.client.vrps) s.client.vrps (9999 - v) = 1 := by decide +kernel

end StayRTR
