import Verif.Spec.Router
import Verif.Props.Session

/-! Lemmas about a router in contact with stayrtr. -/

namespace StayRTR.Spec

open Contact

/-- A router of version `v` and a server that accepts it. -/
structure Setup (cfg : ServerConfig) (sid : U16) (c0 : Client) (v : U8) : Prop where
  transport : c0 = (newServer cfg sid).acceptClientTCP ∨ c0 = (newServer cfg sid).acceptClientSSH
  supported : v = 0 ∨ v = 1
  le : v.toNat ≤ cfg.protocolVersion.toNat
  enforced : cfg.enforceVersion = true → v = cfg.protocolVersion

/-- The state of the connection. -/
structure ConnGood (cfg : ServerConfig) (sid : U16) (c0 : Client) (v : U8) (c : Client) : Prop where
  conn : Conn (newServer cfg sid) c
  up : c.connected = true
  acc : Acceptable c v
  keys : c.dontSendBGPsecKeys = c0.dontSendBGPsecKeys

theorem Setup.good {cfg : ServerConfig} {sid : U16} {c0 : Client} {v : U8} (h : Setup cfg sid c0 v) : ConnGood cfg sid c0 v c0 := by
  have hb : (newServer cfg sid).enforceVersion = cfg.enforceVersion := rfl
  rcases h.transport with rfl | rfl
  · refine ⟨.inl .accepted, ?_, ⟨h.supported, ?_⟩, rfl⟩
    · unfold Server.acceptClientTCP; rfl
    · have := h.enforced
      unfold Server.acceptClientTCP
      rw [hb]
      cases he : cfg.enforceVersion <;> cases (newServer cfg sid).disableBGPSec <;> simp [Client.fresh, Client.setVersion, newServer_base]
      · exact this he
      · exact this he
  · refine ⟨.inr .accepted, ?_, ⟨h.supported, ?_⟩, rfl⟩
    · unfold Server.acceptClientSSH; rfl
    · have := h.enforced
      unfold Server.acceptClientSSH
      rw [hb]
      cases he : cfg.enforceVersion <;> simp [Client.fresh, Client.setVersion, newServer_base]
      exact this he

theorem query_packet (v : U8) (r : Router) : decodeBytes (packet (r.query v)) = .ok (r.query v) := by
  have key : ∀ p : Pdu, Representable p → received p = p → decodeBytes (packet p) = .ok p := by
    intro p hp hr
    obtain ⟨b, hb, hd⟩ := C02_decode_encode p hp []
    rw [List.append_nil] at hd
    unfold packet decodeBytes
    rw [hb]
    dsimp only
    rw [hd, hr]
    rfl
  unfold Router.query
  cases r.synced with
  | none => exact key _ trivial rfl
  | some x => exact key _ trivial rfl

/-- What the server answers. -/
inductive Answered (cfg : ServerConfig) (sid : U16) (v : U8) (keys : Bool) (r : Router) (st1 st2 : Store) : List Pdu → Prop
  | noData (text : Bytes) (h : st1.current = []) : Answered cfg sid v keys r st1 st2 [.errorReport v 2 [] text]
  | full (h : st1.current ≠ []) (hs : r.synced = none) : Answered cfg sid v keys r st1 st2 (dataAnswer cfg sid v keys st1.serial st2.current)
  | diff (h : st1.current ≠ []) {ss : U16} {n : U32} (hs : r.synced = some (ss, n)) (d : List SD) (hd : st2.getSDsSerialDiff n = .ok (some d)) :
      Answered cfg sid v keys r st1 st2 (dataAnswer cfg sid v keys st1.serial d)
  | reset (h : st1.current ≠ []) {ss : U16} {n : U32} (hs : r.synced = some (ss, n)) (hd : st2.getSDsSerialDiff n = .ok none) :
      Answered cfg sid v keys r st1 st2 [.cacheReset v]

theorem diff_total (st : Store) (n : U32) : ∃ o, st.getSDsSerialDiff n = .ok o := by
  rw [getSDsSerialDiff_eq]
  split
  · exact ⟨_, rfl⟩
  · split
    · exact ⟨_, rfl⟩
    · exact ⟨_, rfl⟩

theorem answered {cfg : ServerConfig} {sid : U16} {c0 c : Client} {v : U8} (h : Setup cfg sid c0 v) (g : ConnGood cfg sid c0 v c) (r : Router) (hs : ∀ ss n, r.synced = some (ss, n) → ss = sessionOf sid v)
    (st1 st2 : Store) :
    ∃ c' ps, (newServer cfg sid).processRead st1 st2 c (packet (r.query v)) = .ok (c', ps.map Effect.send) ∧ ConnGood cfg sid c0 v c' ∧ Answered cfg sid v (!c0.dontSendBGPsecKeys) r st1 st2 ps := by
  have ok := g.conn.ok
  have hq := query_packet v r
  have hl : lower v (newServer cfg sid).baseVersion = v := lower_le h.le
  have hgv : (r.query v).getVersion = v := by unfold Router.query; cases r.synced <;> rfl
  have ha : Acceptable c (r.query v).getVersion := by rw [hgv]; exact g.acc
  have hver : (negotiated (newServer cfg sid) c (r.query v)).version = v := by rw [negotiated_version, hgv, hl]
  have okn := ok.negotiated ha
  have hkeys : (negotiated (newServer cfg sid) c (r.query v)).dontSendBGPsecKeys = c0.dontSendBGPsecKeys := by rw [negotiated_keys, g.keys]
  suffices key : ∃ ps, (newServer cfg sid).passSimpleHandler st1 st2 (negotiated (newServer cfg sid) c (r.query v)) (r.query v) = .ok (ps.map Effect.send) ∧
      Answered cfg sid v (!c0.dontSendBGPsecKeys) r st1 st2 ps by
    obtain ⟨ps, hp, han⟩ := key
    have hread : (newServer cfg sid).processRead st1 st2 c (packet (r.query v)) = .ok (negotiated (newServer cfg sid) c (r.query v), ps.map Effect.send) := by
      rw [processRead_pdu hq, processPdu_acceptable ok ha, hp]
      simp [GoRes.bind, drops_map_send]
    refine ⟨_, ps, hread, ⟨?_, ?_, ⟨h.supported, fun _ => hver.symm⟩, hkeys⟩, han⟩
    · rcases g.conn with hc | hc
      · exact .inl (.read hc g.up st1 st2 _ hread)
      · exact .inr (.read hc g.up st1 st2 _ hread)
    · rw [negotiated_connected]; exact g.up
  have herr : ∀ c : Client, c.sendNoDataError = Effect.send (.errorReport c.version 2 [] (strBytes "No data available")) := fun _ => rfl
  cases hsy : r.synced with
  | none =>
    have hqe : r.query v = .resetQuery v := by unfold Router.query; rw [hsy]
    rw [hqe] at hver okn hkeys ⊢
    simp only [Server.passSimpleHandler, requestCache_eq okn]
    by_cases he : st1.current = []
    · rw [if_pos he, herr, hver]; exact ⟨_, rfl, .noData _ he⟩
    · rw [if_neg he, hver, hkeys]; exact ⟨_, rfl, .full he hsy⟩
  | some x =>
    obtain ⟨ss, n⟩ := x
    have hqe : r.query v = .serialQuery v ss n := by unfold Router.query; rw [hsy]
    have := hs ss n hsy
    subst this
    rw [hqe] at hver okn hkeys ⊢
    have hr := requestNewVersion_eq okn st1 st2 n
    rw [hver] at hr
    simp only [Server.passSimpleHandler, hr]
    by_cases he : st1.current = []
    · rw [if_pos he, herr, hver]; exact ⟨_, rfl, .noData _ he⟩
    · rw [if_neg he]
      obtain ⟨o, ho⟩ := diff_total st2 n
      rw [ho]
      cases o with
      | none =>
        refine ⟨[.cacheReset v], ?_, .reset he hsy ho⟩
        simp only [GoRes.bind]
        unfold Client.sendCacheReset Client.sendPDU
        rw [hver]; rfl
      | some d =>
        refine ⟨_, ?_, .diff he hsy d ho⟩
        simp only [GoRes.bind, hkeys]

/-! ## Receiving -/

/-- The records after the data of an answer. -/
def noteAll (v : U8) (keys : Bool) (l : List Rec) (d : List SD) : List Rec := (d.filterMap (dataPdu v keys)).foldl (fun l p => Router.note p l) l

theorem receive_data {v : U8} {keys : Bool} {d : List SD} {p : Pdu} (hp : p ∈ d.filterMap (dataPdu v keys)) (r : Router) : r.receive p = { r with coming := r.coming.map (Router.note p) } := by
  obtain ⟨x, _, hx⟩ := List.mem_filterMap.1 hp
  rcases x with ⟨⟨(_ | a | a), n⟩, asn, ml, fl⟩ | ⟨asn, pk, ski, fl⟩ <;> simp only [dataPdu] at hx
  · cases hx
  · cases hx; rfl
  · cases hx; rfl
  · split at hx
    · cases hx; rfl
    · cases hx

theorem receive_list (ps : List Pdu) (hp : ∀ p ∈ ps, ∀ r : Router, r.receive p = { r with coming := r.coming.map (Router.note p) }) (r : Router) (l : List Rec) (hc : r.coming = some l) :
    ps.foldl Router.receive r = { r with coming := some (ps.foldl (fun l p => Router.note p l) l) } := by
  induction ps generalizing r l with
  | nil => cases r; simp_all
  | cons p ps ih =>
    rw [List.foldl_cons, List.foldl_cons, hp p List.mem_cons_self, ih (fun q hq => hp q (List.mem_cons_of_mem _ hq)) _ (Router.note p l) (by rw [hc]; rfl)]

/-- A whole data answer. -/
theorem receive_answer (cfg : ServerConfig) (sid : U16) (v : U8) (keys : Bool) (serial : U32) (d : List SD) (r : Router) :
    (dataAnswer cfg sid v keys serial d).foldl Router.receive r = ⟨noteAll v keys (if r.synced.isSome then r.held else []) d, some (sessionOf sid v, serial), none⟩ := by
  unfold dataAnswer
  rw [List.cons_append, List.foldl_cons, List.foldl_append,
    receive_list _ (fun p hp r => receive_data hp r) (r.receive (.cacheResponse v (sessionOf sid v))) (if r.synced.isSome then r.held else []) rfl]
  rfl

/-- A part of it. -/
theorem receive_part {v : U8} {keys : Bool} {s : U16} (d : List SD) (n : Nat) (r : Router) (hc : r.coming = none) :
    (((.cacheResponse v s :: d.filterMap (dataPdu v keys)).take n).foldl Router.receive r).lost = r := by
  cases n with
  | zero => cases r; simp_all [Router.lost]
  | succ n =>
    rw [List.take_succ_cons, List.foldl_cons,
      receive_list _ (fun p hp r => receive_data (List.mem_of_mem_take hp) r) (r.receive (.cacheResponse v s)) (if r.synced.isSome then r.held else []) rfl]
    cases r
    simp_all [Router.lost, Router.receive]

theorem any_end_part {v : U8} {keys : Bool} {s : U16} (d : List SD) (n : Nat) : ((.cacheResponse v s :: d.filterMap (dataPdu v keys)).take n).any isEnd = false := by
  rw [List.any_eq_false]
  intro p hp
  rcases List.mem_cons.1 (List.mem_of_mem_take hp) with rfl | hp
  · simp [isEnd]
  · obtain ⟨x, _, hx⟩ := List.mem_filterMap.1 hp
    rcases x with ⟨⟨(_ | a | a), n⟩, asn, ml, fl⟩ | ⟨asn, pk, ski, fl⟩ <;> simp only [dataPdu] at hx
    · cases hx
    · cases hx; simp [isEnd]
    · cases hx; simp [isEnd]
    · split at hx
      · cases hx; simp [isEnd]
      · cases hx

/-- What a poll comes to. -/
inductive Polled (sid : U16) (v : U8) (keys : Bool) (s s' : Contact) (arrives : Option Nat) : Router → Nat → Prop
  | nothing (h : arrives = none → s.store.current = []) : Polled sid v keys s s' arrives s.router s'.behind
  | reset (h : s.store.current ≠ []) {ss : U16} {n : U32} (hs : s.router.synced = some (ss, n)) (hd : s'.store.getSDsSerialDiff n = .ok none) :
      Polled sid v keys s s' arrives { s.router with synced := none } s'.behind
  | full (h : s.store.current ≠ []) (hs : s.router.synced = none) :
      Polled sid v keys s s' arrives ⟨noteAll v keys [] s'.store.current, some (sessionOf sid v, s.store.serial), none⟩ (s'.behind - s.behind)
  | diff (h : s.store.current ≠ []) {ss : U16} {n : U32} (hs : s.router.synced = some (ss, n)) (d : List SD) (hd : s'.store.getSDsSerialDiff n = .ok (some d)) :
      Polled sid v keys s s' arrives ⟨noteAll v keys s.router.held d, some (sessionOf sid v, s.store.serial), none⟩ (s'.behind - s.behind)

theorem polled {cfg : ServerConfig} {sid : U16} {c0 : Client} {v : U8} (h : Setup cfg sid c0 v) {s : Contact} (g : ConnGood cfg sid c0 v s.conn) (hs : ∀ ss n, s.router.synced = some (ss, n) → ss = sessionOf sid v)
    (hc : s.router.coming = none) (between : List (List SD)) (arrives : Option Nat) :
    (s.step (newServer cfg sid) c0 v (.poll between arrives)).store = (between.foldl update s).store ∧ ConnGood cfg sid c0 v (s.step (newServer cfg sid) c0 v (.poll between arrives)).conn ∧
      (s.step (newServer cfg sid) c0 v (.poll between arrives)).router.coming = none ∧
      Polled sid v (!c0.dontSendBGPsecKeys) s (between.foldl update s) arrives (s.step (newServer cfg sid) c0 v (.poll between arrives)).router (s.step (newServer cfg sid) c0 v (.poll between arrives)).behind := by
  obtain ⟨c', ps, hread, g', han⟩ := answered h g s.router hs s.store (between.foldl update s).store
  have hlost : s.router.lost = s.router := by rcases hr : s.router with ⟨a, b, c⟩; rw [hr] at hc; simp only at hc; subst hc; rfl
  -- an answer of one PDU that is no End of Data
  have single : ∀ (p : Pdu), ps = [p] → isEnd p = false →
      (s.step (newServer cfg sid) c0 v (.poll between arrives)).store = (between.foldl update s).store ∧ ConnGood cfg sid c0 v (s.step (newServer cfg sid) c0 v (.poll between arrives)).conn ∧
      (s.step (newServer cfg sid) c0 v (.poll between arrives)).behind = (between.foldl update s).behind ∧
      ((s.step (newServer cfg sid) c0 v (.poll between arrives)).router = s.router ∧ arrives ≠ none ∨ (s.step (newServer cfg sid) c0 v (.poll between arrives)).router = s.router.receive p ∨
        (s.step (newServer cfg sid) c0 v (.poll between arrives)).router = (s.router.receive p).lost) := by
    intro p hps he
    subst hps
    unfold Contact.step
    simp only [hread, sent_map_send]
    cases arrives with
    | none =>
      simp only [g'.up, and_self, if_true]
      exact ⟨trivial, g', by simp [he], .inr (.inl rfl)⟩
    | some n =>
      simp only [reduceCtorEq, false_and, if_false, ne_eq, not_false_eq_true, and_true]
      refine ⟨trivial, h.good, ?_, ?_⟩
      · cases n with
        | zero => simp
        | succ n => simp [he]
      · cases n with
        | zero => exact .inl hlost
        | succ n => exact .inr (.inr (by simp))
  -- an answer with data
  have data : ∀ (serial : U32) (d : List SD), ps = dataAnswer cfg sid v (!c0.dontSendBGPsecKeys) serial d →
      (s.step (newServer cfg sid) c0 v (.poll between arrives)).store = (between.foldl update s).store ∧ ConnGood cfg sid c0 v (s.step (newServer cfg sid) c0 v (.poll between arrives)).conn ∧
      ((s.step (newServer cfg sid) c0 v (.poll between arrives)).router = s.router ∧ arrives ≠ none ∧ (s.step (newServer cfg sid) c0 v (.poll between arrives)).behind = (between.foldl update s).behind ∨
        (s.step (newServer cfg sid) c0 v (.poll between arrives)).router = ⟨noteAll v (!c0.dontSendBGPsecKeys) (if s.router.synced.isSome then s.router.held else []) d, some (sessionOf sid v, serial), none⟩ ∧
          (s.step (newServer cfg sid) c0 v (.poll between arrives)).behind = (between.foldl update s).behind - s.behind) := by
    intro serial d hps
    subst hps
    have hend : (dataAnswer cfg sid v (!c0.dontSendBGPsecKeys) serial d).any isEnd = true := by simp [dataAnswer, isEnd]
    unfold Contact.step
    simp only [hread, sent_map_send]
    cases arrives with
    | none =>
      simp only [g'.up, and_self, if_true, receive_answer, hend]
      exact ⟨trivial, g', .inr trivial⟩
    | some n =>
      simp only [reduceCtorEq, false_and, if_false, ne_eq, not_false_eq_true, true_and]
      refine ⟨h.good, ?_⟩
      by_cases hn : n ≤ (Pdu.cacheResponse v (sessionOf sid v) :: d.filterMap (dataPdu v (!c0.dontSendBGPsecKeys))).length
      · left
        have ht : (dataAnswer cfg sid v (!c0.dontSendBGPsecKeys) serial d).take n = (Pdu.cacheResponse v (sessionOf sid v) :: d.filterMap (dataPdu v (!c0.dontSendBGPsecKeys))).take n :=
          List.take_append_of_le_length hn
        simp only [ht, receive_part d n s.router hc, any_end_part]
        simp
      · right
        have ht : (dataAnswer cfg sid v (!c0.dontSendBGPsecKeys) serial d).take n = dataAnswer cfg sid v (!c0.dontSendBGPsecKeys) serial d :=
          List.take_of_length_le (by simp only [dataAnswer, List.length_append, List.length_cons, List.length_nil] at hn ⊢; omega)
        simp only [ht, receive_answer, hend, if_true, and_true]
        rfl
  cases han with
  | noData text hst =>
    obtain ⟨a, b, c, d⟩ := single _ rfl rfl
    have hr : (s.step (newServer cfg sid) c0 v (.poll between arrives)).router = s.router := by
      rcases d with d | d | d
      · exact d.1
      · rw [d]; unfold Router.receive; rw [hc]; cases hx : s.router; rw [hx] at hc; simp only at hc; subst hc; rfl
      · rw [d]; unfold Router.receive; rw [hc]; exact hlost
    rw [hr, c]
    exact ⟨a, b, hc, .nothing fun _ => hst⟩
  | reset hst hsy hd =>
    obtain ⟨a, b, c, d⟩ := single _ rfl rfl
    rcases d with d | d | d
    · rw [d.1, c]; exact ⟨a, b, hc, .nothing fun h => absurd h d.2⟩
    · rw [d, c]; exact ⟨a, b, hc, .reset hst hsy hd⟩
    · have : (s.router.receive (.cacheReset v)).lost = { s.router with synced := none } := by unfold Router.receive Router.lost; simp [hc]
      rw [d, this, c]; exact ⟨a, b, hc, .reset hst hsy hd⟩
  | full hst hsy =>
    obtain ⟨a, b, d⟩ := data _ _ rfl
    rcases d with ⟨d1, d2, d3⟩ | ⟨d1, d2⟩
    · rw [d1, d3]; exact ⟨a, b, hc, .nothing fun h => absurd h d2⟩
    · rw [d1, d2, hsy]; exact ⟨a, b, rfl, .full hst hsy⟩
  | diff hst hsy d hd =>
    obtain ⟨a, b, e⟩ := data _ _ rfl
    rcases e with ⟨d1, d2, d3⟩ | ⟨d1, d2⟩
    · rw [d1, d3]; exact ⟨a, b, hc, .nothing fun h => absurd h d2⟩
    · rw [d1, d2, hsy]; exact ⟨a, b, rfl, .diff hst hsy d hd⟩

/-! ## Records -/

theorem mem_note {p : Pdu} {x : Rec} {f : U8} (hx : pduRecord p = some x) (hf : pduFlag p = some f) (l : List Rec) (r : Rec) : r ∈ Router.note p l ↔ if x = r then f = 1 else r ∈ l := by
  unfold Router.note
  rw [hx, hf]
  by_cases h2 : x = r
  · rw [if_pos h2]
    dsimp only
    split
    · rename_i h1; simp [h1, h2]
    · rename_i h1; simp only [List.mem_filter]; simp [h2]; exact h1
  · have h3 : r ≠ x := fun h => h2 h.symm
    rw [if_neg h2]
    dsimp only
    split
    · simp [h3]
    · simp [h3]

theorem routerApply_congr (d : List SD) {a b : Rec → Prop} {r : Rec} (h : a r ↔ b r) : routerApply a d r ↔ routerApply b d r := by
  induction d generalizing a b with
  | nil => exact h
  | cons x d ih =>
    rw [routerApply_cons, routerApply_cons]
    apply ih
    unfold routerStep
    split
    · rfl
    · exact h

theorem carried_wanted (v : U8) (keys : Bool) (x : SD) : carried v keys x = wanted v keys x.record := by cases x <;> rfl

theorem mem_noteAll {v : U8} {keys : Bool} {d : List SD} (hv : AllValid d) (l : List Rec) (r : Rec) :
    r ∈ noteAll v keys l d ↔ if wanted v keys r = true then routerApply (fun r => r ∈ l) d r else r ∈ l := by
  unfold noteAll
  induction d generalizing l with
  | nil => simp [routerApply]
  | cons x d ih =>
    have ih := fun l => ih (fun y hy => hv y (List.mem_cons_of_mem _ hy)) l
    cases hd : dataPdu v keys x with
    | none =>
      have hcar := dataPdu_none (hv x List.mem_cons_self) hd
      rw [List.filterMap_cons_none hd, ih]
      split
      · rename_i hw
        have : x.record ≠ r := by intro e; rw [carried_wanted, e, hw] at hcar; cases hcar
        rw [routerApply_cons]
        apply routerApply_congr
        unfold routerStep
        rw [if_neg this]
      · rfl
    | some p =>
      obtain ⟨hcar, hrec, hfl⟩ := dataPdu_some hd
      rw [List.filterMap_cons_some hd, List.foldl_cons, ih]
      split
      · rw [routerApply_cons]
        apply routerApply_congr
        rw [mem_note hrec hfl]; rfl
      · rename_i hw
        have : x.record ≠ r := by intro e; rw [carried_wanted, e] at hcar; exact hw hcar
        rw [mem_note hrec hfl, if_neg this]

/-- After a full answer the router holds the data. -/
theorem mem_noteAll_full {v : U8} {keys : Bool} {d : List SD} (hv : AllValid d) (ha : AllAdded d) (r : Rec) : r ∈ noteAll v keys [] d ↔ r ∈ records d ∧ wanted v keys r = true := by
  rw [mem_noteAll hv]
  split
  · rename_i hw
    rw [routerApply_iff (AllAdded.good hv ha).cons]
    have : Announces d r ↔ r ∈ records d := ha.has
    rw [this]
    simp [hw]
  · rename_i hw
    simp [hw]

/-! ## Histories -/

theorem update_evolves {k : Int} {s : Contact} {t : List (U32 × List SD)} (h : Evolves k s.store t) {new : List SD} (hv : AllValid new) :
    ∃ pre, Evolves k (s.update new).store (pre ++ t) ∧ (s.update new).behind = s.behind + pre.length ∧ (∀ p ∈ pre, p.2 = (s.update new).store.current) := by
  have := Evolves.add new h hv
  unfold Contact.update
  cases hb : (s.store.addData new).2 with
  | false =>
    rw [hb] at this
    exact ⟨[], this, by simp, by simp⟩
  | true =>
    rw [hb] at this
    exact ⟨[_], this, by simp, by simp⟩

theorem updates_evolve {k : Int} (news : List (List SD)) {s : Contact} {t : List (U32 × List SD)} (h : Evolves k s.store t) (hv : ∀ new ∈ news, AllValid new) :
    ∃ pre, Evolves k (news.foldl update s).store (pre ++ t) ∧ (news.foldl update s).behind = s.behind + pre.length ∧ (∀ x, (∀ new ∈ news, x ∈ records new) → ∀ p ∈ pre, x ∈ records p.2) := by
  induction news generalizing s t with
  | nil => exact ⟨[], h, by simp, by simp⟩
  | cons new news ih =>
    obtain ⟨p1, h1, b1, c1⟩ := update_evolves h (hv new List.mem_cons_self)
    obtain ⟨p2, h2, b2, c2⟩ := ih h1 (fun n hn => hv n (List.mem_cons_of_mem _ hn))
    refine ⟨p2 ++ p1, by rw [List.append_assoc]; exact h2, ?_, ?_⟩
    · rw [List.foldl_cons, b2, b1, List.length_append]; omega
    · intro x hx p hp
      rcases List.mem_append.1 hp with hp | hp
      · exact c2 x (fun n hn => hx n (List.mem_cons_of_mem _ hn)) p hp
      · rw [c1 p hp]
        exact (addData_sameSet h.ok (hv new List.mem_cons_self) x).2 (hx new List.mem_cons_self)

theorem diff_good {k : Int} {s : Store} {t : List (U32 × List SD)} (h : Evolves k s t) {n : U32} {d : List SD} (hd : s.getSDsSerialDiff n = .ok (some d)) :
    GoodDiff d ∧ (d = [] ∨ DescribesWindow d ((t.map Prod.snd).take (changesCovered (s.serial - n).toNat + 1))) := by
  by_cases hn : n = s.serial
  · rw [getSDsSerialDiff_eq, if_pos hn] at hd
    simp only [GoRes.ok.injEq, Option.some.injEq] at hd
    subst hd
    exact ⟨GoodDiff.nil, .inl rfl⟩
  · have hw := (C15_served_change_set h hn hd).2
    rw [getSDsSerialDiff_eq, if_neg hn] at hd
    split at hd
    · simp at hd
    · simp only [GoRes.ok.injEq] at hd
      exact ⟨(h.retained _ d hd).good, .inr hw⟩

/-- What holds at all times; `strict` if the router keeps up. -/
def RouterInv (cfg : ServerConfig) (sid : U16) (c0 : Client) (v : U8) (k : Int) (strict : Prop) (s : Contact) : Prop :=
  ConnGood cfg sid c0 v s.conn ∧ s.router.coming = none ∧ ∃ t, Evolves k s.store t ∧
    ∀ ss n, s.router.synced = some (ss, n) → ss = sessionOf sid v ∧ ∃ pre S post, t = pre ++ (n, S) :: post ∧ pre.length = s.behind ∧ S ≠ [] ∧
      (strict → (∀ p ∈ pre, p.2 ≠ []) ∧ ∀ x, x ∈ s.router.held ↔ x ∈ records S ∧ wanted v (!c0.dontSendBGPsecKeys) x = true)

theorem update_current {s : Contact} (h : StoreOk s.store) (new : List SD) (hv : AllValid new) : (s.update new).store.current = [] ↔ new = [] := by
  have hs := addData_sameSet h hv
  have e : ∀ l : List SD, l = [] ↔ ∀ r, r ∉ records l := by
    intro l
    cases l with
    | nil => simp [records]
    | cons x l => simp only [reduceCtorEq, false_iff, Classical.not_forall, Classical.not_not]; exact ⟨x.record, by simp [records]⟩
  rw [e, e new]
  exact ⟨fun h r hr => h r ((hs r).2 hr), fun h r hr => h r ((hs r).1 hr)⟩

theorem distance {k : Int} {s : Store} {pre : List (U32 × List SD)} {n : U32} {S : List SD} {post} (h : Evolves k s (pre ++ (n, S) :: post)) (hS : S ≠ []) (hp : ∀ p ∈ pre, p.2 ≠ []) :
    (s.serial - n).toNat = pre.length % 2 ^ 32 := by
  have := Evolves.serials pre h (fun _ => hS) (fun p hp' => hp p (List.mem_of_mem_tail hp'))
  dsimp only at this
  rw [this, BitVec.add_comm, BitVec.add_sub_cancel, BitVec.toNat_ofNat]

theorem RouterInv.start {cfg : ServerConfig} {sid : U16} {c0 : Client} {v : U8} (h : Setup cfg sid c0 v) (k : Int) (strict : Prop) : RouterInv cfg sid c0 v k strict (Contact.start k c0) :=
  ⟨h.good, rfl, _, Evolves.init, fun ss n hs => by cases hs⟩

theorem RouterInv.step {cfg : ServerConfig} {sid : U16} {c0 : Client} {v : U8} (h : Setup cfg sid c0 v) {k : Int} {strict : Prop} {s : Contact} (hi : RouterInv cfg sid c0 v k strict s) (e : ContactEvent)
    (he : Sane e) (hk : strict → Keeps k s e) : RouterInv cfg sid c0 v k strict (s.step (newServer cfg sid) c0 v e) := by
  obtain ⟨g, hc, t, ht, hs⟩ := hi
  cases e with
  | update new =>
    obtain ⟨pre', hev, hb, hcur⟩ := update_evolves ht he
    refine ⟨g, hc, _, hev, ?_⟩
    intro ss n hsy
    obtain ⟨hss, pre, S, post, rfl, hlen, hS, hst⟩ := hs ss n hsy
    refine ⟨hss, pre' ++ pre, S, post, by rw [List.append_assoc], ?_, hS, ?_⟩
    · show _ = (s.update new).behind
      rw [hb, List.length_append, hlen]; omega
    · intro hstr
      refine ⟨?_, (hst hstr).2⟩
      intro p hp
      rcases List.mem_append.1 hp with hp | hp
      · rw [hcur p hp]; exact hk hstr (by rw [show s.router.synced = some (ss, n) from hsy]; rfl)
      · exact (hst hstr).1 p hp
  | poll between arrives =>
    obtain ⟨hstore, g', hc', hpoll⟩ := polled h g (fun ss n h => (hs ss n h).1) hc between arrives
    obtain ⟨pre', hev, hb, _⟩ := updates_evolve between ht he
    have hpre' : strict → pre' = [] := by
      intro hstr
      have := (hk hstr).1
      subst this
      have hl : s.behind = s.behind + pre'.length := hb
      exact List.length_eq_zero_iff.1 (by omega)
    obtain ⟨t1, rfl⟩ := ht.head
    refine ⟨g', hc', _, by rw [hstore]; exact hev, ?_⟩
    generalize (s.step (newServer cfg sid) c0 v (.poll between arrives)).router = r' at hpoll ⊢
    generalize (s.step (newServer cfg sid) c0 v (.poll between arrives)).behind = b' at hpoll ⊢
    intro ss n hsy
    cases hpoll with
    | nothing =>
      obtain ⟨hss, pre, S, post, hp, hlen, hS, hst⟩ := hs ss n hsy
      refine ⟨hss, pre' ++ pre, S, post, by rw [List.append_assoc, hp], by rw [hb, List.length_append, hlen]; omega, hS, ?_⟩
      intro hstr
      rw [hpre' hstr, List.nil_append]
      exact hst hstr
    | reset hst _ hd => cases hsy
    | full hne hno =>
      simp only [Option.some.injEq, Prod.mk.injEq] at hsy
      obtain ⟨rfl, rfl⟩ := hsy
      refine ⟨rfl, pre', s.store.current, t1, rfl, by omega, hne, ?_⟩
      intro hstr
      have hb0 := (hk hstr).1
      subst hb0
      refine ⟨by rw [hpre' hstr]; simp, fun x => ?_⟩
      have hv := ht.valid _ List.mem_cons_self
      exact mem_noteAll_full hv.1 hv.2 x
    | @diff hne ss0 n0 hsy0 d hd =>
      simp only [Option.some.injEq, Prod.mk.injEq] at hsy
      obtain ⟨rfl, rfl⟩ := hsy
      refine ⟨rfl, pre', s.store.current, t1, rfl, by omega, hne, ?_⟩
      intro hstr
      have hb0 := (hk hstr).1
      have hkb := (hk hstr).2 (by rw [hsy0]; rfl)
      subst hb0
      refine ⟨by rw [hpre' hstr]; simp, fun x => ?_⟩
      obtain ⟨_, pre, S, post, hp, hlen, hS, hst⟩ := hs _ _ hsy0
      obtain ⟨hpn, hheld⟩ := hst hstr
      have hd : s.store.getSDsSerialDiff n0 = .ok (some d) := hd
      have hd0 := (diff_good ht hd).1
      rw [hp] at ht
      have hdist := distance ht hS hpn
      show x ∈ noteAll v (!c0.dontSendBGPsecKeys) s.router.held d ↔ _
      rw [mem_noteAll hd0.valid]
      match pre, hlen with
      | [], hlen =>
        simp only [List.nil_append, List.cons.injEq, Prod.mk.injEq] at hp
        rw [getSDsSerialDiff_eq, if_pos hp.1.1.symm] at hd
        simp only [GoRes.ok.injEq, Option.some.injEq] at hd
        subst hd
        have : routerApply (fun r => r ∈ s.router.held) [] x ↔ x ∈ s.router.held := Iff.rfl
        rw [this, ite_self, hheld, hp.1.2]
      | [p], hlen =>
        have := (C14_last_change_partial ht hS).2 d hd x
        split
        · rename_i hw
          rw [routerApply_congr d (b := fun r => r ∈ records S) (by rw [hheld]; simp [hw]), this]
          simp [hw]
        · rename_i hw
          rw [hheld]; simp [hw]
      | p :: q :: pre, hlen =>
        exfalso
        simp only [List.length_cons] at hlen
        rcases hkb with hkb | ⟨h1, h2, h3⟩
        · omega
        · simp only [List.length_cons] at hdist
          rw [Nat.mod_eq_of_lt (by omega)] at hdist
          rw [getSDsSerialDiff_eq, if_neg (fun he => by rw [he] at hdist; simp at hdist)] at hd
          split at hd
          · simp at hd
          · simp only [GoRes.ok.injEq] at hd
            have hl := ht.length
            rw [if_pos h1] at hl
            have := (List.getElem?_eq_some_iff.mp hd).1
            rw [List.length_reverse] at this
            omega

theorem RouterInv.sane {cfg : ServerConfig} {sid : U16} {c0 : Client} {v : U8} (h : Setup cfg sid c0 v) {k : Int} {s : Contact} (hr : Run (newServer cfg sid) k c0 v (fun _ e => Sane e) s) : RouterInv cfg sid c0 v k False s := by
  induction hr with
  | start => exact RouterInv.start h k _
  | step _ e he ih => exact RouterInv.step h ih e he (fun x => x.elim)

theorem RouterInv.keeps {cfg : ServerConfig} {sid : U16} {c0 : Client} {v : U8} (h : Setup cfg sid c0 v) {k : Int} {s : Contact} (hr : Run (newServer cfg sid) k c0 v (fun s e => Sane e ∧ Keeps k s e) s) : RouterInv cfg sid c0 v k True s := by
  induction hr with
  | start => exact RouterInv.start h k _
  | step _ e he ih => exact RouterInv.step h ih e he.1 (fun _ => he.2)

/-! ## What is lost stays lost -/

/-- The record `x` is served, has been since the last End of Data, and the router does not hold it. -/
def Missing (cfg : ServerConfig) (sid : U16) (c0 : Client) (v : U8) (k : Int) (x : Rec) (s : Contact) : Prop :=
  ConnGood cfg sid c0 v s.conn ∧ s.router.coming = none ∧ x ∉ s.router.held ∧ ∃ t, Evolves k s.store t ∧
    ∃ n, s.router.synced = some (sessionOf sid v, n) ∧ ∃ pre S post, t = pre ++ (n, S) :: post ∧ pre.length = s.behind ∧ ∀ p ∈ pre ++ [(n, S)], x ∈ records p.2

theorem Missing.step {cfg : ServerConfig} {sid : U16} {c0 : Client} {v : U8} (h : Setup cfg sid c0 v) {k : Int} {x : Rec} {s : Contact} (hi : Missing cfg sid c0 v k x s) (e : ContactEvent)
    (he : Sane e) (hk : Asks k x s e) : Missing cfg sid c0 v k x (s.step (newServer cfg sid) c0 v e) := by
  obtain ⟨g, hc, hx, t, ht, n, hsy, pre, S, post, rfl, hlen, hin⟩ := hi
  cases e with
  | update new =>
    obtain ⟨pre', hev, hb, hcur⟩ := updates_evolve [new] ht (by intro y hy; simp only [List.mem_singleton] at hy; subst hy; exact he)
    refine ⟨g, hc, hx, _, hev, n, hsy, pre' ++ pre, S, post, by rw [List.append_assoc], ?_, ?_⟩
    · show _ = ([new].foldl Contact.update s).behind
      rw [hb, List.length_append, hlen]; omega
    · intro p hp
      rw [List.append_assoc] at hp
      rcases List.mem_append.1 hp with hp | hp
      · exact hcur x (by intro y hy; simp only [List.mem_singleton] at hy; subst hy; exact hk) p hp
      · exact hin p hp
  | poll between arrives =>
    obtain ⟨hstore, g', hc', hpoll⟩ := polled h g (fun ss n' h => by rw [hsy] at h; cases h; rfl) hc between arrives
    obtain ⟨hk1, hk2, hk3⟩ := hk
    obtain ⟨pre', hev, hb, hin'⟩ := updates_evolve between ht he
    have hin' := hin' x hk1
    have hall : ∀ p ∈ (pre' ++ pre) ++ [(n, S)], x ∈ records p.2 := by
      intro p hp
      rw [List.append_assoc] at hp
      rcases List.mem_append.1 hp with hp | hp
      · exact hin' p hp
      · exact hin p hp
    have hne : ∀ p ∈ (pre' ++ pre) ++ [(n, S)], p.2 ≠ [] := by
      intro p hp he
      have := hall p hp
      rw [he] at this
      cases this
    rw [← List.append_assoc] at hev
    have hdist := distance hev (hne (n, S) (by simp)) (fun p hp => hne p (List.mem_append_left _ hp))
    have hD : ((between.foldl Contact.update s).store.serial - n).toNat ≤ (pre' ++ pre).length := by rw [hdist]; exact Nat.mod_le _ _
    obtain ⟨t1, ht1⟩ := ht.head
    -- where the label of the new answer is
    have hlabel : ∃ S' post', pre' ++ (pre ++ (n, S) :: post) = pre' ++ (s.store.serial, S') :: post' ∧ x ∈ records S' := by
      refine ⟨s.store.current, t1, by rw [ht1], ?_⟩
      cases pre with
      | nil => simp only [List.nil_append, List.cons.injEq] at ht1; have := hin (n, S) (by simp); rw [ht1.1] at this; exact this
      | cons p pre => simp only [List.cons_append, List.cons.injEq] at ht1; have := hin p (by simp); rw [ht1.1] at this; exact this
    obtain ⟨S', post', hlab, hxS'⟩ := hlabel
    have hkeep : Missing cfg sid c0 v k x ⟨(s.step (newServer cfg sid) c0 v (.poll between arrives)).store, (s.step (newServer cfg sid) c0 v (.poll between arrives)).conn, s.router, (between.foldl Contact.update s).behind⟩ := by
      refine ⟨g', hc, hx, _, by rw [hstore]; exact hev, n, hsy, pre' ++ pre, S, post, rfl, ?_, hall⟩
      show _ = (between.foldl Contact.update s).behind
      rw [hb, List.length_append, hlen]; omega
    generalize hs1 : s.step (newServer cfg sid) c0 v (.poll between arrives) = s1 at *
    obtain ⟨st1, cn1, r1, b1⟩ := s1
    dsimp only at hpoll hkeep hstore g' hc' ⊢
    cases hpoll with
    | nothing => exact hkeep
    | @reset _ ss0 n0 hsy0 hd =>
      exfalso
      rw [hsy] at hsy0
      cases hsy0
      have hle := hk3 _ _ hsy
      have hl := hev.length
      by_cases hn : n = (between.foldl Contact.update s).store.serial
      · rw [getSDsSerialDiff_eq, if_pos hn] at hd; cases hd
      · rw [getSDsSerialDiff_eq, if_neg hn, if_neg (by omega)] at hd
        simp only [GoRes.ok.injEq] at hd
        have hlt := List.getElem?_eq_none_iff.1 hd
        rw [List.length_reverse] at hlt
        have hpos : 0 < ((between.foldl Contact.update s).store.serial - n).toNat := by
          rw [BitVec.toNat_sub_of_le (by rw [BitVec.le_def]; omega)]
          have : n.toNat ≠ (between.foldl Contact.update s).store.serial.toNat := fun h => hn (BitVec.eq_of_toNat_eq h)
          omega
        simp only [List.length_append, List.length_cons] at hl hD
        rcases hk2 with hk2 | hk2
        · rw [if_neg (by omega)] at hl; omega
        · rw [hb] at hk2
          split at hl
          · have : pre'.length + pre.length ≤ k.toNat := by omega
            omega
          · omega
    | full _ hno => rw [hsy] at hno; cases hno
    | @diff _ ss0 n0 hsy0 d hd =>
      rw [hsy] at hsy0
      cases hsy0
      obtain ⟨hg, hw⟩ := diff_good hev hd
      have hna : ¬ Announces d x := by
        rcases hw with rfl | hw
        · rintro ⟨y, hy, _⟩; cases hy
        · intro ha
          obtain ⟨c, rest, hcr, _, o, ho, hxo⟩ := (hw.announced x).1 ha
          have hcov : changesCovered ((between.foldl Contact.update s).store.serial - n).toNat ≤ ((between.foldl Contact.update s).store.serial - n).toNat := by
            unfold changesCovered; split <;> omega
          have homem : o ∈ ((pre' ++ pre ++ (n, S) :: post).map Prod.snd).take (changesCovered ((between.foldl Contact.update s).store.serial - n).toNat + 1) := by
            rw [hcr]; exact List.mem_cons_of_mem _ ho
          have hsplit : pre' ++ pre ++ (n, S) :: post = (pre' ++ pre ++ [(n, S)]) ++ post := by simp
          rw [hsplit, List.map_append, List.take_append_of_le_length (by simp only [List.length_map, List.length_append, List.length_cons, List.length_nil] at hD ⊢; omega)] at homem
          obtain ⟨p, hp, rfl⟩ := List.mem_map.1 (List.mem_of_mem_take homem)
          exact hxo (hall p hp)
      refine ⟨g', rfl, ?_, _, by rw [hstore]; exact hev, s.store.serial, rfl, pre', S', post', by rw [List.append_assoc, hlab], (by show pre'.length = (between.foldl Contact.update s).behind - s.behind; omega), ?_⟩
      · show x ∉ noteAll v (!c0.dontSendBGPsecKeys) s.router.held d
        rw [mem_noteAll hg.valid]
        split
        · rw [routerApply_iff hg.cons]
          rintro (ha | ⟨_, ha⟩)
          · exact hna ha
          · exact hx ha
        · exact hx
      · intro p hp
        rcases List.mem_append.1 hp with hp | hp
        · exact hin' p hp
        · simp only [List.mem_singleton] at hp; subst hp; exact hxS'

end StayRTR.Spec
