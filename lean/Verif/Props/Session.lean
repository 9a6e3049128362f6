import Verif.Proofs.Session
import Verif.Props.Wire
import Verif.Props.Store

/-! C18, C20-C24, C27-C30, C36, C37: answers to requests, for every server, connection, store and packet. -/

namespace StayRTR
open Spec

/-- An example configuration: both versions, three retained differences. -/
def exCfg : ServerConfig := ⟨0, 1, false, 3, false, false, 0, 0, 0⟩
/-- An example router key. -/
def exK : SD := .brk ⟨65000, [1, 2, 3, 4], List.replicate 20 7, 1⟩
/-- An example store: one prefix, one router key. -/
def exStore : Store := (Store.init 3).run [[exA, exK]]
/-- A connection of the example server that has not sent anything, and one that negotiated version 1. -/
def exFresh : Client := (newServer exCfg 7).acceptClientTCP
def exV1 : Client := { exFresh with version := 1, versionset := true }

theorem exFresh_conn : Conn (newServer exCfg 7) exFresh := .inl .accepted
theorem exV1_conn : Conn (newServer exCfg 7) exV1 :=
  .inl (.read .accepted (by decide) exStore exStore [1, 2, 0, 0, 0, 0, 0, 8]
    (e := (dataAnswer exCfg 7 1 true 0 [exA, exK]).map .send) (by decide))

/-- **C22.** A Reset Query on a non-empty store is answered by Cache Response, the records in store order, End of Data with the same
session, the current serial and the configured intervals; the connection stays. -/
theorem C22_full_sync {cfg : ServerConfig} {sid : U16} {c : Client} (h : Conn (newServer cfg sid) c) (hc : c.connected = true)
    {pkt : Bytes} {v : U8} (hp : decodeBytes pkt = .ok (.resetQuery v)) (ha : Acceptable c v) {st : Store} (hst : st.current ≠ []) :
    ∃ c', (newServer cfg sid).processRead st st c pkt = .ok (c',
        (dataAnswer cfg sid (lower v cfg.protocolVersion) (!c.dontSendBGPsecKeys) st.serial st.current).map Effect.send) ∧
      c'.version = lower v cfg.protocolVersion ∧ c'.connected = true := by
  rw [processRead_pdu hp]
  have ok := h.ok
  have ha' : Acceptable c (Pdu.resetQuery v).getVersion := ha
  refine ⟨negotiated (newServer cfg sid) c (.resetQuery v), ?_, negotiated_version _ _ _, hc⟩
  rw [processPdu_acceptable ok ha']
  simp only [Server.passSimpleHandler, requestCache_eq (ok.negotiated ha'), if_neg hst, GoRes.bind, drops_map_send,
    Bool.false_eq_true, if_false, negotiated_version, negotiated_keys]
  rfl

example : Conn (newServer exCfg 7) exFresh ∧ exFresh.connected = true ∧ decodeBytes [1, 2, 0, 0, 0, 0, 0, 8] = .ok (.resetQuery 1) ∧
    Acceptable exFresh 1 ∧ exStore.current ≠ [] ∧ (dataAnswer exCfg 7 1 true exStore.serial exStore.current).length = 4 :=
  ⟨exFresh_conn, by decide, by decide, by decide, by decide, by decide⟩

/-- **C18.** A Serial Query with the right session and the current serial of a non-empty store is answered by an empty update. -/
theorem C18_up_to_date {cfg : ServerConfig} {sid : U16} {c : Client} (h : Conn (newServer cfg sid) c) (hc : c.connected = true)
    {pkt : Bytes} {v : U8} {st : Store} (hp : decodeBytes pkt = .ok (.serialQuery v (sessionOf sid (lower v cfg.protocolVersion)) st.serial))
    (ha : Acceptable c v) (hst : st.current ≠ []) :
    ∃ c', (newServer cfg sid).processRead st st c pkt = .ok (c',
      let w := lower v cfg.protocolVersion
      [.send (.cacheResponse w (sessionOf sid w)),
       .send (.endOfData w (sessionOf sid w) st.serial (interval cfg.refresh 3600) (interval cfg.retry 600) (interval cfg.expire 7200))]) ∧
      c'.connected = true := by
  rw [processRead_pdu hp]
  have ok := h.ok
  have ha' : Acceptable c (Pdu.serialQuery v (sessionOf sid (lower v cfg.protocolVersion)) st.serial).getVersion := ha
  refine ⟨negotiated (newServer cfg sid) c (.serialQuery v (sessionOf sid (lower v cfg.protocolVersion)) st.serial), ?_, hc⟩
  have hr := requestNewVersion_eq (ok.negotiated ha') st st st.serial
  rw [negotiated_version] at hr
  rw [processPdu_acceptable ok ha']
  have hr' : (newServer cfg sid).requestNewVersion st st (negotiated (newServer cfg sid) c
      (.serialQuery v (sessionOf sid (lower v cfg.protocolVersion)) st.serial)) (sessionOf sid (lower v cfg.protocolVersion)) st.serial = _ := hr
  simp only [Server.passSimpleHandler, hr', if_neg hst, getSDsSerialDiff_eq, if_true, GoRes.bind, drops_map_send, Bool.false_eq_true, if_false]
  rfl

example : Conn (newServer exCfg 7) exV1 ∧ exV1.connected = true ∧
    decodeBytes [1, 1, 0, 107, 0, 0, 0, 12, 0, 0, 0, 0] = .ok (.serialQuery 1 (sessionOf 7 (lower 1 1)) exStore.serial) ∧
    Acceptable exV1 1 ∧ exStore.current ≠ [] :=
  ⟨exV1_conn, by decide, by decide, by decide, by decide⟩

/-- A Serial Query in general: with the right session on a non-empty store, a Cache Reset for unknown serials and the retained difference
otherwise (which difference that is, is the subject of C14-C16). -/
theorem C16_incremental_answer {cfg : ServerConfig} {sid : U16} {c : Client} (h : Conn (newServer cfg sid) c) (hc : c.connected = true)
    {pkt : Bytes} {v : U8} {n : U32} {st : Store} (hp : decodeBytes pkt = .ok (.serialQuery v (sessionOf sid (lower v cfg.protocolVersion)) n))
    (ha : Acceptable c v) (hst : st.current ≠ []) :
    ∃ c', c'.connected = true ∧
      (∀ d, st.getSDsSerialDiff n = .ok (some d) → (newServer cfg sid).processRead st st c pkt = .ok (c',
        (dataAnswer cfg sid (lower v cfg.protocolVersion) (!c.dontSendBGPsecKeys) st.serial d).map Effect.send)) ∧
      (st.getSDsSerialDiff n = .ok none → (newServer cfg sid).processRead st st c pkt = .ok (c', [.send (.cacheReset (lower v cfg.protocolVersion))])) := by
  rw [processRead_pdu hp]
  have ok := h.ok
  have ha' : Acceptable c (Pdu.serialQuery v (sessionOf sid (lower v cfg.protocolVersion)) n).getVersion := ha
  refine ⟨negotiated (newServer cfg sid) c (.serialQuery v (sessionOf sid (lower v cfg.protocolVersion)) n), hc, ?_⟩
  have hr := requestNewVersion_eq (ok.negotiated ha') st st n
  rw [negotiated_version] at hr
  have hr' : (newServer cfg sid).requestNewVersion st st (negotiated (newServer cfg sid) c
      (.serialQuery v (sessionOf sid (lower v cfg.protocolVersion)) n)) (sessionOf sid (lower v cfg.protocolVersion)) n = _ := hr
  constructor
  · intro d hd
    rw [processPdu_acceptable ok ha']
    simp only [Server.passSimpleHandler, hr', if_neg hst, hd, GoRes.bind, drops_map_send, Bool.false_eq_true, if_false, negotiated_keys]
    rfl
  · intro hd
    rw [processPdu_acceptable ok ha']
    simp only [Server.passSimpleHandler, hr', if_neg hst, hd, GoRes.bind]
    rfl

/-- Both branches occur: serial 1 of a store at serial 2 (a difference), serial 9 (Cache Reset). -/
example : ((Store.init 3).run [[exA], [exB], [exC]]).getSDsSerialDiff 1 = .ok (some [exC, exB.withFlag 0]) ∧
    ((Store.init 3).run [[exA], [exB], [exC]]).getSDsSerialDiff 9 = .ok none := by decide

/-- **C20.** While the store is empty, Reset Queries and Serial Queries with the right session are answered by exactly one Error Report
with code 2, and the connection stays. -/
theorem C20_no_data {cfg : ServerConfig} {sid : U16} {c : Client} (h : Conn (newServer cfg sid) c) (hc : c.connected = true)
    {pkt : Bytes} {v : U8} (n : U32)
    (hp : decodeBytes pkt = .ok (.resetQuery v) ∨ decodeBytes pkt = .ok (.serialQuery v (sessionOf sid (lower v cfg.protocolVersion)) n))
    (ha : Acceptable c v) {st1 st2 : Store} (hst : st1.current = []) :
    ∃ c' text, (newServer cfg sid).processRead st1 st2 c pkt = .ok (c', [.send (.errorReport (lower v cfg.protocolVersion) 2 [] text)]) ∧
      c'.connected = true := by
  have ok := h.ok
  rcases hp with hp | hp
  · rw [processRead_pdu hp]
    have ha' : Acceptable c (Pdu.resetQuery v).getVersion := ha
    refine ⟨negotiated (newServer cfg sid) c (.resetQuery v), strBytes "No data available", ?_, hc⟩
    rw [processPdu_acceptable ok ha']
    simp only [Server.passSimpleHandler, requestCache_eq (ok.negotiated ha'), if_pos hst, GoRes.bind]
    rfl
  · rw [processRead_pdu hp]
    have ha' : Acceptable c (Pdu.serialQuery v (sessionOf sid (lower v cfg.protocolVersion)) n).getVersion := ha
    refine ⟨negotiated (newServer cfg sid) c (.serialQuery v (sessionOf sid (lower v cfg.protocolVersion)) n), strBytes "No data available", ?_, hc⟩
    have hr := requestNewVersion_eq (ok.negotiated ha') st1 st2 n
    rw [negotiated_version] at hr
    have hr' : (newServer cfg sid).requestNewVersion st1 st2 (negotiated (newServer cfg sid) c
      (.serialQuery v (sessionOf sid (lower v cfg.protocolVersion)) n)) (sessionOf sid (lower v cfg.protocolVersion)) n = _ := hr
    rw [processPdu_acceptable ok ha']
    simp only [Server.passSimpleHandler, hr', if_pos hst, GoRes.bind]
    rfl

example : Conn (newServer exCfg 7) exV1 ∧ exV1.connected = true ∧ decodeBytes [1, 2, 0, 0, 0, 0, 0, 8] = .ok (.resetQuery 1) ∧
    decodeBytes [1, 1, 0, 107, 0, 0, 0, 12, 0, 0, 0, 9] = .ok (.serialQuery 1 (sessionOf 7 (lower 1 1)) 9) ∧
    Acceptable exV1 1 ∧ ((Store.init 3).run [[exA], []]).current = [] :=
  ⟨exV1_conn, by decide, by decide, by decide, by decide, by decide⟩

/-- **C21.** A Serial Query with another session id is answered by exactly one Error Report (code 0), and the connection is dropped,
whatever the store. -/
theorem C21_session_mismatch {cfg : ServerConfig} {sid : U16} {c : Client} (h : Conn (newServer cfg sid) c)
    {pkt : Bytes} {v : U8} {session : U16} {n : U32} (hp : decodeBytes pkt = .ok (.serialQuery v session n))
    (hs : session ≠ sessionOf sid (lower v cfg.protocolVersion)) (ha : Acceptable c v) (st1 st2 : Store) :
    ∃ c' text, (newServer cfg sid).processRead st1 st2 c pkt =
        .ok (c', [.send (.errorReport (lower v cfg.protocolVersion) 0 [] text), .disconnect]) ∧ c'.connected = false := by
  rw [processRead_pdu hp]
  have ok := h.ok
  have ha' : Acceptable c (Pdu.serialQuery v session n).getVersion := ha
  refine ⟨(negotiated (newServer cfg sid) c (.serialQuery v session n)).disconnected, strBytes "Session ID mismatch: client is desynchronized", ?_, rfl⟩
  have hr := requestNewVersion_mismatch (ok.negotiated ha') st1 st2 session n (by rw [negotiated_version]; exact hs)
  rw [processPdu_acceptable ok ha']
  simp only [Server.passSimpleHandler, hr, GoRes.bind]
  rfl

example : decodeBytes [1, 1, 0, 7, 0, 0, 0, 12, 0, 0, 0, 9] = .ok (.serialQuery 1 7 9) ∧ (7 : U16) ≠ sessionOf 7 (lower 1 1) ∧
    Acceptable exV1 1 ∧ Conn (newServer exCfg 7) exV1 := ⟨by decide, by decide, by decide, exV1_conn⟩

/-- **C23.** Whatever is received, every PDU sent in return carries the version of the connection, and no Router Key is sent
on version 0 or when they are disabled for the connection. -/
theorem C23_versions_and_router_keys {cfg : ServerConfig} {sid : U16} {c c' : Client} (h : Conn (newServer cfg sid) c)
    {st1 st2 : Store} {pkt : Bytes} {e : List Effect} (hp : (newServer cfg sid).processRead st1 st2 c pkt = .ok (c', e)) :
    ∀ q ∈ sent e, q.getVersion = c'.version ∧ (IsRouterKey q → c'.version ≠ 0 ∧ c.dontSendBGPsecKeys = false) := by
  have ok := h.ok
  have hmem : ∀ q, q ∈ sent e → Effect.send q ∈ e := by
    intro q hq
    simp only [sent, List.mem_filterMap] at hq
    obtain ⟨x, hx, hq⟩ := hq
    cases x with
    | send p => simp only [Option.some.injEq] at hq; subst hq; exact hx
    | disconnect => cases hq
  intro q hq
  have hq := hmem q hq
  unfold Server.processRead at hp
  split at hp
  · simp only [GoRes.ok.injEq, Prod.mk.injEq] at hp
    rw [← hp.2] at hq; simp at hq
  · cases hd : decodeBytes pkt with
    | err => rw [hd] at hp; simp only [GoRes.ok.injEq, Prod.mk.injEq] at hp; rw [← hp.2] at hq; simp at hq
    | panic => rw [hd] at hp; simp at hp
    | ok p =>
      rw [hd] at hp
      simp only at hp
      by_cases ha : Acceptable c p.getVersion
      · obtain ⟨h1, h2, h3, h4, h5⟩ := acceptable_processed ok ha hp
        have := passSimpleHandler_sent (ok.negotiated ha) h1 hq
        rw [negotiated_version, negotiated_keys] at this
        rw [h2]
        exact ⟨this.1, this.2.1⟩
      · obtain ⟨h1, e', h2, h3⟩ := unacceptable_processed ok ha hp
        have hv : c'.version = c.version := by rw [h1]; exact (noteQuery_fields c.disconnected p).1
        have hk : c'.dontSendBGPsecKeys = c.dontSendBGPsecKeys := by rw [h1]; exact (noteQuery_fields c.disconnected p).2.2.1
        have ok' : ConnOk (newServer cfg sid) c' := by rw [h1]; exact ok.dropped.noteQuery p
        rw [h3] at hq
        simp only [List.mem_cons, reduceCtorEq, false_or] at hq
        rcases hq with hq | hq
        · simp only [Client.sendWrongVersionError, Client.sendPDU, Pdu.setVersion, Effect.send.injEq] at hq
          rw [hq]
          exact ⟨hv.symm, fun h => h.elim⟩
        · have := passSimpleHandler_sent ok' h2 hq
          rw [hk] at this
          exact ⟨this.1, this.2.1⟩

/-- **C23**, the other half: a full sync contains a prefix PDU for every VRP of the store, on every version and with router keys disabled. -/
theorem C23_every_vrp {cfg : ServerConfig} {sid : U16} {c : Client} (h : Conn (newServer cfg sid) c) (hc : c.connected = true)
    {pkt : Bytes} {v : U8} (hp : decodeBytes pkt = .ok (.resetQuery v)) (ha : Acceptable c v) {st : Store} :
    ∀ x, SD.vrp x ∈ st.current → (SD.vrp x).Valid →
      ∃ c' e q, (newServer cfg sid).processRead st st c pkt = .ok (c', e) ∧ q ∈ sent e ∧ pduRecord q = some (SD.vrp x).record ∧
        pduFlag q = some x.flags := by
  intro x hx hval
  obtain ⟨c', h1, _⟩ := C22_full_sync h hc hp ha (List.ne_nil_of_mem hx)
  refine ⟨c', (dataAnswer cfg sid (lower v cfg.protocolVersion) (!c.dontSendBGPsecKeys) st.serial st.current).map Effect.send, ?_⟩
  rcases x with ⟨⟨(_ | a | a), n⟩, asn, ml, fl⟩
  · obtain ⟨hwf, hv⟩ := hval
    simp [Prefix.WF, Prefix.isValid] at hwf hv
    exact absurd hwf hv
  · refine ⟨.ipv4Prefix (lower v cfg.protocolVersion) fl ⟨.v4 a, n⟩ ml asn, h1, ?_, rfl, rfl⟩
    rw [sent_map_send]
    simp only [dataAnswer, List.cons_append, List.mem_cons, List.mem_append, List.mem_filterMap]
    exact .inr (.inl ⟨_, hx, rfl⟩)
  · refine ⟨.ipv6Prefix (lower v cfg.protocolVersion) fl ⟨.v6 a, n⟩ ml asn, h1, ?_, rfl, rfl⟩
    rw [sent_map_send]
    simp only [dataAnswer, List.cons_append, List.mem_cons, List.mem_append, List.mem_filterMap]
    exact .inr (.inl ⟨_, hx, rfl⟩)

/-- On version 1 the example store's answer contains a Router Key, on version 0 it does not. -/
example : (∃ q ∈ dataAnswer exCfg 7 1 true 0 exStore.current, IsRouterKey q) ∧
    (dataAnswer exCfg 7 0 true 0 exStore.current).length = 3 ∧ exA ∈ exStore.current :=
  ⟨⟨.routerKey 1 1 (List.replicate 20 7) 65000 [1, 2, 3, 4], by decide, trivial⟩, by decide, by decide⟩

/-- **C24** in full: with `DisableBGPSec` no connection is sent a Router Key, on any transport. -/
def DisableBGPSecEverywhere : Prop := ∀ (cfg : ServerConfig) (sid : U16) (c c' : Client) (st1 st2 : Store) (pkt : Bytes) (e : List Effect),
  cfg.disableBGPSec = true → Conn (newServer cfg sid) c → (newServer cfg sid).processRead st1 st2 c pkt = .ok (c', e) →
  ∀ q ∈ sent e, ¬ IsRouterKey q

/-- It fails on SSH: a Reset Query on a fresh SSH connection is answered with the Router Keys. -/
theorem C24_ssh_false : ¬ DisableBGPSecEverywhere := by
  intro h
  refine h { exCfg with disableBGPSec := true } 7 (newServer { exCfg with disableBGPSec := true } 7).acceptClientSSH
    { (newServer { exCfg with disableBGPSec := true } 7).acceptClientSSH with version := 1, versionset := true } exStore exStore
    [1, 2, 0, 0, 0, 0, 0, 8] ((dataAnswer exCfg 7 1 true 0 [exA, exK]).map .send) rfl (.inr .accepted) (by decide)
    (.routerKey 1 1 (List.replicate 20 7) 65000 [1, 2, 3, 4]) (by decide) trivial

/-- **C24**, partial: it holds on TCP and TLS (both use `acceptClientTCP`). Missing: SSH, refuted above. -/
theorem C24_tcp_tls_partial {cfg : ServerConfig} {sid : U16} {c c' : Client} {st1 st2 : Store} {pkt : Bytes} {e : List Effect}
    (hd : cfg.disableBGPSec = true) (h : ConnFrom (newServer cfg sid) (newServer cfg sid).acceptClientTCP c)
    (hp : (newServer cfg sid).processRead st1 st2 c pkt = .ok (c', e)) : ∀ q ∈ sent e, ¬ IsRouterKey q := by
  intro q hq hk
  have h1 := (C23_versions_and_router_keys (.inl h) hp q hq).2 hk
  rw [h.keys (ConnOk.tcp _)] at h1
  have : (newServer cfg sid).acceptClientTCP.dontSendBGPsecKeys = true := by
    have : (newServer cfg sid).disableBGPSec = true := hd
    simp [Server.acceptClientTCP, this]
  rw [this] at h1
  simp at h1

example : ((newServer { exCfg with disableBGPSec := true } 7).processRead exStore exStore
    (newServer { exCfg with disableBGPSec := true } 7).acceptClientTCP [1, 2, 0, 0, 0, 0, 0, 8]) =
      .ok ({ (newServer { exCfg with disableBGPSec := true } 7).acceptClientTCP with version := 1, versionset := true },
        (dataAnswer exCfg 7 1 false 0 [exA, exK]).map .send) := by decide

/-- Records that fit into PDUs: router keys need a 20-byte identifier and a key of 4 to 262136 bytes. -/
def Encodable : SD → Prop
  | .vrp _ => True
  | .brk k => k.ski.length = 20 ∧ 4 ≤ k.pubkey.length ∧ 32 + k.pubkey.length ≤ 262168

/-- Is the record sent on a connection of version `v`? VRPs always, router keys from version 1 if enabled. -/
def carried (v : U8) (keys : Bool) : SD → Bool
  | .vrp _ => true
  | .brk _ => keys && v != 0

theorem dataPdu_representable {v : U8} {keys : Bool} {x : SD} {p : Pdu} (hv : x.Valid) (he : Encodable x) (h : dataPdu v keys x = some p) :
    Representable p ∧ received p = p := by
  rcases x with ⟨⟨(_ | a | a), n⟩, asn, ml, fl⟩ | ⟨asn, pk, ski, fl⟩
  · simp [dataPdu] at h
  · simp only [dataPdu, Option.some.injEq] at h; subst h
    obtain ⟨hwf, hval⟩ := hv
    simp only [Prefix.WF, Prefix.isValid, Addr.bitLen, bne_iff_ne, ne_eq] at hwf hval
    refine ⟨⟨a, n - 1, ?_, by omega⟩, rfl⟩
    congr; omega
  · simp only [dataPdu, Option.some.injEq] at h; subst h
    obtain ⟨hwf, hval⟩ := hv
    simp only [Prefix.WF, Prefix.isValid, Addr.bitLen, bne_iff_ne, ne_eq] at hwf hval
    refine ⟨⟨a, n - 1, ?_, by omega⟩, rfl⟩
    congr; omega
  · simp only [dataPdu] at h
    split at h
    · simp only [Option.some.injEq] at h; subst h
      exact ⟨he, rfl⟩
    · cases h

theorem dataPdu_some {v : U8} {keys : Bool} {x : SD} {p : Pdu} (h : dataPdu v keys x = some p) :
    carried v keys x = true ∧ pduRecord p = some x.record ∧ pduFlag p = some x.getFlag := by
  rcases x with ⟨⟨(_ | a | a), n⟩, asn, ml, fl⟩ | ⟨asn, pk, ski, fl⟩
  · simp [dataPdu] at h
  · simp only [dataPdu, Option.some.injEq] at h; subst h; exact ⟨rfl, rfl, rfl⟩
  · simp only [dataPdu, Option.some.injEq] at h; subst h; exact ⟨rfl, rfl, rfl⟩
  · simp only [dataPdu] at h
    split at h
    · rename_i hk
      simp only [Option.some.injEq] at h; subst h
      exact ⟨by simp only [carried, hk.1, Bool.true_and, bne_iff_ne]; exact hk.2, rfl, rfl⟩
    · cases h

theorem dataPdu_none {v : U8} {keys : Bool} {x : SD} (hv : x.Valid) (h : dataPdu v keys x = none) : carried v keys x = false := by
  rcases x with ⟨⟨(_ | a | a), n⟩, asn, ml, fl⟩ | ⟨asn, pk, ski, fl⟩
  · obtain ⟨hwf, hval⟩ := hv
    simp only [Prefix.WF, Prefix.isValid, bne_iff_ne, ne_eq, not_true_eq_false, false_and, or_false] at hwf hval
    exact absurd hwf hval
  · simp [dataPdu] at h
  · simp [dataPdu] at h
  · simp only [dataPdu] at h
    split at h
    · cases h
    · rename_i hk
      cases keys
      · rfl
      · simpa [carried] using hk

theorem dataPdu_records {v : U8} {keys : Bool} {l : List SD} (hv : AllValid l) :
    (l.filterMap (dataPdu v keys)).filterMap pduRecord = records (l.filter (carried v keys)) ∧
    (l.filterMap (dataPdu v keys)).length = (l.filter (carried v keys)).length := by
  induction l with
  | nil => exact ⟨rfl, rfl⟩
  | cons x l ih =>
    have ih := ih (fun y hy => hv y (List.mem_cons_of_mem _ hy))
    have hx := hv x List.mem_cons_self
    cases hd : dataPdu v keys x with
    | none =>
      rw [List.filterMap_cons_none hd, List.filter_cons_of_neg (by simp [dataPdu_none hx hd])]
      exact ih
    | some p =>
      obtain ⟨h1, h2, h3⟩ := dataPdu_some hd
      rw [List.filterMap_cons_some hd, List.filter_cons_of_pos h1, List.filterMap_cons_some h2]
      exact ⟨by rw [ih.1]; rfl, by simp [ih.2]⟩

/-- The bytes emitted for a Reset Query on a non-empty store of encodable records, read by a client, are a well-framed
answer with exactly the stored records that the version carries, in order, all announced, and the current serial. -/
theorem reset_stream {cfg : ServerConfig} {sid : U16} {c : Client} (h : Conn (newServer cfg sid) c) (hc : c.connected = true)
    {pkt : Bytes} {v : U8} (hp : decodeBytes pkt = .ok (.resetQuery v)) (ha : Acceptable c v) {st : Store} (hok : StoreOk st)
    (hst : st.current ≠ []) (henc : ∀ x ∈ st.current, Encodable x) :
    ∃ (c' : Client) (e : List Effect) (bs : List Bytes) (data : List Pdu) (refresh retry expire : U32), (newServer cfg sid).processRead st st c pkt = .ok (c', e) ∧
      (sent e).map Pdu.encode = bs.map GoRes.ok ∧
      Stream bs.flatten (.cacheResponse c'.version (sessionOf sid c'.version) :: data ++
        [.endOfData c'.version (sessionOf sid c'.version) st.serial refresh retry expire]) ∧
      data.filterMap pduRecord = records (st.current.filter (carried c'.version (!c.dontSendBGPsecKeys))) ∧
      data.length = (st.current.filter (carried c'.version (!c.dontSendBGPsecKeys))).length ∧
      (∀ p ∈ data, pduFlag p = some 1) ∧ c'.version = lower v cfg.protocolVersion := by
  obtain ⟨c', h1, h2, _⟩ := C22_full_sync h hc hp ha hst
  have hval := hok.valid
  have hadd := hok.added
  have hrep : ∀ p ∈ st.current.filterMap (dataPdu c'.version (!c.dontSendBGPsecKeys)), Representable p ∧ received p = p := by
    intro p hp
    obtain ⟨x, hx, hp⟩ := List.mem_filterMap.mp hp
    exact dataPdu_representable (hval x hx) (henc x hx) hp
  have hrecs := dataPdu_records (v := c'.version) (keys := !c.dontSendBGPsecKeys) hval
  rw [← h2] at h1
  -- the version 0 End of Data does not carry the intervals
  have heod : ∀ (r1 r2 r3 : U32), ∃ q1 q2 q3 : U32, Representable (.endOfData c'.version (sessionOf sid c'.version) st.serial q1 q2 q3) ∧
      Pdu.encode (.endOfData c'.version (sessionOf sid c'.version) st.serial r1 r2 r3) =
      Pdu.encode (.endOfData c'.version (sessionOf sid c'.version) st.serial q1 q2 q3) := by
    intro r1 r2 r3
    by_cases hv0 : c'.version = 0
    · exact ⟨0, 0, 0, fun _ => ⟨rfl, rfl, rfl⟩, by simp only [Pdu.encode, hv0, if_true]⟩
    · exact ⟨r1, r2, r3, fun h => absurd h hv0, rfl⟩
  obtain ⟨q1, q2, q3, hq, hqe⟩ := heod (interval cfg.refresh 3600) (interval cfg.retry 600) (interval cfg.expire 7200)
  have hlist : ∀ p ∈ (Pdu.cacheResponse c'.version (sessionOf sid c'.version) :: st.current.filterMap (dataPdu c'.version (!c.dontSendBGPsecKeys)) ++
        [.endOfData c'.version (sessionOf sid c'.version) st.serial q1 q2 q3]), Representable p ∧ received p = p := by
    intro p hp
    simp only [List.cons_append, List.mem_cons, List.mem_append, List.not_mem_nil, or_false] at hp
    rcases hp with rfl | hp | rfl
    · exact ⟨trivial, rfl⟩
    · exact hrep p hp
    · exact ⟨hq, rfl⟩
  obtain ⟨bs, hb1, hb2⟩ := C05_stream _ (fun p hp => (hlist p hp).1)
  refine ⟨c', _, bs, st.current.filterMap (dataPdu c'.version (!c.dontSendBGPsecKeys)), q1, q2, q3, h1, ?_, ?_, hrecs.1, ?_, ?_, h2⟩
  · rw [sent_map_send, ← hb1]
    simp only [dataAnswer, List.cons_append, List.map_cons, List.map_append, List.map_nil, hqe]
  · have : (Pdu.cacheResponse c'.version (sessionOf sid c'.version) :: st.current.filterMap (dataPdu c'.version (!c.dontSendBGPsecKeys)) ++
        [Pdu.endOfData c'.version (sessionOf sid c'.version) st.serial q1 q2 q3]).map received = _ :=
      List.map_congr_left (g := id) (fun p hp => (hlist p hp).2)
    rw [this] at hb2
    simpa using hb2
  · exact hrecs.2
  · intro p hp
    obtain ⟨x, hx, hp⟩ := List.mem_filterMap.mp hp
    rw [(dataPdu_some hp).2.2]
    exact congrArg some (hadd x hx)

/-- **C27.** The bytes emitted for a Reset Query on a reachable non-empty store of encodable records, read by a client, are a well-framed
answer with exactly the stored records that the version carries, in order, all announced, and the current serial. -/
theorem C27_end_to_end {cfg : ServerConfig} {sid : U16} {c : Client} (h : Conn (newServer cfg sid) c) (hc : c.connected = true)
    {pkt : Bytes} {v : U8} (hp : decodeBytes pkt = .ok (.resetQuery v)) (ha : Acceptable c v) {k : Int} {st : Store} (hr : Reachable k st)
    (hst : st.current ≠ []) (henc : ∀ x ∈ st.current, Encodable x) :
    ∃ (c' : Client) (e : List Effect) (bs : List Bytes) (data : List Pdu) (refresh retry expire : U32), (newServer cfg sid).processRead st st c pkt = .ok (c', e) ∧
      (sent e).map Pdu.encode = bs.map GoRes.ok ∧
      Stream bs.flatten (.cacheResponse c'.version (sessionOf sid c'.version) :: data ++
        [.endOfData c'.version (sessionOf sid c'.version) st.serial refresh retry expire]) ∧
      data.filterMap pduRecord = records (st.current.filter (carried c'.version (!c.dontSendBGPsecKeys))) ∧
      data.length = (st.current.filter (carried c'.version (!c.dontSendBGPsecKeys))).length ∧
      (∀ p ∈ data, pduFlag p = some 1) ∧ c'.version = lower v cfg.protocolVersion :=
  reset_stream h hc hp ha hr.evolves.choose_spec.ok hst henc

example : Reachable 3 exStore ∧ exStore.current ≠ [] ∧ (∀ x ∈ exStore.current, Encodable x) ∧
    (exStore.current.filter (carried 1 true)).length = 2 ∧ (exStore.current.filter (carried 0 true)).length = 1 :=
  ⟨⟨_, by decide, rfl⟩, by decide, (by
    intro x hx
    have : x = exA ∨ x = exK := by simpa [show exStore.current = [exA, exK] from by decide] using hx
    rcases this with rfl | rfl
    · trivial
    · exact ⟨rfl, by decide, by decide⟩), by decide, by decide⟩

end StayRTR
