import Verif.Props.Connection

/-!
C152-C155: Error Reports in both directions, and what RFC 8210 asks for, for every server, connection, store and packet.
-/

namespace StayRTR
open Spec

namespace Spec

/-- A PDU that a router may send, besides Error Reports: RFC 8210, 5.3 and 5.4. -/
def IsQuery : Pdu → Prop
  | .serialQuery .. => True
  | .resetQuery .. => True
  | _ => False

instance IsQuery.dec (p : Pdu) : Decidable (IsQuery p) := by unfold IsQuery; split <;> infer_instance

/-- An Error Report, of any code. -/
def IsReport : Pdu → Prop
  | .errorReport .. => True
  | _ => False

instance IsReport.dec (p : Pdu) : Decidable (IsReport p) := by unfold IsReport; split <;> infer_instance

/-- RFC 8210, 5.11: "An Error Report PDU MUST NOT be sent for an Error Report PDU." -/
def NoReportForReport : Prop :=
  ∀ (cfg : ServerConfig) (sid : U16) (c c' : Client) (st1 st2 : Store) (pkt : Bytes) (v : U8) (k : U16) (copy text : Bytes) (e : List Effect),
    Conn (newServer cfg sid) c → c.connected = true → decodeBytes pkt = .ok (.errorReport v k copy text) →
    (newServer cfg sid).processRead st1 st2 c pkt = .ok (c', e) → ∀ q ∈ sent e, ¬ IsReport q

/-- RFC 8210, 12: errors other than "No Data Available" are fatal, and the session is dropped. -/
def FatalReportEndsSession : Prop :=
  ∀ (cfg : ServerConfig) (sid : U16) (c c' : Client) (st1 st2 : Store) (pkt : Bytes) (v : U8) (k : U16) (copy text : Bytes) (e : List Effect),
    Conn (newServer cfg sid) c → c.connected = true → decodeBytes pkt = .ok (.errorReport v k copy text) → k ≠ 2 →
    (newServer cfg sid).processRead st1 st2 c pkt = .ok (c', e) → c'.connected = false

/-- RFC 8210, 5.11 and 12: what is not understood, or not asked for, is answered by an Error Report (codes 0, 3 and 5). -/
def MisusesAreReported : Prop :=
  ∀ (cfg : ServerConfig) (sid : U16) (c c' : Client) (st1 st2 : Store) (pkt : Bytes) (e : List Effect),
    Conn (newServer cfg sid) c → c.connected = true → pkt ≠ [] → (∀ p, decodeBytes pkt = .ok p → ¬ IsQuery p ∧ ¬ IsReport p) →
    (newServer cfg sid).processRead st1 st2 c pkt = .ok (c', e) → ∃ q ∈ sent e, IsReport q

/-- Why a server may send an Error Report with code `k` for the PDU `p`, on a connection of version `v`: another version than negotiated or than known, a query of another session, or a query when there are no data. -/
inductive Cause (sid : U16) (c : Client) (v : U8) (st : Store) (p : Pdu) : U16 → Prop
  | version (h : ¬ Acceptable c p.getVersion) : Cause sid c v st p 4
  | session (w : U8) (s : U16) (n : U32) (h : p = .serialQuery w s n) (hs : s ≠ sessionOf sid v) : Cause sid c v st p 0
  | noData (h : IsQuery p) (hs : ∀ w s n, p = .serialQuery w s n → s = sessionOf sid v) (hd : st.current = []) : Cause sid c v st p 2

end Spec

/-! ## C152: Error Reports of routers -/

/-- An Error Report of an acceptable version has no consequences: nothing is sent, and the connection stays as it was but for its version.
Missing: other versions (`C152_answered_false`), and that fatal errors end the session (`C152_fatal_false`). -/
theorem C152_ignored_partial {cfg : ServerConfig} {sid : U16} {c : Client} (h : Conn (newServer cfg sid) c) {pkt : Bytes} {v : U8} {k : U16} {copy text : Bytes}
    (hd : decodeBytes pkt = .ok (.errorReport v k copy text)) (ha : Acceptable c v) (st1 st2 : Store) :
    (newServer cfg sid).processRead st1 st2 c pkt = .ok ({ c with versionset := true, version := lower v cfg.protocolVersion }, []) := by
  rw [processRead_pdu hd, processPdu_acceptable h.ok (p := .errorReport v k copy text) ha]
  rfl

/-- An Error Report of an unacceptable version is answered by one. -/
theorem C152_answered_false : ¬ NoReportForReport := by
  intro h
  exact h exCfg 7 exV1 exV1.disconnected exStore exStore [0, 10, 0, 4, 0, 0, 0, 16, 0, 0, 0, 0, 0, 0, 0, 0] 0 4 [] []
    [.send (.errorReport 1 4 [] (strBytes "Bad protocol version")), .disconnect]
    exV1_conn (by decide) (by decide) (by decide) (.errorReport 1 4 [] (strBytes "Bad protocol version")) (by decide) trivial

/-- And in general: any Error Report of any unacceptable version is answered by exactly one, with code 4, and the connection is dropped. -/
theorem C152_unacceptable {cfg : ServerConfig} {sid : U16} {c : Client} (h : Conn (newServer cfg sid) c) {pkt : Bytes} {v : U8} {k : U16} {copy text : Bytes}
    (hd : decodeBytes pkt = .ok (.errorReport v k copy text)) (ha : ¬ Acceptable c v) (st1 st2 : Store) :
    ∃ t, (newServer cfg sid).processRead st1 st2 c pkt = .ok ({ c with connected := false }, [.send (.errorReport c.version 4 [] t), .disconnect]) := by
  rw [processRead_pdu hd, processPdu_unacceptable h.ok (p := .errorReport v k copy text) ha]
  exact ⟨_, rfl⟩

/-- A fatal error that a router reports does not end the session. -/
theorem C152_fatal_false : ¬ FatalReportEndsSession := by
  intro h
  have := h exCfg 7 exV1 exV1 exStore exStore [1, 10, 0, 0, 0, 0, 0, 16, 0, 0, 0, 0, 0, 0, 0, 0] 1 0 [] [] [] exV1_conn (by decide) (by decide) (by decide) (by decide)
  exact absurd this (by decide)

example : Conn (newServer exCfg 7) exV1 ∧ decodeBytes [1, 10, 0, 0, 0, 0, 0, 16, 0, 0, 0, 0, 0, 0, 0, 0] = .ok (.errorReport 1 0 [] []) ∧ Acceptable exV1 1 ∧
    decodeBytes [0, 10, 0, 4, 0, 0, 0, 16, 0, 0, 0, 0, 0, 0, 0, 0] = .ok (.errorReport 0 4 [] []) ∧ ¬ Acceptable exV1 0 := ⟨exV1_conn, by decide, by decide, by decide, by decide⟩

/-! ## C153: what is not understood -/

/-- Bytes that cannot be decoded cost the connection, and no Error Report tells the router why. -/
theorem C153_silent_false : ¬ MisusesAreReported ∧ ∀ (s : Server) (c : Client) (st1 st2 : Store) (pkt : Bytes), decodeBytes pkt = .err →
    s.processRead st1 st2 c pkt = .ok ({ c with connected := false }, [.disconnect]) := by
  constructor
  · intro h
    obtain ⟨q, hq, _⟩ := h exCfg 7 exV1 exV1.disconnected exStore exStore [1, 9, 0, 0, 0, 0, 0, 7] [.disconnect] exV1_conn (by decide) (by decide)
      (by intro p hp; rw [show decodeBytes [1, 9, 0, 0, 0, 0, 0, 7] = .err by decide] at hp; cases hp) (by decide)
    cases hq
  · intro s c st1 st2 pkt hd
    unfold Server.processRead
    rw [hd]
    split <;> rfl

/-- PDUs that no router may send are taken without a word, and the connection stays. -/
theorem C153_accepted_false : ¬ MisusesAreReported ∧ ∀ {cfg : ServerConfig} {sid : U16} {c : Client}, Conn (newServer cfg sid) c → ∀ (pkt : Bytes) (p : Pdu), decodeBytes pkt = .ok p →
    ¬ IsQuery p → Acceptable c p.getVersion → ∀ st1 st2 : Store,
    (newServer cfg sid).processRead st1 st2 c pkt = .ok ({ c with versionset := true, version := lower p.getVersion cfg.protocolVersion }, []) := by
  constructor
  · intro h
    obtain ⟨q, hq, _⟩ := h exCfg 7 exV1 exV1 exStore exStore [1, 8, 0, 0, 0, 0, 0, 8] [] exV1_conn (by decide) (by decide)
      (by intro p hp; rw [show decodeBytes [1, 8, 0, 0, 0, 0, 0, 8] = .ok (.cacheReset 1) by decide] at hp; injection hp with hp; subst hp; decide) (by decide)
    cases hq
  · intro cfg sid c h pkt p hd hq ha st1 st2
    rw [processRead_pdu hd, processPdu_acceptable h.ok ha]
    cases p <;> first | rfl | exact absurd trivial hq

theorem mem_of_sent {e : List Effect} {q : Pdu} (hq : q ∈ sent e) : Effect.send q ∈ e := by
  simp only [sent, List.mem_filterMap] at hq
  obtain ⟨x, hx, hq⟩ := hq
  cases x with
  | send p => simp only [Option.some.injEq] at hq; subst hq; exact hx
  | disconnect => cases hq

theorem passSimpleHandler_report {cfg : ServerConfig} {sid : U16} {c : Client} (ok : ConnOk (newServer cfg sid) c) {st1 st2 : Store} {p : Pdu} {e : List Effect}
    (h : (newServer cfg sid).passSimpleHandler st1 st2 c p = .ok e) {v : U8} {k : U16} {copy text : Bytes} (hq : Effect.send (.errorReport v k copy text) ∈ e) (c0 : Client) :
    copy = [] ∧ Cause sid c0 c.version st1 p k := by
  have hdata : ∀ d, Effect.send (.errorReport v k copy text) ∈ (dataAnswer cfg sid c.version (!c.dontSendBGPsecKeys) st1.serial d).map Effect.send → False := by
    intro d hm
    simp only [List.mem_map, Effect.send.injEq, exists_eq_right, dataAnswer, List.cons_append, List.mem_cons, List.mem_append,
      List.mem_filterMap, List.not_mem_nil, or_false, reduceCtorEq, false_or] at hm
    obtain ⟨x, _, hx⟩ := hm
    have := (dataPdu_some hx).2.1
    simp [pduRecord] at this
  have hnone : Effect.send (.errorReport v k copy text) = c.sendNoDataError → copy = [] ∧ k = 2 := by
    intro he
    simp only [Client.sendNoDataError, Client.sendPDU, Pdu.setVersion, Effect.send.injEq, Pdu.errorReport.injEq] at he
    exact ⟨he.2.2.1, he.2.1⟩
  cases p with
  | resetQuery w =>
    simp only [Server.passSimpleHandler, requestCache_eq ok, GoRes.ok.injEq] at h
    subst h
    split at hq
    · rename_i hd
      obtain ⟨h1, rfl⟩ := hnone (List.mem_singleton.1 hq)
      exact ⟨h1, .noData trivial (by intro w s n hp; cases hp) hd⟩
    · exact absurd hq (hdata _)
  | serialQuery w session n =>
    simp only [Server.passSimpleHandler] at h
    by_cases hs : session = sessionOf sid c.version
    · subst hs
      rw [requestNewVersion_eq ok] at h
      split at h
      · rename_i hd
        simp only [GoRes.ok.injEq] at h
        subst h
        obtain ⟨h1, rfl⟩ := hnone (List.mem_singleton.1 hq)
        exact ⟨h1, .noData trivial (by intro w s n hp; injection hp with _ hp _; exact hp.symm) hd⟩
      · exfalso
        cases hg : st2.getSDsSerialDiff n with
        | ok d =>
          rw [hg] at h
          simp only [GoRes.bind, GoRes.ok.injEq] at h
          subst h
          cases d with
          | none => simp [Client.sendCacheReset, Client.sendPDU, Pdu.setVersion] at hq
          | some d => exact hdata _ hq
        | err => rw [hg] at h; simp [GoRes.bind] at h
        | panic => rw [hg] at h; simp [GoRes.bind] at h
    · rw [requestNewVersion_mismatch ok _ _ _ _ hs] at h
      simp only [GoRes.ok.injEq] at h
      subst h
      simp only [Client.sendCorruptData, Client.sendPDU, Pdu.setVersion, List.mem_cons, Effect.send.injEq, Pdu.errorReport.injEq, reduceCtorEq, List.not_mem_nil, or_false] at hq
      obtain ⟨_, rfl, hc, _⟩ := hq
      exact ⟨hc, .session w session n rfl hs⟩
  | _ => simp only [Server.passSimpleHandler, GoRes.ok.injEq] at h; subst h; cases hq

/-- Every Error Report that the server sends has one of three causes, with the code that belongs to it.
Missing: reports for bytes that are not decoded and for PDUs that are no queries; there are none (`C153_silent_false`, `C153_accepted_false`). -/
theorem C153_causes_partial {cfg : ServerConfig} {sid : U16} {c c' : Client} (h : Conn (newServer cfg sid) c) {st1 st2 : Store} {pkt : Bytes} {e : List Effect}
    (hp : (newServer cfg sid).processRead st1 st2 c pkt = .ok (c', e)) {v : U8} {k : U16} {copy text : Bytes} (hq : .errorReport v k copy text ∈ sent e) :
    ∃ p, decodeBytes pkt = .ok p ∧ Cause sid c c'.version st1 p k ∧ copy = [] := by
  have ok := h.ok
  have he := mem_of_sent hq
  unfold Server.processRead at hp
  split at hp
  · simp only [GoRes.ok.injEq, Prod.mk.injEq] at hp
    rw [← hp.2] at he; simp at he
  · cases hd : decodeBytes pkt with
    | err => rw [hd] at hp; simp only [GoRes.ok.injEq, Prod.mk.injEq] at hp; rw [← hp.2] at he; simp at he
    | panic => rw [hd] at hp; simp at hp
    | ok p =>
      rw [hd] at hp
      simp only at hp
      refine ⟨p, rfl, ?_⟩
      by_cases ha : Acceptable c p.getVersion
      · obtain ⟨h1, h3, _⟩ := acceptable_processed ok ha hp
        have := passSimpleHandler_report (ok.negotiated ha) h1 he c
        rw [negotiated_version] at this
        rw [h3]
        exact ⟨this.2, this.1⟩
      · obtain ⟨h1, e', h2, h3⟩ := unacceptable_processed ok ha hp
        rw [h3] at he
        simp only [Client.sendWrongVersionError, Client.sendPDU, Pdu.setVersion, List.mem_cons, Effect.send.injEq, Pdu.errorReport.injEq, reduceCtorEq, false_or] at he
        rcases he with ⟨_, rfl, hc, _⟩ | he
        · exact ⟨.version ha, hc⟩
        · have := passSimpleHandler_report (by rw [h1]; exact ok.dropped.noteQuery p) h2 he c
          exact ⟨this.2, this.1⟩

theorem passSimpleHandler_caused {cfg : ServerConfig} {sid : U16} {c : Client} (ok : ConnOk (newServer cfg sid) c) {st1 st2 : Store} {p : Pdu} {e : List Effect}
    (h : (newServer cfg sid).passSimpleHandler st1 st2 c p = .ok e) {c0 : Client} {k : U16} (hk : Cause sid c0 c.version st1 p k) (h4 : k ≠ 4) :
    ∃ text, Effect.send (.errorReport c.version k [] text) ∈ e := by
  cases hk with
  | version => exact absurd rfl h4
  | session w s n hp hs =>
    subst hp
    simp only [Server.passSimpleHandler, requestNewVersion_mismatch ok _ _ _ _ hs, GoRes.ok.injEq] at h
    subst h
    exact ⟨_, List.mem_cons_self⟩
  | noData hq hs hd =>
    cases p with
    | resetQuery w =>
      simp only [Server.passSimpleHandler, requestCache_eq ok, if_pos hd, GoRes.ok.injEq] at h
      subst h
      exact ⟨_, List.mem_cons_self⟩
    | serialQuery w s n =>
      have := hs w s n rfl
      subst this
      simp only [Server.passSimpleHandler, requestNewVersion_eq ok, if_pos hd, GoRes.ok.injEq] at h
      subst h
      exact ⟨_, List.mem_cons_self⟩
    | _ => exact absurd hq id

/-- And each of these causes is reported. Missing: the other causes, as above. -/
theorem C153_reported_partial {cfg : ServerConfig} {sid : U16} {c c' : Client} (h : Conn (newServer cfg sid) c) {st1 st2 : Store} {pkt : Bytes} {e : List Effect}
    (hp : (newServer cfg sid).processRead st1 st2 c pkt = .ok (c', e)) {p : Pdu} (hd : decodeBytes pkt = .ok p) {k : U16} (hk : Cause sid c c'.version st1 p k) :
    ∃ text, .errorReport c'.version k [] text ∈ sent e := by
  have ok := h.ok
  have up : ∀ {q : Pdu}, Effect.send q ∈ e → q ∈ sent e := fun hq => List.mem_filterMap.2 ⟨_, hq, rfl⟩
  rw [processRead_pdu hd] at hp
  by_cases ha : Acceptable c p.getVersion
  · obtain ⟨h1, h3, _⟩ := acceptable_processed ok ha hp
    have h4 : k ≠ 4 := by rintro rfl; cases hk; rename_i hn; exact hn ha
    rw [h3] at hk ⊢
    have hn : (negotiated (newServer cfg sid) c p).version = lower p.getVersion (newServer cfg sid).baseVersion := negotiated_version _ _ _
    rw [← hn] at hk ⊢
    obtain ⟨t, ht⟩ := passSimpleHandler_caused (ok.negotiated ha) h1 hk h4
    exact ⟨t, up ht⟩
  · obtain ⟨h1, e', h2, h3⟩ := unacceptable_processed ok ha hp
    by_cases h4 : k = 4
    · subst h4
      have hv : c'.version = c.version := by rw [h1]; exact (noteQuery_fields _ _).1
      rw [hv]
      exact ⟨strBytes "Bad protocol version", up (by rw [h3]; exact List.mem_cons_self)⟩
    · obtain ⟨t, ht⟩ := passSimpleHandler_caused (by rw [h1]; exact ok.dropped.noteQuery p) h2 hk h4
      exact ⟨t, up (by rw [h3]; exact List.mem_cons_of_mem _ (List.mem_cons_of_mem _ ht))⟩

example : Conn (newServer exCfg 7) exV1 ∧ decodeBytes [1, 1, 0, 9, 0, 0, 0, 12, 0, 0, 0, 0] = .ok (.serialQuery 1 9 0) ∧ Cause 7 exV1 1 exStore (.serialQuery 1 9 0) 0 ∧
    decodeBytes [0, 2, 0, 0, 0, 0, 0, 8] = .ok (.resetQuery 0) ∧ Cause 7 exV1 1 exStore (.resetQuery 0) 4 ∧ Cause 7 exV1 1 (Store.init 3) (.resetQuery 1) 2 :=
  ⟨exV1_conn, by decide, .session _ _ _ rfl (by decide), by decide, .version (by decide), .noData trivial (by intro _ _ _ h; cases h) rfl⟩

/-! ## C154: the PDU that caused an Error Report -/

namespace Spec

/-- RFC 8210, 5.11: an Error Report holds a copy of the PDU that caused it, unless the error has nothing to do with its content (code 2: there are no data). -/
def ReportsNameTheirCause : Prop :=
  ∀ (cfg : ServerConfig) (sid : U16) (c c' : Client) (st1 st2 : Store) (pkt : Bytes) (e : List Effect),
    Conn (newServer cfg sid) c → c.connected = true → (newServer cfg sid).processRead st1 st2 c pkt = .ok (c', e) →
    ∀ v k copy text, .errorReport v k copy text ∈ sent e → copy = if k = 2 then [] else pkt

end Spec

/-- A query of another version is reported without the query. -/
theorem C154_copy_false : ¬ ReportsNameTheirCause := by
  intro h
  have := h exCfg 7 exV1 exV1.disconnected exStore exStore [0, 2, 0, 0, 0, 0, 0, 8]
    (.send (.errorReport 1 4 [] (strBytes "Bad protocol version")) :: .disconnect :: (dataAnswer exCfg 7 1 true 0 [exA, exK]).map .send)
    exV1_conn (by decide) (by decide) 1 4 [] (strBytes "Bad protocol version") (by decide)
  exact absurd this (by decide)

/-- No Error Report of the server ever holds a copy; that is right for code 2 only.
Missing: the copy for the other codes, which is never there (`C154_copy_false`). -/
theorem C154_empty_partial {cfg : ServerConfig} {sid : U16} {c c' : Client} (h : Conn (newServer cfg sid) c) {st1 st2 : Store} {pkt : Bytes} {e : List Effect}
    (hp : (newServer cfg sid).processRead st1 st2 c pkt = .ok (c', e)) {v : U8} {k : U16} {copy text : Bytes} (hq : .errorReport v k copy text ∈ sent e) :
    copy = [] ∧ (k = 0 ∨ k = 2 ∨ k = 4) ∧ v = c'.version := by
  obtain ⟨p, _, hk, hc⟩ := C153_causes_partial h hp hq
  refine ⟨hc, ?_, (C23_versions_and_router_keys h hp _ hq).1⟩
  cases hk
  · exact .inr (.inr rfl)
  · exact .inl rfl
  · exact .inr (.inl rfl)

/-! ## C155: a router that knows a newer version -/

namespace Spec

/-- RFC 8210, 7: a router that starts with a version the server does not have is told the highest version that the server has, in the header of the Error Report. -/
def NewerRoutersAreToldTheVersion : Prop :=
  ∀ (cfg : ServerConfig) (sid : U16) (c c' : Client) (st1 st2 : Store) (pkt : Bytes) (p : Pdu) (e : List Effect), cfg.protocolVersion = 0 ∨ cfg.protocolVersion = 1 →
    c = (newServer cfg sid).acceptClientTCP ∨ c = (newServer cfg sid).acceptClientSSH → decodeBytes pkt = .ok p → cfg.protocolVersion.toNat < p.getVersion.toNat →
    (newServer cfg sid).processRead st1 st2 c pkt = .ok (c', e) → ∃ copy text rest, sent e = .errorReport cfg.protocolVersion 4 copy text :: rest

end Spec

/-- A router that starts with version 2 is told version 0 by a server of version 1. -/
theorem C155_told_false : ¬ NewerRoutersAreToldTheVersion := by
  intro h
  obtain ⟨copy, text, rest, he⟩ := h exCfg 7 exFresh exFresh.disconnected (Store.init 3) (Store.init 3) [2, 2, 0, 0, 0, 0, 0, 8] (.resetQuery 2)
    [.send (.errorReport 0 4 [] (strBytes "Bad protocol version")), .disconnect, .send (.errorReport 0 2 [] (strBytes "No data available"))]
    (by decide) (.inl rfl) (by decide) (by decide) (by decide)
  exact absurd he (by simp [sent, exCfg])

/-- What a router of an unknown version is told: version 0, or the server's version if that is enforced.
Missing: the version of a server of version 1 that does not enforce it (`C155_told_false`); a router of version 1 at a server of version 0 is served in version 0 (`C29_accept_version`). -/
theorem C155_version_partial {cfg : ServerConfig} {sid : U16} {c c' : Client} (hc : c = (newServer cfg sid).acceptClientTCP ∨ c = (newServer cfg sid).acceptClientSSH)
    {st1 st2 : Store} {pkt : Bytes} {p : Pdu} {e : List Effect} (hd : decodeBytes pkt = .ok p) (hv : 2 ≤ p.getVersion.toNat)
    (hp : (newServer cfg sid).processRead st1 st2 c pkt = .ok (c', e)) :
    c'.connected = false ∧ ∃ text rest, e = .send (.errorReport (if cfg.enforceVersion then cfg.protocolVersion else 0) 4 [] text) :: .disconnect :: rest := by
  have hconn : Conn (newServer cfg sid) c := by rcases hc with rfl | rfl; exacts [.inl .accepted, .inr .accepted]
  have ha : ¬ Acceptable c p.getVersion := by
    rintro ⟨h | h, _⟩ <;> rw [h] at hv <;> exact absurd hv (by decide)
  obtain ⟨h1, _, text, rest, h3⟩ := C29_reject_version hconn hd ha hp
  have hver : c.version = if cfg.enforceVersion then cfg.protocolVersion else 0 := by
    have he : (newServer cfg sid).enforceVersion = cfg.enforceVersion := rfl
    have hb : (newServer cfg sid).baseVersion = cfg.protocolVersion := rfl
    rcases hc with rfl | rfl
    · unfold Server.acceptClientTCP
      rw [he, hb]
      cases cfg.enforceVersion <;> cases (newServer cfg sid).disableBGPSec <;> rfl
    · unfold Server.acceptClientSSH
      rw [he, hb]
      cases cfg.enforceVersion <;> rfl
  rw [hver] at h3
  exact ⟨h1, text, rest, h3⟩

example : decodeBytes [2, 2, 0, 0, 0, 0, 0, 8] = .ok (.resetQuery 2) ∧ ∃ c' e, (newServer exCfg 7).processRead exStore exStore (newServer exCfg 7).acceptClientSSH [2, 2, 0, 0, 0, 0, 0, 8] = .ok (c', e) ∧
    (sent e).head? = some (.errorReport 0 4 [] (strBytes "Bad protocol version")) :=
  ⟨by decide, { (newServer exCfg 7).acceptClientSSH with connected := false },
    .send (.errorReport 0 4 [] (strBytes "Bad protocol version")) :: .disconnect :: (dataAnswer exCfg 7 0 true 0 [exA, exK]).map .send, by decide, by decide⟩

/-- What comes of it: the router connects again with the version it was told, and gets no router keys, though the server has one and would have sent it to a router of version 1. -/
theorem C155_keys_false :
    let first := (newServer exCfg 7).processRead exStore exStore exFresh [2, 2, 0, 0, 0, 0, 0, 8]
    let told := (newServer exCfg 7).processRead exStore exStore exFresh [0, 2, 0, 0, 0, 0, 0, 8]
    let one := (newServer exCfg 7).processRead exStore exStore exFresh [1, 2, 0, 0, 0, 0, 0, 8]
    (∃ c text rest, first = .ok (c, .send (.errorReport 0 4 [] text) :: rest)) ∧
    (∃ c e, told = .ok (c, e) ∧ ∀ q ∈ sent e, ¬ IsRouterKey q) ∧ ∃ c e, one = .ok (c, e) ∧ ∃ q ∈ sent e, IsRouterKey q := by
  refine ⟨⟨exFresh.disconnected, _, _, (by decide : _ = GoRes.ok (exFresh.disconnected, Effect.send (.errorReport 0 4 [] (strBytes "Bad protocol version")) :: Effect.disconnect :: (dataAnswer exCfg 7 0 true 0 [exA, exK]).map Effect.send))⟩,
    ⟨{ exFresh with versionset := true }, (dataAnswer exCfg 7 0 true 0 [exA, exK]).map .send, by decide, ?_⟩,
    ⟨exV1, (dataAnswer exCfg 7 1 true 0 [exA, exK]).map .send, by decide, .routerKey 1 1 (List.replicate 20 7) 65000 [1, 2, 3, 4], by decide, trivial⟩⟩
  intro q hq hk
  rw [sent_map_send] at hq
  exact (dataAnswer_version hq).2 hk |>.1 rfl

end StayRTR
