import Verif.Spec.Session
import Verif.Proofs.DecodeBody
import Verif.Proofs.Store

/-! Lemmas on request handling. -/

namespace StayRTR
open Spec

theorem sendData_eq (c : Client) (x : SD) :
    c.sendData x = ((dataPdu c.version (!c.dontSendBGPsecKeys) x).toList).map Effect.send := by
  rcases x with ⟨⟨(_ | a | a), n⟩, asn, ml, fl⟩ | ⟨asn, pk, ski, fl⟩
  · rfl
  · rfl
  · rfl
  · simp only [Client.sendData, dataPdu]
    by_cases h0 : c.version = 0 <;> cases hk : c.dontSendBGPsecKeys <;> simp_all [Client.sendPDU, Pdu.setVersion]

theorem flatMap_sendData (c : Client) (l : List SD) :
    l.flatMap c.sendData = (l.filterMap (dataPdu c.version (!c.dontSendBGPsecKeys))).map Effect.send := by
  induction l with
  | nil => rfl
  | cons x l ih =>
    rw [List.flatMap_cons, ih, sendData_eq, List.filterMap_cons]
    cases dataPdu c.version (!c.dontSendBGPsecKeys) x <;> simp

theorem sendSDs_eq (c : Client) (sid : U16) (serial : U32) (data : List SD) :
    c.sendSDs sid serial data =
      (Pdu.cacheResponse c.version sid :: data.filterMap (dataPdu c.version (!c.dontSendBGPsecKeys)) ++
        [Pdu.endOfData c.version sid serial c.refresh c.retry c.expire]).map Effect.send := by
  simp [Client.sendSDs, flatMap_sendData, Client.sendPDU, Pdu.setVersion]

theorem getSessionId_newServer (cfg : ServerConfig) (sid : U16) (v : U8) (h : v.toNat ≤ cfg.protocolVersion.toNat) :
    (newServer cfg sid).getSessionId v = .ok (sessionOf sid v) := by
  have h' : v.toNat < cfg.protocolVersion.toNat + 1 := by omega
  simp [Server.getSessionId, goIndex, newServer, h', sessionOf]

theorem getSessionId_newServer_panic (cfg : ServerConfig) (sid : U16) (v : U8) (h : cfg.protocolVersion.toNat < v.toNat) :
    (newServer cfg sid).getSessionId v = .panic := by
  have h' : ¬ v.toNat < cfg.protocolVersion.toNat + 1 := by omega
  simp [Server.getSessionId, goIndex, newServer, h']

/-- What holds of every connection. -/
structure ConnOk (s : Server) (c : Client) : Prop where
  check : c.disableVersionCheck = false
  enforce : c.enforceVersion = false
  le : c.version.toNat ≤ s.baseVersion.toNat
  server : s.enforceVersion = true → c.versionset = true ∧ c.version = s.baseVersion
  unset : c.versionset = false → c.version = 0
  refresh : c.refresh = s.refresh
  retry : c.retry = s.retry
  expire : c.expire = s.expire

theorem ConnOk.tcp (s : Server) : ConnOk s s.acceptClientTCP := by
  unfold Server.acceptClientTCP
  constructor <;> cases h : s.enforceVersion <;> cases h' : s.disableBGPSec <;> simp [Client.fresh, Client.setVersion]

theorem ConnOk.ssh (s : Server) : ConnOk s s.acceptClientSSH := by
  unfold Server.acceptClientSSH
  constructor <;> cases h : s.enforceVersion <;> simp [Client.fresh, Client.setVersion]

theorem ConnOk.dropped {s : Server} {c : Client} (h : ConnOk s c) : ConnOk s c.disconnected :=
  ⟨h.check, h.enforce, h.le, h.server, h.unset, h.refresh, h.retry, h.expire⟩

theorem noteQuery_fields (c : Client) (p : Pdu) :
    (Client.noteQuery c p).version = c.version ∧ (Client.noteQuery c p).versionset = c.versionset ∧
    (Client.noteQuery c p).dontSendBGPsecKeys = c.dontSendBGPsecKeys ∧ (Client.noteQuery c p).refresh = c.refresh ∧
    (Client.noteQuery c p).retry = c.retry ∧ (Client.noteQuery c p).expire = c.expire ∧ (Client.noteQuery c p).connected = c.connected ∧
    (Client.noteQuery c p).disableVersionCheck = c.disableVersionCheck ∧ (Client.noteQuery c p).enforceVersion = c.enforceVersion := by
  cases p <;> simp [Client.noteQuery]

/-- The state of the connection when the request handler runs, for an acceptable PDU. -/
def negotiated (s : Server) (c : Client) (p : Pdu) : Client :=
  Client.noteQuery { c with versionset := true, version := lower p.getVersion s.baseVersion } p

theorem lower_le {a b : U8} (h : a.toNat ≤ b.toNat) : lower a b = a := by simp [lower, h]

theorem lower_toNat_le (a b : U8) : (lower a b).toNat ≤ b.toNat := by unfold lower; split <;> omega

theorem bv_gt_iff (a b : U8) : a > b ↔ b.toNat < a.toNat := by rw [gt_iff_lt, BitVec.lt_def]

/-- Processing of an acceptable PDU. -/
theorem processPdu_acceptable {s : Server} {c : Client} (ok : ConnOk s c) {p : Pdu} (ha : Acceptable c p.getVersion) (st1 st2 : Store) :
    s.processPdu st1 st2 c p =
      (s.passSimpleHandler st1 st2 (negotiated s c p) p).bind (fun e =>
        .ok (if Server.drops e then (negotiated s c p).disconnected else negotiated s c p, e)) := by
  obtain ⟨hv, hs⟩ := ha
  have hcond : (c.versionset = false ∨ p.getVersion = c.version) ∧ (p.getVersion = 1 ∨ p.getVersion = 0) := by
    refine ⟨?_, hv.symm⟩
    cases h : c.versionset
    · exact .inl rfl
    · exact .inr (hs h)
  have hle : c.versionset = true → p.getVersion.toNat ≤ s.baseVersion.toNat := fun h => by rw [hs h]; exact ok.le
  have hcap : (if p.getVersion > s.baseVersion then s.baseVersion else p.getVersion) = lower p.getVersion s.baseVersion := by
    unfold lower
    by_cases h : p.getVersion.toNat ≤ s.baseVersion.toNat
    · rw [if_neg (by rw [bv_gt_iff]; omega), if_pos h]
    · rw [if_pos (by rw [bv_gt_iff]; omega), if_neg h]
  have hgen : ∀ c1 : Client, c1.version = p.getVersion → c1.versionset = true → c1.enforceVersion = false →
      c1 = { c with versionset := true, version := p.getVersion } →
      s.handlePDU (Client.noteQuery c1 p) = (negotiated s c p, []) := by
    intro c1 h1 h2 h3 h4
    subst h4
    have hf := noteQuery_fields { c with versionset := true, version := p.getVersion } p
    unfold Server.handlePDU
    have hne : ¬ (s.enforceVersion = true ∧ (Client.noteQuery { c with versionset := true, version := p.getVersion } p).version ≠ s.baseVersion) := by
      rintro ⟨he, hn⟩
      rw [hf.1] at hn
      have := ok.server he
      exact hn (by rw [← this.2]; exact hs this.1)
    rw [if_neg hne]
    simp only [hf.1]
    by_cases h : p.getVersion > s.baseVersion
    · rw [if_pos h] at hcap
      rw [if_pos h]
      unfold negotiated
      rw [← hcap]
      cases p <;> rfl
    · rw [if_neg h] at hcap
      rw [if_neg h]
      unfold negotiated
      rw [← hcap]
  unfold Server.processPdu
  rw [if_pos ok.check]
  unfold Client.checkVersion
  rw [if_pos hcond]
  have he : (c.setVersion p.getVersion).enforceVersion = false := ok.enforce
  simp only [he, Bool.false_eq_true, false_and, if_false]
  rw [hgen (Client.setVersion p.getVersion c) rfl rfl ok.enforce rfl]
  simp only [List.nil_append]
  rfl

/-- Processing of a PDU that is not acceptable: the error and the disconnect come first, then the request is processed all the same. -/
theorem processPdu_unacceptable {s : Server} {c : Client} (ok : ConnOk s c) {p : Pdu} (ha : ¬ Acceptable c p.getVersion) (st1 st2 : Store) :
    s.processPdu st1 st2 c p =
      (s.passSimpleHandler st1 st2 (Client.noteQuery c.disconnected p) p).bind (fun e =>
        .ok (Client.noteQuery c.disconnected p, c.sendWrongVersionError :: Effect.disconnect :: e)) := by
  have hcond : ¬ ((c.versionset = false ∨ p.getVersion = c.version) ∧ (p.getVersion = 1 ∨ p.getVersion = 0)) := by
    rintro ⟨h1, h2⟩
    exact ha ⟨h2.symm, fun h => h1.resolve_left (by simp [h])⟩
  have hd := ok.dropped
  unfold Server.processPdu
  rw [if_pos ok.check]
  unfold Client.checkVersion
  rw [if_neg hcond]
  simp only [hd.enforce, Bool.false_eq_true, false_and, if_false]
  have hf := noteQuery_fields c.disconnected p
  have hh : s.handlePDU (Client.noteQuery c.disconnected p) = (Client.noteQuery c.disconnected p, []) := by
    unfold Server.handlePDU
    have hne : ¬ (s.enforceVersion = true ∧ (Client.noteQuery c.disconnected p).version ≠ s.baseVersion) := by
      rintro ⟨he, hn⟩
      rw [hf.1] at hn
      exact hn (hd.server he).2
    rw [if_neg hne]
    simp only [hf.1]
    rw [if_neg (by rw [bv_gt_iff]; have := hd.le; omega)]
  rw [hh]
  simp only [List.append_nil, List.cons_append, List.nil_append]
  have hdd : ∀ e, (if Server.drops e = true then (Client.noteQuery c.disconnected p).disconnected else Client.noteQuery c.disconnected p) =
      Client.noteQuery c.disconnected p := by
    intro e
    split
    · cases p <;> rfl
    · rfl
  simp only [hdd]
  rfl

theorem ConnOk.negotiated {s : Server} {c : Client} (ok : ConnOk s c) {p : Pdu} (ha : Acceptable c p.getVersion) :
    ConnOk s (negotiated s c p) := by
  have hf := noteQuery_fields { c with versionset := true, version := lower p.getVersion s.baseVersion } p
  obtain ⟨h1, h2, h3, h4, h5, h6, h7, h8, h9⟩ := hf
  unfold StayRTR.negotiated
  refine ⟨h8.trans ok.check, h9.trans ok.enforce, ?_, ?_, ?_, h4.trans ok.refresh, h5.trans ok.retry, h6.trans ok.expire⟩
  · rw [h1]; exact lower_toNat_le _ _
  · intro he
    refine ⟨h2, ?_⟩
    rw [h1, ha.2 (ok.server he).1, (ok.server he).2]
    exact lower_le (Nat.le_refl _)
  · intro h; rw [h2] at h; simp at h

theorem ConnOk.noteQuery {s : Server} {c : Client} (ok : ConnOk s c) (p : Pdu) : ConnOk s (Client.noteQuery c p) := by
  obtain ⟨h1, h2, h3, h4, h5, h6, h7, h8, h9⟩ := noteQuery_fields c p
  exact ⟨h8.trans ok.check, h9.trans ok.enforce, h1 ▸ ok.le, by rw [h2, h1]; exact ok.server, by rw [h2, h1]; exact ok.unset,
    h4.trans ok.refresh, h5.trans ok.retry, h6.trans ok.expire⟩

theorem ConnOk.processPdu {s : Server} {c c' : Client} {e : List Effect} {st1 st2 : Store} {p : Pdu} (ok : ConnOk s c)
    (h : s.processPdu st1 st2 c p = .ok (c', e)) : ConnOk s c' := by
  by_cases ha : Acceptable c p.getVersion
  · rw [processPdu_acceptable ok ha] at h
    cases hp : s.passSimpleHandler st1 st2 (StayRTR.negotiated s c p) p with
    | ok e' =>
      rw [hp] at h
      simp only [GoRes.bind, GoRes.ok.injEq, Prod.mk.injEq] at h
      rw [← h.1]
      split
      · exact (ok.negotiated ha).dropped
      · exact ok.negotiated ha
    | err => rw [hp] at h; simp [GoRes.bind] at h
    | panic => rw [hp] at h; simp [GoRes.bind] at h
  · rw [processPdu_unacceptable ok ha] at h
    cases hp : s.passSimpleHandler st1 st2 (Client.noteQuery c.disconnected p) p with
    | ok e' =>
      rw [hp] at h
      simp only [GoRes.bind, GoRes.ok.injEq, Prod.mk.injEq] at h
      rw [← h.1]
      exact ok.dropped.noteQuery p
    | err => rw [hp] at h; simp [GoRes.bind] at h
    | panic => rw [hp] at h; simp [GoRes.bind] at h

theorem ConnOk.processRead {s : Server} {c c' : Client} {e : List Effect} {st1 st2 : Store} {pkt : Bytes} (ok : ConnOk s c)
    (h : s.processRead st1 st2 c pkt = .ok (c', e)) : ConnOk s c' := by
  unfold Server.processRead at h
  split at h
  · simp only [GoRes.ok.injEq, Prod.mk.injEq] at h
    rw [← h.1]; exact ok.dropped
  · cases hd : decodeBytes pkt with
    | ok p => rw [hd] at h; exact ok.processPdu h
    | err =>
      rw [hd] at h
      simp only [GoRes.ok.injEq, Prod.mk.injEq] at h
      rw [← h.1]; exact ok.dropped
    | panic => rw [hd] at h; simp at h

theorem ConnFrom.ok {s : Server} {c0 c : Client} (h : ConnFrom s c0 c) (h0 : ConnOk s c0) : ConnOk s c := by
  induction h with
  | accepted => exact h0
  | read _ _ _ _ _ hp ih => exact ih.processRead hp
  | dropped _ ih => exact ih.dropped

theorem Conn.ok {s : Server} {c : Client} (h : Conn s c) : ConnOk s c :=
  h.elim (fun h => h.ok (ConnOk.tcp s)) (fun h => h.ok (ConnOk.ssh s))

theorem ConnFrom.keys {s : Server} {c0 c : Client} (h : ConnFrom s c0 c) (h0 : ConnOk s c0) :
    c.dontSendBGPsecKeys = c0.dontSendBGPsecKeys := by
  induction h with
  | accepted => rfl
  | dropped _ ih => exact ih
  | @read c c' e hc _ st1 st2 pkt hp ih =>
    rw [← ih]
    have ok := hc.ok h0
    unfold Server.processRead at hp
    split at hp
    · simp only [GoRes.ok.injEq, Prod.mk.injEq] at hp
      rw [← hp.1]; rfl
    · cases hd : decodeBytes pkt with
      | err => rw [hd] at hp; simp only [GoRes.ok.injEq, Prod.mk.injEq] at hp; rw [← hp.1]; rfl
      | panic => rw [hd] at hp; simp at hp
      | ok p =>
        rw [hd] at hp
        simp only at hp
        by_cases ha : Acceptable c p.getVersion
        · rw [processPdu_acceptable ok ha] at hp
          have hf := noteQuery_fields { c with versionset := true, version := lower p.getVersion s.baseVersion } p
          cases hp' : s.passSimpleHandler st1 st2 (StayRTR.negotiated s c p) p with
          | ok e' =>
            rw [hp'] at hp
            simp only [GoRes.bind, GoRes.ok.injEq, Prod.mk.injEq] at hp
            rw [← hp.1]
            split
            · exact hf.2.2.1
            · exact hf.2.2.1
          | err => rw [hp'] at hp; simp [GoRes.bind] at hp
          | panic => rw [hp'] at hp; simp [GoRes.bind] at hp
        · rw [processPdu_unacceptable ok ha] at hp
          have hf := noteQuery_fields c.disconnected p
          cases hp' : s.passSimpleHandler st1 st2 (Client.noteQuery c.disconnected p) p with
          | ok e' =>
            rw [hp'] at hp
            simp only [GoRes.bind, GoRes.ok.injEq, Prod.mk.injEq] at hp
            rw [← hp.1]
            exact hf.2.2.1
          | err => rw [hp'] at hp; simp [GoRes.bind] at hp
          | panic => rw [hp'] at hp; simp [GoRes.bind] at hp

theorem processRead_pdu {pkt : Bytes} {p : Pdu} (h : decodeBytes pkt = .ok p) (s : Server) (st1 st2 : Store) (c : Client) :
    s.processRead st1 st2 c pkt = s.processPdu st1 st2 c p := by
  unfold Server.processRead
  rw [if_neg, h]
  rintro rfl
  have : decodeBytes [] = .err := by decide
  rw [this] at h; cases h

theorem newServer_refresh (cfg : ServerConfig) (sid : U16) : (newServer cfg sid).refresh = interval cfg.refresh 3600 := by
  simp only [newServer, interval]; split <;> simp_all
theorem newServer_retry (cfg : ServerConfig) (sid : U16) : (newServer cfg sid).retry = interval cfg.retry 600 := by
  simp only [newServer, interval]; split <;> simp_all
theorem newServer_expire (cfg : ServerConfig) (sid : U16) : (newServer cfg sid).expire = interval cfg.expire 7200 := by
  simp only [newServer, interval]; split <;> simp_all

theorem sendSDs_dataAnswer {cfg : ServerConfig} {sid : U16} {c : Client} (ok : ConnOk (newServer cfg sid) c) (serial : U32) (data : List SD) :
    c.sendSDs (sessionOf sid c.version) serial data =
      (dataAnswer cfg sid c.version (!c.dontSendBGPsecKeys) serial data).map Effect.send := by
  rw [sendSDs_eq, ok.refresh, ok.retry, ok.expire, newServer_refresh, newServer_retry, newServer_expire]
  rfl

theorem requestCache_eq {cfg : ServerConfig} {sid : U16} {c : Client} (ok : ConnOk (newServer cfg sid) c) (st1 st2 : Store) :
    (newServer cfg sid).requestCache st1 st2 c =
      .ok (if st1.current = [] then [c.sendNoDataError]
        else (dataAnswer cfg sid c.version (!c.dontSendBGPsecKeys) st1.serial st2.current).map Effect.send) := by
  unfold Server.requestCache
  rw [getSessionId_newServer cfg sid _ ok.le, GoRes.bind_ok']
  simp only [Store.getCurrentSerial]
  by_cases h : st1.current = []
  · simp [h]
  · have : 0 < st1.current.length := List.length_pos_iff.mpr h
    simp [h, this, sendSDs_dataAnswer ok]

theorem requestNewVersion_mismatch {cfg : ServerConfig} {sid : U16} {c : Client} (ok : ConnOk (newServer cfg sid) c) (st1 st2 : Store)
    (session : U16) (n : U32) (h : session ≠ sessionOf sid c.version) :
    (newServer cfg sid).requestNewVersion st1 st2 c session n = .ok [c.sendCorruptData, .disconnect] := by
  unfold Server.requestNewVersion
  rw [getSessionId_newServer cfg sid _ ok.le, GoRes.bind_ok']
  simp [h]

theorem requestNewVersion_eq {cfg : ServerConfig} {sid : U16} {c : Client} (ok : ConnOk (newServer cfg sid) c) (st1 st2 : Store)
    (n : U32) :
    (newServer cfg sid).requestNewVersion st1 st2 c (sessionOf sid c.version) n =
      if st1.current = [] then .ok [c.sendNoDataError]
      else (st2.getSDsSerialDiff n).bind (fun d => .ok (match d with
        | none => [c.sendCacheReset]
        | some data => (dataAnswer cfg sid c.version (!c.dontSendBGPsecKeys) st1.serial data).map Effect.send)) := by
  unfold Server.requestNewVersion
  rw [getSessionId_newServer cfg sid _ ok.le, GoRes.bind_ok']
  simp only [Store.getCurrentSerial]
  by_cases h : st1.current = []
  · simp [h]
  · have : 0 < st1.current.length := List.length_pos_iff.mpr h
    simp only [ne_eq, not_true_eq_false, if_false, h, this, decide_true, Bool.true_eq_false, if_neg]
    congr 1
    funext d
    cases d
    · rfl
    · simp only [sendSDs_dataAnswer ok]; rfl

theorem drops_map_send (l : List Pdu) : Server.drops (l.map Effect.send) = false := by
  induction l with
  | nil => rfl
  | cons a l ih => simpa [Server.drops] using ih

theorem negotiated_reset (s : Server) (c : Client) (v : U8) :
    negotiated s c (.resetQuery v) = { c with versionset := true, version := lower v s.baseVersion } := rfl

theorem negotiated_serial (s : Server) (c : Client) (v : U8) (ss : U16) (n : U32) :
    negotiated s c (.serialQuery v ss n) = { c with versionset := true, version := lower v s.baseVersion, curserial := n } := rfl

theorem newServer_base (cfg : ServerConfig) (sid : U16) : (newServer cfg sid).baseVersion = cfg.protocolVersion := rfl

theorem sent_map_send (l : List Pdu) : sent (l.map Effect.send) = l := by
  induction l with
  | nil => rfl
  | cons a l ih => simp [sent] at ih ⊢; exact ih

theorem dataPdu_version {v : U8} {k : Bool} {x : SD} {p : Pdu} (h : dataPdu v k x = some p) :
    p.getVersion = v ∧ (IsRouterKey p → v ≠ 0 ∧ k = true) := by
  rcases x with ⟨⟨(_ | a | a), n⟩, asn, ml, fl⟩ | ⟨asn, pk, ski, fl⟩
  · simp [dataPdu] at h
  · simp only [dataPdu, Option.some.injEq] at h; subst h; simp [Pdu.getVersion, IsRouterKey]
  · simp only [dataPdu, Option.some.injEq] at h; subst h; simp [Pdu.getVersion, IsRouterKey]
  · simp only [dataPdu] at h
    split at h
    · rename_i hk
      simp only [Option.some.injEq] at h; subst h
      exact ⟨rfl, fun _ => ⟨hk.2, hk.1⟩⟩
    · cases h

theorem dataAnswer_version {cfg : ServerConfig} {sid : U16} {v : U8} {k : Bool} {n : U32} {d : List SD} {p : Pdu}
    (h : p ∈ dataAnswer cfg sid v k n d) : p.getVersion = v ∧ (IsRouterKey p → v ≠ 0 ∧ k = true) := by
  simp only [dataAnswer, List.cons_append, List.mem_cons, List.mem_append, List.mem_filterMap, List.not_mem_nil, or_false] at h
  rcases h with rfl | ⟨x, _, h⟩ | rfl
  · simp [Pdu.getVersion, IsRouterKey]
  · exact dataPdu_version h
  · simp [Pdu.getVersion, IsRouterKey]

/-- What a request handler can do. -/
theorem passSimpleHandler_cases {cfg : ServerConfig} {sid : U16} {c : Client} (ok : ConnOk (newServer cfg sid) c) (st1 st2 : Store) (p : Pdu) :
    (newServer cfg sid).passSimpleHandler st1 st2 c p = .ok [] ∨
    (newServer cfg sid).passSimpleHandler st1 st2 c p = .ok [c.sendNoDataError] ∨
    (newServer cfg sid).passSimpleHandler st1 st2 c p = .ok [c.sendCorruptData, .disconnect] ∨
    (newServer cfg sid).passSimpleHandler st1 st2 c p = .ok [c.sendCacheReset] ∨
    ∃ d, (newServer cfg sid).passSimpleHandler st1 st2 c p =
      .ok ((dataAnswer cfg sid c.version (!c.dontSendBGPsecKeys) st1.serial d).map Effect.send) := by
  cases p with
  | resetQuery v =>
    simp only [Server.passSimpleHandler, requestCache_eq ok]
    split
    · exact .inr (.inl rfl)
    · exact .inr (.inr (.inr (.inr ⟨_, rfl⟩)))
  | serialQuery v session n =>
    simp only [Server.passSimpleHandler]
    by_cases h : session = sessionOf sid c.version
    · subst h
      rw [requestNewVersion_eq ok]
      split
      · exact .inr (.inl rfl)
      · rw [getSDsSerialDiff_eq]
        split
        · exact .inr (.inr (.inr (.inr ⟨_, rfl⟩)))
        · split
          · exact .inr (.inr (.inr (.inl rfl)))
          · simp only [GoRes.bind]
            split
            · exact .inr (.inr (.inr (.inl rfl)))
            · exact .inr (.inr (.inr (.inr ⟨_, rfl⟩)))
    · rw [requestNewVersion_mismatch ok _ _ _ _ h]
      exact .inr (.inr (.inl rfl))
  | _ => exact .inl rfl

theorem passSimpleHandler_sent {cfg : ServerConfig} {sid : U16} {c : Client} (ok : ConnOk (newServer cfg sid) c) {st1 st2 : Store} {p : Pdu}
    {e : List Effect} (h : (newServer cfg sid).passSimpleHandler st1 st2 c p = .ok e) {q : Pdu} (hq : .send q ∈ e) :
    q.getVersion = c.version ∧ (IsRouterKey q → c.version ≠ 0 ∧ c.dontSendBGPsecKeys = false) ∧ ¬ IsError 4 q := by
  have hdata : ∀ d, Effect.send q ∈ (dataAnswer cfg sid c.version (!c.dontSendBGPsecKeys) st1.serial d).map Effect.send →
      q.getVersion = c.version ∧ (IsRouterKey q → c.version ≠ 0 ∧ c.dontSendBGPsecKeys = false) ∧ ¬ IsError 4 q := by
    intro d hd
    simp only [List.mem_map, Effect.send.injEq, exists_eq_right] at hd
    refine ⟨(dataAnswer_version hd).1, fun hk => ?_, ?_⟩
    · have := (dataAnswer_version hd).2 hk
      exact ⟨this.1, by simpa using this.2⟩
    · simp only [dataAnswer, List.cons_append, List.mem_cons, List.mem_append, List.mem_filterMap, List.not_mem_nil, or_false] at hd
      rcases hd with rfl | ⟨x, _, h⟩ | rfl
      · simp [IsError]
      · rcases x with ⟨⟨(_ | a | a), n⟩, asn, ml, fl⟩ | ⟨asn, pk, ski, fl⟩
        · simp [dataPdu] at h
        · simp only [dataPdu, Option.some.injEq] at h; subst h; simp [IsError]
        · simp only [dataPdu, Option.some.injEq] at h; subst h; simp [IsError]
        · simp only [dataPdu] at h
          split at h
          · simp only [Option.some.injEq] at h; subst h; simp [IsError]
          · cases h
      · simp [IsError]
  rcases passSimpleHandler_cases ok st1 st2 p with h' | h' | h' | h' | ⟨d, h'⟩ <;> rw [h'] at h <;>
    simp only [GoRes.ok.injEq] at h <;> subst h
  · cases hq
  · simp only [Client.sendNoDataError, Client.sendPDU, Pdu.setVersion, List.mem_singleton, Effect.send.injEq] at hq
    subst hq; simp [Pdu.getVersion, IsRouterKey, IsError]
  · simp only [Client.sendCorruptData, Client.sendPDU, Pdu.setVersion, List.mem_cons, Effect.send.injEq, List.not_mem_nil, or_false,
      reduceCtorEq] at hq
    subst hq; simp [Pdu.getVersion, IsRouterKey, IsError]
  · simp only [Client.sendCacheReset, Client.sendPDU, Pdu.setVersion, List.mem_singleton, Effect.send.injEq] at hq
    subst hq; simp [Pdu.getVersion, IsRouterKey, IsError]
  · exact hdata d hq

/-- Processing never fails. -/
theorem processPdu_total {cfg : ServerConfig} {sid : U16} {c : Client} (ok : ConnOk (newServer cfg sid) c) (st1 st2 : Store) (p : Pdu) :
    ∃ r, (newServer cfg sid).processPdu st1 st2 c p = .ok r := by
  by_cases ha : Acceptable c p.getVersion
  · rw [processPdu_acceptable ok ha]
    rcases passSimpleHandler_cases (ok.negotiated ha) st1 st2 p with h' | h' | h' | h' | ⟨d, h'⟩ <;> rw [h'] <;> exact ⟨_, rfl⟩
  · rw [processPdu_unacceptable ok ha]
    rcases passSimpleHandler_cases (ok.dropped.noteQuery p) st1 st2 p with h' | h' | h' | h' | ⟨d, h'⟩ <;> rw [h'] <;> exact ⟨_, rfl⟩

theorem negotiated_version (s : Server) (c : Client) (p : Pdu) : (negotiated s c p).version = lower p.getVersion s.baseVersion :=
  (noteQuery_fields { c with versionset := true, version := lower p.getVersion s.baseVersion } p).1
theorem negotiated_versionset (s : Server) (c : Client) (p : Pdu) : (negotiated s c p).versionset = true :=
  (noteQuery_fields { c with versionset := true, version := lower p.getVersion s.baseVersion } p).2.1
theorem negotiated_keys (s : Server) (c : Client) (p : Pdu) : (negotiated s c p).dontSendBGPsecKeys = c.dontSendBGPsecKeys :=
  (noteQuery_fields { c with versionset := true, version := lower p.getVersion s.baseVersion } p).2.2.1
theorem negotiated_connected (s : Server) (c : Client) (p : Pdu) : (negotiated s c p).connected = c.connected :=
  (noteQuery_fields { c with versionset := true, version := lower p.getVersion s.baseVersion } p).2.2.2.2.2.2.1

theorem acceptable_processed {s : Server} {c c' : Client} (ok : ConnOk s c) {p : Pdu} (ha : Acceptable c p.getVersion) {st1 st2 : Store}
    {e : List Effect} (h : s.processPdu st1 st2 c p = .ok (c', e)) :
    s.passSimpleHandler st1 st2 (negotiated s c p) p = .ok e ∧ c'.version = lower p.getVersion s.baseVersion ∧ c'.versionset = true ∧
    c'.dontSendBGPsecKeys = c.dontSendBGPsecKeys ∧ (c'.connected = true ↔ c.connected = true ∧ Server.drops e = false) := by
  rw [processPdu_acceptable ok ha] at h
  cases hp : s.passSimpleHandler st1 st2 (negotiated s c p) p with
  | ok e' =>
    rw [hp] at h
    simp only [GoRes.bind, GoRes.ok.injEq, Prod.mk.injEq] at h
    obtain ⟨rfl, rfl⟩ := h
    split
    · rename_i hd
      refine ⟨rfl, negotiated_version s c p, negotiated_versionset s c p, negotiated_keys s c p, ?_⟩
      simp [Client.disconnected, hd]
    · rename_i hd
      refine ⟨rfl, negotiated_version s c p, negotiated_versionset s c p, negotiated_keys s c p, ?_⟩
      rw [negotiated_connected]; simp [hd]
  | err => rw [hp] at h; simp [GoRes.bind] at h
  | panic => rw [hp] at h; simp [GoRes.bind] at h

theorem unacceptable_processed {s : Server} {c c' : Client} (ok : ConnOk s c) {p : Pdu} (ha : ¬ Acceptable c p.getVersion) {st1 st2 : Store}
    {e : List Effect} (h : s.processPdu st1 st2 c p = .ok (c', e)) :
    c' = c.disconnected.noteQuery p ∧ ∃ e', s.passSimpleHandler st1 st2 c' p = .ok e' ∧ e = c.sendWrongVersionError :: .disconnect :: e' := by
  rw [processPdu_unacceptable ok ha] at h
  cases hp : s.passSimpleHandler st1 st2 (c.disconnected.noteQuery p) p with
  | ok e' =>
    rw [hp] at h
    simp only [GoRes.bind, GoRes.ok.injEq, Prod.mk.injEq] at h
    obtain ⟨rfl, rfl⟩ := h
    exact ⟨rfl, e', hp, rfl⟩
  | err => rw [hp] at h; simp [GoRes.bind] at h
  | panic => rw [hp] at h; simp [GoRes.bind] at h

end StayRTR
