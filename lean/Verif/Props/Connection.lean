import Verif.Props.Session

/-! C28-C30, C36, C37: races, version negotiation, dropped connections and framing of requests. -/

namespace StayRTR
open Spec

/-! ## C28 -/

/-- **C28** in full: whatever updates happen between the two reads of a handler, the End of Data of an answer to a Reset Query carries the serial of
the data that was sent. -/
def EndOfDataLabelsData : Prop := ∀ (cfg : ServerConfig) (sid : U16) (k : Int) (c c' : Client) (st1 : Store) (updates : List (List SD)) (v : U8)
    (pkt : Bytes) (e : List Effect), Conn (newServer cfg sid) c → c.connected = true → Reachable k st1 → (∀ l ∈ updates, AllValid l) →
    decodeBytes pkt = .ok (.resetQuery v) → (newServer cfg sid).processRead st1 (st1.run updates) c pkt = .ok (c', e) →
    ∀ w s n r1 r2 r3, Pdu.endOfData w s n r1 r2 r3 ∈ sent e → n = (st1.run updates).serial

/-- The code does not have this property: an update between the reads of serial and data gives new data under the old serial. -/
theorem C28_race_false : ¬ EndOfDataLabelsData := by
  intro h
  have := h exCfg 7 3 exV1 exV1 ((Store.init 3).run [[exA]]) [[exB]] 1 [1, 2, 0, 0, 0, 0, 0, 8]
    ((dataAnswer exCfg 7 1 true 0 [exB]).map .send) exV1_conn (by decide) ⟨_, by decide, rfl⟩ (by decide) (by decide) (by decide)
    1 107 0 3600 600 7200 (by decide)
  exact absurd this (by decide)

/-- What follows for the router: its next query is answered by an update that announces what it already holds. -/
theorem C28_race_consequence_false :
    let st1 := (Store.init 3).run [[exA]]
    let st2 := st1.run [[exB]]
    (newServer exCfg 7).processRead st1 st2 exV1 [1, 2, 0, 0, 0, 0, 0, 8] = .ok (exV1, (dataAnswer exCfg 7 1 true 0 [exB]).map .send) ∧
    st2.getSDsSerialDiff 0 = .ok (some [exB, exA.withFlag 0]) := by decide

/-- **C28**, partial: in every case the label is the serial of the first read and the data those of the second; so the label is right whenever no
update happened in between. Missing: updates between the two reads, refuted above. -/
theorem C28_no_update_between_partial {cfg : ServerConfig} {sid : U16} {c c' : Client} (h : Conn (newServer cfg sid) c)
    {st1 st2 : Store} {pkt : Bytes} {e : List Effect} (hp : (newServer cfg sid).processRead st1 st2 c pkt = .ok (c', e))
    {w s n r1 r2 r3} (he : Pdu.endOfData w s n r1 r2 r3 ∈ sent e) : n = st1.serial ∧ (st1 = st2 → n = st2.serial) := by
  have ok := h.ok
  suffices hn : n = st1.serial from ⟨hn, fun h => h ▸ hn⟩
  have key : ∀ (c0 : Client) (p : Pdu) (e' : List Effect), ConnOk (newServer cfg sid) c0 →
      (newServer cfg sid).passSimpleHandler st1 st2 c0 p = .ok e' → Effect.send (Pdu.endOfData w s n r1 r2 r3) ∈ e' → n = st1.serial := by
    intro c0 p e' ok0 hh hm
    rcases passSimpleHandler_cases ok0 st1 st2 p with h' | h' | h' | h' | ⟨d, h'⟩ <;> rw [h'] at hh <;>
      simp only [GoRes.ok.injEq] at hh <;> subst hh
    · cases hm
    · simp [Client.sendNoDataError, Client.sendPDU, Pdu.setVersion] at hm
    · simp [Client.sendCorruptData, Client.sendPDU, Pdu.setVersion] at hm
    · simp [Client.sendCacheReset, Client.sendPDU, Pdu.setVersion] at hm
    · simp only [List.mem_map, Effect.send.injEq, exists_eq_right, dataAnswer, List.cons_append, List.mem_cons, List.mem_append,
        List.mem_filterMap, List.not_mem_nil, or_false, reduceCtorEq, false_or] at hm
      rcases hm with ⟨x, _, hx⟩ | hm
      · have := (dataPdu_some hx).2.1
        simp [pduRecord] at this
      · injection hm
  have hmem : ∀ q, q ∈ sent e → Effect.send q ∈ e := by
    intro q hq
    simp only [sent, List.mem_filterMap] at hq
    obtain ⟨x, hx, hq⟩ := hq
    cases x with
    | send p => simp only [Option.some.injEq] at hq; subst hq; exact hx
    | disconnect => cases hq
  have he := hmem _ he
  unfold Server.processRead at hp
  split at hp
  · simp only [GoRes.ok.injEq, Prod.mk.injEq] at hp
    rw [← hp.2] at he; simp at he
  · cases hd : decodeBytes pkt with
    | err => rw [hd] at hp; simp only [GoRes.ok.injEq, Prod.mk.injEq] at hp; rw [← hp.2] at he; simp at he
    | panic => rw [hd] at hp; simp at hp
    | ok p =>
      rw [hd] at hp
      simp only at hp
      by_cases ha : Acceptable c p.getVersion
      · obtain ⟨h1, _⟩ := acceptable_processed ok ha hp
        exact key _ _ _ (ok.negotiated ha) h1 he
      · obtain ⟨h1, e', h2, h3⟩ := unacceptable_processed ok ha hp
        rw [h3] at he
        simp only [Client.sendWrongVersionError, Client.sendPDU, Pdu.setVersion, List.mem_cons, Effect.send.injEq, reduceCtorEq, false_or] at he
        exact key _ _ _ (by rw [h1]; exact ok.dropped.noteQuery p) h2 he

example : Pdu.endOfData 1 107 0 3600 600 7200 ∈ sent ((dataAnswer exCfg 7 1 true 0 [exB]).map .send) := by decide

/-! ## C29 -/

/-- **C29.** A connection starts without a version, or with the server's if that is enforced. -/
theorem C29_accepted (cfg : ServerConfig) (sid : U16) :
    (newServer cfg sid).acceptClientTCP.versionset = cfg.enforceVersion ∧ (newServer cfg sid).acceptClientSSH.versionset = cfg.enforceVersion ∧
    (cfg.enforceVersion = true → (newServer cfg sid).acceptClientTCP.version = cfg.protocolVersion ∧
      (newServer cfg sid).acceptClientSSH.version = cfg.protocolVersion) := by
  have h : (newServer cfg sid).enforceVersion = cfg.enforceVersion := rfl
  have hb : (newServer cfg sid).baseVersion = cfg.protocolVersion := rfl
  unfold Server.acceptClientTCP Server.acceptClientSSH
  rw [h, hb]
  cases cfg.enforceVersion <;> cases (newServer cfg sid).disableBGPSec <;> simp [Client.fresh, Client.setVersion]

/-- **C29.** A PDU of a supported version on a connection without one, or of the connection's own version: it (capped by the server's)
is the connection's version afterwards, and no version error is sent. -/
theorem C29_accept_version {cfg : ServerConfig} {sid : U16} {c c' : Client} (h : Conn (newServer cfg sid) c) {st1 st2 : Store} {pkt : Bytes} {p : Pdu}
    {e : List Effect} (hd : decodeBytes pkt = .ok p) (ha : Acceptable c p.getVersion)
    (hp : (newServer cfg sid).processRead st1 st2 c pkt = .ok (c', e)) :
    c'.versionset = true ∧ c'.version = lower p.getVersion cfg.protocolVersion ∧ (c.versionset = true → c'.version = c.version) ∧
    ∀ q ∈ sent e, ¬ IsError 4 q := by
  rw [processRead_pdu hd] at hp
  have ok := h.ok
  obtain ⟨h1, h2, h3, _, _⟩ := acceptable_processed ok ha hp
  refine ⟨h3, h2, fun hs => ?_, fun q hq => ?_⟩
  · rw [h2, ha.2 hs]
    exact lower_le ok.le
  · simp only [sent, List.mem_filterMap] at hq
    obtain ⟨x, hx, hq⟩ := hq
    cases x with
    | send p => simp only [Option.some.injEq] at hq; subst hq; exact (passSimpleHandler_sent (ok.negotiated ha) h1 hx).2.2
    | disconnect => cases hq

/-- **C29.** Any other PDU: the first thing that happens is an Error Report with code 4, then the connection is dropped; its version is unchanged. -/
theorem C29_reject_version {cfg : ServerConfig} {sid : U16} {c c' : Client} (h : Conn (newServer cfg sid) c) {st1 st2 : Store} {pkt : Bytes} {p : Pdu}
    {e : List Effect} (hd : decodeBytes pkt = .ok p) (ha : ¬ Acceptable c p.getVersion)
    (hp : (newServer cfg sid).processRead st1 st2 c pkt = .ok (c', e)) :
    c'.connected = false ∧ c'.version = c.version ∧ ∃ text rest, e = .send (.errorReport c.version 4 [] text) :: .disconnect :: rest := by
  rw [processRead_pdu hd] at hp
  obtain ⟨h1, e', _, h3⟩ := unacceptable_processed h.ok ha hp
  refine ⟨?_, ?_, strBytes "Bad protocol version", e', h3⟩
  · rw [h1]; exact (noteQuery_fields c.disconnected p).2.2.2.2.2.2.1
  · rw [h1]; exact (noteQuery_fields c.disconnected p).1

/-- **C29.** Once there is a version it never changes, whatever is received. -/
theorem C29_pinned {cfg : ServerConfig} {sid : U16} {c c' : Client} (h : Conn (newServer cfg sid) c) (hs : c.versionset = true)
    (h' : ConnFrom (newServer cfg sid) c c') : c'.version = c.version ∧ c'.versionset = true := by
  induction h' with
  | accepted => exact ⟨rfl, hs⟩
  | dropped _ ih => exact ih
  | @read c1 c2 e h1 _ st1 st2 pkt hp ih =>
    have ok1 := h1.ok h.ok
    unfold Server.processRead at hp
    split at hp
    · simp only [GoRes.ok.injEq, Prod.mk.injEq] at hp
      rw [← hp.1]; exact ih
    · cases hd : decodeBytes pkt with
      | err => rw [hd] at hp; simp only [GoRes.ok.injEq, Prod.mk.injEq] at hp; rw [← hp.1]; exact ih
      | panic => rw [hd] at hp; simp at hp
      | ok p =>
        rw [hd] at hp
        simp only at hp
        by_cases ha : Acceptable c1 p.getVersion
        · obtain ⟨_, h2, h3, _⟩ := acceptable_processed ok1 ha hp
          refine ⟨?_, h3⟩
          rw [h2, ha.2 ih.2, lower_le ok1.le, ih.1]
        · obtain ⟨h2, _⟩ := unacceptable_processed ok1 ha hp
          have hf := noteQuery_fields c1.disconnected p
          rw [h2, hf.1, hf.2.1]
          exact ih

/-- Version 0 after version 1, and version 2 at the start, are rejected; version 1 at the start is accepted. -/
example : ¬ Acceptable exV1 0 ∧ ¬ Acceptable exFresh 2 ∧ Acceptable exFresh 1 ∧ Acceptable exV1 1 ∧
    decodeBytes [0, 2, 0, 0, 0, 0, 0, 8] = .ok (.resetQuery 0) ∧
    (newServer exCfg 7).processRead exStore exStore exFresh [2, 2, 0, 0, 0, 0, 0, 8] = .ok (exFresh.disconnected,
      .send (.errorReport 0 4 [] (strBytes "Bad protocol version")) :: .disconnect :: (dataAnswer exCfg 7 0 true 0 [exA, exK]).map .send) := by
  decide

/-! ## C30 -/

/-- **C30** in full: after the decision to drop the connection nothing more is queued. -/
def NothingAfterDisconnect : Prop := ∀ (cfg : ServerConfig) (sid : U16) (c c' : Client) (st1 st2 : Store) (pkt : Bytes) (e : List Effect),
  Conn (newServer cfg sid) c → (newServer cfg sid).processRead st1 st2 c pkt = .ok (c', e) →
  ∀ pre post, e = pre ++ .disconnect :: post → post = []

/-- The code does not have this property: a Reset Query of a wrong version is refused and answered all the same. -/
theorem C30_served_after_error_false : ¬ NothingAfterDisconnect := by
  intro h
  have := h exCfg 7 exV1 exV1.disconnected exStore exStore [0, 2, 0, 0, 0, 0, 0, 8]
    (.send (.errorReport 1 4 [] (strBytes "Bad protocol version")) :: .disconnect :: (dataAnswer exCfg 7 1 true 0 [exA, exK]).map .send)
    exV1_conn (by decide) [_] _ rfl
  exact absurd this (by decide)

/-- **C30**, partial: later packets are not processed, and for every packet other than one of an unacceptable version the disconnect is the last
thing that happens. Missing: packets of an unacceptable version, refuted above. -/
theorem C30_partial {cfg : ServerConfig} {sid : U16} {c c' : Client} (h : Conn (newServer cfg sid) c) {st1 st2 : Store} {pkt : Bytes}
    {e : List Effect} (ha : ∀ p, decodeBytes pkt = .ok p → Acceptable c p.getVersion)
    (hp : (newServer cfg sid).processRead st1 st2 c pkt = .ok (c', e)) :
    (∀ pre post, e = pre ++ .disconnect :: post → post = [] ∧ c'.connected = false) ∧
    (c'.connected = false → ∀ reads, (newServer cfg sid).readLoop c' reads = .ok (c', [])) := by
  have hsingle : ∀ pre post, [Effect.disconnect] = pre ++ Effect.disconnect :: post → post = [] := by
    intro pre post he
    cases pre with
    | nil => simpa using he.symm
    | cons a pre => simp at he
  constructor
  · intro pre post he
    subst he
    unfold Server.processRead at hp
    split at hp
    · simp only [GoRes.ok.injEq, Prod.mk.injEq] at hp
      exact ⟨hsingle _ _ hp.2, by rw [← hp.1]; rfl⟩
    · cases hd : decodeBytes pkt with
      | err =>
        rw [hd] at hp; simp only [GoRes.ok.injEq, Prod.mk.injEq] at hp
        exact ⟨hsingle _ _ hp.2, by rw [← hp.1]; rfl⟩
      | panic => rw [hd] at hp; simp at hp
      | ok p =>
        rw [hd] at hp
        simp only at hp
        obtain ⟨h1, _, _, _, h5⟩ := acceptable_processed h.ok (ha p hd) hp
        have hdr : Server.drops (pre ++ .disconnect :: post) = true := by simp [Server.drops]
        refine ⟨?_, ?_⟩
        · rcases passSimpleHandler_cases (h.ok.negotiated (ha p hd)) st1 st2 p with h' | h' | h' | h' | ⟨d, h'⟩ <;> rw [h'] at h1 <;>
            simp only [GoRes.ok.injEq] at h1
          · simp at h1
          · have := congrArg Server.drops h1
            rw [hdr] at this; cases this
          · cases pre with
            | nil => simp [Client.sendCorruptData, Client.sendPDU] at h1
            | cons a pre =>
              simp only [List.cons_append, List.cons.injEq] at h1
              exact hsingle _ _ h1.2
          · have := congrArg Server.drops h1
            rw [hdr] at this; cases this
          · have := congrArg Server.drops h1
            rw [hdr, drops_map_send] at this; cases this
        · rw [Bool.eq_false_iff]
          intro hc
          have := (h5.mp hc).2
          rw [hdr] at this; cases this
  · intro hc reads
    cases reads with
    | nil => rfl
    | cons r reads =>
      obtain ⟨a, b, p⟩ := r
      simp [Server.readLoop, hc]

/-- A session mismatch meets the hypotheses and disconnects. -/
example : (newServer exCfg 7).processRead exStore exStore exV1 [1, 1, 0, 7, 0, 0, 0, 12, 0, 0, 0, 9] =
    .ok ({ exV1 with connected := false, curserial := 9 },
      [.send (.errorReport 1 0 [] (strBytes "Session ID mismatch: client is desynchronized")), .disconnect]) := by decide

/-! ## C36 -/

/-- **C36** in full: what the server does depends on the bytes received only, not on how they are cut into (non-empty) reads. -/
def SegmentationIndependent : Prop := ∀ (cfg : ServerConfig) (sid : U16) (c : Client) (st : Store) (r1 r2 : List Bytes),
  Conn (newServer cfg sid) c → (∀ b ∈ r1, b ≠ []) → (∀ b ∈ r2, b ≠ []) → r1.flatten = r2.flatten →
  ((newServer cfg sid).readLoop c (r1.map (fun b => (st, st, b)))) = ((newServer cfg sid).readLoop c (r2.map (fun b => (st, st, b))))

/-- The code does not have this property: of two requests in one segment the second is lost. -/
theorem C36_merged_false : ¬ SegmentationIndependent := by
  intro h
  have := h exCfg 7 exV1 exStore [[1, 2, 0, 0, 0, 0, 0, 8, 1, 2, 0, 0, 0, 0, 0, 8]] [[1, 2, 0, 0, 0, 0, 0, 8], [1, 2, 0, 0, 0, 0, 0, 8]]
    exV1_conn (by decide) (by decide) (by decide)
  exact absurd this (by decide)

/-- And a request that arrives in two segments costs the connection. -/
theorem C36_split_false :
    (newServer exCfg 7).readLoop exV1 [(exStore, exStore, [1, 2, 0, 0]), (exStore, exStore, [0, 0, 0, 8])] =
      .ok (exV1.disconnected, [.disconnect]) ∧
    (newServer exCfg 7).readLoop exV1 [(exStore, exStore, [1, 2, 0, 0, 0, 0, 0, 8])] =
      .ok (exV1, (dataAnswer exCfg 7 1 true 0 [exA, exK]).map .send) := by decide

/-- What the server does with a sequence of PDUs, one after the other, until it drops the connection. -/
def actOn (s : Server) (st : Store) (c : Client) : List Pdu → GoRes (Client × List Effect)
  | [] => .ok (c, [])
  | p :: ps => if c.connected = false then .ok (c, []) else do
      let (c', e) ← s.processPdu st st c p
      let (c'', e') ← actOn s st c' ps
      return (c'', e ++ e')

/-- **C36**, partial: when every read holds exactly one PDU, the server acts upon exactly the PDUs of the byte stream, in order.
Missing: reads that are not aligned with PDUs, refuted above. -/
theorem C36_aligned_partial (s : Server) (st : Store) (c : Client) (ps : List Pdu) (hps : ∀ p ∈ ps, Representable p) :
    ∃ bs : List Bytes, ps.map Pdu.encode = bs.map GoRes.ok ∧ Stream bs.flatten (ps.map received) ∧
      s.readLoop c (bs.map (fun b => (st, st, b))) = actOn s st c (ps.map received) := by
  obtain ⟨bs, h1, h2⟩ := C05_stream ps hps
  refine ⟨bs, h1, h2, ?_⟩
  clear h2
  induction ps generalizing bs c with
  | nil => cases bs with
    | nil => rfl
    | cons b bs => simp at h1
  | cons p ps ih =>
    cases bs with
    | nil => simp at h1
    | cons b bs =>
      simp only [List.map_cons, List.cons.injEq] at h1
      obtain ⟨b', hb, hdec⟩ := C02_decode_encode p (hps p List.mem_cons_self) []
      rw [h1.1] at hb
      simp only [GoRes.ok.injEq] at hb
      subst hb
      rw [List.append_nil] at hdec
      have hd : decodeBytes b = .ok (received p) := by simp [decodeBytes, hdec]
      simp only [List.map_cons, Server.readLoop, actOn, processRead_pdu hd]
      split
      · rfl
      · congr 1
        funext r
        rw [ih r.1 (fun q hq => hps q (List.mem_cons_of_mem _ hq)) bs h1.2]

example : Representable (.resetQuery 1) ∧ Representable (.serialQuery 1 107 9) := ⟨trivial, trivial⟩

/-! ## C37 -/

/-- The values of `version` another goroutine can see while a PDU is processed: before, after `checkVersion` and after `HandlePDU`
(lib/server.go:787, 809). -/
def versionsSeen (s : Server) (c : Client) (p : Pdu) : List U8 :=
  let c1 := if c.disableVersionCheck = false then (c.checkVersion p.getVersion).1 else c
  [c.version, c1.version, (s.handlePDU c1).1.version]

/-- **C37.** Request handling never panics, whatever is received, in whatever state of connection and store. -/
theorem C37_requests_never_panic {cfg : ServerConfig} {sid : U16} {c : Client} (h : Conn (newServer cfg sid) c) (st1 st2 : Store) (pkt : Bytes) :
    ∃ r, (newServer cfg sid).processRead st1 st2 c pkt = .ok r := by
  unfold Server.processRead
  split
  · exact ⟨_, rfl⟩
  · cases hd : decodeBytes pkt with
    | ok p => exact processPdu_total h.ok st1 st2 p
    | err => exact ⟨_, rfl⟩
    | panic => exact absurd hd (C01_decodeBytes_never_panics pkt)

example : Conn (newServer exCfg 7) exV1 := exV1_conn

/-- **C37** in full for notifications: the session lookup of `NotifyClientsLatest` is in range for every version a connection can be seen with. -/
def NotifyNeverPanics (cfg : ServerConfig) : Prop := ∀ (sid : U16) (c : Client) (p : Pdu), Conn (newServer cfg sid) c →
  ∀ v ∈ versionsSeen (newServer cfg sid) c p, (newServer cfg sid).getSessionId v ≠ .panic

/-- With protocol version 0 it can panic: between `checkVersion` and the downgrade in `HandlePDU` the client is seen with version 1. -/
theorem C37_notify_version0_false : ¬ NotifyNeverPanics { exCfg with protocolVersion := 0 } := by
  intro h
  refine h 7 (newServer { exCfg with protocolVersion := 0 } 7).acceptClientTCP (.resetQuery 1) (.inl .accepted) 1 (by decide) ?_
  decide

/-- **C37**, partial: with a protocol version of at least 1 (the default) no notification panics, at any moment. Missing: version 0, refuted above. -/
theorem C37_notify_partial (cfg : ServerConfig) (hb : 1 ≤ cfg.protocolVersion.toNat) : NotifyNeverPanics cfg := by
  intro sid c p h v hv
  have ok := h.ok
  have hle : v.toNat ≤ cfg.protocolVersion.toNat := by
    have h1 : ((c.checkVersion p.getVersion).1).version.toNat ≤ cfg.protocolVersion.toNat := by
      unfold Client.checkVersion
      split
      · rename_i hc
        simp only [Client.setVersion]
        rcases hc.2 with h | h <;> rw [h] <;> simp <;> omega
      · exact ok.le
    simp only [versionsSeen, ok.check, if_true, List.mem_cons, List.not_mem_nil, or_false] at hv
    rcases hv with rfl | rfl | rfl
    · exact ok.le
    · exact h1
    · unfold Server.handlePDU
      simp only
      split <;> split
      · rw [newServer_base]; simp [Client.setVersion]
      · exact h1
      · simp [Client.setVersion, newServer_base]
      · exact h1
  rw [getSessionId_newServer cfg sid v hle]
  simp

example : 1 ≤ exCfg.protocolVersion.toNat ∧ versionsSeen (newServer exCfg 7) exFresh (.resetQuery 1) = [0, 1, 1] := by decide

end StayRTR
