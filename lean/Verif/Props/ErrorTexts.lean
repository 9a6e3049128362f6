import Verif.Props.Errors
import Verif.Model.JsonText

/-!
C168: what the Error Reports of the server say, in words and in bytes, for every server, connection, store and packet.
-/

namespace StayRTR
open Spec

namespace Spec

/-- The words that belong to the code of an Error Report (RFC 8210, 5.11 and 12). -/
inductive Diagnosis : U16 → Str → Prop
  | desynchronized : Diagnosis 0 ("Session ID mismatch: ".toList ++ "client is desynchronized".toList)
  | noData : Diagnosis 2 "No data available".toList
  | version : Diagnosis 4 "Bad protocol version".toList

/-- An Error Report without the PDU that caused it (RFC 8210, 5.11): version, type 10, code, length, no copy, the length of the text and the text, which ends with a zero byte
("Some clients require null-terminated strings"). -/
def ReportBytes (v : U8) (k : U16) (text b : Bytes) : Prop :=
  ∃ khi klo lhi llo thi tlo, b = [v, 10, khi, klo, 0, 0, lhi, llo, 0, 0, 0, 0, 0, 0, thi, tlo] ++ text ++ [0] ∧
    khi.toNat * 256 + klo.toNat = k.toNat ∧ lhi.toNat * 256 + llo.toNat = b.length ∧ thi.toNat * 256 + tlo.toNat = text.length + 1

end Spec

theorem diagnosis_desynchronized : utf8Str ("Session ID mismatch: ".toList ++ "client is desynchronized".toList) = strBytes "Session ID mismatch: client is desynchronized" := by decide +kernel
theorem diagnosis_noData : utf8Str "No data available".toList = strBytes "No data available" := by decide +kernel
theorem diagnosis_version : utf8Str "Bad protocol version".toList = strBytes "Bad protocol version" := by decide +kernel

theorem passSimpleHandler_text {cfg : ServerConfig} {sid : U16} {c : Client} (ok : ConnOk (newServer cfg sid) c) {st1 st2 : Store} {p : Pdu} {e : List Effect}
    (h : (newServer cfg sid).passSimpleHandler st1 st2 c p = .ok e) {v : U8} {k : U16} {copy text : Bytes} (hq : Effect.send (.errorReport v k copy text) ∈ e) :
    ∃ words, Diagnosis k words ∧ text = utf8Str words := by
  have hdata : ∀ d, Effect.send (.errorReport v k copy text) ∈ (dataAnswer cfg sid c.version (!c.dontSendBGPsecKeys) st1.serial d).map Effect.send → False := by
    intro d hm
    simp only [List.mem_map, Effect.send.injEq, exists_eq_right, dataAnswer, List.cons_append, List.mem_cons, List.mem_append,
      List.mem_filterMap, List.not_mem_nil, or_false, reduceCtorEq, false_or] at hm
    obtain ⟨x, _, hx⟩ := hm
    have := (dataPdu_some hx).2.1
    simp [pduRecord] at this
  have hnone : Effect.send (.errorReport v k copy text) = c.sendNoDataError → ∃ words, Diagnosis k words ∧ text = utf8Str words := by
    intro he
    simp only [Client.sendNoDataError, Client.sendPDU, Pdu.setVersion, Effect.send.injEq, Pdu.errorReport.injEq] at he
    rw [he.2.1, he.2.2.2]
    exact ⟨_, .noData, diagnosis_noData.symm⟩
  cases p with
  | resetQuery w =>
    simp only [Server.passSimpleHandler, requestCache_eq ok, GoRes.ok.injEq] at h
    subst h
    split at hq
    · exact hnone (List.mem_singleton.1 hq)
    · exact absurd hq (hdata _)
  | serialQuery w session n =>
    simp only [Server.passSimpleHandler] at h
    by_cases hs : session = sessionOf sid c.version
    · subst hs
      rw [requestNewVersion_eq ok] at h
      split at h
      · simp only [GoRes.ok.injEq] at h
        subst h
        exact hnone (List.mem_singleton.1 hq)
      · exfalso
        cases hg : st2.getSDsSerialDiff n with
        | ok d =>
          rw [hg] at h
          simp only [GoRes.bind, GoRes.ok.injEq] at h
          subst h
          cases d with
          | none => simp [Client.sendCacheReset, Client.sendPDU, Pdu.setVersion] at hq
          | some d => exact hdata _ hq
        | err => rw [hg] at h; simp [GoRes.bind] at h
        | panic => rw [hg] at h; simp [GoRes.bind] at h
    · rw [requestNewVersion_mismatch ok _ _ _ _ hs] at h
      simp only [GoRes.ok.injEq] at h
      subst h
      simp only [Client.sendCorruptData, Client.sendPDU, Pdu.setVersion, List.mem_cons, Effect.send.injEq, Pdu.errorReport.injEq, reduceCtorEq, List.not_mem_nil, or_false] at hq
      rw [hq.2.1, hq.2.2.2]
      exact ⟨_, .desynchronized, diagnosis_desynchronized.symm⟩
  | _ => simp only [Server.passSimpleHandler, GoRes.ok.injEq] at h; subst h; cases hq

/-- The text of every Error Report that the server sends is the one that belongs to its code, in UTF-8. -/
theorem C168_texts {cfg : ServerConfig} {sid : U16} {c c' : Client} (h : Conn (newServer cfg sid) c) {st1 st2 : Store} {pkt : Bytes} {e : List Effect}
    (hp : (newServer cfg sid).processRead st1 st2 c pkt = .ok (c', e)) {v : U8} {k : U16} {copy text : Bytes} (hq : .errorReport v k copy text ∈ sent e) :
    ∃ words, Diagnosis k words ∧ text = utf8Str words := by
  have ok := h.ok
  obtain ⟨p, hd, -, -⟩ := C153_causes_partial h hp hq
  have he := mem_of_sent hq
  rw [processRead_pdu hd] at hp
  by_cases ha : Acceptable c p.getVersion
  · obtain ⟨h1, _, _⟩ := acceptable_processed ok ha hp
    exact passSimpleHandler_text (ok.negotiated ha) h1 he
  · obtain ⟨h1, e', h2, h3⟩ := unacceptable_processed ok ha hp
    rw [h3] at he
    simp only [Client.sendWrongVersionError, Client.sendPDU, Pdu.setVersion, List.mem_cons, Effect.send.injEq, Pdu.errorReport.injEq, reduceCtorEq, false_or] at he
    rcases he with ⟨_, hk, _, ht⟩ | he
    · rw [hk, ht]
      exact ⟨_, .version, diagnosis_version.symm⟩
    · exact passSimpleHandler_text (by rw [h1]; exact ok.dropped.noteQuery p) h2 he

theorem report_layout (v : U8) {k : U16} {words : Str} (h : Diagnosis k words) :
    ∃ b, Pdu.encode (.errorReport v k [] (utf8Str words)) = .ok b ∧ ReportBytes v k (utf8Str words) b := by
  cases h
  · rw [diagnosis_desynchronized]
    exact ⟨_, rfl, 0, 0, 0, 62, 0, 46, by decide +revert +kernel, by decide, by decide +revert +kernel, by decide +kernel⟩
  · rw [diagnosis_noData]
    exact ⟨_, rfl, 0, 2, 0, 34, 0, 18, by decide +revert +kernel, by decide, by decide +revert +kernel, by decide +kernel⟩
  · rw [diagnosis_version]
    exact ⟨_, rfl, 0, 4, 0, 37, 0, 21, by decide +revert +kernel, by decide, by decide +revert +kernel, by decide +kernel⟩

/-- And on the wire it is the Error Report of the connection's version with this code and this text and no copy, to the byte. -/
theorem C168_wire {cfg : ServerConfig} {sid : U16} {c c' : Client} (h : Conn (newServer cfg sid) c) {st1 st2 : Store} {pkt : Bytes} {e : List Effect}
    (hp : (newServer cfg sid).processRead st1 st2 c pkt = .ok (c', e)) {q : Pdu} (hq : q ∈ sent e) (hr : IsReport q) :
    ∃ k words b, Diagnosis k words ∧ q.encode = .ok b ∧ ReportBytes c'.version k (utf8Str words) b := by
  cases q with
  | errorReport v k copy text =>
    obtain ⟨words, hd, rfl⟩ := C168_texts h hp hq
    obtain ⟨rfl, -, rfl⟩ := C154_empty_partial h hp hq
    obtain ⟨b, hb, hl⟩ := report_layout c'.version hd
    exact ⟨k, words, b, hd, hb, hl⟩
  | _ => exact absurd hr id

example : Conn (newServer exCfg 7) exV1 ∧ ∃ e, (newServer exCfg 7).processRead exStore exStore exV1 [0, 2, 0, 0, 0, 0, 0, 8] = .ok (exV1.disconnected, e) ∧
    .errorReport 1 4 [] (utf8Str "Bad protocol version".toList) ∈ sent e ∧ IsReport (.errorReport 1 4 [] (utf8Str "Bad protocol version".toList)) :=
  ⟨exV1_conn, .send (.errorReport 1 4 [] (strBytes "Bad protocol version")) :: .disconnect :: (dataAnswer exCfg 7 1 true 0 [exA, exK]).map .send,
    by decide, by rw [diagnosis_version]; decide, trivial⟩

end StayRTR
