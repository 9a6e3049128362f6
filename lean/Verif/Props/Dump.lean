import Verif.Model.Dump
import Verif.Model.Update
import Verif.Proofs.ParsePrint
import Verif.Props.ClientSession
import Verif.Props.Process

/-!
# rtrdump: C68, C98, C100
-/

namespace StayRTR

open Spec

/-! ## Reading a stream that goes on -/

theorem field_append {s : Bytes} (t : Bytes) {off w : Nat} (h : off + w ≤ s.length) : field (s ++ t) off w = field s off w := by
  rw [field_eq, field_eq, List.drop_append_of_le_length (by omega), List.take_append_of_le_length (by rw [List.length_drop]; omega)]

/-- What comes after a PDU does not matter. -/
theorem decode_more {s rest : Bytes} {p : Pdu} (h : decode s = .ok (p, rest)) (t : Bytes) : decode (s ++ t) = .ok (p, rest ++ t) := by
  obtain ⟨h8, hmax, hlen, hrest⟩ := C06_consumes_declared_length s rest p h
  rw [decode_eq] at h ⊢
  have e0 := field_append t (s := s) (off := 0) (w := 1) (by omega)
  have e1 := field_append t (s := s) (off := 1) (w := 1) (by omega)
  have e2 := field_append t (s := s) (off := 2) (w := 2) (by omega)
  have e4 := field_append t (s := s) (off := 4) (w := 4) (by omega)
  have eb : blob (s ++ t) 8 (field s 4 4 - 8) = blob s 8 (field s 4 4 - 8) := by
    unfold blob
    rw [List.drop_append_of_le_length (by omega), List.take_append_of_le_length (by rw [List.length_drop]; omega)]
  rw [e0, e1, e2, e4, eb, List.length_append, List.drop_append_of_le_length hlen]
  rw [if_neg (by omega), if_neg (by omega), if_neg (by unfold messageMaxSize; omega), if_neg (by omega)] at h ⊢
  rw [GoRes.bind_eq_ok] at h ⊢
  obtain ⟨q, hq, h⟩ := h
  simp only [GoRes.pure_eq, GoRes.ok.injEq, Prod.mk.injEq] at h
  refine ⟨q, hq, ?_⟩
  simp only [GoRes.pure_eq, GoRes.ok.injEq, Prod.mk.injEq]
  exact ⟨h.1, by rw [h.2]⟩

/-- The loop reads the PDUs of a stream first. -/
theorem pdus_stream {b : Bytes} {ps : List Pdu} (h : Stream b ps) (t : Bytes) (fuel : Nat) (hf : b.length + t.length < fuel) :
    ∃ more, CSession.pdus fuel (b ++ t) = ps ++ more := by
  induction h generalizing fuel with
  | eof => exact ⟨_, rfl⟩
  | @step s rest p ps hd _ ih =>
    cases fuel with
    | zero => omega
    | succ fuel =>
      obtain ⟨h8, -, hlen, hrest⟩ := C06_consumes_declared_length s rest p hd
      have hl : rest.length + t.length < fuel := by rw [hrest, List.length_drop]; omega
      obtain ⟨more, hm⟩ := ih fuel hl
      refine ⟨more, ?_⟩
      simp only [CSession.pdus]
      rw [decode_more hd t]
      simp only
      rw [hm]
      rfl

/-! ## C68 -/

namespace Spec

/-- The prefix entries for records, in order: nothing but prefix, maximum length and ASN. -/
def dumpedPrefixes (rs : List Rec) : List VRPJson := rs.filterMap fun
  | .vrp p ml asn => some ⟨p.toStr, ml, .uint32 asn, [], none⟩
  | .brk .. => none

/-- The router key entries for records, in order. -/
def dumpedKeys (rs : List Rec) : List BgpSecKeyJson := rs.filterMap fun
  | .vrp .. => none
  | .brk asn ski key => some ⟨asn, none, [], key, hexBytes ski⟩

end Spec

theorem dump_data (v : U8) (d : DumpData) (data : List Pdu) (hd : ∀ p ∈ data, (pduRecord p).isSome = true) (more : List Pdu) :
    ∃ v', (CSession.loop dumpPdu ⟨v, true⟩ d (data ++ more)) =
      (CSession.loop dumpPdu ⟨v', true⟩ ⟨d.roa ++ dumpedPrefixes (data.filterMap pduRecord), d.keys ++ dumpedKeys (data.filterMap pduRecord),
        d.counts + (dumpedPrefixes (data.filterMap pduRecord)).length, d.countKeys, d.sessionID, d.serial⟩ more) := by
  induction data generalizing v d with
  | nil => exact ⟨v, by simp [dumpedPrefixes, dumpedKeys]⟩
  | cons p data ih =>
    have hp := hd p List.mem_cons_self
    have hdown : ∃ v', CSession.downgrade ⟨v, true⟩ p = ⟨v', true⟩ := by
      unfold CSession.downgrade
      split <;> exact ⟨_, rfl⟩
    obtain ⟨v', hdown⟩ := hdown
    have hstep : ∀ d', dumpPdu d p = (d', []) → CSession.loop dumpPdu ⟨v, true⟩ d (p :: data ++ more) = CSession.loop dumpPdu ⟨v', true⟩ d' (data ++ more) := by
      intro d' h
      simp only [List.cons_append, CSession.loop, if_true, CSession.onPdu, hdown, h, CSession.act]
      rfl
    have ih' := fun d => ih v' d (fun q hq => hd q (List.mem_cons_of_mem _ hq))
    cases p <;> simp only [pduRecord, Option.isSome_none, Bool.false_eq_true] at hp
    case ipv4Prefix pv f p ml asn =>
      rw [hstep _ rfl]
      obtain ⟨v'', h⟩ := ih' { d with roa := d.roa ++ [dumpVRP p ml asn], counts := d.counts + 1 }
      refine ⟨v'', ?_⟩
      rw [h]
      simp [pduRecord, dumpedPrefixes, dumpedKeys, dumpVRP, Nat.add_assoc, Nat.add_comm 1]
    case ipv6Prefix pv f p ml asn =>
      rw [hstep _ rfl]
      obtain ⟨v'', h⟩ := ih' { d with roa := d.roa ++ [dumpVRP p ml asn], counts := d.counts + 1 }
      refine ⟨v'', ?_⟩
      rw [h]
      simp [pduRecord, dumpedPrefixes, dumpedKeys, dumpVRP, Nat.add_assoc, Nat.add_comm 1]
    case routerKey pv f ski asn spki =>
      rw [hstep _ rfl]
      obtain ⟨v'', h⟩ := ih' { d with keys := d.keys ++ [dumpKey ski asn spki] }
      refine ⟨v'', ?_⟩
      rw [h]
      simp [pduRecord, dumpedPrefixes, dumpedKeys, dumpKey]

/-- The query that is sent: of the version asked for. -/
theorem dump_hello {f : DumpFlags} {v : U8} (h0 : f.initSerial = false) : CSession.act (CSession.start v) (dumpHello f) = (⟨v, true⟩, [.resetQuery v]) := by
  unfold dumpHello
  rw [h0]
  rfl

/-- **C68.** A well-framed answer (Cache Response, data PDUs, End of Data), whatever comes after it: a Reset Query of the version asked for is sent, and the file has exactly the prefixes and router keys of the answer, in order,
with the number of prefixes and the session and serial of End of Data. -/
theorem C68_dump {f : DumpFlags} (hver : f.version = 0 ∨ f.version = 1) (hser : f.initSerial = false) {b : Bytes} {cv : U8} {csid : U16} {data : List Pdu} {ev : U8} {sid : U16} {n refresh retry expire : U32}
    (hs : Stream b (.cacheResponse cv csid :: data ++ [.endOfData ev sid n refresh retry expire])) (hd : ∀ p ∈ data, (pduRecord p).isSome = true) (rest : Bytes) :
    dumpMain f (b ++ rest) = (.written ⟨dumpedPrefixes (data.filterMap pduRecord), dumpedKeys (data.filterMap pduRecord), (dumpedPrefixes (data.filterMap pduRecord)).length, 0, sid.toNat, n.toNat⟩,
      [.resetQuery (if f.version = 1 then 1 else 0)]) := by
  obtain ⟨more, hm⟩ := pdus_stream hs rest ((b ++ rest).length + 1) (by rw [List.length_append]; omega)
  unfold dumpMain dumpVersion
  rw [if_neg (by omega)]
  simp only
  generalize (if f.version = 1 then (1 : U8) else 0) = v
  unfold CSession.startRW
  rw [dump_hello hser, hm]
  simp only
  -- Cache Response
  have h1 : ∃ v1, CSession.loop dumpPdu ⟨v, true⟩ DumpData.empty (.cacheResponse cv csid :: data ++ [.endOfData ev sid n refresh retry expire] ++ more) =
      CSession.loop dumpPdu ⟨v1, true⟩ DumpData.empty (data ++ (.endOfData ev sid n refresh retry expire :: more)) := by
    have hdown : ∃ v', CSession.downgrade ⟨v, true⟩ (.cacheResponse cv csid) = ⟨v', true⟩ := by
      unfold CSession.downgrade
      split <;> exact ⟨_, rfl⟩
    obtain ⟨v', hdown⟩ := hdown
    refine ⟨v', ?_⟩
    simp only [List.cons_append, CSession.loop, if_true, CSession.onPdu, hdown, dumpPdu, CSession.act, List.append_assoc, List.nil_append]
  obtain ⟨v1, h1⟩ := h1
  obtain ⟨v2, h2⟩ := dump_data v1 DumpData.empty data hd (.endOfData ev sid n refresh retry expire :: more)
  have hcons : Pdu.cacheResponse cv csid :: data ++ [.endOfData ev sid n refresh retry expire] ++ more = Pdu.cacheResponse cv csid :: (data ++ [.endOfData ev sid n refresh retry expire]) ++ more := rfl
  rw [h1, h2]
  -- End of Data
  have hdown : ∃ v', CSession.downgrade ⟨v2, true⟩ (.endOfData ev sid n refresh retry expire) = ⟨v', true⟩ := by
    unfold CSession.downgrade
    split <;> exact ⟨_, rfl⟩
  obtain ⟨v3, hdown⟩ := hdown
  simp only [CSession.loop, if_true, CSession.onPdu, hdown, dumpPdu, CSession.act, loop_closed, DumpData.empty, List.nil_append, List.append_nil, Nat.zero_add, Bool.false_eq_true, if_false]

/-- **C68.** End to end: against a connection of this server, with a reachable, non-empty store of encodable records, the file written for the bytes of its answer has exactly the records of the store that the version carries, in order,
and the serial of the store. -/
theorem C68_end_to_end {cfg : ServerConfig} {sid : U16} {c : Client} (h : Conn (newServer cfg sid) c) (hc : c.connected = true) {pkt : Bytes} {v : U8} (hp : decodeBytes pkt = .ok (.resetQuery v)) (ha : Acceptable c v)
    {k : Int} {st : Store} (hr : Reachable k st) (hst : st.current ≠ []) (henc : ∀ x ∈ st.current, Encodable x)
    {f : DumpFlags} (hver : f.version = 0 ∨ f.version = 1) (hser : f.initSerial = false) :
    ∃ (c' : Client) (e : List Effect) (bs : List Bytes), (newServer cfg sid).processRead st st c pkt = .ok (c', e) ∧ (sent e).map Pdu.encode = bs.map GoRes.ok ∧
      ∀ rest, let rs := records (st.current.filter (carried c'.version (!c.dontSendBGPsecKeys)))
        (dumpMain f (bs.flatten ++ rest)).1 = .written ⟨dumpedPrefixes rs, dumpedKeys rs, (dumpedPrefixes rs).length, 0, (sessionOf sid c'.version).toNat, st.serial.toNat⟩ := by
  obtain ⟨c', e, bs, data, refresh, retry, expire, h1, h2, h3, h4, h5, h6, -⟩ := C27_end_to_end h hc hp ha hr hst henc
  refine ⟨c', e, bs, h1, h2, fun rest => ?_⟩
  have hd : ∀ p ∈ data, (pduRecord p).isSome = true := by
    intro p hp
    have := h6 p hp
    cases p <;> simp only [pduFlag, reduceCtorEq] at this <;> rfl
  have := C68_dump (f := f) hver hser h3 hd rest
  rw [this, h4]

/-- **C68.** If the stream ends, or has a malformed PDU, before End of Data and before any PDU that ends the session, nothing is written. -/
theorem C68_cut_off {f : DumpFlags} {b : Bytes} {ps : List Pdu} (hver : f.version = 0 ∨ f.version = 1) (hb : CSession.pdus (b.length + 1) b = ps) (hd : ∀ p ∈ ps, (pduRecord p).isSome = true ∨ ∃ v s, p = .cacheResponse v s) :
    (dumpMain f b).1 = .fatal := by
  have key : ∀ (ps : List Pdu) (v : U8) (d : DumpData), (∀ p ∈ ps, (pduRecord p).isSome = true ∨ ∃ v s, p = .cacheResponse v s) → (CSession.loop dumpPdu ⟨v, true⟩ d ps).failed = true := by
    intro ps
    induction ps with
    | nil => intro v d _; rfl
    | cons p ps ih =>
      intro v d hd
      have hno : (dumpPdu d p).2 = [] := by
        rcases hd p List.mem_cons_self with h | ⟨v, s, rfl⟩
        · cases p <;> simp only [pduRecord, Option.isSome_none, Bool.false_eq_true] at h <;> rfl
        · rfl
      have hdown : ∃ v', CSession.downgrade ⟨v, true⟩ p = ⟨v', true⟩ := by
        unfold CSession.downgrade
        split <;> exact ⟨_, rfl⟩
      obtain ⟨v', hdown⟩ := hdown
      simp only [CSession.loop, if_true, CSession.onPdu, hdown, hno, CSession.act]
      exact ih v' _ (fun q hq => hd q (List.mem_cons_of_mem _ hq))
  unfold dumpMain dumpVersion
  rw [if_neg (by omega)]
  simp only
  unfold CSession.startRW
  have hh : ∀ v, ∃ out, CSession.act (CSession.start v) (dumpHello f) = (⟨v, true⟩, out) := by
    intro v
    unfold dumpHello
    split <;> exact ⟨_, rfl⟩
  obtain ⟨out, hh⟩ := hh (if f.version = 1 then 1 else 0)
  rw [hh, hb]
  simp only
  rw [key ps _ _ hd]
  rfl

/-- The flags for the examples. -/
def exDump : DumpFlags := ⟨1, false, 0, 0, true, true, "k".toList⟩

/-- An answer with one prefix, as bytes. -/
def exAnswer : Bytes := [1, 3, 0, 7, 0, 0, 0, 8, 1, 4, 0, 0, 0, 0, 0, 20, 1, 8, 24, 0, 10, 0, 0, 0, 0, 0, 0, 1, 1, 7, 0, 7, 0, 0, 0, 24, 0, 0, 0, 5, 0, 0, 14, 16, 0, 0, 2, 88, 0, 0, 28, 32]

/-- The answer is well framed; without its last byte nothing is written. -/
example : CSession.pdus (exAnswer.length + 1) exAnswer = [.cacheResponse 1 7, .ipv4Prefix 1 1 ⟨.v4 0x0a000000, 9⟩ 24 1, .endOfData 1 7 5 3600 600 7200] ∧
    dumpMain exDump exAnswer = (.written ⟨[⟨"10.0.0.0/8".toList, 24, .uint32 1, [], none⟩], [], 1, 0, 7, 5⟩, [.resetQuery 1]) := by decide +kernel

/-- **C68.** Answers that are not well framed are written as if they were complete: an Error Report or a Serial Notify (which the server may send at any time, see C99) right after the first data PDU ends the session, and a file with
one of the records and serial 0 is written. -/
theorem C68_partial_file_false : ∃ (p1 p2 : Pdu) (b1 b2 : Bytes), (∃ sid n, p1 = .serialNotify 1 sid n) ∧ (∃ c e m, p2 = .errorReport 1 c e m) ∧
    CSession.pdus (b1.length + 1) b1 = [.cacheResponse 1 7, .ipv4Prefix 1 1 ⟨.v4 0x0a000000, 9⟩ 24 1, p1, .ipv4Prefix 1 1 ⟨.v4 0x0b000000, 9⟩ 24 1, .endOfData 1 7 5 3600 600 7200] ∧
    CSession.pdus (b2.length + 1) b2 = [.cacheResponse 1 7, .ipv4Prefix 1 1 ⟨.v4 0x0a000000, 9⟩ 24 1, p2] ∧
    (dumpMain exDump b1).1 = .written ⟨[⟨"10.0.0.0/8".toList, 24, .uint32 1, [], none⟩], [], 1, 0, 0, 0⟩ ∧
    (dumpMain exDump b2).1 = .written ⟨[⟨"10.0.0.0/8".toList, 24, .uint32 1, [], none⟩], [], 1, 0, 0, 0⟩ := by
  refine ⟨.serialNotify 1 7 6, .errorReport 1 1 [] [], exAnswer.take 28 ++ [1, 0, 0, 7, 0, 0, 0, 12, 0, 0, 0, 6] ++ [1, 4, 0, 0, 0, 0, 0, 20, 1, 8, 24, 0, 11, 0, 0, 0, 0, 0, 0, 1] ++ exAnswer.drop 28,
    exAnswer.take 28 ++ [1, 10, 0, 1, 0, 0, 0, 16, 0, 0, 0, 0, 0, 0, 0, 0], ⟨7, 6, rfl⟩, ⟨1, [], [], rfl⟩, ?_⟩
  decide +kernel

/-- **C68.** With `-serial` (a Serial Query) withdrawals are written like announcements. -/
theorem C68_withdrawal_false : ∃ b : Bytes, CSession.pdus (b.length + 1) b = [.cacheResponse 1 7, .ipv4Prefix 1 0 ⟨.v4 0x0a000000, 9⟩ 24 1, .endOfData 1 7 5 3600 600 7200] ∧
    dumpMain { exDump with initSerial := true, serial := 4, session := 7 } b = (.written ⟨[⟨"10.0.0.0/8".toList, 24, .uint32 1, [], none⟩], [], 1, 0, 7, 5⟩, [.serialQuery 1 7 4]) :=
  ⟨exAnswer.set 16 0, by decide +kernel⟩

/-! ## C98: validation -/

/-- **C98.** With the flags on, exactly verified certificates and exactly the configured host key are accepted; with a flag off, whatever is presented is. (Compare C66.) -/
theorem C98_validation (f : DumpFlags) (certOk : Bool) (fingerprint : Str) :
    (dumpTlsAccepts f certOk = true ↔ (f.validateCert = true → certOk = true)) ∧
    (dumpHostKeyAccepts f fingerprint = true ↔ (f.validateSSH = true → fingerprint = "SHA256:".toList ++ f.serverKey)) := by
  refine ⟨by cases h : f.validateCert <;> simp [dumpTlsAccepts, h], ?_⟩
  cases h : f.validateSSH <;> simp [dumpHostKeyAccepts, h]

example : dumpTlsAccepts { exDump with validateCert := false } false = true ∧ dumpHostKeyAccepts { exDump with validateSSH := false } "SHA256:j".toList = true := by decide +kernel

example : dumpTlsAccepts exDump false = false ∧ dumpHostKeyAccepts exDump "SHA256:j".toList = false ∧ dumpHostKeyAccepts exDump "SHA256:k".toList = true := by decide +kernel

/-! ## C100: from a dump back to a cache -/

/-- A record that a cache file can state: at least one bit of prefix, at most as long as the maximum length, that at most the width of the address. -/
def Statable : Rec → Prop
  | .vrp p ml _ => p.WF ∧ p.isValid = true ∧ 1 ≤ p.bits ∧ p.bits ≤ (ml.toNat : Int) ∧ ml.toNat ≤ p.ip.bitLen
  | .brk .. => True

/-- **C100** (partial: without the check of the build time). A server that loads the lists of a dump serves exactly the records of the dump. -/
theorem C100_reload_partial (wide : WideFloat) {sort : Sorter} (hs : sort.Ok) (now : Int) (rs : List Rec) (hrs : ∀ r ∈ rs, Statable r) (r : Rec) :
    r ∈ records (processData wide sort now (dumpedPrefixes rs) (dumpedKeys rs)).sds ↔ r ∈ rs := by
  have hcheck : ∀ p ml asn, Statable (.vrp p ml asn) → checkVRP wide now ⟨p.toStr, ml, .uint32 asn, [], none⟩ = some (p, asn) := by
    intro p ml asn h
    obtain ⟨h1, h2, h3, h4, h5⟩ := h
    have hval : p.Valid := ⟨h1, by simpa [Prefix.isValid] using h2⟩
    exact (checkVRP_iff wide now _ p asn).mpr ⟨parsePrefix_toStr hval, rfl, h3, h4, h5, by intro e he; cases he⟩
  unfold records Processed.sds
  rw [List.map_append, List.map_map, List.map_map, List.mem_append]
  constructor
  · rintro (h | h)
    · obtain ⟨x, hx, rfl⟩ := List.mem_map.mp h
      obtain ⟨-, v, hv, hc, hl⟩ := (processData_mem wide hs now _ _ x).mp hx
      obtain ⟨r, hr, hrv⟩ := List.mem_filterMap.mp hv
      cases r with
      | brk => cases hrv
      | vrp p ml asn =>
        simp only [Option.some.injEq] at hrv
        subst hrv
        rw [hcheck p ml asn (hrs _ hr)] at hc
        simp only [Option.some.injEq, Prod.mk.injEq] at hc
        simp only at hl
        simp only [Function.comp, SD.record]
        rw [← hc.1, ← hc.2, ← hl]
        exact hr
    · obtain ⟨x, hx, rfl⟩ := List.mem_map.mp h
      have hx' : x ∈ processKeys now (dumpedKeys rs) := hx
      unfold processKeys at hx'
      obtain ⟨b, hb, hxb⟩ := List.mem_filterMap.mp hx'
      obtain ⟨r, hr, hrb⟩ := List.mem_filterMap.mp hb
      cases r with
      | vrp => cases hrb
      | brk asn ski key =>
        simp only [Option.some.injEq] at hrb
        subst hrb
        simp only [isExpired, hexDecode_hexBytes, Bool.false_eq_true, if_false, reduceCtorEq, Option.some.injEq] at hxb
        subst hxb
        exact hr
  · intro hr
    cases r with
    | vrp p ml asn =>
      refine .inl (List.mem_map.mpr ⟨⟨p, asn, ml, 0⟩, ?_, rfl⟩)
      exact (processData_mem wide hs now _ _ _).mpr ⟨rfl, ⟨p.toStr, ml, .uint32 asn, [], none⟩, List.mem_filterMap.mpr ⟨_, hr, rfl⟩, hcheck p ml asn (hrs _ hr), rfl⟩
    | brk asn ski key =>
      refine .inr (List.mem_map.mpr ⟨⟨asn, key, ski, 0⟩, ?_, rfl⟩)
      show _ ∈ processKeys now (dumpedKeys rs)
      unfold processKeys
      refine List.mem_filterMap.mpr ⟨⟨asn, none, [], key, hexBytes ski⟩, List.mem_filterMap.mpr ⟨_, hr, rfl⟩, ?_⟩
      simp [isExpired, hexDecode_hexBytes]

/-- **C100.** With the check of the build time, which is on by default, it fails: the dump has no build time, which cannot be read then, and the file is refused. (That the empty text is no time is an assumption on `time.Parse`.) -/
theorem C100_checktime_false (e : Env) (hc : e.checktime = true) (hp : e.parseTime [] = none) (now : Int) (counts : Nat) : ageCheck e now ⟨counts, [], none⟩ ≠ .fine := by
  unfold ageCheck buildTime
  rw [hc]
  simp [hp]

/-- Records that can be stated. -/
example : Statable (.vrp ⟨.v4 0x0a000000, 9⟩ 24 1) ∧ Statable (.vrp ⟨.v6 0x20010db8000000000000000000000000, 33⟩ 48 2) := by
  refine ⟨?_, ?_⟩ <;> simp only [Statable, Prefix.WF] <;> decide +kernel

end StayRTR
