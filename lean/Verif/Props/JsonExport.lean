import Verif.Proofs.JsonExport

/-!
# C108, C109: the files that are written, and what they say when they are read again
-/

namespace StayRTR
open Spec

/-! ## C108: the export -/

/-- **C108** (partial: of exports whose numeric AS numbers are in range; numbers with a fraction are written as their integer part here). In every state that a server reaches with JSON files: the body of the answer of the exporter is one JSON text of
nesting depth within what this server reads, in UTF-8, with no name twice in an object, and a line end. Nothing is served, or the text states exactly the served records. -/
theorem C108_states_partial {e : Env} (hd : e.decode = decodeFile) (hs : e.sort.Ok) {s : UState} (h : Reached e s) (hlen : (s.exported.roas.getD []).length < 2 ^ 63)
    (hin : ∀ v ∈ s.exported.roas.getD [], AsnInRange v.asn) :
    ∃ t o, IsJsonFile (exportFile s) t o ∧ (s.store.current = [] ∨ ∃ now, ∀ r, FileStates now t r ↔ Served s r) := by
  obtain ⟨-, hr, hc, hg, -⟩ := reached_read hd h
  have hw := writable_of_read hr (by rw [hc]; exact ⟨by omega, by omega⟩) hg
  refine ⟨_, _, encList_file s.exported 0 0 0, ?_⟩
  rcases C71_listed_partial hs h with h0 | ⟨now, hnow⟩
  · exact .inl h0
  · refine .inr ⟨now, fun r => ?_⟩
    rw [hnow, encList_states e.wide now s.exported hw (fun v hv => (hr.1 v hv).1.2) hin 0 0 0 ⟨by decide, by decide⟩ ⟨by decide, by decide⟩ ⟨by decide, by decide⟩]

/-- **C108** (partial: up to what the entries with an expiry time ask for at another time). The export can be read again, by this server and by any other on the same kind of machine, and asks for exactly the served records, unless nothing
is served. -/
theorem C108_reload_partial {e : Env} (hd : e.decode = decodeFile) (hs : e.sort.Ok) {s : UState} (h : Reached e s) (hlen : (s.exported.roas.getD []).length < 2 ^ 63) :
    ∃ l, decodeFile (exportFile s) = some l ∧ (s.store.current = [] ∨ ∃ now, ∀ sort : Sorter, sort.Ok → ∀ r, r ∈ records (processData e.wide sort now (l.roas.getD []) (l.keys.getD [])).sds ↔ Served s r) := by
  obtain ⟨-, hr, hc, hg, -⟩ := reached_read hd h
  have hw := writable_of_read hr (by rw [hc]; exact ⟨by omega, by omega⟩) hg
  refine ⟨_, decodeFile_enc s.exported hw 0 0 0 ⟨by decide, by decide⟩ ⟨by decide, by decide⟩ ⟨by decide, by decide⟩, ?_⟩
  rcases C71_listed_partial hs h with h0 | ⟨now, hnow⟩
  · exact .inl h0
  · refine .inr ⟨now, fun sort hsort r => ?_⟩
    rw [records_sds e.wide hsort, wanted_reread e.wide now s.exported (fun v hv => (hr.1 v hv).1.2), hnow]

theorem wanted_no_expiry (wide : WideFloat) (now now' : Int) (vs : List VRPJson) (ks : List BgpSecKeyJson) (hv : ∀ v ∈ vs, v.expires = none) (hk : ∀ k ∈ ks, k.expires = none) (r : Rec)
    (h : Wanted wide now vs ks r) : Wanted wide now' vs ks r := by
  cases r with
  | vrp p m a =>
    obtain ⟨v, hv', h1, h2, h3, h4, h5, h6, -⟩ := h
    exact ⟨v, hv', h1, h2, h3, h4, h5, h6, by simp [hv v hv']⟩
  | brk a ski key =>
    obtain ⟨k, hk', h1, h2, h3, -⟩ := h
    exact ⟨k, hk', h1, h2, h3, by simp [hk k hk']⟩

/-- **C108** (partial: for a second server on the same kind of machine, without local exceptions; if it checks build times, then the exported build time must be recent). A server that serves something and a second one that starts with the
first one's export serve the same records, if no entry has an expiry time or at the same time. -/
theorem C108_second_partial {e : Env} (hd : e.decode = decodeFile) (hs : e.sort.Ok) {s : UState} (h : Reached e s) (hlen : (s.exported.roas.getD []).length < 2 ^ 63) (hne : s.store.current ≠ [])
    (e' : Env) (hd' : e'.decode = decodeFile) (hs' : e'.sort.Ok) (hw : e'.wide = e.wide) (file : Str) (o : Outcome) (etags lastMod : Bool)
    (hdel : delivered (UState.init etags lastMod).fetch file o = some (exportFile s)) :
    ∃ now, ∀ t : Times, (seconds t.proc = now ∨ ((∀ v ∈ s.exported.roas.getD [], v.expires = none) ∧ ∀ k ∈ s.exported.keys.getD [], k.expires = none)) →
      (e'.checktime = true → ∃ b, e'.parseTime s.exported.metadata.buildtime = some b ∧ t.check ≤ b + 24 * 3600 * 1000000000) →
      ∀ r, Served (startup e' t ⟨file, o, none⟩ (UState.init etags lastMod)) r ↔ Served s r := by
  obtain ⟨-, hr, hc, hg, hnil⟩ := reached_read hd h
  have hwr := writable_of_read hr (by rw [hc]; exact ⟨by omega, by omega⟩) hg
  have hdec := decodeFile_enc s.exported hwr 0 0 0 ⟨by decide, by decide⟩ ⟨by decide, by decide⟩ ⟨by decide, by decide⟩
  rcases C71_listed_partial hs h with h0 | ⟨now, hnow⟩
  · exact absurd h0 hne
  have hroas : s.exported.roas ≠ none := by
    intro h0
    have hk := hnil h0
    cases hcur : s.store.current with
    | nil => exact hne hcur
    | cons a l =>
      have : Served s a.record := by
        unfold Served records
        rw [hcur]; simp
      rw [hnow, h0, hk] at this
      cases hrec : a.record <;> rw [hrec] at this <;> simp [Wanted] at this
  refine ⟨now, fun t ht hfresh r => ?_⟩
  have hlast : (startup e' t ⟨file, o, none⟩ (UState.init etags lastMod)).lastdata = rereadList s.exported ∧
      (startup e' t ⟨file, o, none⟩ (UState.init etags lastMod)).slurm = none := by
    unfold startup
    simp only
    rw [(startup_keeps ..).1, (startup_keeps ..).2.1]
    have hl : decodeFile (exportFile s) = some (rereadList s.exported) := hdec
    have hf : fetchBoth e' t ⟨file, o, none⟩ (UState.init etags lastMod) = updateFile e' t.start t.change file o (UState.init etags lastMod) := by
      simp [fetchBoth]
    rw [hf]
    obtain ⟨-, hsl, -, -, -, hdl⟩ := C49_file e' t.start t.change file o (UState.init etags lastMod)
    have hnot : ¬ Nothing e'.sha e'.decode (UState.init etags lastMod).hashCache ((UState.init etags lastMod).fetch.fetchFile file o).2 ∧ ((UState.init etags lastMod).fetch.fetchFile file o).2.data = exportFile s := by
      unfold delivered at hdel
      split at hdel
      · rename_i hok
        have hdat := Option.some.inj hdel
        refine ⟨?_, hdat⟩
        unfold Nothing
        simp [hok, hdat, hd', hl]
        simp [UState.init]
      · cases hdel
    have hx := hdl hnot.1
    rw [hnot.2, hd', hl] at hx
    exact ⟨(Option.some.inj hx).symm, hsl⟩
  have := C53_start_partial e' hs' t ⟨file, o, none⟩ (Reached.init etags lastMod) (by rw [hlast.1]; unfold rereadList; simp [hroas]) (by
    intro hct
    obtain ⟨b, hb, hle⟩ := hfresh hct
    rw [hlast.1]
    exact ⟨b, .text b hg hb, hle⟩) r
  rw [this, hlast.1, hlast.2, hnow]
  unfold FileWants withExceptions
  simp only
  rw [hw, wanted_reread e.wide (seconds t.proc) s.exported (fun v hv => (hr.1 v hv).1.2)]
  rcases ht with ht | ⟨hv, hk⟩
  · rw [ht]
  · exact ⟨wanted_no_expiry _ _ _ _ _ hv hk r, wanted_no_expiry _ _ _ _ _ hv hk r⟩

/-- An environment that reads JSON. -/
def exJson (checktime : Bool) : Env := { exEnv checktime with decode := decodeFile }

/-- A cache file with a VRP, an entry that is none, and a router key. -/
def exCache : Bytes := utf8Str
  (["{\"metadata\":{\"buildtime\":\"1970-01-01T00:", "00:00Z\"},\"roas\":[{\"prefix\":\"10.0.0.0/8\",", "\"maxLength\":9,\"asn\":\"AS1\"},{\"prefix\":\"x\"", ",\"asn\":2}],\"bgpsec_keys\":[{\"asn\":1,\"ski\"", ":\"aB\",\"pubkey\":\"AAE=\"}]}"].flatMap String.toList)

/-- The server after loading it. -/
def exServer : UState := startup (exJson true) (exAt 0) (exGet exCache) exInit

/-- It serves something, the hypotheses hold, and a second server serves the same; this is the export. -/
example : Reached (exJson true) exServer ∧ (exServer.exported.roas.getD []).length = 2 ∧ (∀ v ∈ exServer.exported.roas.getD [], AsnInRange v.asn) ∧
    records exServer.store.current = [.vrp ⟨.v4 0x0a000000, 9⟩ 9 1, .brk 1 [0xAB] [0, 1]] ∧ exServer.exported.metadata.buildtime = exEpoch ∧
    delivered (UState.init true true).fetch exFile (.file (some (exportFile exServer))) = some (exportFile exServer) ∧
    records (startup (exJson true) (exAt 0) (exGet (exportFile exServer)) exInit).store.current = [.vrp ⟨.v4 0x0a000000, 9⟩ 9 1, .brk 1 [0xAB] [0, 1]] ∧
    exportFile exServer = utf8Str (["{\"metadata\":{\"vrps\":2,\"bgpsec_pubkeys\":0", ",\"buildtime\":\"1970-01-01T00:00:00Z\",\"ser", "ial\":0},\"roas\":[{\"prefix\":\"10.0.0.0/8\",\"", "maxLength\":9,\"asn\":\"AS1\"},", "{\"prefix\":\"x\",\"maxLength\":0,\"asn\":2}],\"b", "gpsec_keys\":[{\"asn\":1,\"pubkey\":\"AAE=\",\"s", "ki\":\"aB\"}]}\n"].flatMap String.toList) := by
  have h1 : exServer.exported.roas = some [⟨"10.0.0.0/8".toList, 9, .str "AS1".toList, [], none⟩, ⟨"x".toList, 0, .float 2, [], none⟩] := by decide +kernel
  refine ⟨.startup _ _ _ (.init true true), by rw [h1]; rfl, ?_, by decide +kernel, by decide +kernel, by decide +kernel, by decide +kernel, by decide +kernel⟩
  rw [h1]
  intro v hv
  simp only [Option.getD_some, List.mem_cons, List.not_mem_nil, or_false] at hv
  rcases hv with rfl | rfl <;> simp [AsnInRange]

/-- **C108.** The export leaves out `generated`: a server that checks build times serves a file whose build time is given that way only, and refuses its own export of it. -/
theorem C108_generated_false :
    let e := exJson true
    let s := startup e (exAt 0) (exGet (utf8Str (["{\"metadata\":{\"generated\":0},\"roas\":[{\"pr", "efix\":\"10.0.0.0/8\",\"maxLength\":9,\"asn\":1", "}]}"].flatMap String.toList))) exInit
    records s.store.current = [.vrp ⟨.v4 0x0a000000, 9⟩ 9 1] ∧ records (startup e (exAt 0) (exGet (exportFile s)) exInit).store.current = [] := by
  decide +kernel

theorem encInt_zero : encInt 0 = .num ['0'] := by
  show Json.num (decStr 0) = _
  rw [show decStr 0 = ['0'] by decide +kernel]

/-- **C108.** The export does not say how many router keys there are, nor the serial: the members are there and always zero. -/
theorem C108_counts_false (s : UState) : ∃ t o m, IsJsonFile (exportFile s) t o ∧ Member o "metadata" (.obj m) ∧ Member m "bgpsec_pubkeys" (.num ['0']) ∧ Member m "serial" (.num ['0']) := by
  refine ⟨_, _, _, encList_file s.exported 0 0 0, ⟨_, by simp [listMembers]; exact .inl rfl, spells_self "metadata"⟩, ⟨_, ?_, spells_self "bgpsec_pubkeys"⟩, ⟨_, ?_, spells_self "serial"⟩⟩
  · simp only [metaMembers]; exact List.mem_append_right _ (List.mem_append_left _ (by rw [encInt_zero]; exact List.mem_singleton.2 rfl))
  · simp only [metaMembers]
    iterate 5 apply List.mem_append_right
    rw [encInt_zero]; exact List.mem_singleton.2 rfl

example : exServer.store.current ≠ [] ∧ (exServer.exported.keys.getD []).length = 1 := by decide +kernel

/-! ## C109: the dump -/

theorem dumped_range (rs : List Rec) : ∀ v ∈ dumpedPrefixes rs, v.expires = none ∧ ∃ n, v.asn = .uint32 n := by
  intro v hv
  obtain ⟨r, -, hr⟩ := List.mem_filterMap.1 hv
  cases r with
  | brk => cases hr
  | vrp p m a => cases hr; exact ⟨rfl, a, rfl⟩

theorem dumpedKeys_range (rs : List Rec) : ∀ k ∈ dumpedKeys rs, k.expires = none := by
  intro v hv
  obtain ⟨r, -, hr⟩ := List.mem_filterMap.1 hv
  cases r with
  | vrp => cases hr
  | brk => cases hr; rfl

theorem dumped_length (rs : List Rec) : (dumpedPrefixes rs).length ≤ rs.length := List.length_filterMap_le ..

theorem wanted_dumped (wide : WideFloat) (now : Int) (rs : List Rec) (hrs : ∀ r ∈ rs, Statable r) (r : Rec) : Wanted wide now (dumpedPrefixes rs) (dumpedKeys rs) r ↔ r ∈ rs := by
  rw [← records_sds wide insertionSorter_ok now, C100_reload_partial wide insertionSorter_ok now rs hrs]

/-- **C109** (partial: for records that a cache file can state, see C100). After a well-framed answer to a Reset Query, rtrdump writes one JSON text in UTF-8 with no name twice and a line end. It gives the serial and the session of the End of Data, and
the number of prefixes. At all times it states exactly the records of the answer. -/
theorem C109_states_partial {f : DumpFlags} (hver : f.version = 0 ∨ f.version = 1) (hser : f.initSerial = false) {b : Bytes} {cv : U8} {csid : U16} {data : List Pdu} {ev : U8} {sid : U16} {n refresh retry expire : U32}
    (hs : Stream b (.cacheResponse cv csid :: data ++ [.endOfData ev sid n refresh retry expire])) (hd : ∀ p ∈ data, (pduRecord p).isSome = true) (hst : ∀ r ∈ data.filterMap pduRecord, Statable r)
    (hlen : data.length < 2 ^ 63) (rest : Bytes) :
    ∃ d q t o m, dumpMain f (b ++ rest) = (.written d, q) ∧ IsJsonFile (dumpFile d) t o ∧ Member o "metadata" (.obj m) ∧ FieldIs m "serial" IntIs 0 n.toNat ∧ FieldIs m "sessionid" IntIs 0 sid.toNat ∧
      FieldIs m "vrps" IntIs 0 ((data.filterMap pduRecord).filter fun r => match r with | .vrp .. => true | .brk .. => false).length ∧
      ∀ now r, FileStates now t r ↔ r ∈ data.filterMap pduRecord := by
  have h1 := dumped_length (data.filterMap pduRecord)
  have h2 : (data.filterMap pduRecord).length ≤ data.length := List.length_filterMap_le ..
  have hn := n.isLt
  have hsid := sid.isLt
  have z : Fits64 0 := ⟨by decide, by decide⟩
  have fn : Fits64 n.toNat := ⟨by omega, by omega⟩
  have fs : Fits64 sid.toNat := ⟨by omega, by omega⟩
  have fc : Fits64 (dumpedPrefixes (data.filterMap pduRecord)).length := ⟨by omega, by omega⟩
  refine ⟨_, _, _, _, _, C68_dump hver hser hs hd rest, encList_file _ _ _ _, ⟨_, by simp [listMembers]; exact .inl rfl, spells_self "metadata"⟩, ?_⟩
  obtain ⟨m1, -, -, -, m5, m6⟩ := metaMembers_is ⟨(dumpedPrefixes (data.filterMap pduRecord)).length, [], none⟩ 0 sid.toNat n.toNat fc (by simp) z fs fn
  have hcount : (dumpedPrefixes (data.filterMap pduRecord)).length = ((data.filterMap pduRecord).filter fun r => match r with | .vrp .. => true | .brk .. => false).length := by
    generalize data.filterMap pduRecord = rs
    induction rs with
    | nil => rfl
    | cons r rs ih => cases r <;> simp [dumpedPrefixes] at ih ⊢ <;> exact ih
  refine ⟨m6, m5, hcount ▸ m1, fun now r => ?_⟩
  have hw : Writable ⟨⟨(dumpedPrefixes (data.filterMap pduRecord)).length, [], none⟩, some (dumpedPrefixes (data.filterMap pduRecord)), some (dumpedKeys (data.filterMap pduRecord))⟩ := by
    refine ⟨fc, by simp, fun v hv => ?_, fun v hv x hx => ?_, fun k hk x hx => ?_⟩
    · obtain ⟨-, a, ha⟩ := dumped_range _ v hv; rw [ha]; trivial
    · rw [(dumped_range _ v hv).1] at hx; cases hx
    · rw [dumpedKeys_range _ k hk] at hx; cases hx
  refine (encList_states (fun _ => 0) now _ hw (fun v hv i => ?_) (fun v hv => ?_) 0 sid.toNat n.toNat z fs fn r).trans (wanted_dumped _ now _ hst r)
  · obtain ⟨-, a, ha⟩ := dumped_range _ v hv; rw [ha]; simp
  · obtain ⟨-, a, ha⟩ := dumped_range _ v hv; rw [ha]; trivial

/-- **C109** (partial, likewise). A server that loads the file serves exactly the records of the answer (but see C100 about the build time). -/
theorem C109_reload_partial {f : DumpFlags} (hver : f.version = 0 ∨ f.version = 1) (hser : f.initSerial = false) {b : Bytes} {cv : U8} {csid : U16} {data : List Pdu} {ev : U8} {sid : U16} {n refresh retry expire : U32}
    (hs : Stream b (.cacheResponse cv csid :: data ++ [.endOfData ev sid n refresh retry expire])) (hd : ∀ p ∈ data, (pduRecord p).isSome = true) (hst : ∀ r ∈ data.filterMap pduRecord, Statable r)
    (hlen : data.length < 2 ^ 63) (rest : Bytes) (wide : WideFloat) {sort : Sorter} (hsort : sort.Ok) (now : Int) :
    ∃ d q l, dumpMain f (b ++ rest) = (.written d, q) ∧ decodeFile (dumpFile d) = some l ∧ ∀ r, r ∈ records (processData wide sort now (l.roas.getD []) (l.keys.getD [])).sds ↔ r ∈ data.filterMap pduRecord := by
  have h1 := dumped_length (data.filterMap pduRecord)
  have h2 : (data.filterMap pduRecord).length ≤ data.length := List.length_filterMap_le ..
  have hn := n.isLt
  have hsid := sid.isLt
  have fc : Fits64 (dumpedPrefixes (data.filterMap pduRecord)).length := ⟨by omega, by omega⟩
  have hw : Writable ⟨⟨(dumpedPrefixes (data.filterMap pduRecord)).length, [], none⟩, some (dumpedPrefixes (data.filterMap pduRecord)), some (dumpedKeys (data.filterMap pduRecord))⟩ := by
    refine ⟨fc, by simp, fun v hv => ?_, fun v hv x hx => ?_, fun k hk x hx => ?_⟩
    · obtain ⟨-, a, ha⟩ := dumped_range _ v hv; rw [ha]; trivial
    · rw [(dumped_range _ v hv).1] at hx; cases hx
    · rw [dumpedKeys_range _ k hk] at hx; cases hx
  refine ⟨_, _, _, C68_dump hver hser hs hd rest, decodeFile_enc _ hw 0 sid.toNat n.toNat ⟨by decide, by decide⟩ ⟨by omega, by omega⟩ ⟨by omega, by omega⟩, fun r => ?_⟩
  rw [records_sds wide hsort, wanted_reread wide now _ (fun v hv i => ?_)]
  · exact wanted_dumped wide now _ hst r
  · obtain ⟨-, a, ha⟩ := dumped_range _ v hv; rw [ha]; simp

/-- An answer with one prefix satisfies the hypotheses; this is the file. -/
example : ∃ d, dumpMain exDump exAnswer = (.written d, [.resetQuery 1]) ∧
    dumpFile d = utf8Str (["{\"metadata\":{\"vrps\":1,\"bgpsec_pubkeys\":0", ",\"sessionid\":7,\"serial\":5},\"roas\":[{\"pre", "fix\":\"10.0.0.0/8\",\"maxLength\":24,\"asn\":1", "}]}\n"].flatMap String.toList) ∧
    Statable (.vrp ⟨.v4 0x0a000000, 9⟩ 24 1) :=
  ⟨⟨[⟨"10.0.0.0/8".toList, 24, .uint32 1, [], none⟩], [], 1, 0, 7, 5⟩, by decide +kernel, by decide +kernel, by unfold Statable; decide +kernel⟩

/-- **C109.** The number of router keys in the metadata is zero however many there are. -/
theorem C109_keycount_false {f : DumpFlags} (hver : f.version = 0 ∨ f.version = 1) (hser : f.initSerial = false) {b : Bytes} {cv : U8} {csid : U16} {data : List Pdu} {ev : U8} {sid : U16} {n refresh retry expire : U32}
    (hs : Stream b (.cacheResponse cv csid :: data ++ [.endOfData ev sid n refresh retry expire])) (hd : ∀ p ∈ data, (pduRecord p).isSome = true) (rest : Bytes) :
    ∃ d q t o m, dumpMain f (b ++ rest) = (.written d, q) ∧ IsJsonFile (dumpFile d) t o ∧ Member o "metadata" (.obj m) ∧ Member m "bgpsec_pubkeys" (.num ['0']) := by
  refine ⟨_, _, _, _, _, C68_dump hver hser hs hd rest, encList_file _ _ _ _, ⟨_, by simp [listMembers]; exact .inl rfl, spells_self "metadata"⟩, ⟨_, ?_, spells_self "bgpsec_pubkeys"⟩⟩
  simp only [metaMembers]
  exact List.mem_append_right _ (List.mem_append_left _ (by rw [encInt_zero]; exact List.mem_singleton.2 rfl))

end StayRTR
