import Verif.Props.MonRtr

/-!
# rtrmon as a whole: C61, C66, C67, C90, C93, C96, C97
-/

namespace StayRTR

open Spec MonMap

/-! ## C61: the client that fetches a file -/

/-- The history of updates that the answers amount to. -/
def toldUpdates (decode : Bytes → Option (List VRPJson × List BgpSecKeyJson)) (h : List (Int × Outcome)) : List (Int × Update) := h.filterMap fun x => (told decode x.2).map fun u => (x.1, u)

/-- What one fetch does to the map. -/
theorem monFetch_told (wide : WideFloat) (dec : Bytes → Option (List VRPJson × List BgpSecKeyJson)) (grace : Int) (path : Str) (fc : FetchConfig) (c : MonClient) (o : Outcome) (now : Int)
    (hfit : Fits path o) (hid : (fc.fetchFile path o).2.err ≠ some .identicalEtag) :
    (monFetch wide dec grace path fc c o now).2.1 =
      match told dec o with
      | none => c
      | some .unchanged => { c with vrps := (updateCurrentVrpMap grace c.vrps now).1, lastUpdate := some now, graceGauge := (updateCurrentVrpMap grace c.vrps now).2 }
      | some (.file vs ks) => { c with vrps := (buildNewVrpMap wide grace c.vrps vs ks now).1, lastUpdate := some now, graceGauge := (buildNewVrpMap wide grace c.vrps vs ks now).2 } := by
  unfold monFetch
  cases o with
  | failed => simp [FetchConfig.fetchFile, told]
  | file b =>
    simp only [Fits] at hfit
    cases b with
    | none => simp [FetchConfig.fetchFile, FetchConfig.readAll, hfit, told]
    | some b =>
      simp only [FetchConfig.fetchFile, FetchConfig.readAll, hfit, told]
      cases hdb : dec b <;> simp [hdb]
  | response st etag lm b =>
    simp only [Fits] at hfit
    simp only [FetchConfig.fetchFile, hfit, if_true] at hid ⊢
    unfold FetchConfig.onResponse at hid ⊢
    by_cases h304 : st = 304
    · subst h304
      simp [told]
    · rw [if_neg h304] at hid ⊢
      by_cases h200 : st = 200
      · subst h200
        simp only [ne_eq, not_true_eq_false, if_false] at hid ⊢
        by_cases hc : fc.enableEtags = false ∨ etag = [] ∨ ¬ etag = (fc.etags path).getD []
        · rw [if_pos hc]
          cases b with
          | none => simp [FetchConfig.readAll, told]
          | some b =>
            simp only [FetchConfig.readAll, told]
            cases hdb : dec b <;> simp [hdb]
        · rw [if_neg hc] at hid
          simp at hid
      · simp only [ne_eq, h200, not_false_eq_true, if_true]
        have : told dec (.response st etag lm b) = none := by
          unfold told
          split
          · rename_i h; cases h; exact absurd rfl h304
          · rename_i h; cases h; exact absurd rfl h200
          · rename_i h; cases h
          · rfl
        rw [this]
        have hne : ((st : Int) ≠ 304) := by omega
        simp [hne]

/-- **C61** (partial: no 200 answer repeats the ETag of the one before). The client that fetches a file has the map of the history of what it was told: files it could read and "not modified" answers; every other answer changes
nothing. -/
theorem C61_client_partial (wide : WideFloat) (dec : Bytes → Option (List VRPJson × List BgpSecKeyJson)) (grace : Int) (path : Str) (fc : FetchConfig) (h : List (Int × Outcome))
    (hfit : ∀ x ∈ h, Fits path x.2)
    (hid : ∀ new t o old, h = new ++ (t, o) :: old → ((fetchedAfter wide dec grace path fc old).1.fetchFile path o).2.err ≠ some .identicalEtag) :
    (fetchedAfter wide dec grace path fc h).2.vrps = mapAfter wide grace (toldUpdates dec h) ∧
    (fetchedAfter wide dec grace path fc h).2.lastUpdate = (toldUpdates dec h).head?.map (·.1) := by
  induction h with
  | nil => exact ⟨rfl, rfl⟩
  | cons x h ih =>
    obtain ⟨t, o⟩ := x
    obtain ⟨i1, i2⟩ := ih (fun x hx => hfit x (List.mem_cons_of_mem _ hx)) (fun new t' o' old he => hid ((t, o) :: new) t' o' old (by rw [he]; rfl))
    have hm := monFetch_told wide dec grace path (fetchedAfter wide dec grace path fc h).1 (fetchedAfter wide dec grace path fc h).2 o t (hfit _ List.mem_cons_self) (hid [] t o h rfl)
    simp only [fetchedAfter]
    rw [hm]
    unfold toldUpdates
    rw [List.filterMap_cons]
    cases told dec o with
    | none => exact ⟨i1, i2⟩
    | some u =>
      cases u with
      | unchanged => simp only [Option.map_some, mapAfter]; exact ⟨by rw [i1]; rfl, rfl⟩
      | file vs ks => simp only [Option.map_some, mapAfter]; exact ⟨by rw [i1]; rfl, rfl⟩

/-- A decoder for the examples: one byte stands for one file. -/
def exMonDecode : Bytes → Option (List VRPJson × List BgpSecKeyJson)
  | [1] => some ([exFileA], [])
  | [2] => some ([exFileB], [])
  | [3] => some ([exFileA, exFileB], [])
  | _ => none

/-- A URL. -/
def exMonURL : Str := "http://x/a".toList

/-- **C61.** A 200 answer with the ETag of the answer before is no sighting: the record is listed at 100 and at 5000, is gone at 5060, and is dropped at once though it was listed within the grace period of an hour. -/
theorem C61_identical_false : let h : List (Int × Outcome) := [(5060, .response 200 "y".toList none (some [2])), (5000, .response 200 "x".toList none (some [3])), (100, .response 200 "x".toList none (some [3]))]
    (fetchedAfter (fun _ => 0) exMonDecode 3600 exMonURL (FetchConfig.new true true) h).2.vrps.map (·.1) = ["10.1.0.0/16-24-2".toList] ∧
    (mapAfter (fun _ => 0) 3600 (toldUpdates exMonDecode h)).map (·.1) = ["10.0.0.0/8-8-1".toList, "10.1.0.0/16-24-2".toList] := by decide +kernel

/-- The hypotheses are met by a history with a file, a "not modified" answer, a failure and another file. -/
example : let h : List (Int × Outcome) := [(400, .response 200 "y".toList none (some [2])), (300, .response 500 [] none none), (200, .response 304 [] none none), (100, .response 200 "x".toList none (some [3]))]
    (∀ x ∈ h, isURL exMonURL = true) ∧ (fetchedAfter (fun _ => 0) exMonDecode 3600 exMonURL (FetchConfig.new true true) h).2.vrps.map (fun x => (x.1, tells x.2)) =
      [("10.0.0.0/8-8-1".toList, (false, 100, 200)), ("10.1.0.0/16-24-2".toList, (true, 100, 400))] := by decide +kernel

/-! ## C66: validation -/

/-- **C66.** The flags have no effect: whatever they say, `main` sets up both sources so that every certificate and every host key is accepted. -/
theorem C66_flags_false (f : MonFlags) (certOk : Bool) (fingerprint : Str) :
    monTlsAccepts (monPrimary f) certOk = true ∧ monHostKeyAccepts (monPrimary f) fingerprint = true ∧ monTlsAccepts (monSecondary f) certOk = true ∧ monHostKeyAccepts (monSecondary f) fingerprint = true := ⟨rfl, rfl, rfl, rfl⟩

/-- **C66** (partial: if the flags were taken over). With the settings of `Client` on, exactly verified certificates and exactly the configured host key are accepted. -/
theorem C66_settings_partial (t : MonTransport) (certOk : Bool) (fingerprint : Str) :
    (t.validateCert = true → (monTlsAccepts t certOk = true ↔ certOk = true)) ∧ (t.validateSSH = true → (monHostKeyAccepts t fingerprint = true ↔ fingerprint = "SHA256:".toList ++ t.serverKey)) := by
  refine ⟨fun h => by simp [monTlsAccepts, h], fun h => by simp only [monHostKeyAccepts, h, if_true, beq_iff_eq]⟩

example : monTlsAccepts ⟨true, true, [], "k".toList, []⟩ false = false ∧ monHostKeyAccepts ⟨true, true, [], "k".toList, []⟩ "SHA256:j".toList = false ∧
    monHostKeyAccepts ⟨true, true, [], "k".toList, []⟩ "SHA256:k".toList = true := by decide +kernel

/-! ## C67: JSON and RTR -/

theorem feed_ok (brk : Bool) (l : List (Int × Pdu)) (c : MonClient) (hd : ∀ x ∈ l, IsData x.2) (hc : c.vrpsRtr.Ok) : (monFeed brk c l).vrpsRtr.Ok := by
  induction l generalizing c with
  | nil => exact hc
  | cons x l ih =>
    obtain ⟨now, p⟩ := x
    obtain ⟨r, hr⟩ := Option.isSome_iff_exists.mp (hd _ List.mem_cons_self)
    obtain ⟨f, hf⟩ := pduFlag_of_record hr
    obtain ⟨e, he, -⟩ := monPdu_data now brk c hr hf
    show (monFeed brk (monPdu now brk c p).1 l).vrpsRtr.Ok
    rw [he]
    refine ih _ (fun y hy => hd y (List.mem_cons_of_mem _ hy)) ?_
    simp only [MonClient.record]
    split
    · exact hc.put _ _
    · exact hc.del _

/-- The names of a file all of whose entries are served, with lower-case key identifiers, are the names of the records served. -/
theorem names_served (wide : WideFloat) {sort : Sorter} (hs : sort.Ok) (now : Int) (vs : List VRPJson) (ks : List BgpSecKeyJson)
    (hvs : ∀ v ∈ vs, checkVRP wide now v ≠ none) (hks : ∀ k ∈ ks, isExpired now k.expires = false ∧ ∃ ski, k.ski = hexBytes ski) (k : Str) :
    k ∈ names wide vs ks ↔ ∃ r ∈ records (processData wide sort now vs ks).sds, recName r = k := by
  have hcheck : ∀ v ∈ vs, ∀ p asn, (v.getASN2 wide = some asn ∧ v.getPrefix2 = some p) ↔ checkVRP wide now v = some (p, asn) := by
    intro v hv p asn
    have hne := hvs v hv
    unfold checkVRP at hne ⊢
    cases h1 : v.getPrefix2 with
    | none => rw [h1] at hne; exact absurd rfl hne
    | some p' =>
      cases h2 : v.getASN2 wide with
      | none => rw [h1, h2] at hne; exact absurd rfl hne
      | some asn' =>
        rw [h1, h2] at hne
        simp only at hne ⊢
        split at hne
        · exact absurd rfl hne
        · split at hne
          · exact absurd rfl hne
          · rename_i h3 h4
            rw [if_neg h3, if_neg h4]
            simp only [Option.some.injEq, Prod.mk.injEq]
            exact and_comm
  unfold names records Processed.sds
  rw [List.mem_append, List.map_append, List.map_map, List.map_map]
  simp only [List.mem_append]
  constructor
  · rintro (h | h)
    · obtain ⟨v, hv, hk⟩ := List.mem_filterMap.mp h
      cases h1 : v.getASN2 wide with
      | none => rw [h1] at hk; cases hk
      | some asn =>
        cases h2 : v.getPrefix2 with
        | none => rw [h1, h2] at hk; cases hk
        | some p =>
          rw [h1, h2] at hk
          simp only [Option.some.injEq] at hk
          refine ⟨.vrp p v.length asn, .inl (List.mem_map.mpr ⟨⟨p, asn, v.length, 0⟩, ?_, rfl⟩), hk⟩
          exact (processData_mem wide hs now vs ks _).mpr ⟨rfl, v, hv, (hcheck v hv p asn).mp ⟨h1, h2⟩, rfl⟩
    · obtain ⟨b, hb, rfl⟩ := List.mem_map.mp h
      obtain ⟨hexp, ski, hski⟩ := hks b hb
      refine ⟨.brk b.asn ski b.pubkey, .inr (List.mem_map.mpr ⟨⟨b.asn, b.pubkey, ski, 0⟩, ?_, rfl⟩), ?_⟩
      · show _ ∈ processKeys now ks
        unfold processKeys
        refine List.mem_filterMap.mpr ⟨b, hb, ?_⟩
        rw [hexp, hski, hexDecode_hexBytes]
        simp
      · simp only [recName, hski]
  · rintro ⟨r, (h | h), rfl⟩
    · obtain ⟨x, hx, rfl⟩ := List.mem_map.mp h
      obtain ⟨-, v, hv, hc, hl⟩ := (processData_mem wide hs now vs ks x).mp hx
      obtain ⟨h1, h2⟩ := (hcheck v hv _ _).mpr hc
      refine .inl (List.mem_filterMap.mpr ⟨v, hv, ?_⟩)
      rw [h1, h2, hl]
      rfl
    · obtain ⟨x, hx, rfl⟩ := List.mem_map.mp h
      have hx' : x ∈ processKeys now ks := hx
      unfold processKeys at hx'
      obtain ⟨b, hb, hxb⟩ := List.mem_filterMap.mp hx'
      obtain ⟨hexp, ski, hski⟩ := hks b hb
      rw [hexp, hski, hexDecode_hexBytes] at hxb
      simp only [Bool.false_eq_true, if_false, reduceCtorEq, Option.some.injEq] at hxb
      subst hxb
      exact .inr (List.mem_map.mpr ⟨b, hb, by simp only [recName, SD.record, Function.comp, hski]⟩)

/-- **C67.** The same VRP has the same name whether it comes from a file or over RTR. -/
theorem C67_vrp (wide : WideFloat) (v : VRPJson) (p : Prefix) (asn : U32) (hp : v.getPrefix2 = some p) (ha : v.getASN2 wide = some asn) (pdu : Pdu) (hr : pduRecord pdu = some (.vrp p v.length asn)) (now : Int) (brk : Bool) :
    ∃ k, names wide [v] [] = [k] ∧ (monPdu now brk MonClient.new pdu).1.vrpsRtr.map (·.1) = (if pduFlag pdu = some 1 then [k] else []) := by
  refine ⟨monVrpKey p v.length asn, by simp [names, hp, ha], ?_⟩
  obtain ⟨f, hf⟩ := pduFlag_of_record hr
  obtain ⟨e, he, -⟩ := monPdu_data now brk MonClient.new hr hf
  rw [he, hf]
  unfold MonClient.record
  by_cases h1 : f = 1
  · simp [h1, MonClient.new, MonMap.put, MonMap.del, recName]
  · rw [if_neg h1, if_neg (by simpa using h1)]
    rfl

/-- **C67** (partial: the key identifier is in lower case). The same for a router key. -/
theorem C67_key_partial (wide : WideFloat) (b : BgpSecKeyJson) (ski : Bytes) (hs : b.ski = hexBytes ski) (pdu : Pdu) (hr : pduRecord pdu = some (.brk b.asn ski b.pubkey)) (hf : pduFlag pdu = some 1) (now : Int) (brk : Bool) :
    names wide [] [b] = (monPdu now brk MonClient.new pdu).1.vrpsRtr.map (·.1) := by
  obtain ⟨e, he, -⟩ := monPdu_data now brk MonClient.new hr hf
  rw [he]
  unfold MonClient.record
  simp [names, MonClient.new, MonMap.put, MonMap.del, recName, hs]

/-- **C67.** It fails for a key identifier in upper case, which stayrtr accepts: the file and what is served from it have different names. -/
theorem C67_key_false : ∃ (b : BgpSecKeyJson) (pdu : Pdu), processKeys 0 [b] = [⟨b.asn, b.pubkey, [0xab, 0xcd], 0⟩] ∧ pduRecord pdu = some (.brk b.asn [0xab, 0xcd] b.pubkey) ∧ pduFlag pdu = some 1 ∧
    names (fun _ => 0) [] [b] ≠ (monPdu 0 false MonClient.new pdu).1.vrpsRtr.map (·.1) :=
  ⟨⟨65001, none, [], [1, 2], "ABCD".toList⟩, .routerKey 1 1 [0xab, 0xcd] 65001 [1, 2], by decide +kernel⟩

/-- **C67** (partial: every entry of the file is one that stayrtr serves, with key identifiers in lower case). The file and an RTR session with a server that serves it do not differ. -/
theorem C67_same_source_partial (wide : WideFloat) {sort : Sorter} (hs : sort.Ok) (now : Int) (vs : List VRPJson) (ks : List BgpSecKeyJson)
    (hvs : ∀ v ∈ vs, checkVRP wide now v ≠ none) (hks : ∀ k ∈ ks, isExpired now k.expires = false ∧ ∃ ski, k.ski = hexBytes ski)
    (grace t : Int) (us : List (Int × Update)) (ho : ((t, Update.file vs ks) :: us).Pairwise fun a b => b.1 ≤ a.1)
    (brk : Bool) (t' : Int) (sid : U16) (n : U32) (l : List (Int × Pdu)) (hd : ∀ x ∈ l, IsData x.2) (hf : ∀ x ∈ l, pduFlag x.2 = some 1)
    (hserved : ∀ r, r ∈ l.filterMap (fun x => pduRecord x.2) ↔ r ∈ records (processData wide sort now vs ks).sds) :
    let m := mapAfter wide grace ((t, .file vs ks) :: us)
    let w := (MonState.init.run brk (fullSync t' sid n l)).1.client.vrps
    monDiff m w = [] ∧ monDiff w m = [] := by
  intro m w
  have hreal : ∀ r, r ∈ records (processData wide sort now vs ks).sds → RealRec r := by
    intro r hr
    unfold records Processed.sds at hr
    rw [List.map_append, List.map_map, List.map_map] at hr
    rcases List.mem_append.mp hr with h | h
    · obtain ⟨x, hx, rfl⟩ := List.mem_map.mp h
      obtain ⟨-, v, hv, hc, hl⟩ := (processData_mem wide hs now vs ks x).mp hx
      have hp := ((checkVRP_iff wide now v x.pfx x.asn).mp hc).1
      have hval := valid_of_parse hp
      exact ⟨hval.1, by simpa [Prefix.isValid] using hval.2⟩
    · obtain ⟨x, -, rfl⟩ := List.mem_map.mp h
      trivial
  have hv : ∀ x ∈ l, ∀ r, pduRecord x.2 = some r → RealRec r := fun x hx r hr => hreal r ((hserved r).mp (List.mem_filterMap.mpr ⟨x, hx, hr⟩))
  have hw : w = (monFeed brk { MonState.init.client with sessionID := sid } l).vrpsRtr := fullSync_client brk MonState.init rfl rfl t' sid n l hd
  have hwok : w.Ok := by rw [hw]; exact feed_ok brk l _ hd ok_nil
  have hwreal : OnlyReal w := by rw [hw]; exact onlyReal_feed brk l _ hd hv (fun k e h => by cases h)
  have F := mapAfter_faithful wide grace ((t, Update.file vs ks) :: us) (sightings_order wide ho)
  have hnames := names_served wide hs now vs ks hvs hks
  have hheld : ∀ r, RealRec r → (Holds w r ↔ r ∈ l.filterMap (fun x => pduRecord x.2)) := by
    intro r hr
    have := C64_union_partial brk MonState.init rfl rfl t' sid n l hd hv hf r hr
    refine this.trans ⟨fun h => h.elim (fun h => ?_) id, .inr⟩
    unfold Holds at h
    cases h
  -- shown in the map of the file ↔ a name of the file ↔ in the view
  have hm : ∀ k, (∃ e, m.get k = some e ∧ e.visible = true) ↔ k ∈ names wide vs ks := by
    intro k
    have hver := F.verdict k
    simp only [sightings] at hver
    by_cases hk : k ∈ names wide vs ks
    · rw [verdict_mem hk] at hver
      refine ⟨fun _ => hk, fun _ => ?_⟩
      cases hg : m.get k with
      | none => rw [show (mapAfter wide grace ((t, Update.file vs ks) :: us)).get k = none from hg] at hver; cases hver
      | some e =>
        rw [show (mapAfter wide grace ((t, Update.file vs ks) :: us)).get k = some e from hg] at hver
        simp only [Option.map_some, tells, Option.some.injEq, Prod.mk.injEq] at hver
        exact ⟨e, rfl, hver.1⟩
    · refine ⟨?_, fun h => absurd h hk⟩
      rintro ⟨e, he, hvis⟩
      rw [show (mapAfter wide grace ((t, Update.file vs ks) :: us)).get k = some e from he] at hver
      simp only [Option.map_some, tells, hvis] at hver
      exact absurd (verdict_true.mp hver.symm).1 (by rw [since_not_mem hk]; simp)
  have hwk : ∀ k, (w.get k).isSome = true ↔ k ∈ names wide vs ks := by
    intro k
    rw [hnames]
    constructor
    · intro h
      obtain ⟨e, he⟩ := Option.isSome_iff_exists.mp h
      obtain ⟨r, hr, hrk, -⟩ := hwreal k e he
      refine ⟨r, (hserved r).mp ((hheld r hr).mp ?_), hrk⟩
      unfold Holds
      rw [hrk]
      exact h
    · rintro ⟨r, hr, rfl⟩
      exact (hheld r (hreal r hr)).mpr ((hserved r).mpr hr)
  refine ⟨map_empty_of_get fun k => ?_, map_empty_of_get fun k => ?_⟩
  · cases h : (monDiff m w).get k with
    | none => rfl
    | some e =>
      obtain ⟨h1, h2, h3⟩ := ((diff_get m w F.ok).2 k e).mp h
      obtain ⟨e', he'⟩ := Option.isSome_iff_exists.mp ((hwk k).mpr ((hm k).mp ⟨e, h1, h2⟩))
      obtain ⟨-, -, -, -, hvis⟩ := hwreal k e' he'
      rw [h3 e' he'] at hvis
      cases hvis
  · cases h : (monDiff w m).get k with
    | none => rfl
    | some e =>
      obtain ⟨h1, h2, h3⟩ := ((diff_get w m hwok).2 k e).mp h
      obtain ⟨e', he', hvis⟩ := (hm k).mpr ((hwk k).mp (by rw [h1]; rfl))
      rw [h3 e' he'] at hvis
      cases hvis

/-- Two VRPs and a key that are served as they are. -/
example : (∀ v ∈ [exFileA, exFileB], checkVRP (fun _ => 0) 0 v ≠ none) ∧ hexBytes [0xab, 0xcd] = "abcd".toList ∧ names (fun _ => 0) [exFileA, exFileB] [] = ["10.0.0.0/8-8-1".toList, "10.1.0.0/16-24-2".toList] := by decide +kernel

/-! ## C90: "not modified" -/

theorem shown_build (wide : WideFloat) (grace : Int) {m : MonMap} (hm : m.Ok) (vs : List VRPJson) (ks : List BgpSecKeyJson) (now : Int) :
    (buildNewVrpMap wide grace m vs ks now).1.Ok ∧ ∀ k, Shown (buildNewVrpMap wide grace m vs ks now).1 k ↔ k ∈ names wide vs ks := by
  unfold buildNewVrpMap
  have hb := build_listed wide m vs ks now
  obtain ⟨g1, g2, -⟩ := grace_loop (now - grace) m hm (ks.foldl (monAddKey m now) (vs.foldl (monAddVrp wide m now) [])) 0 (hb []).1
  refine ⟨g1, fun k => ?_⟩
  obtain ⟨-, h2, h3⟩ := hb k
  unfold Shown
  simp only
  rw [g2 k]
  by_cases hk : k ∈ names wide vs ks
  · obtain ⟨e, he, hl⟩ := h2 hk
    rw [he]
    exact ⟨fun _ => hk, fun _ => ⟨e, rfl, hl.visible⟩⟩
  · rw [h3 hk]
    refine ⟨?_, fun h => absurd h hk⟩
    rintro ⟨e, he, hv⟩
    cases hc : m.get k with
    | none => rw [hc] at he; cases he
    | some e' =>
      rw [hc] at he
      simp only at he
      split at he
      · cases he; cases hv
      · cases he

theorem shown_keep (grace : Int) {m : MonMap} (hm : m.Ok) (now : Int) : (updateCurrentVrpMap grace m now).1.Ok ∧ ∀ k, Shown (updateCurrentVrpMap grace m now).1 k ↔ Shown m k := by
  unfold updateCurrentVrpMap
  obtain ⟨g1, g2, -⟩ := keep_loop now (now - grace) m hm [] 0 ok_nil (fun _ _ => rfl)
  refine ⟨g1, fun k => ?_⟩
  unfold Shown
  rw [g2 k]
  cases hc : m.get k with
  | none => simp [MonMap.get]
  | some e =>
    simp only [Option.some.injEq, exists_eq_left']
    cases hv : e.visible with
    | true => simp [hv]
    | false =>
      simp only [Bool.false_eq_true, if_false, iff_false]
      rintro ⟨e', he', hv'⟩
      split at he'
      · cases he'; rw [hv] at hv'; cases hv'
      · cases he'

/-- **C90** (partial: every 200 answer was read completely and could be decoded). If the server uses an ETag for one content only, then whenever the monitor asks for changes since an ETag, the records it shows are exactly
those of the content with that ETag: so "not modified" is about what it shows. -/
theorem C90_tag_partial (wide : WideFloat) (dec : Bytes → Option (List VRPJson × List BgpSecKeyJson)) (grace : Int) (path : Str) (hu : isURL path = true) (fc : FetchConfig) (hfc : fc.etags path = none) (content : Str → Bytes) (h : List (Int × Outcome))
    (honest : ∀ x ∈ h, ∀ tag lm b, x.2 = .response 200 tag lm b → (tag ≠ [] → b = some (content tag)) ∧ ∃ y z, b = some y ∧ dec y = some z) :
    (fetchedAfter wide dec grace path fc h).2.vrps.Ok ∧
    ∀ tag, tag ≠ [] → ((fetchedAfter wide dec grace path fc h).1.conditions path).ifNoneMatch = some tag →
      ∃ vs ks, dec (content tag) = some (vs, ks) ∧ ∀ k, Shown (fetchedAfter wide dec grace path fc h).2.vrps k ↔ k ∈ names wide vs ks := by
  -- the invariant does not look at the switch
  suffices H : (fetchedAfter wide dec grace path fc h).2.vrps.Ok ∧ ∀ tag, tag ≠ [] → (fetchedAfter wide dec grace path fc h).1.etags path = some tag →
      ∃ vs ks, dec (content tag) = some (vs, ks) ∧ ∀ k, Shown (fetchedAfter wide dec grace path fc h).2.vrps k ↔ k ∈ names wide vs ks by
    refine ⟨H.1, fun tag ht hc => H.2 tag ht ?_⟩
    simp only [FetchConfig.conditions] at hc
    split at hc
    · exact hc
    · cases hc
  induction h with
  | nil => exact ⟨ok_nil, fun tag _ h => by simp only [fetchedAfter, hfc] at h; cases h⟩
  | cons x h ih =>
    obtain ⟨t, o⟩ := x
    obtain ⟨i1, i2⟩ := ih (fun x hx => honest x (List.mem_cons_of_mem _ hx))
    simp only [fetchedAfter]
    generalize fetchedAfter wide dec grace path fc h = r at i1 i2
    have hstay : ∀ fr : FetchResult, r.1.fetchFile path o = (r.1, fr) → fr.err.isSome ∧ fr.code ≠ 304 →
        (monFetch wide dec grace path r.1 r.2 o t).2.1 = r.2 ∧ (monFetch wide dec grace path r.1 r.2 o t).1 = r.1 := by
      intro fr h1 h2
      unfold monFetch
      rw [h1]
      simp only
      rw [if_pos h2]
      exact ⟨rfl, rfl⟩
    cases o with
    | failed =>
      obtain ⟨e1, e2⟩ := hstay _ rfl ⟨rfl, by decide⟩
      rw [e1, e2]
      exact ⟨i1, i2⟩
    | file b =>
      obtain ⟨e1, e2⟩ := hstay ⟨[], -1, false, some .other⟩ (by simp [FetchConfig.fetchFile, hu]) ⟨rfl, by decide⟩
      rw [e1, e2]
      exact ⟨i1, i2⟩
    | response st etag lm b =>
      have hresp : r.1.fetchFile path (.response st etag lm b) = r.1.onResponse path st etag lm b := by simp [FetchConfig.fetchFile, hu]
      by_cases h304 : st = 304
      · subst h304
        have hx : r.1.fetchFile path (.response 304 etag lm b) = (r.1, ⟨[], 304, true, some .notModified⟩) := by rw [hresp]; rfl
        unfold monFetch
        rw [hx]
        simp only [Option.isSome_some, ne_eq, not_true_eq_false, and_false, if_false, if_true]
        obtain ⟨k1, k2⟩ := shown_keep grace i1 t
        refine ⟨k1, fun tag ht he => ?_⟩
        obtain ⟨vs, ks, e1, e2⟩ := i2 tag ht he
        exact ⟨vs, ks, e1, fun k => (k2 k).trans (e2 k)⟩
      · by_cases h200 : st = 200
        · subst h200
          obtain ⟨ht, y, z, hb, hz⟩ := honest _ List.mem_cons_self etag lm b rfl
          subst hb
          by_cases hc : r.1.enableEtags = false ∨ etag = [] ∨ etag ≠ (r.1.etags path).getD []
          · obtain ⟨fc', hx, htag⟩ : ∃ fc', r.1.fetchFile path (.response 200 etag lm (some y)) = (fc', ⟨y, -1, false, none⟩) ∧ fc'.etags path = some etag := by
              refine ⟨_, by rw [hresp]; unfold FetchConfig.onResponse; rw [if_neg (by decide), if_neg (by decide), if_pos hc]; rfl, ?_⟩
              split <;> simp [FetchConfig.setEtag, FetchConfig.setLastModified]
            obtain ⟨vs, ks⟩ := z
            unfold monFetch
            rw [hx]
            simp only [Option.isSome_none, Bool.false_eq_true, ne_eq, false_and, if_false, hz, show ¬ ((-1 : Int) = 304) from by decide]
            obtain ⟨k1, k2⟩ := shown_build wide grace i1 vs ks t
            refine ⟨k1, fun tag ht' he => ?_⟩
            rw [htag] at he
            cases he
            have := ht ht'
            simp only [Option.some.injEq] at this
            rw [← this]
            exact ⟨vs, ks, hz, k2⟩
          · obtain ⟨e1, e2⟩ := hstay ⟨[], 200, true, some .identicalEtag⟩ (by
              rw [hresp]; unfold FetchConfig.onResponse; rw [if_neg (by decide), if_neg (by decide), if_neg hc]; rfl) ⟨rfl, by decide⟩
            rw [e1, e2]
            exact ⟨i1, i2⟩
        · have hx : r.1.fetchFile path (.response st etag lm b) = ((r.1.setEtag path none).setLastModified path none, ⟨[], st, true, some .other⟩) := by
            rw [hresp]; unfold FetchConfig.onResponse; rw [if_neg h304, if_pos h200]
          unfold monFetch
          rw [hx]
          simp only
          rw [if_pos ⟨rfl, by omega⟩]
          refine ⟨i1, fun tag _ he => ?_⟩
          simp [FetchConfig.setEtag, FetchConfig.setLastModified] at he

/-- A server with three contents, one for each ETag. -/
def exContent : Str → Bytes
  | ['x'] => [1]
  | ['y'] => [2]
  | _ => [3]

/-- **C90.** It fails when the transfer of a new content breaks off: its ETag is remembered all the same. The server's content changes from x (the first record) to y (the second record); the transfer of y is interrupted; from
then on the server answers "not modified", and the monitor goes on to show the first record as present, seen just now. All answers are those of a correct server. -/
theorem C90_interrupted_false : let h : List (Int × Outcome) := [(300, .response 304 [] none none), (200, .response 200 ['y'] none none), (100, .response 200 ['x'] none (some (exContent ['x'])))]
    let r := fetchedAfter (fun _ => 0) exMonDecode 3600 exMonURL (FetchConfig.new true true) h
    (r.1.conditions exMonURL).ifNoneMatch = some ['y'] ∧ (exMonDecode (exContent ['y'])).isSome = true ∧ names (fun _ => 0) [exFileB] [] = ["10.1.0.0/16-24-2".toList] ∧
    r.2.vrps.map (fun x => (x.1, tells x.2)) = [("10.0.0.0/8-8-1".toList, (true, 100, 300))] := by decide +kernel

/-- A history as required, at the end of which the ETag y is asked for. -/
example : let h : List (Int × Outcome) := [(300, .response 304 [] none none), (200, .response 200 ['y'] none (some (exContent ['y']))), (100, .response 200 ['x'] none (some (exContent ['x'])))]
    let r := fetchedAfter (fun _ => 0) exMonDecode 3600 exMonURL (FetchConfig.new true true) h
    isURL exMonURL = true ∧ (r.1.conditions exMonURL).ifNoneMatch = some ['y'] ∧ r.2.vrps.map (fun x => (x.1, x.2.visible)) = [("10.1.0.0/16-24-2".toList, true), ("10.0.0.0/8-8-1".toList, false)] := by decide +kernel

/-! ## C93: the gauges -/

theorem length_split (m : MonMap) : m.length = m.countP (fun x => x.2.visible) + m.countP (fun x => !x.2.visible) := by
  induction m with
  | nil => rfl
  | cons x m ih =>
    rw [List.length_cons, List.countP_cons, List.countP_cons, ih]
    cases x.2.visible <;> simp <;> omega

/-- **C93** (partial). For a file source the published total is the number of records shown plus the published number in the grace period. -/
theorem C93_file_partial (wide : WideFloat) (grace : Int) {cur : MonMap} (hc : (cur.map (·.1)).Nodup) (vs : List VRPJson) (ks : List BgpSecKeyJson) (now startedAt : Int) (clock : Int → Int) (thresholds : List Int) (other : MonMap) :
    (monCompare startedAt clock thresholds (buildNewVrpMap wide grace cur vs ks now).1 other).total1 =
      (buildNewVrpMap wide grace cur vs ks now).1.countP (fun x => x.2.visible) + (buildNewVrpMap wide grace cur vs ks now).2 ∧
    (monCompare startedAt clock thresholds (updateCurrentVrpMap grace cur now).1 other).total1 =
      (updateCurrentVrpMap grace cur now).1.countP (fun x => x.2.visible) + (updateCurrentVrpMap grace cur now).2 := by
  refine ⟨?_, ?_⟩
  · rw [C61_count_file wide grace hc]
    exact length_split _
  · rw [C61_count_unchanged grace hc]
    exact length_split _

/-- **C93** (partial). For an RTR source it is the number of records shown: every entry is. -/
theorem C93_rtr_partial (brk : Bool) (s : MonState) (hs : ∀ x ∈ s.client.vrps ++ s.client.vrpsRtr, x.2.visible = true) (es : List MonEvent) :
    ∀ x ∈ (s.run brk es).1.client.vrps ++ (s.run brk es).1.client.vrpsRtr, x.2.visible = true := by
  induction es generalizing s with
  | nil => exact hs
  | cons e es ih =>
    simp only [MonState.run]
    apply ih
    have hput : ∀ (m : MonMap) (k : Str) (e : MonEntry), (∀ x ∈ m, x.2.visible = true) → e.visible = true → ∀ x ∈ m.put k e, x.2.visible = true := by
      intro m k e hm he x hx
      rcases List.mem_cons.mp hx with rfl | hx
      · exact he
      · exact hm x (List.mem_filter.mp hx).1
    have hdel : ∀ (m : MonMap) (k : Str), (∀ x ∈ m, x.2.visible = true) → ∀ x ∈ m.del k, x.2.visible = true := fun m k hm x hx => hm x (List.mem_filter.mp hx).1
    have hrec : ∀ (c : MonClient) (f : U8) (k : Str) (e : MonEntry), (∀ x ∈ c.vrps ++ c.vrpsRtr, x.2.visible = true) → e.visible = true → ∀ x ∈ (c.record f k e).vrps ++ (c.record f k e).vrpsRtr, x.2.visible = true := by
      intro c f k e hc he x hx
      unfold MonClient.record at hx
      split at hx
      all_goals
        rcases List.mem_append.mp hx with hx | hx
        · exact hc x (List.mem_append_left _ hx)
        · first
          | exact hput _ k e (fun y hy => hc y (List.mem_append_right _ hy)) he x hx
          | exact hdel _ k (fun y hy => hc y (List.mem_append_right _ hy)) x hx
    unfold MonState.step
    split
    · exact hs
    · cases e with
      | connect => simp only; split <;> exact hs
      | connectFails => simp only; split <;> exact hs
      | lost => simp only; split <;> exact hs
      | timer => simp only; split <;> exact hs
      | pdu now p =>
        simp only
        split
        · simp only [CSession.onPdu]
          cases p <;> simp only [monPdu]
          all_goals first
            | exact hs
            | exact hrec _ _ _ _ hs rfl
            | (intro x hx
               have : x ∈ s.client.vrpsRtr := by simpa using hx
               exact hs x (List.mem_append_right _ this))
        · exact hs

/-- **C93.** It fails for a file source: the total counts records that the file no longer lists. -/
theorem C93_total_false : let m := mapAfter (fun _ => 0) 3600 [(200, .file [exFileB] []), (100, .file [exFileA, exFileB] [])]
    (monCompare 0 (fun _ => 200) [] m []).total1 = 2 ∧ m.countP (fun x => x.2.visible) = 1 := by decide +kernel

/-! ## C96: passwords from the environment -/

/-- **C96** (partial: the primary source). Without a password on the command line, the one of the environment is used. -/
theorem C96_primary_partial (f : MonFlags) : (monPrimary f).password = if f.password = [] then f.envPassword else f.password := rfl

/-- **C96.** For the secondary source it fails: with the method password, the environment is not looked at; with the method key, the password of the command line is thrown away. -/
theorem C96_secondary_false (f : MonFlags) : (f.method = "password".toList → (monSecondary f).password = f.password) ∧ (f.method = "key".toList → (monSecondary f).password = f.envPassword) := by
  refine ⟨fun h => ?_, fun h => ?_⟩
  · unfold monSecondary
    rw [h, if_neg (by decide)]
  · unfold monSecondary
    rw [h, if_pos rfl]

/-- The password of the environment is not used. -/
example : let f : MonFlags := ⟨false, false, [], "password".toList, [], [], "secret".toList⟩
    (monPrimary f).password = "secret".toList ∧ (monSecondary f).password = [] := by decide +kernel

/-! ## C97: two sources with the same URL -/

/-- The part of a fetch configuration that a path sees. -/
def SameFor (path : Str) (a b : FetchConfig) : Prop := a.etags path = b.etags path ∧ a.lastModified path = b.lastModified path ∧ a.enableEtags = b.enableEtags ∧ a.enableLastModified = b.enableLastModified

theorem fetch_same {path : Str} {a b : FetchConfig} (h : SameFor path a b) (o : Outcome) : (a.fetchFile path o).2 = (b.fetchFile path o).2 ∧ SameFor path (a.fetchFile path o).1 (b.fetchFile path o).1 := by
  obtain ⟨h1, h2, h3, h4⟩ := h
  have hs : SameFor path a b := ⟨h1, h2, h3, h4⟩
  cases o with
  | failed => exact ⟨rfl, hs⟩
  | file c => simp only [FetchConfig.fetchFile]; split <;> exact ⟨rfl, hs⟩
  | response st etag lm c =>
    simp only [FetchConfig.fetchFile]
    split
    · unfold FetchConfig.onResponse
      rw [h1, h3]
      split
      · exact ⟨rfl, hs⟩
      · split
        · refine ⟨rfl, ?_, ?_, h3, h4⟩ <;> simp [FetchConfig.setEtag, FetchConfig.setLastModified]
        · split
          · refine ⟨rfl, ?_⟩
            unfold SameFor
            cases hb : b.enableLastModified <;> simp [FetchConfig.setEtag, FetchConfig.setLastModified, h2, h3, h4, hb]
          · exact ⟨rfl, hs⟩
    · exact ⟨rfl, hs⟩

theorem fetch_other {path path' : Str} (hne : path' ≠ path) (a : FetchConfig) (o : Outcome) : SameFor path' (a.fetchFile path o).1 a := by
  have hr : SameFor path' a a := ⟨rfl, rfl, rfl, rfl⟩
  cases o with
  | failed => exact hr
  | file c => simp only [FetchConfig.fetchFile]; split <;> exact hr
  | response st etag lm c =>
    simp only [FetchConfig.fetchFile]
    split
    · unfold FetchConfig.onResponse
      split
      · exact hr
      · split
        · refine ⟨?_, ?_, rfl, rfl⟩ <;> simp [FetchConfig.setEtag, FetchConfig.setLastModified, hne]
        · split
          · unfold SameFor
            cases hb : a.enableLastModified <;> simp [FetchConfig.setEtag, FetchConfig.setLastModified, hne, hb]
          · exact hr
    · exact hr

theorem monFetch_fc (wide : WideFloat) (dec : Bytes → Option (List VRPJson × List BgpSecKeyJson)) (grace : Int) (path : Str) (fc : FetchConfig) (c : MonClient) (o : Outcome) (now : Int) :
    (monFetch wide dec grace path fc c o now).1 = (fc.fetchFile path o).1 := by
  unfold monFetch
  simp only
  split
  · rfl
  · split
    · rfl
    · split <;> rfl

theorem monFetch_client {path : Str} {a b : FetchConfig} (wide : WideFloat) (dec : Bytes → Option (List VRPJson × List BgpSecKeyJson)) (grace : Int) (c : MonClient) (o : Outcome) (now : Int)
    (h : (a.fetchFile path o).2 = (b.fetchFile path o).2) : (monFetch wide dec grace path a c o now).2 = (monFetch wide dec grace path b c o now).2 := by
  unfold monFetch
  simp only
  rw [h]
  split
  · rfl
  · split
    · rfl
    · split <;> rfl

theorem SameFor.trans {path : Str} {a b c : FetchConfig} (h : SameFor path a b) (h' : SameFor path b c) : SameFor path a c := ⟨h.1.trans h'.1, h.2.1.trans h'.2.1, h.2.2.1.trans h'.2.2.1, h.2.2.2.trans h'.2.2.2⟩

/-- **C97** (partial: the two URLs are different). Each of the two clients is as if it were alone, though they share the remembered ETags. -/
theorem C97_independent_partial (wide : WideFloat) (dec : Bytes → Option (List VRPJson × List BgpSecKeyJson)) (grace : Int) {path1 path2 : Str} (hne : path1 ≠ path2) (fc : FetchConfig) (h : List (Bool × Int × Outcome)) :
    (bothAfter wide dec grace path1 path2 fc h).2.1 = (fetchedAfter wide dec grace path1 fc ((h.filter fun x => !x.1).map (·.2))).2 ∧
    (bothAfter wide dec grace path1 path2 fc h).2.2 = (fetchedAfter wide dec grace path2 fc ((h.filter fun x => x.1).map (·.2))).2 := by
  suffices H : (bothAfter wide dec grace path1 path2 fc h).2.1 = (fetchedAfter wide dec grace path1 fc ((h.filter fun x => !x.1).map (·.2))).2 ∧
      (bothAfter wide dec grace path1 path2 fc h).2.2 = (fetchedAfter wide dec grace path2 fc ((h.filter fun x => x.1).map (·.2))).2 ∧
      SameFor path1 (bothAfter wide dec grace path1 path2 fc h).1 (fetchedAfter wide dec grace path1 fc ((h.filter fun x => !x.1).map (·.2))).1 ∧
      SameFor path2 (bothAfter wide dec grace path1 path2 fc h).1 (fetchedAfter wide dec grace path2 fc ((h.filter fun x => x.1).map (·.2))).1 from ⟨H.1, H.2.1⟩
  induction h with
  | nil => exact ⟨rfl, rfl, ⟨rfl, rfl, rfl, rfl⟩, ⟨rfl, rfl, rfl, rfl⟩⟩
  | cons x h ih =>
    obtain ⟨b, t, o⟩ := x
    obtain ⟨i1, i2, i3, i4⟩ := ih
    cases b with
    | false =>
      simp only [bothAfter, List.filter_cons, Bool.not_false, if_true, Bool.false_eq_true, if_false, List.map_cons, fetchedAfter]
      obtain ⟨s1, s2⟩ := fetch_same i3 o
      rw [monFetch_fc, monFetch_fc]
      refine ⟨?_, i2, s2, (fetch_other (fun h => hne h.symm) _ o).trans i4⟩
      rw [i1]
      exact congrArg (·.1) (monFetch_client wide dec grace _ o t s1)
    | true =>
      simp only [bothAfter, List.filter_cons, Bool.not_true, Bool.false_eq_true, if_true, if_false, List.map_cons, fetchedAfter]
      obtain ⟨s1, s2⟩ := fetch_same i4 o
      rw [monFetch_fc, monFetch_fc]
      refine ⟨i1, ?_, (fetch_other hne _ o).trans i3, s2⟩
      rw [i2]
      exact congrArg (·.1) (monFetch_client wide dec grace _ o t s1)

/-- **C97.** With the same URL for both it fails: the second client asks for changes since the content that only the first one has, is told that there are none, and shows nothing. A source then differs from itself. -/
theorem C97_same_url_false : let h : List (Bool × Int × Outcome) := [(true, 101, .response 304 [] none none), (false, 100, .response 200 ['x'] none (some [3]))]
    let r1 := bothAfter (fun _ => 0) exMonDecode 3600 exMonURL exMonURL (FetchConfig.new true true) (h.drop 1)
    let r2 := bothAfter (fun _ => 0) exMonDecode 3600 exMonURL exMonURL (FetchConfig.new true true) h
    (r1.1.conditions exMonURL).ifNoneMatch = some ['x'] ∧ r2.2.2.vrps = [] ∧ (monDiff r2.2.1.vrps r2.2.2.vrps).length = 2 := by decide +kernel

/-- Two different URLs. -/
example : exMonURL ≠ "http://x/b".toList := by decide

end StayRTR
