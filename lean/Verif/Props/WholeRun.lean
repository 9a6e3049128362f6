import Verif.Props.Whole

/-!
# From the files to a router, over whole runs: C115
-/

namespace StayRTR
open Spec Slurm Pdu

/-- The last readable file of those delivered, latest first; `none` if none was readable. -/
def Spec.LastReadable {α : Type} (decode : Bytes → Option α) (ds : List Bytes) : Option Bytes → Prop
  | none => ∀ d ∈ ds, decode d = none
  | some b => (∃ x, decode b = some x) ∧ ∃ bad rest, ds = bad ++ b :: rest ∧ ∀ d ∈ bad, decode d = none

theorem lastGood_of {α : Type} {decode : Bytes → Option α} {ds : List Bytes} {o : Option Bytes} (h : LastReadable decode ds o) : lastGood decode ds = o.bind decode := by
  cases o with
  | none =>
    induction ds with
    | nil => rfl
    | cons d ds ih =>
      unfold lastGood
      rw [h d List.mem_cons_self]
      exact ih (fun x hx => h x (List.mem_cons_of_mem _ hx))
  | some b =>
    obtain ⟨⟨x, hx⟩, bad, rest, rfl, hbad⟩ := h
    induction bad with
    | nil => simp [lastGood, hx]
    | cons d bad ih =>
      rw [List.cons_append]
      unfold lastGood
      rw [hbad d List.mem_cons_self]
      exact ih (fun y hy => hbad y (List.mem_cons_of_mem _ hy))

/-- **C115** (partial: as `C115_served_partial`, but for all refreshes). At every time of a run, whatever failed to be fetched or could not be read in between and whether or not the files were new, exactly what the texts of the last readable files ask for
at the time of the last refresh is served. -/
theorem C115_run_partial (e : Env) (hs : e.sort.Ok) (hd : e.decode = decodeFile) (hd' : e.decodeSlurm = decodeSlurmFile) (hinj : ∀ a b, e.sha a = e.sha b → a = b) {s : UState} {now : Int} (hg : GoodRun e s now)
    {ds cs : List Bytes} (hh : Heard e s ds cs) {b : Bytes} {x : Option Bytes} (hb : LastReadable decodeFile ds (some b)) (hx : LastReadable decodeSlurmFile cs x)
    {tb : Str} {tx : Option Str} {l : RPKIList} (ht : Texts b x tb tx l) (r : Rec) : Served s r ↔ TextWants now tb tx r := by
  obtain ⟨h1, h2⟩ := C49_last_good hinj hh
  obtain ⟨hl, -, sl, hsl, hw⟩ := texts_want (wide := e.wide) hs now ht
  rw [hd, lastGood_of hb] at h1
  rw [hd', lastGood_of hx] at h2
  have e1 : s.lastdata = l := by rw [h1]; simp [hl]
  have e2 : s.slurm = sl := by
    rw [h2]
    cases x with
    | none => exact hsl.symm
    | some y => exact hsl.2
  rw [C52_served_partial hs hg, e1, e2, hw]

/-- **C115** (partial: as above). So at every time of a run a router that starts over holds, once it has read the answer, exactly the records that the texts of the last readable files asked for at the last refresh. -/
theorem C115_run_router_partial (e : Env) (hs : e.sort.Ok) (hd : e.decode = decodeFile) (hd' : e.decodeSlurm = decodeSlurmFile) (hinj : ∀ a b, e.sha a = e.sha b → a = b) {s : UState} {now : Int} (hg : GoodRun e s now)
    {ds cs : List Bytes} (hh : Heard e s ds cs) {b : Bytes} {x : Option Bytes} (hb : LastReadable decodeFile ds (some b)) (hx : LastReadable decodeSlurmFile cs x)
    {tb : Str} {tx : Option Str} {l : RPKIList} (ht : Texts b x tb tx l)
    (hne : ∃ r, TextWants now tb tx r) (henc : ∀ a ski key, TextWants now tb tx (.brk a ski key) → ski.length = 20 ∧ 4 ≤ key.length ∧ 32 + key.length ≤ 262168)
    {cfg : ServerConfig} {sid : U16} {c : Client} (hc : Conn (newServer cfg sid) c) (hup : c.connected = true) {v : U8} (ha : Acceptable c v) (r : Router) (hsy : r.synced = none) :
    ∃ (c' : Client) (eff : List Effect) (bs : List Bytes) (ps : List Pdu), (newServer cfg sid).processRead s.store s.store c (Contact.packet (r.query v)) = .ok (c', eff) ∧ (sent eff).map Pdu.encode = bs.map GoRes.ok ∧ Stream bs.flatten ps ∧
      ∀ x, x ∈ (ps.foldl Router.receive r).held ↔ TextWants now tb tx x ∧ wanted (lower v cfg.protocolVersion) (!c.dontSendBGPsecKeys) x = true := by
  have key := C115_run_partial e hs hd hd' hinj hg hh hb hx ht
  obtain ⟨c', eff, bs, ps, h1, h2, h3, -, -, h4⟩ := C115_router_partial hs hg.reached (by obtain ⟨r, hr⟩ := hne; exact ⟨r, (key r).2 hr⟩) (fun a ski k hk => henc a ski k ((key _).1 hk)) hc hup ha r hsy
  exact ⟨c', eff, bs, ps, h1, h2, h3, fun x => by rw [h4, key]⟩

/-- The server after loading the files of the example. -/
def exWholeLoaded : UState := startup exWholeEnv (exAt 0) exWholeFetch exInit

/-- Both files are fetched again, the cache file unchanged and the SLURM file cut off. -/
def exWholeAgain : Fetched := ⟨exFile, .file (some (utf8Str exWholeCache)), some ("slurm.json".toList, .file (some [0x7b]))⟩

/-- A run in which the second refresh finds the same cache file and an unreadable SLURM file. -/
example : ∃ (s : UState) (l : RPKIList), GoodRun exWholeEnv s 7 ∧ Heard exWholeEnv s [utf8Str exWholeCache, utf8Str exWholeCache] [[0x7b], utf8Str exWholeSlurm] ∧ (∀ a b, exWholeEnv.sha a = exWholeEnv.sha b → a = b) ∧
    LastReadable decodeFile [utf8Str exWholeCache, utf8Str exWholeCache] (some (utf8Str exWholeCache)) ∧ LastReadable decodeSlurmFile [[0x7b], utf8Str exWholeSlurm] (some (utf8Str exWholeSlurm)) ∧
    Texts (utf8Str exWholeCache) (some (utf8Str exWholeSlurm)) exWholeCache (some exWholeSlurm) l := by
  obtain ⟨l, hl, hm⟩ := exWhole_texts
  have hlr : LastReadable decodeFile [utf8Str exWholeCache, utf8Str exWholeCache] (some (utf8Str exWholeCache)) := ⟨⟨l, (cache_loads hl.1 hl.2.1).1⟩, [], _, rfl, fun _ h => (List.not_mem_nil h).elim⟩
  have hsr : LastReadable decodeSlurmFile [[0x7b], utf8Str exWholeSlurm] (some (utf8Str exWholeSlurm)) := by
    refine ⟨Option.isSome_iff_exists.1 (by decide +kernel), [[0x7b]], [], rfl, fun d hd => ?_⟩
    rw [List.mem_singleton.1 hd]
    decide +kernel
  have e0 : (exWholeLoaded).lastdata.metadata = ⟨0, exEpoch, none⟩ := by decide +kernel
  have g0 : GoodFile exWholeEnv (exAt 0).check exWholeLoaded := ⟨by decide +kernel, fun _ => ⟨0, .text 0 (by rw [e0]) (by rw [e0]; decide +kernel), by decide⟩, by decide +kernel⟩
  have e1 : (refresh exWholeEnv (exAt 7) exWholeAgain exWholeLoaded).lastdata.metadata = ⟨0, exEpoch, none⟩ := by decide +kernel
  have g1 : GoodFile exWholeEnv (exAt 7).check (refresh exWholeEnv (exAt 7) exWholeAgain exWholeLoaded) := ⟨by decide +kernel, fun _ => ⟨0, .text 0 (by rw [e1]) (by rw [e1]; decide +kernel), by decide⟩, by decide +kernel⟩
  have h1 : GoodRun exWholeEnv exWholeLoaded 0 := GoodRun.startup (exAt 0) exWholeFetch (GoodRun.init true true 0) g0
  have k1 : Heard exWholeEnv exWholeLoaded [utf8Str exWholeCache] [utf8Str exWholeSlurm] :=
    Heard.startup (exAt 0) exWholeFetch (some (utf8Str exWholeCache)) (some (utf8Str exWholeSlurm)) (Heard.init true true) (by decide +kernel) (by decide +kernel)
  exact ⟨_, l, GoodRun.refresh (exAt 7) exWholeAgain h1 g1, Heard.refresh (exAt 7) exWholeAgain (some (utf8Str exWholeCache)) (some [0x7b]) k1 (by decide +kernel) (by decide +kernel), fun a b h => h, hlr, hsr, hl⟩

/-! ## A filter that cannot be read -/

/-- A SLURM file with a filter for 10.0.0.0/33. -/
def exBadSlurm : Str :=
  (["{\"slurmVersion\":1,\"validationOutputFilte", "rs\":{\"prefixFilters\":[{\"prefix\":\"10.0.0.", "0/33\"}],\"bgpsecFilters\":[]},", "\"locallyAddedAssertions\":{\"prefixAsserti", "ons\":[],\"bgpsecAssertions\":[]}}"].flatMap String.toList)

/-- Both are fetched. -/
def exBadFetch : Fetched := ⟨exFile, .file (some (utf8Str exWholeCache)), some ("slurm.json".toList, .file (some (utf8Str exBadSlurm)))⟩

/-- Does every prefix filter of the file have an unreadable prefix? -/
def allUnreadable (s : Str) : Bool :=
  match readJson s with
  | some (.obj o) => ((((given o "validationOutputFilters").map members).flatMap fun o' => given o' "prefixFilters").flatMap elems).all (isObj fun o' => has o' "prefix" fun | .str t => (parsePrefix t).isNone | _ => false)
  | _ => false

theorem allUnreadable_drops {s : Str} (h : allUnreadable s = true) (p : Prefix) (m : U8) (a : U32) : ¬ Dropped s (.vrp p m a) := by
  unfold allUnreadable at h
  split at h
  · rename_i o ho
    have hf := readJson_first ho
    rintro ⟨e, ⟨o1, o', es, hf', hm, hm', he⟩, o2, rfl, -, hp, -⟩
    have := firstValue_obj hf hf'
    cases this
    obtain ⟨o3, h3, hh⟩ := isObj_of (List.all_eq_true.1 h _ (List.mem_flatMap.2 ⟨_, List.mem_flatMap.2 ⟨_, List.mem_map.2 ⟨_, mem_given hm, rfl⟩, mem_given hm'⟩, he⟩))
    cases h3
    obtain ⟨j, hj, hn⟩ := member_of_has hh
    cases j with
    | str t =>
      obtain ⟨x, hx, -⟩ := hp t hj
      rw [← prefixText_iff] at hx
      simp [hx] at hn
    | _ => cases hn
  · cases h

/-- **C115.** It is false of a SLURM file with a filter that cannot be read. The two files ask for three VRPs and a router key, as 10.0.0.0/33 is no prefix and so nothing is taken out. Both are loaded, and none of the VRPs is served: no router gets them. -/
theorem C115_filter_false : NewFiles exWholeEnv exInit exBadFetch (utf8Str exWholeCache) (some (utf8Str exBadSlurm)) ∧ Utf8 (utf8Str exWholeCache) exWholeCache ∧ Utf8 (utf8Str exBadSlurm) exBadSlurm ∧
    (decodeSlurmFile (utf8Str exBadSlurm)).isSome ∧
    (∀ r ∈ [Rec.vrp ⟨.v4 0x0a000000, 9⟩ 9 1, .vrp ⟨.v4 0x0a010000, 17⟩ 16 2, .vrp ⟨.v4 0xc0000200, 25⟩ 24 2], TextWants (seconds (exAt 0).proc) exWholeCache (some exBadSlurm) r) ∧
    ∀ p m a, ¬ Served (startup exWholeEnv (exAt 0) exBadFetch exInit) (.vrp p m a) := by
  refine ⟨⟨by decide +kernel, by simp [exInit, UState.init], fun h => absurd h (Option.some_ne_none _), fun y h => ⟨_, _, rfl, by rw [← Option.some.inj h]; decide +kernel, by simp [exInit, UState.init]⟩⟩,
    utf8_str _, utf8_str _, by decide +kernel, fun r hr => ?_, fun p m a hr => ?_⟩
  · obtain ⟨l, hl, -⟩ := exWhole_texts
    have hs : FileStates (seconds (exAt 0).proc) exWholeCache r := by
      have hdec := (cache_loads hl.1 hl.2.1).1
      rw [← cache_texts exWholeEnv.wide insertionSorter_ok _ hl.1 hl.2.1 hdec]
      have key : ∀ l', decodeFile (utf8Str exWholeCache) = some l' → r ∈ records (processData exWholeEnv.wide insertionSorter (seconds (exAt 0).proc) (l'.roas.getD []) (l'.keys.getD [])).sds := by
        intro l' hl'
        have : (decodeFile (utf8Str exWholeCache)).all (fun l => decide (∀ r ∈ [Rec.vrp ⟨.v4 0x0a000000, 9⟩ 9 1, .vrp ⟨.v4 0x0a010000, 17⟩ 16 2, .vrp ⟨.v4 0xc0000200, 25⟩ 24 2],
            r ∈ records (processData exWholeEnv.wide insertionSorter (seconds (exAt 0).proc) (l.roas.getD []) (l.keys.getD [])).sds)) = true := by decide +kernel
        rw [hl'] at this
        exact of_decide_eq_true this r hr
      have := key l hdec
      rw [records_sds _ insertionSorter_ok] at this
      exact this
    refine .inl ⟨hs, ?_⟩
    have hd := allUnreadable_drops (s := exBadSlurm) (by decide +kernel)
    simp only [List.mem_cons, List.not_mem_nil, or_false] at hr
    rcases hr with rfl | rfl | rfl <;> exact hd _ _ _
  · have : records (startup exWholeEnv (exAt 0) exBadFetch exInit).store.current = [.brk 1 [0, 1, 2, 3, 4, 5, 6, 7, 8, 9, 10, 11, 12, 13, 14, 15, 16, 17, 18, 19] [0, 1, 2, 3]] := by decide +kernel
    unfold Served at hr
    rw [this] at hr
    simp at hr

end StayRTR
