import Verif.Props.MonFiles
import Verif.Props.Settle

/-!
# C179: rtrmon between two servers

rtrmon is given the exports of two servers, or the export of one and the session of another.
-/

namespace StayRTR

/-! ## What is asked -/

/-- What can be read of the entries of a file is good enough to be served: the lengths are in range, and key identifiers are in lower case. -/
def Spec.Servable (wide : WideFloat) (l : RPKIList) : Prop :=
  (∀ v ∈ l.roas.getD [], ∀ p a, PrefixText v.pfx p → AsnReads wide v.asn a → 1 ≤ p.bits ∧ p.bits ≤ (v.length.toNat : Int) ∧ v.length.toNat ≤ p.ip.bitLen) ∧
  ∀ b ∈ l.keys.getD [], ∃ ski, b.ski = hexBytes ski

open Spec MonMap

/-! ## What is proved -/

theorem names_wanted {wide : WideFloat} {l : RPKIList} (h : Servable wide l) (hx : NoExpiry l) (now : Int) (k : Str) : k ∈ names wide (l.roas.getD []) (l.keys.getD []) ↔ ∃ r, Asks wide l now r ∧ recName r = k := by
  rw [mem_names_iff]
  constructor
  · rintro ⟨r, hr, rfl⟩
    cases r with
    | vrp p m a =>
      obtain ⟨v, hv, h1, h2, rfl⟩ := hr
      obtain ⟨k1, k2, k3⟩ := h.1 v hv p a h1 h2
      exact ⟨.vrp p v.length a, ⟨v, hv, h1, h2, rfl, k1, k2, k3, fun e he => by rw [hx.1 v hv] at he; cases he⟩, rfl⟩
    | key s a k =>
      obtain ⟨b, hb, rfl, rfl, rfl⟩ := hr
      obtain ⟨ski, hs⟩ := h.2 b hb
      refine ⟨.brk b.asn ski b.pubkey, ⟨b, hb, rfl, (hexText_iff ..).1 (by rw [hs]; exact hexDecode_hexBytes _), rfl, fun e he => by rw [hx.2 b hb] at he; cases he⟩, ?_⟩
      show monBrkKey (hexBytes ski) b.asn b.pubkey = monBrkKey b.ski b.asn b.pubkey
      rw [hs]
  · rintro ⟨r, hr, rfl⟩
    cases r with
    | vrp p m a =>
      obtain ⟨v, hv, h1, h2, h3, -⟩ := hr
      exact ⟨.vrp p m a, ⟨v, hv, h1, h2, h3⟩, rfl⟩
    | brk a s k =>
      obtain ⟨b, hb, h1, h2, h3, -⟩ := hr
      obtain ⟨ski, hs⟩ := h.2 b hb
      have h2' := (hexText_iff ..).2 h2
      rw [hs, hexDecode_hexBytes] at h2'
      have e4 : ski = s := congrArg Prod.fst h2'
      exact ⟨.key b.ski a k, ⟨b, hb, rfl, h1, h3⟩, by rw [hs, e4]; rfl⟩

theorem served_asks {e : Env} (hs : e.sort.Ok) {s : UState} (h : Reached e s) (hne : ∃ r, Served s r) (hx : NoExpiry s.exported) (now : Int) (r : Rec) : Served s r ↔ Asks e.wide s.exported now r := by
  rcases C71_listed_partial hs h with h0 | ⟨now', hnow⟩
  · obtain ⟨r0, h1⟩ := hne
    unfold Served at h1
    rw [h0] at h1
    simp [records] at h1
  · rw [hnow]
    exact hx.asks e.wide now' now r

/-- What rtrmon reads of an export names what the server serves. -/
theorem export_names {e : Env} (hd : e.decode = decodeFile) (hs : e.sort.Ok) {s : UState} (h : Reached e s) (hlen : (s.exported.roas.getD []).length < 2 ^ 63) (hne : ∃ r, Served s r) (hx : NoExpiry s.exported) {l : RPKIList}
    (hl : decodeFile (exportFile s) = some l) (hg : Servable e.wide l) (k : Str) : k ∈ names e.wide (l.roas.getD []) (l.keys.getD []) ↔ ∃ r, Served s r ∧ recName r = k := by
  obtain ⟨l', h1, ⟨⟨h2, -⟩, -⟩, h3⟩ := reread_noExpiry hd h hlen hx e.wide
  obtain rfl : l' = l := Option.some.inj (h1.symm.trans hl)
  rw [names_wanted hg h2 0 k]
  simp only [h3, served_asks hs h hne hx 0]

theorem served_real {e : Env} (hs : e.sort.Ok) {s : UState} (h : Reached e s) {r : Rec} (hr : Served s r) : RealRec r := by
  rcases C71_listed_partial hs h with h0 | ⟨now', hnow⟩
  · unfold Served at hr
    rw [h0] at hr
    simp [records] at hr
  · exact wanted_real ((hnow r).1 hr)

/-- **C179** (partial: of servers that serve something, without expiry times, and whose exports have no entries that can be read but not served; see `C179_unserved_false`). Two servers are compared by their exports: the first list of
`/diff.json` has exactly the names of the records that the first server serves and the second does not. -/
theorem C179_servers_partial {e e' : Env} (hd : e.decode = decodeFile) (hd' : e'.decode = decodeFile) (hs : e.sort.Ok) (hs' : e'.sort.Ok) (hw : e'.wide = e.wide) {s s' : UState} (h : Reached e s) (h' : Reached e' s')
    (hlen : (s.exported.roas.getD []).length < 2 ^ 63) (hlen' : (s'.exported.roas.getD []).length < 2 ^ 63) (hne : ∃ r, Served s r) (hne' : ∃ r, Served s' r) (hx : NoExpiry s.exported) (hx' : NoExpiry s'.exported)
    {l l' : RPKIList} (hl : decodeFile (exportFile s) = some l) (hl' : decodeFile (exportFile s') = some l') (hg : Servable e.wide l) (hg' : Servable e.wide l') (grace t t' : Int) (us us' : List (Int × Update))
    (ho : ((t, Update.file (l.roas.getD []) (l.keys.getD [])) :: us).Pairwise fun a b => b.1 ≤ a.1) (ho' : ((t', Update.file (l'.roas.getD []) (l'.keys.getD [])) :: us').Pairwise fun a b => b.1 ≤ a.1) (k : Str) :
    Lists (monDiff (mapAfter e.wide grace ((t, .file (l.roas.getD []) (l.keys.getD [])) :: us)) (mapAfter e.wide grace ((t', .file (l'.roas.getD []) (l'.keys.getD [])) :: us'))) k ↔
      ∃ r, (Served s r ∧ ¬ Served s' r) ∧ recName r = k := by
  have n' := export_names hd' hs' h' hlen' hne' hx' hl' (by rw [hw]; exact hg') k
  rw [hw] at n'
  rw [(C151_names e.wide grace t t' _ _ _ _ us us' ho ho').2.1 k, export_names hd hs h hlen hne hx hl hg, n']
  constructor
  · rintro ⟨⟨r, h1, rfl⟩, h2⟩
    exact ⟨r, ⟨h1, fun h3 => h2 ⟨r, h3, rfl⟩⟩, rfl⟩
  · rintro ⟨r, ⟨h1, h2⟩, rfl⟩
    exact ⟨⟨r, h1, rfl⟩, fun ⟨r', h3, h4⟩ => h2 (recName_inj (served_real hs' h' h3) (served_real hs h h1) h4 ▸ h3)⟩

/-- **C179** (partial, as before). The export of one server and the first session with another: the lists have exactly the names of the records that only the first, and only the second server serves. -/
theorem C179_session_partial {e e' : Env} (hd : e.decode = decodeFile) (hs : e.sort.Ok) (hs' : e'.sort.Ok) {s s' : UState} (h : Reached e s) (h' : Reached e' s') (hlen : (s.exported.roas.getD []).length < 2 ^ 63) (hne : ∃ r, Served s r)
    (hx : NoExpiry s.exported) {l : RPKIList} (hl : decodeFile (exportFile s) = some l) (hg : Servable e.wide l) (grace t : Int) (us : List (Int × Update))
    (ho : ((t, Update.file (l.roas.getD []) (l.keys.getD [])) :: us).Pairwise fun a b => b.1 ≤ a.1) (brk : Bool) (t' : Int) (sid : U16) (n : U32) (ps : List (Int × Pdu)) (hc : Carries ps (Served s')) (k : Str) :
    let m := mapAfter e.wide grace ((t, .file (l.roas.getD []) (l.keys.getD [])) :: us)
    let w := (MonState.init.run brk (fullSync t' sid n ps)).1.client.vrps
    (Lists (monDiff m w) k ↔ ∃ r, (Served s r ∧ ¬ Served s' r) ∧ recName r = k) ∧ (Lists (monDiff w m) k ↔ ∃ r, (Served s' r ∧ ¬ Served s r) ∧ recName r = k) := by
  obtain ⟨h1, h2, h3⟩ := hc
  have := C117_names e.wide (l.roas.getD []) (l.keys.getD []) grace t us ho brk t' sid n ps h1 h2 (fun x hx r hxr => served_real hs' h' ((h3 r).mp (List.mem_filterMap.mpr ⟨x, hx, hxr⟩))) k
  simp only [h3, export_names hd hs h hlen hne hx hl hg] at this
  refine ⟨this.1.trans ⟨?_, ?_⟩, this.2.trans ⟨?_, ?_⟩⟩
  · rintro ⟨⟨r, h1, rfl⟩, h2⟩
    exact ⟨r, ⟨h1, fun h3 => h2 ⟨r, h3, rfl⟩⟩, rfl⟩
  · rintro ⟨r, ⟨h1, h2⟩, rfl⟩
    exact ⟨⟨r, h1, rfl⟩, fun ⟨r', h3, h4⟩ => h2 (recName_inj (served_real hs' h' h3) (served_real hs h h1) h4 ▸ h3)⟩
  · rintro ⟨⟨r, h1, rfl⟩, h2⟩
    exact ⟨r, ⟨h1, fun h3 => h2 ⟨r, h3, rfl⟩⟩, rfl⟩
  · rintro ⟨r, ⟨h1, h2⟩, rfl⟩
    exact ⟨⟨r, h1, rfl⟩, fun ⟨r', h3, h4⟩ => h2 (recName_inj (served_real hs h h3) (served_real hs' h' h1) h4 ▸ h3)⟩

theorem diff_nil {d : MonMap} (h : ∀ k, ¬ Lists d k) : d = [] := by
  cases d with
  | nil => rfl
  | cons x d =>
    exfalso
    apply h x.1
    unfold Lists
    simp [MonMap.get]

/-- **C179** (partial, as before and as C178). Of two servers that have settled behind a server, rtrmon lists exactly the records that come through the local exceptions on the way to the first and not through those on the way to the second. -/
theorem C179_exceptions_partial {wide : WideFloat} {e : Nat → Env} {parent : Nat → Nat} (hd : ∀ i, (e i).decode = decodeFile) (hs : ∀ i, (e i).sort.Ok) (hw : ∀ i, (e i).wide = wide)
    (hinj : ∀ i a b, (e i).sha a = (e i).sha b → a = b) {exc : Nat → Option Slurm} {clock₀ clock : Nat → Int} {σ₀ : Servers} {h : List Servers} (run : ServersAt e parent clock₀ (σ₀ :: h))
    (hlen : ∀ τ ∈ σ₀ :: h, ∀ i, ((τ i).exported.roas.getD []).length < 2 ^ 63) (hx : ∀ τ ∈ σ₀ :: h, NoExpiry (τ 0).exported) {σ : Servers} {loads : List Nat}
    (hset : Settling e parent exc clock₀ σ₀ clock σ loads) {path path' : List Nat} {i j : Nat} (hp : path.Sublist loads) (hp' : path'.Sublist loads) (hpath : PathTo parent path i) (hpath' : PathTo parent path' j) (hi : i ≠ 0) (hj : j ≠ 0)
    (hne : ∀ q, q <+: path → ∃ r, throughExceptions exc (Asks wide (σ₀ 0).exported 0) q r) (hne' : ∀ q, q <+: path' → ∃ r, throughExceptions exc (Asks wide (σ₀ 0).exported 0) q r)
    (hli : ((σ i).exported.roas.getD []).length < 2 ^ 63) (hlj : ((σ j).exported.roas.getD []).length < 2 ^ 63) {l l' : RPKIList} (hl : decodeFile (exportFile (σ i)) = some l)
    (hl' : decodeFile (exportFile (σ j)) = some l') (hg : Servable wide l) (hg' : Servable wide l') (grace t t' : Int) (us us' : List (Int × Update))
    (ho : ((t, Update.file (l.roas.getD []) (l.keys.getD [])) :: us).Pairwise fun a b => b.1 ≤ a.1) (ho' : ((t', Update.file (l'.roas.getD []) (l'.keys.getD [])) :: us').Pairwise fun a b => b.1 ≤ a.1) (k : Str) :
    Lists (monDiff (mapAfter wide grace ((t, .file (l.roas.getD []) (l.keys.getD [])) :: us)) (mapAfter wide grace ((t', .file (l'.roas.getD []) (l'.keys.getD [])) :: us'))) k ↔
      ∃ r, (throughExceptions exc (Asks wide (σ₀ 0).exported 0) path r ∧ ¬ throughExceptions exc (Asks wide (σ₀ 0).exported 0) path' r) ∧ recName r = k := by
  have a1 := (settling_ok hd hs hw hinj ((run_ok hd hs hinj run hlen hx).2 σ₀ rfl) hset).1
  have si := fun r => C178_settle_partial hd hs hw hinj run hlen hx hset hp hpath hi (fun q hq _ => hne q hq) r
  have sj := fun r => C178_settle_partial hd hs hw hinj run hlen hx hset hp' hpath' hj (fun q hq _ => hne' q hq) r
  obtain ⟨r0, hr0⟩ := hne path (List.prefix_refl _)
  obtain ⟨r1, hr1⟩ := hne' path' (List.prefix_refl _)
  rw [← hw i] at hg hg'
  have := C179_servers_partial (hd i) (hd j) (hs i) (hs j) ((hw j).trans (hw i).symm) (a1.reached i) (a1.reached j) hli hlj ⟨r0, (si r0).2 hr0⟩ ⟨r1, (sj r1).2 hr1⟩ (a1.given i) (a1.given j) hl hl' hg hg' grace t t' us us' ho ho' k
  rw [hw i] at this
  simpa only [si, sj] using this

/-- **C179** (partial, as before and as C176). Of any two servers that have settled behind a server without local exceptions, rtrmon shows no difference. -/
theorem C179_settled_partial {wide : WideFloat} {e : Nat → Env} {parent : Nat → Nat} (hd : ∀ i, (e i).decode = decodeFile) (hs : ∀ i, (e i).sort.Ok) (hw : ∀ i, (e i).wide = wide)
    (hinj : ∀ i a b, (e i).sha a = (e i).sha b → a = b) {exc : Nat → Option Slurm} {clock₀ clock : Nat → Int} {σ₀ : Servers} {h : List Servers} (run : ServersAt e parent clock₀ (σ₀ :: h))
    (hlen : ∀ τ ∈ σ₀ :: h, ∀ i, ((τ i).exported.roas.getD []).length < 2 ^ 63) (hx : ∀ τ ∈ σ₀ :: h, NoExpiry (τ 0).exported) (hne : ∃ r, Asks wide (σ₀ 0).exported 0 r) {σ : Servers} {loads : List Nat}
    (hset : Settling e parent exc clock₀ σ₀ clock σ loads) {path path' : List Nat} {i j : Nat} (hp : path.Sublist loads) (hp' : path'.Sublist loads) (hpath : PathTo parent path i) (hpath' : PathTo parent path' j) (hi : i ≠ 0) (hj : j ≠ 0)
    (hex : ∀ j ∈ path, exc j = none) (hex' : ∀ j ∈ path', exc j = none) (hli : ((σ i).exported.roas.getD []).length < 2 ^ 63) (hlj : ((σ j).exported.roas.getD []).length < 2 ^ 63) {l l' : RPKIList} (hl : decodeFile (exportFile (σ i)) = some l)
    (hl' : decodeFile (exportFile (σ j)) = some l') (hg : Servable wide l) (hg' : Servable wide l') (grace t t' : Int) (us us' : List (Int × Update))
    (ho : ((t, Update.file (l.roas.getD []) (l.keys.getD [])) :: us).Pairwise fun a b => b.1 ≤ a.1) (ho' : ((t', Update.file (l'.roas.getD []) (l'.keys.getD [])) :: us').Pairwise fun a b => b.1 ≤ a.1) :
    monDiff (mapAfter wide grace ((t, .file (l.roas.getD []) (l.keys.getD [])) :: us)) (mapAfter wide grace ((t', .file (l'.roas.getD []) (l'.keys.getD [])) :: us')) = [] := by
  have th : ∀ {path : List Nat}, (∀ j ∈ path, exc j = none) → ∀ q, q <+: path → throughExceptions exc (Asks wide (σ₀ 0).exported 0) q = Asks wide (σ₀ 0).exported 0 := fun hex q hq => through_none _ fun j hj => hex j (hq.subset hj)
  refine diff_nil fun k hk => ?_
  rw [C179_exceptions_partial hd hs hw hinj run hlen hx hset hp hp' hpath hpath' hi hj (fun q hq => by rw [th hex q hq]; exact hne) (fun q hq => by rw [th hex' q hq]; exact hne) hli hlj hl hl' hg hg' grace t t' us us' ho ho' k,
    th hex path (List.prefix_refl _), th hex' path' (List.prefix_refl _)] at hk
  obtain ⟨r, ⟨h1, h2⟩, -⟩ := hk
  exact h2 h1

/-! ## Counterexamples and examples -/

/-- The VRP of the first file, and one whose maximal length is smaller than the length of its prefix. -/
def unservedFile : Bytes := utf8Str (["{\"metadata\":{\"buildtime\":\"1970-01-01T00:", "00:00Z\"},\"roas\":[{\"prefix\":\"10.0.0.0/8\",", "\"maxLength\":9,\"asn\":1},{\"prefix\":\"11.0.0", ".0/8\",\"maxLength\":4,\"asn\":1}]}"].flatMap String.toList)

/-- What rtrmon keeps of an export it has read at a time. -/
def exportSeen (now : Int) (s : UState) : MonMap :=
  match decodeFile (exportFile s) with
  | some l => mapAfter chainEnv.wide 60 [(now, .file (l.roas.getD []) (l.keys.getD []))]
  | none => []

/-- **C179, false for entries that are not served.** Two servers have loaded the same file last and serve the same; the one that had loaded a file with an unusable VRP before goes on exporting it, and rtrmon shows a difference. -/
theorem C179_unserved_false :
    let first := refresh chainEnv (exAt 0) (exGet chainFile1) (startup chainEnv (exAt 0) (exGet unservedFile) exInit)
    records first.store.current = [chainRecord] ∧ records chainLeader.store.current = [chainRecord] ∧ first.hashCache = chainLeader.hashCache ∧ first.lastdata = chainLeader.lastdata ∧
    (monDiff (exportSeen 100 first) (exportSeen 100 chainLeader)).map (·.1) = ["11.0.0.0/8-4-1".toList] := by
  decide +kernel

/-- **C179, false for servers that serve nothing.** A server that has dropped what it served because its file has become too old goes on exporting it: rtrmon shows no difference from a server that serves it. -/
theorem C179_dropped_false :
    let leader := refresh chainEnv (exAt 90000) (exGet chainFile5) chainLeader
    records chainLeader.store.current = [chainRecord] ∧ records leader.store.current = [] ∧ exportFile leader = exportFile chainLeader ∧ (exportSeen 100 chainLeader).map (·.1) = [recName chainRecord] ∧
    monDiff (exportSeen 100 chainLeader) (exportSeen 100 leader) = [] := by
  decide +kernel

/-- The VRP of the first file, and one that expires after an hour. -/
def expiredFile : Bytes := utf8Str (["{\"metadata\":{\"buildtime\":\"1970-01-01T00:", "00:00Z\"},\"roas\":[{\"prefix\":\"10.0.0.0/8\",", "\"maxLength\":9,\"asn\":1},{\"prefix\":\"11.0.0", ".0/8\",\"maxLength\":9,\"asn\":1,\"expires\":3600}]}"].flatMap String.toList)

/-- **C179, false for expiry times.** A server whose VRP has expired no longer serves it but goes on exporting it, and rtrmon, which does not look at expiry times, shows a difference from a server that serves the same. -/
theorem C179_expired_false :
    let first := refresh chainEnv (exAt 7200) exFail (startup chainEnv (exAt 0) (exGet expiredFile) exInit)
    records first.store.current = [chainRecord] ∧ records chainLeader.store.current = [chainRecord] ∧ (monDiff (exportSeen 100 first) (exportSeen 100 chainLeader)).map (·.1) = ["11.0.0.0/8-9-1".toList] := by
  decide +kernel

/-- A server with another VRP. -/
def chainOther : UState := startup chainEnv (exAt 0) (exGet chainFile5) exInit

/-- What rtrmon reads of the export of a server with one VRP. -/
theorem exServable (pfx : Str) (hp : ∀ p, parsePrefix pfx = some p → 1 ≤ p.bits ∧ p.bits ≤ 9 ∧ 9 ≤ p.ip.bitLen) {l : RPKIList} (hr : l.roas = some [⟨pfx, 9, .float 1, [], none⟩]) (hk : l.keys.getD [] = []) : Servable chainEnv.wide l := by
  unfold Servable
  rw [hr, hk]
  refine ⟨fun v hv p a h1 _ => ?_, fun b hb => by cases hb⟩
  obtain rfl := List.mem_singleton.1 hv
  exact hp p ((prefixText_iff ..).2 h1)

/-- Two servers as `C179_servers_partial` has them: rtrmon lists the VRP of each as missing in the other. -/
example : chainEnv.sort.Ok ∧ Reached chainEnv chainLeader ∧ Reached chainEnv chainOther ∧ NoExpiry chainLeader.exported ∧ NoExpiry chainOther.exported ∧ Served chainLeader chainRecord ∧ ¬ Served chainOther chainRecord ∧ (∃ r, Served chainOther r) ∧
    (∃ l, decodeFile (exportFile chainLeader) = some l ∧ Servable chainEnv.wide l) ∧ (∃ l, decodeFile (exportFile chainOther) = some l ∧ Servable chainEnv.wide l) ∧
    (monDiff (exportSeen 100 chainLeader) (exportSeen 100 chainOther)).map (·.1) = ["10.0.0.0/8-9-1".toList] ∧ (monDiff (exportSeen 100 chainOther) (exportSeen 100 chainLeader)).map (·.1) = ["11.0.0.0/8-9-1".toList] ∧
    Carries [((100 : Int), .ipv4Prefix 1 1 ⟨.v4 0x0b000000, 9⟩ 9 1)] (Served chainOther) := by
  have hrec : records chainOther.store.current = [.vrp ⟨.v4 0x0b000000, 9⟩ 9 1] := by decide +kernel
  refine ⟨insertionSorter_ok, .startup _ _ _ (.init true true), .startup _ _ _ (.init true true), by unfold NoExpiry; decide +kernel, by unfold NoExpiry; decide +kernel, by unfold Served; decide +kernel, by unfold Served; decide +kernel,
    ⟨.vrp ⟨.v4 0x0b000000, 9⟩ 9 1, by unfold Served; decide +kernel⟩, ?_, ?_, by decide +kernel, by decide +kernel, ?_⟩
  · have h : ((decodeFile (exportFile chainLeader)).map fun l => (l.roas, l.keys.getD [])) = some (some [⟨"10.0.0.0/8".toList, 9, .float 1, [], none⟩], []) := by decide +kernel
    obtain ⟨l, h1, h2⟩ := Option.map_eq_some_iff.1 h
    exact ⟨l, h1, exServable "10.0.0.0/8".toList (fun p hp => by rw [show parsePrefix "10.0.0.0/8".toList = some ⟨.v4 0x0a000000, 9⟩ by decide +kernel] at hp; cases hp; decide) (Prod.mk.inj h2).1 (Prod.mk.inj h2).2⟩
  · have h : ((decodeFile (exportFile chainOther)).map fun l => (l.roas, l.keys.getD [])) = some (some [⟨"11.0.0.0/8".toList, 9, .float 1, [], none⟩], []) := by decide +kernel
    obtain ⟨l, h1, h2⟩ := Option.map_eq_some_iff.1 h
    exact ⟨l, h1, exServable "11.0.0.0/8".toList (fun p hp => by rw [show parsePrefix "11.0.0.0/8".toList = some ⟨.v4 0x0b000000, 9⟩ by decide +kernel] at hp; cases hp; decide) (Prod.mk.inj h2).1 (Prod.mk.inj h2).2⟩
  · refine ⟨fun x hx => ?_, fun x hx => ?_, fun r => ?_⟩
    · obtain rfl := List.mem_singleton.1 hx; rfl
    · obtain rfl := List.mem_singleton.1 hx; rfl
    · unfold Served
      rw [hrec]
      exact Iff.rfl

/-- The servers of the example for C176, two of them behind the first one: their exports are as `C179_settled_partial` has them. -/
example : let σ := settleLoad 2 (settleLoad 1 settleStart)
    (∃ l, decodeFile (exportFile (σ 1)) = some l ∧ Servable settleEnv.wide l) ∧ (∃ l, decodeFile (exportFile (σ 2)) = some l ∧ Servable settleEnv.wide l) ∧ Served (σ 1) chainRecord ∧ Served (σ 2) chainRecord ∧
    PathTo settleParent [1] 1 ∧ PathTo settleParent [1, 2] 2 ∧ [1].Sublist [1, 2] := by
  intro σ
  have hp : ∀ p, parsePrefix "10.0.0.0/8".toList = some p → 1 ≤ p.bits ∧ p.bits ≤ 9 ∧ 9 ≤ p.ip.bitLen := fun p hp => by
    rw [show parsePrefix "10.0.0.0/8".toList = some ⟨.v4 0x0a000000, 9⟩ by decide +kernel] at hp; cases hp; decide
  have h1 : PathTo settleParent [1] 1 := .next (l := []) (by decide) .first
  refine ⟨?_, ?_, by unfold Served; decide +kernel, by unfold Served; decide +kernel, h1, .next (l := [1]) (by decide) h1, by decide⟩
  · have h : ((decodeFile (exportFile (σ 1))).map fun l => (l.roas, l.keys.getD [])) = some (some [⟨"10.0.0.0/8".toList, 9, .float 1, [], none⟩], []) := by decide +kernel
    obtain ⟨l, h1, h2⟩ := Option.map_eq_some_iff.1 h
    exact ⟨l, h1, exServable _ hp (Prod.mk.inj h2).1 (Prod.mk.inj h2).2⟩
  · have h : ((decodeFile (exportFile (σ 2))).map fun l => (l.roas, l.keys.getD [])) = some (some [⟨"10.0.0.0/8".toList, 9, .float 1, [], none⟩], []) := by decide +kernel
    obtain ⟨l, h1, h2⟩ := Option.map_eq_some_iff.1 h
    exact ⟨l, h1, exServable _ hp (Prod.mk.inj h2).1 (Prod.mk.inj h2).2⟩

/-- The servers of the example for C178: what rtrmon lists between two of them with local exceptions, and what has come through on both ways. -/
example : let σ := settleLoad2 2 (settleLoad2 1 settleStart2)
    (monDiff (exportSeen 100 (σ 1)) (exportSeen 100 (σ 2))).map (·.1) = [recName exceptionsRecord1] ∧ (monDiff (exportSeen 100 (σ 2)) (exportSeen 100 (σ 1))).map (·.1) = [recName exceptionsRecord2] ∧
    (∃ r, Served (σ 1) r) ∧ (∃ r, Served (σ 2) r) := by
  intro σ
  exact ⟨by decide +kernel, by decide +kernel, ⟨exceptionsRecord1, by unfold Served; decide +kernel⟩, ⟨exceptionsRecord2, by unfold Served; decide +kernel⟩⟩

end StayRTR
