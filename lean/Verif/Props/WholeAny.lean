import Verif.Props.WholeRun
import Verif.Props.JsonRepeat

/-!
# From the texts of any two files to a router: C115

Nothing is asked of the texts but that the files can be decoded: names may be repeated, exponents may be long, fields may be missing and AS numbers may be no integers.
-/

namespace StayRTR
open Spec Slurm Pdu

/-- A record that a cache file and, if there is one, a SLURM file ask for at the time `now`, given what the files say: an entry states it and no filter matches it, or it is asserted. -/
def Spec.AskedFor (wide : WideFloat) (now : Int) (sl : Option Slurm) (l : RPKIList) : Rec → Prop
  | .vrp p m a =>
    ((∃ v ∈ l.roas.getD [], PrefixText v.pfx p ∧ AsnReads wide v.asn a ∧ v.length = m ∧ 1 ≤ p.bits ∧ p.bits ≤ (m.toNat : Int) ∧ m.toNat ≤ p.ip.bitLen ∧ ∀ t, v.expires = some t → now ≤ t) ∧
      ∀ x, sl = some x → ∀ f ∈ x.prefixFilters, ¬ PrefixFilterMatches f.pfx f.asn p a) ∨
    ∃ x, sl = some x ∧ ∃ s ∈ x.prefixAssertions, Asserts s p m a
  | .brk a ski key =>
    ((∃ k ∈ l.keys.getD [], ServesKey now k (a, ski, key)) ∧ ∀ x, sl = some x → ∀ f ∈ x.bgpsecFilters, ¬ KeyFilterMatches f.asn f.ski a ski) ∨
    ∃ x, sl = some x ∧ ∃ s ∈ x.bgpsecAssertions, s.asn = a ∧ s.ski = ski ∧ s.routerPublicKey = key

/-- What the text of a cache file says. -/
def Spec.CacheText (s : Str) (l : RPKIList) : Prop := ∃ j, FirstValue s j ∧ CacheFits j ∧ CacheSays [j] l

/-- What the text of a SLURM file, if there is one, says. -/
def Spec.SlurmText (s : Option Str) (sl : Option Slurm) : Prop :=
  match s, sl with
  | none, none => True
  | some s, some x => ∃ j, FirstValue s j ∧ SlurmFits j ∧ SlurmSays [j] x
  | _, _ => False

/-- The text of the SLURM file, if there is one. -/
def Spec.SlurmRepaired (x : Option Bytes) (s : Option Str) : Prop :=
  match x, s with
  | none, none => True
  | some x, some s => Repaired x s
  | _, _ => False

theorem fileWants_askedFor (wide : WideFloat) (now : Int) (sl : Option Slurm) (l : RPKIList) (r : Rec) : FileWants wide now sl l r ↔ AskedFor wide now sl l r := by
  cases sl with
  | none => cases r <;> simp [FileWants, withExceptions, Wanted, AskedFor]
  | some x =>
    rw [C115_exceptions]
    cases r <;> simp [FileWants, withExceptions, Wanted, AskedFor]

theorem slurmText_loads {x : Option Bytes} {s : Option Str} {sl : Option Slurm} (hr : SlurmRepaired x s) : SlurmText s sl ↔ slurmLoads decodeSlurmFile x sl := by
  cases x with
  | none =>
    cases s with
    | none => cases sl <;> simp [SlurmText, slurmLoads]
    | some s => exact hr.elim
  | some x =>
    cases s with
    | none => exact hr.elim
    | some s =>
      cases sl with
      | none => simp [SlurmText, slurmLoads]
      | some y => simpa [SlurmText, slurmLoads] using (C107_exact x s hr y).symm

/-- **C115.** Of any two files that can be decoded and are new, whatever their texts: what the texts say (`CacheText`, `SlurmText`) is determined, and exactly the records are served that this asks for. -/
theorem C115_any_served_partial (e : Env) (hs : e.sort.Ok) (hd : e.decode = decodeFile) (hd' : e.decodeSlurm = decodeSlurmFile) (t : Times) (f : Fetched) {s s' : UState} (h : Reached e s) (hs' : s' = startup e t f s ∨ s' = refresh e t f s)
    {b : Bytes} {x : Option Bytes} (hn : NewFiles e s f b x) {tb : Str} {tx : Option Str} (hb : Repaired b tb) (hx : SlurmRepaired x tx) {l : RPKIList} (hl : CacheText tb l) {sl : Option Slurm} (hsl : SlurmText tx sl)
    (hro : l.roas ≠ none) (hfresh : e.checktime = true → Fresh e l t.check) (r : Rec) : Served s' r ↔ AskedFor e.wide (seconds t.proc) sl l r := by
  have hl' := (C105_exact b tb hb l).2 hl
  have hsl' := (slurmText_loads hx).1 hsl
  obtain ⟨h1, h2, h3⟩ := newFiles_load hn (by rw [hd]; exact hl') (sl := sl) (by rw [hd']; exact hsl') t
  rw [← fileWants_askedFor]
  have k1 : (startup e t f s).lastdata = l ∧ (startup e t f s).slurm = sl := by
    unfold startup
    simp only
    rw [(startup_keeps ..).1, (startup_keeps ..).2.1]
    exact ⟨h2, h3⟩
  have k2 : (refresh e t f s).lastdata = l ∧ (refresh e t f s).slurm = sl := by
    unfold refresh
    simp only
    rw [(afterFetch_keeps ..).1, (afterFetch_keeps ..).2.1]
    exact ⟨h2, h3⟩
  rcases hs' with rfl | rfl
  · rw [C53_start_partial e hs t f h (by rw [k1.1]; exact hro) (by rw [k1.1]; exact hfresh) r, k1.1, k1.2]
  · rw [C53_served_partial e hs t f h h1 (by rw [k2.1]; exact hro) (by rw [k2.1]; exact hfresh) r, k2.1, k2.2]

/-- A cache file with two lists of VRPs, and an AS number with a fraction: two VRPs that stand in neither list. -/
def exAnyCache : Str :=
  (["{\"metadata\":{\"buildtime\":\"1970-01-01T00:", "00:00Z\"},\"roas\":[{\"prefix\":\"10.0.0.0/8\",", "\"asn\":1},{\"prefix\":\"11.0.0.0/8\",\"asn\":7}", "],\"roas\":[{\"maxLength\":8},{\"asn\":64496.5", ",\"maxLength\":9}]}"].flatMap String.toList)

/-- A SLURM file with an assertion that has no AS number. -/
def exAnySlurm : Str := (["{\"locallyAddedAssertions\":{\"prefixAsserti", "ons\":[{\"prefix\":\"198.51.100.0/24\"}]}}"].flatMap String.toList)

/-- Both are fetched. -/
def exAnyFetch : Fetched := ⟨exFile, .file (some (utf8Str exAnyCache)), some ("slurm.json".toList, .file (some (utf8Str exAnySlurm)))⟩

/-- What the cache file says. -/
def exAnyList : RPKIList := ⟨⟨0, exEpoch, none⟩, some [⟨"10.0.0.0/8".toList, 8, .float 1, [], none⟩, ⟨"11.0.0.0/8".toList, 9, .float 64496, [], none⟩], none⟩

/-- The files meet the hypotheses, and these are the records. -/
example : NewFiles exWholeEnv exInit exAnyFetch (utf8Str exAnyCache) (some (utf8Str exAnySlurm)) ∧ Repaired (utf8Str exAnyCache) exAnyCache ∧ SlurmRepaired (some (utf8Str exAnySlurm)) (some exAnySlurm) ∧
    CacheText exAnyCache exAnyList ∧ SlurmText (some exAnySlurm) (some ⟨[], [], [⟨"198.51.100.0/24".toList, 0, 0, []⟩], []⟩) ∧ Fresh exWholeEnv exAnyList (exAt 0).check ∧
    ∀ r, Served (startup exWholeEnv (exAt 0) exAnyFetch exInit) r ↔ r ∈ [Rec.vrp ⟨.v4 0xc6336400, 25⟩ 24 0, .vrp ⟨.v4 0x0b000000, 9⟩ 9 64496, .vrp ⟨.v4 0x0a000000, 9⟩ 8 1] := by
  refine ⟨⟨by decide +kernel, by simp [exInit, UState.init], fun h => absurd h (Option.some_ne_none _), fun y h => ⟨_, _, rfl, by rw [← Option.some.inj h]; decide +kernel, by simp [exInit, UState.init]⟩⟩,
    (utf8_str _).repaired, (utf8_str _).repaired, (C105_exact _ _ (utf8_str _).repaired _).1 (by decide +kernel), (slurmText_loads (x := some (utf8Str exAnySlurm)) (s := some exAnySlurm) (utf8_str _).repaired).2 ⟨by simp, by decide +kernel⟩,
    ⟨0, .text 0 rfl (by decide +kernel), by decide⟩, fun r => ?_⟩
  have : ∀ r, r ∈ records (startup exWholeEnv (exAt 0) exAnyFetch exInit).store.current ↔ r ∈ [Rec.vrp ⟨.v4 0xc6336400, 25⟩ 24 0, .vrp ⟨.v4 0x0b000000, 9⟩ 9 64496, .vrp ⟨.v4 0x0a000000, 9⟩ 8 1] := by
    have h : records (startup exWholeEnv (exAt 0) exAnyFetch exInit).store.current = [Rec.vrp ⟨.v4 0xc6336400, 25⟩ 24 0, .vrp ⟨.v4 0x0b000000, 9⟩ 9 64496, .vrp ⟨.v4 0x0a000000, 9⟩ 8 1] := by decide +kernel
    rw [h]; exact fun _ => Iff.rfl
  exact this r

/-- **C115.** At every time of a run, whatever the texts of the last readable files: exactly what they ask for at the time of the last refresh is served. -/
theorem C115_any_run_partial (e : Env) (hs : e.sort.Ok) (hd : e.decode = decodeFile) (hd' : e.decodeSlurm = decodeSlurmFile) (hinj : ∀ a b, e.sha a = e.sha b → a = b) {s : UState} {now : Int} (hg : GoodRun e s now)
    {ds cs : List Bytes} (hh : Heard e s ds cs) {b : Bytes} {x : Option Bytes} (hb : LastReadable decodeFile ds (some b)) (hx : LastReadable decodeSlurmFile cs x)
    {tb : Str} {tx : Option Str} (htb : Repaired b tb) (htx : SlurmRepaired x tx) :
    ∃ l sl, CacheText tb l ∧ SlurmText tx sl ∧ (∀ l', CacheText tb l' → l' = l) ∧ (∀ sl', SlurmText tx sl' → sl' = sl) ∧ ∀ r, Served s r ↔ AskedFor e.wide now sl l r := by
  obtain ⟨h1, h2⟩ := C49_last_good hinj hh
  obtain ⟨l, hl⟩ := hb.1
  have hx' : ∃ sl, slurmLoads decodeSlurmFile x sl ∧ s.slurm = sl := by
    rw [hd', lastGood_of hx] at h2
    cases x with
    | none => exact ⟨none, rfl, h2⟩
    | some y =>
      obtain ⟨z, hz⟩ := hx.1
      exact ⟨some z, ⟨by simp, hz⟩, by rw [h2]; exact hz⟩
  obtain ⟨sl, hsl, e2⟩ := hx'
  rw [hd, lastGood_of hb] at h1
  have e1 : s.lastdata = l := by rw [h1]; simp [hl]
  refine ⟨l, sl, (C105_exact b tb htb l).1 hl, (slurmText_loads htx).2 hsl, fun l' h' => ?_, fun sl' h' => ?_, fun r => ?_⟩
  · have := (C105_exact b tb htb l').2 h'
    rw [hl] at this
    exact (Option.some.inj this).symm
  · have := (slurmText_loads htx).1 h'
    cases x with
    | none => exact this.trans hsl.symm
    | some y => exact this.2.symm.trans hsl.2
  · rw [C52_served_partial hs hg, e1, e2, fileWants_askedFor]

/-- **C115.** So at every time of a run a router that starts over holds exactly the records that the last readable files ask for, whatever their texts. Missing: router keys that fit no PDU, and changes in the middle of the answer. -/
theorem C115_any_router_partial (e : Env) (hs : e.sort.Ok) (hd : e.decode = decodeFile) (hd' : e.decodeSlurm = decodeSlurmFile) (hinj : ∀ a b, e.sha a = e.sha b → a = b) {s : UState} {now : Int} (hg : GoodRun e s now)
    {ds cs : List Bytes} (hh : Heard e s ds cs) {b : Bytes} {x : Option Bytes} (hb : LastReadable decodeFile ds (some b)) (hx : LastReadable decodeSlurmFile cs x)
    {tb : Str} {tx : Option Str} (htb : Repaired b tb) (htx : SlurmRepaired x tx) {l : RPKIList} (hl : CacheText tb l) {sl : Option Slurm} (hsl : SlurmText tx sl)
    (hne : ∃ r, AskedFor e.wide now sl l r) (henc : ∀ a ski key, AskedFor e.wide now sl l (.brk a ski key) → ski.length = 20 ∧ 4 ≤ key.length ∧ 32 + key.length ≤ 262168)
    {cfg : ServerConfig} {sid : U16} {c : Client} (hc : Conn (newServer cfg sid) c) (hup : c.connected = true) {v : U8} (ha : Acceptable c v) (r : Router) (hsy : r.synced = none) :
    ∃ (c' : Client) (eff : List Effect) (bs : List Bytes) (ps : List Pdu), (newServer cfg sid).processRead s.store s.store c (Contact.packet (r.query v)) = .ok (c', eff) ∧ (sent eff).map Pdu.encode = bs.map GoRes.ok ∧ Stream bs.flatten ps ∧
      ∀ x, x ∈ (ps.foldl Router.receive r).held ↔ AskedFor e.wide now sl l x ∧ wanted (lower v cfg.protocolVersion) (!c.dontSendBGPsecKeys) x = true := by
  obtain ⟨l', sl', -, -, u1, u2, key⟩ := C115_any_run_partial e hs hd hd' hinj hg hh hb hx htb htx
  cases u1 l hl
  cases u2 sl hsl
  obtain ⟨c', eff, bs, ps, h1, h2, h3, -, -, h4⟩ := C115_router_partial hs hg.reached (by obtain ⟨r, hr⟩ := hne; exact ⟨r, (key r).2 hr⟩) (fun a ski k hk => henc a ski k ((key _).1 hk)) hc hup ha r hsy
  exact ⟨c', eff, bs, ps, h1, h2, h3, fun x => by rw [h4, key]⟩

/-- A run with these files: the hypotheses of both theorems hold, and the files ask for a VRP and no router key. -/
example : ∃ s : UState, GoodRun exWholeEnv s 0 ∧ Heard exWholeEnv s [utf8Str exAnyCache] [utf8Str exAnySlurm] ∧ LastReadable decodeFile [utf8Str exAnyCache] (some (utf8Str exAnyCache)) ∧
    LastReadable decodeSlurmFile [utf8Str exAnySlurm] (some (utf8Str exAnySlurm)) ∧ (∃ r, Served s r) ∧ ∀ a ski key, ¬ Served s (.brk a ski key) := by
  have e0 : (startup exWholeEnv (exAt 0) exAnyFetch exInit).lastdata.metadata = ⟨0, exEpoch, none⟩ := by decide +kernel
  have g0 : GoodFile exWholeEnv (exAt 0).check (startup exWholeEnv (exAt 0) exAnyFetch exInit) := ⟨by decide +kernel, fun _ => ⟨0, .text 0 (by rw [e0]) (by rw [e0]; decide +kernel), by decide⟩, by decide +kernel⟩
  have h : records (startup exWholeEnv (exAt 0) exAnyFetch exInit).store.current = [Rec.vrp ⟨.v4 0xc6336400, 25⟩ 24 0, .vrp ⟨.v4 0x0b000000, 9⟩ 9 64496, .vrp ⟨.v4 0x0a000000, 9⟩ 8 1] := by decide +kernel
  have key : ∀ r, Served (startup exWholeEnv (exAt 0) exAnyFetch exInit) r ↔ r ∈ [Rec.vrp ⟨.v4 0xc6336400, 25⟩ 24 0, .vrp ⟨.v4 0x0b000000, 9⟩ 9 64496, .vrp ⟨.v4 0x0a000000, 9⟩ 8 1] := by
    unfold Served
    rw [h]
    exact fun _ => Iff.rfl
  clear h
  refine ⟨_, GoodRun.startup (exAt 0) exAnyFetch (GoodRun.init true true 0) g0,
    Heard.startup (exAt 0) exAnyFetch (some (utf8Str exAnyCache)) (some (utf8Str exAnySlurm)) (Heard.init true true) (by decide +kernel) (by decide +kernel),
    ⟨Option.isSome_iff_exists.1 (by decide +kernel), [], [], rfl, fun _ h => (List.not_mem_nil h).elim⟩, ⟨Option.isSome_iff_exists.1 (by decide +kernel), [], [], rfl, fun _ h => (List.not_mem_nil h).elim⟩, ?_, ?_⟩
  · exact ⟨_, (key _).2 List.mem_cons_self⟩
  · intro a ski k hk
    have := (key _).1 hk
    simp at this

end StayRTR
