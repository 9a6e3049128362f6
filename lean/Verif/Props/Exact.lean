import Verif.Props.Connection
import Verif.Props.Hub
import Verif.Props.Loop
import Verif.Props.Update

/-!
# Exact forms of some partial properties

What the code does in the cases where C36, C46 and C51 do not hold.
-/

namespace StayRTR
open Spec

/-! ## C36 -/

/-- What happens to a connection that is still up: it is dropped. -/
def thenDrop : GoRes (Client × List Effect) → GoRes (Client × List Effect)
  | .ok (c, e) => .ok (if c.connected then (c.disconnected, e ++ [.disconnect]) else (c, e))
  | .err => .err
  | .panic => .panic

theorem thenDrop_seq (x : GoRes (Client × List Effect)) (y : Client → GoRes (Client × List Effect)) :
    thenDrop (x.bind fun r => (y r.1).bind fun r' => .ok (r'.1, r.2 ++ r'.2)) =
      x.bind fun r => (thenDrop (y r.1)).bind fun r' => .ok (r'.1, r.2 ++ r'.2) := by
  cases x with
  | ok r =>
    obtain ⟨c, e⟩ := r
    simp only [GoRes.bind]
    cases y c with
    | ok r' =>
      obtain ⟨c', e'⟩ := r'
      simp only [thenDrop, GoRes.ok.injEq]
      split <;> simp
    | err => rfl
    | panic => rfl
  | err => rfl
  | panic => rfl

/-- **C36**, for any reads at all: of each read the server acts upon the PDU at its beginning and ignores what follows; the first read that does not begin
with a PDU costs the connection, and nothing after it is looked at. So only boundaries of reads matter, not those of PDUs. -/
theorem C36_reads_partial (s : Server) (st : Store) (ps : List (Pdu × Bytes)) (hps : ∀ p ∈ ps, Representable p.1) (c : Client) :
    ∃ bs : List Bytes, ps.map (fun p => p.1.encode) = bs.map GoRes.ok ∧
      (let reads := (bs.zip (ps.map (·.2))).map (fun b => (st, st, b.1 ++ b.2))
       s.readLoop c reads = actOn s st c (ps.map (fun p => received p.1)) ∧
       ∀ (bad : Bytes) (more : List (Store × Store × Bytes)), bad = [] ∨ decodeBytes bad = .err →
        s.readLoop c (reads ++ (st, st, bad) :: more) = thenDrop (actOn s st c (ps.map (fun p => received p.1)))) := by
  induction ps generalizing c with
  | nil =>
    refine ⟨[], rfl, rfl, ?_⟩
    intro bad more hbad
    have hb : s.processRead st st c bad = .ok (c.disconnected, [.disconnect]) := by
      unfold Server.processRead
      split
      · rfl
      · next hne =>
        rcases hbad with h | h
        · exact absurd h hne
        · rw [h]
    have hm : s.readLoop c.disconnected more = .ok (c.disconnected, []) := by
      cases more with
      | nil => rfl
      | cons r more => obtain ⟨a, b, p⟩ := r; simp [Server.readLoop, Client.disconnected]
    simp only [List.map_nil, List.zip_nil_right, List.nil_append, Server.readLoop, actOn, hb, thenDrop]
    cases hc : c.connected with
    | false => simp
    | true =>
      simp only [Bool.true_eq_false, if_false, if_true]
      change (s.readLoop c.disconnected more).bind _ = _
      rw [hm]
      rfl
  | cons p ps ih =>
    obtain ⟨p, junk⟩ := p
    obtain ⟨b, hb, hdec⟩ := C02_decode_encode p (hps (p, junk) List.mem_cons_self) junk
    have hd : decodeBytes (b ++ junk) = .ok (received p) := by simp [decodeBytes, hdec]
    have hps' : ∀ q ∈ ps, Representable q.1 := fun q hq => hps q (List.mem_cons_of_mem _ hq)
    obtain ⟨bs, hbs, _⟩ := ih hps' c
    refine ⟨b :: bs, by simp [hb, hbs], ?_, ?_⟩
    · simp only [List.map_cons, List.zip_cons_cons, Server.readLoop, actOn, processRead_pdu hd]
      split
      · rfl
      · congr 1
        funext r
        obtain ⟨bs', hbs', h1, _⟩ := ih hps' r.1
        have : bs' = bs := by
          have h := hbs'.symm.trans hbs
          exact List.map_injective_iff.mpr (fun a b h => by simpa using h) h
        subst this
        rw [h1]
    · intro bad more hbad
      simp only [List.map_cons, List.zip_cons_cons, List.cons_append, Server.readLoop, actOn, processRead_pdu hd]
      split
      · next hc => simp [thenDrop, hc]
      · refine Eq.trans ?_ (thenDrop_seq _ (fun c' => actOn s st c' (ps.map (fun p => received p.1)))).symm
        change GoRes.bind _ _ = _
        congr 1
        funext r
        obtain ⟨bs', hbs', _, h2⟩ := ih hps' r.1
        have : bs' = bs := by
          have h := hbs'.symm.trans hbs
          exact List.map_injective_iff.mpr (fun a b h => by simpa using h) h
        subst this
        rw [← h2 bad more hbad]
        rfl

/-- A Reset Query with another request behind it in the same read, then half a request, then a whole one: one answer, and the connection is gone. -/
example : Representable (.resetQuery 1) ∧ decodeBytes [1, 2, 0, 0] = .err ∧
    (newServer exCfg 7).readLoop exV1 [(exStore, exStore, [1, 2, 0, 0, 0, 0, 0, 8] ++ [1, 2, 0, 0, 0, 0, 0, 8]), (exStore, exStore, [1, 2, 0, 0]),
      (exStore, exStore, [1, 2, 0, 0, 0, 0, 0, 8])] =
      .ok (exV1.disconnected, (dataAnswer exCfg 7 1 true 0 [exA, exK]).map .send ++ [.disconnect]) := by
  refine ⟨trivial, by decide, by decide⟩

/-! ## C46 -/

/-- **C46**, for every update: what was served before and still is keeps its place, and what is new follows in the order of processing. So a new sub-prefix comes
after every covering prefix that was there before. Missing: the order of processing itself. -/
theorem C46_order_partial {k : Int} {s : Store} (h : Reachable k s) (new : List SD) (hv : AllValid new) :
    records (s.addData new).1.current =
      (records s.current).filter (fun r => decide (r ∈ records new)) ++ (records new).filter (fun r => decide (r ∉ records s.current)) := by
  obtain ⟨t, ht⟩ := h.evolves
  have hok := ht.ok
  have hf : ∀ (l : List SD) (p : Rec → Bool), records (l.filter (fun x => p x.record)) = (records l).filter p := by
    intro l p; simp only [records, List.filter_map]; rfl
  cases hc : (s.addData new).2 with
  | true =>
    rw [addData_current hok hv hc, records_append, records_map_withFlag, hf s.current (fun r => decide (r ∈ records new)),
      hf new (fun r => decide (r ∉ records s.current))]
  | false =>
    have hnil : curDiff new s.current = [] := by
      by_cases hne : curDiff new s.current = []
      · exact hne
      · rw [(addData_effective new s).2 hne] at hc; cases hc
    rw [addData_false hc]
    have hsame := (curDiff_nil_iff hv hok.valid).1 hnil
    rw [List.filter_eq_self.mpr, List.filter_eq_nil_iff.mpr, List.append_nil]
    · intro r hr; simpa using (hsame r).2 hr
    · intro r hr; simpa using (hsame r).1 hr

/-- A record that goes, one that stays and one that comes. -/
example : records (((Store.init 3).run [[exA, exK]]).addData [exB, exK]).1.current = records [exK, exB] ∧
    Reachable 3 ((Store.init 3).run [[exA, exK]]) ∧ AllValid [exB, exK] :=
  ⟨by decide, ⟨[[exA, exK]], by decide, rfl⟩, by decide⟩

/-! ## C52 -/

/-- The record is a VRP. -/
def IsVrp (r : Rec) : Prop := ∃ p m a, r = .vrp p m a

open Classical in
theorem processKeys_length (now : Int) (ks : List BgpSecKeyJson) :
    (processKeys now ks).length = ks.countP (fun k => decide (∃ r, ServesKey now k r)) := by
  unfold processKeys
  induction ks with
  | nil => rfl
  | cons k ks ih =>
    rw [List.filterMap_cons, List.countP_cons, ← ih]
    by_cases he : isExpired now k.expires = true
    · rw [if_pos he, if_neg, Nat.add_zero]
      simp only [decide_eq_true_eq]
      rintro ⟨r, _, _, _, h⟩
      rw [(isExpired_iff ..).mpr h] at he
      cases he
    · rw [if_neg he]
      by_cases hx : (hexDecode k.ski).2 = false
      · rw [if_pos hx, if_neg, Nat.add_zero]
        simp only [decide_eq_true_eq]
        rintro ⟨r, _, h, _, _⟩
        rw [(hexText_iff ..).mpr h] at hx
        cases hx
      · rw [if_neg hx, if_pos]
        · rfl
        · simp only [decide_eq_true_eq]
          refine ⟨(k.asn, (hexDecode k.ski).1, k.pubkey), rfl, (hexText_iff ..).mp ?_, rfl, (isExpired_iff ..).mp (by simpa using he)⟩
          rw [Bool.not_eq_false] at hx
          exact Prod.ext rfl hx

theorem processed_vrps_card (wide : WideFloat) {sort : Sorter} (hs : sort.Ok) (now : Int) (vs : List VRPJson) (ks : List BgpSecKeyJson) {n : Nat}
    (h : Card (fun r => Wanted wide now vs ks r ∧ IsVrp r) n) : (processData wide sort now vs ks).vrps.length = n := by
  obtain ⟨l, hnd, hl, rfl⟩ := h
  have h1 : ((processData wide sort now vs ks).vrps.map (fun x => SD.record (.vrp x))).Nodup := by
    have := C44_nodup wide hs now vs ks
    have h2 : (fun x => SD.record (.vrp x)) = (fun r : Prefix × U8 × U32 => Rec.vrp r.1 r.2.1 r.2.2) ∘ (fun x : VRP => (x.pfx, x.maxLen, x.asn)) := rfl
    rw [h2, ← List.map_map]
    refine List.Pairwise.map _ ?_ this
    rintro ⟨a, b, c⟩ ⟨a', b', c'⟩ hne he
    simp only [Rec.vrp.injEq] at he
    obtain ⟨rfl, rfl, rfl⟩ := he
    exact hne rfl
  have hp : ((processData wide sort now vs ks).vrps.map (fun x => SD.record (.vrp x))).Perm l := by
    refine (List.perm_ext_iff_of_nodup h1 hnd).mpr (fun r => ?_)
    rw [hl]
    dsimp only
    rw [← records_sds wide hs]
    unfold records Processed.sds IsVrp
    simp only [List.mem_map, List.mem_append]
    constructor
    · rintro ⟨x, hx, rfl⟩
      exact ⟨⟨.vrp x, .inl ⟨x, hx, rfl⟩, rfl⟩, _, _, _, rfl⟩
    · rintro ⟨⟨y, ⟨x, hx, rfl⟩ | ⟨x, hx, rfl⟩, rfl⟩, p, m, a, he⟩
      · exact ⟨x, hx, rfl⟩
      · simp [SD.record] at he
  have := hp.length_eq
  rwa [List.length_map] at this

open Classical in
/-- **C52**, exactly, for a refresh that finds nothing new and a file that is not too old, whatever was served before: the number of entries served is compared with the
number of different VRPs asked for now plus the number of router key entries that can be used (with repetitions). If they are equal nothing changes, otherwise exactly the
records asked for are served. Missing: sets of equal size that differ. -/
theorem C52_reload_partial (e : Env) (hs : e.sort.Ok) (t : Times) (f : Fetched) {s : UState} (h : Reached e s) (hold : (fetchBoth e t f s).2 = false)
    (hr : s.lastdata.roas ≠ none) (hfresh : e.checktime = true → Fresh e s.lastdata t.check) {n : Nat}
    (hn : Card (fun r => FileWants e.wide (seconds t.proc) s.slurm s.lastdata r ∧ IsVrp r) n) :
    let wanted := n + (withExceptions e.wide s.slurm s.lastdata).2.countP (fun k => decide (∃ r, ServesKey (seconds t.proc) k r))
    (s.store.current.length = wanted → (refresh e t f s).store = s.store) ∧
    (s.store.current.length ≠ wanted → ∀ r, Served (refresh e t f s) r ↔ FileWants e.wide (seconds t.proc) s.slurm s.lastdata r) := by
  obtain ⟨hf, hkeep, _⟩ := fetchBoth_frame e t f s
  have hok : StoreOk (fetchBoth e t f s).1.store := by rw [hf.store]; exact h.ok hs
  obtain ⟨k1, k2⟩ := hkeep hold
  have hage : ageCheck e t.check (fetchBoth e t f s).1.lastdata.metadata = .fine := by
    cases hc : e.checktime with
    | false => unfold ageCheck; rw [hc]; rfl
    | true => rw [k1]; exact (ageCheck_fine e hc _ _).mpr (hfresh hc)
  have hlen : (pending e t.proc (fetchBoth e t f s).1).sds.length =
      n + (withExceptions e.wide s.slurm s.lastdata).2.countP (fun k => decide (∃ r, ServesKey (seconds t.proc) k r)) := by
    unfold pending
    rw [k1, k2]
    simp only [Processed.sds, List.length_append, List.length_map]
    rw [processed_vrps_card e.wide hs _ _ _ hn]
    rw [← processKeys_length]
    rfl
  have hroas : (fetchBoth e t f s).1.lastdata.roas ≠ none := by rw [k1]; exact hr
  have hcnt : (fetchBoth e t f s).1.store.countSDs = s.store.current.length := by rw [hf.store]; rfl
  refine ⟨fun hc => ?_, fun hc r => ?_⟩
  · unfold refresh afterFetch
    simp only [hold, Bool.false_eq_true, if_false, reloadFromCurrentState_eq, hroas, hage, if_true]
    rw [if_neg (by rw [hcnt, hlen]; simpa using hc), hf.store]
  · have : refresh e t f s = applied e t.proc (fetchBoth e t f s).1 := by
      unfold refresh afterFetch
      simp only [hold, Bool.false_eq_true, if_false, reloadFromCurrentState_eq, hroas, hage, if_true]
      rw [if_pos (by rw [hcnt, hlen]; exact hc)]
    rw [this]
    have := applied_sameSet e hs t.proc (fetchBoth e t f s).1 hok r
    rw [k1, k2] at this
    exact this

/-- The hypotheses hold in the state of `C52_duplicate_key_false`: no VRP is asked for, and one of the three router key entries has expired. -/
example : (fetchBoth (exEnv false) (exAt 101) (exGet [2]) exS2).2 = false ∧ exS2.lastdata.roas ≠ none ∧
    Card (fun r => FileWants (exEnv false).wide (seconds (exAt 101).proc) exS2.slurm exS2.lastdata r ∧ IsVrp r) 0 ∧ exS2.store.current.length = 2 := by
  refine ⟨by decide +kernel, by decide, ⟨[], List.nodup_nil, fun r => ?_, rfl⟩, rfl⟩
  constructor
  · intro h; cases h
  · rintro ⟨h, p, m, a, rfl⟩
    obtain ⟨v, hv, _⟩ := h
    cases hv

/-! ## C51 -/

/-- **C51**, exactly: while something is served and the loaded file is more than 24 hours old, a refresh withdraws everything if and only if one of the two files
is new and the exported file, whose age is not that of the loaded one, states a text build time more than 24 hours ago. -/
theorem C51_exact_partial (e : Env) (hs : e.sort.Ok) (hc : e.checktime = true) (t : Times) (f : Fetched) {s : UState} (h : Reached e s)
    (hserved : s.store.current ≠ []) (hr : (fetchBoth e t f s).1.lastdata.roas ≠ none) {b : Int} (hb : BuiltAt e (fetchBoth e t f s).1.lastdata b)
    (hold : t.check > b + 24 * 3600 * 1000000000) :
    (refresh e t f s).store.current = [] ↔
      (fetchBoth e t f s).2 = true ∧ ∃ x, e.parseTime s.exported.metadata.buildtime = some x ∧ x ≠ zeroTime ∧ t.drop > x + 24 * 3600 * 1000000000 := by
  constructor
  · intro hemp
    obtain ⟨hf, _⟩ := fetchBoth_frame e t f s
    have hage : ageCheck e t.check (fetchBoth e t f s).1.lastdata.metadata = .tooOld := by
      unfold ageCheck buildTime
      rw [if_pos hc]
      cases hb with
      | generated g hg =>
        rw [hg]
        simp only
        rw [if_pos (by unfold day; omega)]
      | text b hg hp =>
        rw [hg]
        simp only
        rw [hp]
        simp only
        rw [if_pos (by unfold day; omega)]
    have hst : (fetchBoth e t f s).1.store.current ≠ [] := by rw [hf.store]; exact hserved
    cases hnew : (fetchBoth e t f s).2 with
    | false =>
      exfalso
      apply hst
      unfold refresh afterFetch at hemp
      simp only [hnew, Bool.false_eq_true, if_false] at hemp
      unfold reloadFromCurrentState at hemp
      split at hemp
      · exact hemp
      · rw [hage] at hemp; exact hemp
    | true =>
      refine ⟨rfl, ?_⟩
      unfold refresh afterFetch at hemp
      simp only [hnew, if_true, updateFromNewState_eq, hr, if_false, hage, reduceCtorEq] at hemp
      unfold exportedBuildTime at hemp
      rw [hf.exported] at hemp
      cases hx : e.parseTime s.exported.metadata.buildtime with
      | none => rw [hx] at hemp; exact absurd hemp hst
      | some x =>
        rw [hx] at hemp
        simp only at hemp
        by_cases hz : x = zeroTime
        · rw [if_pos hz] at hemp; exact absurd hemp hst
        · rw [if_neg hz] at hemp
          simp only at hemp
          by_cases hd : t.drop - x > day
          · exact ⟨x, rfl, hz, by unfold day at hd; omega⟩
          · rw [if_neg hd] at hemp; exact absurd hemp hst
  · rintro ⟨hnew, x, hx, hx0, hxold⟩
    exact C51_new_stale_partial e hs hc t f h hnew hr hb hold hx hx0 hxold

/-- Both sides hold for a new stale file and an old exported build time, and both fail if the stale file is not new. -/
example : exS7.store.current ≠ [] ∧ (fetchBoth (exEnv true) (exAt 90000) (exGet [3]) exS7).1.lastdata.roas ≠ none ∧
    (refresh (exEnv true) (exAt 90000) (exGet [3]) exS7).store.current = [] ∧
    (fetchBoth (exEnv true) (exAt 900000) (exGet [7]) exS7).2 = false ∧ (fetchBoth (exEnv true) (exAt 900000) (exGet [7]) exS7).1.lastdata.roas ≠ none :=
  ⟨by decide +kernel, by decide +kernel, by rw [exS9_eq_checked]; rfl, by decide +kernel, by decide +kernel⟩

/-! ## C75 -/

/-- **C75**, for every value of the flags: the announced intervals are the configured ones modulo 2^32, and the defaults if that is 0. -/
theorem C75_modulo_partial (f : Flags) (sid : U16) (c c' : Client) (hc : c = (newServer f.serverConfiguration sid).acceptClientTCP ∨ c = (newServer f.serverConfiguration sid).acceptClientSSH)
    (reads : List (Store × Store × Bytes)) (es : List Effect) (hr : (newServer f.serverConfiguration sid).readLoop c reads = .ok (c', es)) (v : U8) (s : U16) (n r1 r2 r3 : U32)
    (he : .send (.endOfData v s n r1 r2 r3) ∈ es) :
      (r1.toNat : Int) = (if f.refresh % 4294967296 = 0 then 3600 else f.refresh % 4294967296) ∧
      (r2.toNat : Int) = (if f.retry % 4294967296 = 0 then 600 else f.retry % 4294967296) ∧
      (r3.toNat : Int) = (if f.expire % 4294967296 = 0 then 7200 else f.expire % 4294967296) := by
  have cut : ∀ x : Int, BitVec.ofInt 32 x = BitVec.ofInt 32 (x % 4294967296) := by
    intro x
    apply BitVec.eq_of_toNat_eq
    simp only [BitVec.toNat_ofInt]
    congr 1
    omega
  have hcfg : f.serverConfiguration =
      { f with refresh := f.refresh % 4294967296, retry := f.retry % 4294967296, expire := f.expire % 4294967296 }.serverConfiguration := by
    simp only [Flags.serverConfiguration]
    rw [← cut, ← cut, ← cut]
  rw [hcfg] at hc hr
  exact C75_configured_partial { f with refresh := f.refresh % 4294967296, retry := f.retry % 4294967296, expire := f.expire % 4294967296 } sid
    (by dsimp only; omega) (by dsimp only; omega) (by dsimp only; omega) c c' hc reads es hr v s n r1 r2 r3 he

/-- A negative refresh interval, and a retry interval of 2^32 seconds. -/
example : (newServer { exFlags with refresh := -1, retry := 4294967296 }.serverConfiguration 7).readLoop (newServer { exFlags with refresh := -1, retry := 4294967296 }.serverConfiguration 7).acceptClientSSH [(exStore, { exStore with current := [] }, [1, 2, 0, 0, 0, 0, 0, 8])] =
    .ok ((newServer { exFlags with refresh := -1, retry := 4294967296 }.serverConfiguration 7).acceptClientSSH.setVersion 1, [.send (.cacheResponse 1 107), .send (.endOfData 1 107 exStore.serial 4294967295 600 7200)]) := by decide +kernel

/-! ## C78 -/

open Classical in
/-- **C78**, exactly: a VRP is handed over at most once, and a router key as many times as the file has usable entries for it. -/
theorem C78_times_partial (wide : WideFloat) {sort : Sorter} (hs : sort.Ok) (now : Int) (vs : List VRPJson) (ks : List BgpSecKeyJson) :
    (∀ p m a, (records (processData wide sort now vs ks).sds).count (.vrp p m a) = if Wanted wide now vs ks (.vrp p m a) then 1 else 0) ∧
    ∀ a ski key, (records (processData wide sort now vs ks).sds).count (.brk a ski key) = ks.countP (fun k => decide (ServesKey now k (a, ski, key))) := by
  have hsplit : records (processData wide sort now vs ks).sds =
      (processData wide sort now vs ks).vrps.map (fun x => SD.record (.vrp x)) ++ (processKeys now ks).map (fun x => SD.record (.brk x)) := by
    simp only [records, Processed.sds, List.map_append, List.map_map]
    rfl
  constructor
  · intro p m a
    have h0 : ((processKeys now ks).map (fun x => SD.record (.brk x))).count (.vrp p m a) = 0 := by
      rw [List.count_eq_zero, List.mem_map]
      rintro ⟨x, _, h⟩
      simp [SD.record] at h
    have h1 : ((processData wide sort now vs ks).vrps.map (fun x => SD.record (.vrp x))).Nodup := by
      have := C44_nodup wide hs now vs ks
      have h2 : (fun x => SD.record (.vrp x)) = (fun r : Prefix × U8 × U32 => Rec.vrp r.1 r.2.1 r.2.2) ∘ (fun x : VRP => (x.pfx, x.maxLen, x.asn)) := rfl
      rw [h2, ← List.map_map]
      refine List.Pairwise.map _ ?_ this
      rintro ⟨a, b, c⟩ ⟨a', b', c'⟩ hne he
      simp only [Rec.vrp.injEq] at he
      obtain ⟨rfl, rfl, rfl⟩ := he
      exact hne rfl
    have hmem : Rec.vrp p m a ∈ (processData wide sort now vs ks).vrps.map (fun x => SD.record (.vrp x)) ↔ Wanted wide now vs ks (.vrp p m a) := by
      rw [← records_sds wide hs, hsplit, List.mem_append]
      constructor
      · exact .inl
      · rintro (h | h)
        · exact h
        · exact absurd (List.count_pos_iff.mpr h) (by omega)
    rw [hsplit, List.count_append, h0, Nat.add_zero]
    split
    · next hw => rw [h1.count, if_pos (hmem.mpr hw)]
    · next hw => rw [h1.count, if_neg (fun h => hw (hmem.mp h))]
  · intro a ski key
    have h0 : ((processData wide sort now vs ks).vrps.map (fun x => SD.record (.vrp x))).count (.brk a ski key) = 0 := by
      rw [List.count_eq_zero, List.mem_map]
      rintro ⟨x, _, h⟩
      simp [SD.record] at h
    rw [hsplit, List.count_append, h0, Nat.zero_add]
    clear hsplit h0
    unfold processKeys
    induction ks with
    | nil => rfl
    | cons k ks ih =>
      rw [List.filterMap_cons, List.countP_cons, ← ih]
      by_cases hx : isExpired now k.expires = true
      · rw [if_pos hx, if_neg, Nat.add_zero]
        simp only [decide_eq_true_eq]
        rintro ⟨_, _, _, h⟩
        rw [(isExpired_iff ..).mpr h] at hx
        cases hx
      · rw [if_neg hx]
        by_cases hh : (hexDecode k.ski).2 = false
        · rw [if_pos hh, if_neg, Nat.add_zero]
          simp only [decide_eq_true_eq]
          rintro ⟨_, h, _, _⟩
          rw [(hexText_iff ..).mpr h] at hh
          cases hh
        · rw [if_neg hh]
          simp only [List.map_cons, List.count_cons, SD.record]
          congr 1
          rw [Bool.not_eq_false] at hh
          have hd : hexDecode k.ski = ((hexDecode k.ski).1, true) := Prod.ext rfl hh
          have : (Rec.brk k.asn (hexDecode k.ski).1 k.pubkey == Rec.brk a ski key) = decide (ServesKey now k (a, ski, key)) := by
            rw [Bool.eq_iff_iff, beq_iff_eq, Rec.brk.injEq, decide_eq_true_eq]
            constructor
            · rintro ⟨h1, h2, h3⟩
              exact ⟨h1, (hexText_iff ..).mp (by rw [hd, h2]), h3, (isExpired_iff ..).mp (by simpa using hx)⟩
            · rintro ⟨h1, h2, h3, _⟩
              exact ⟨h1, by rw [(hexText_iff ..).mpr h2], h3⟩
          rw [this]

example : ServesKey 0 ⟨1, none, [], [7], "AB".toList⟩ (1, [0xAB], [7]) ∧ ServesKey 0 ⟨1, none, [], [7], "ab".toList⟩ (1, [0xAB], [7]) :=
  ⟨⟨rfl, (hexText_iff ..).mp (by decide), rfl, nofun⟩, ⟨rfl, (hexText_iff ..).mp (by decide), rfl, nofun⟩⟩

/-! ## C85 -/

/-- **C85**, exactly: the loop starts if and only if the interval in nanoseconds, cut down to 64 bits, is positive as a signed number. -/
theorem C85_exact_partial (n : Int) : newTicker (BitVec.ofInt 64 n) = .ok () ↔ 0 < n * 1000000000 % 2 ^ 64 ∧ n * 1000000000 % 2 ^ 64 < 2 ^ 63 := by
  have h : (tickerDuration (BitVec.ofInt 64 n)).toNat = (n * 1000000000 % 2 ^ 64).toNat := by
    unfold tickerDuration
    have : BitVec.ofInt 64 n * 1000000000#64 = BitVec.ofInt 64 (n * 1000000000) := by
      rw [BitVec.ofInt_mul]; rfl
    rw [this, BitVec.toNat_ofInt]
    rfl
  unfold newTicker
  rw [BitVec.toInt_eq_toNat_cond, h]
  have hp : 0 ≤ n * 1000000000 % 2 ^ 64 := Int.emod_nonneg _ (by decide)
  have hl : n * 1000000000 % 2 ^ 64 < 2 ^ 64 := Int.emod_lt_of_pos _ (by decide)
  generalize n * 1000000000 % 2 ^ 64 = x at *
  constructor
  · intro hh
    by_cases hpos : (0 : Int) < if 2 * x.toNat < 2 ^ 64 then (x.toNat : Int) else x.toNat - ((2 ^ 64 : Nat) : Int)
    · split at hpos <;> omega
    · rw [if_neg hpos] at hh
      cases hh
  · rintro ⟨h1, h2⟩
    rw [if_pos]
    rw [if_pos (by omega)]
    omega

example : 0 < (600 : Int) * 1000000000 % 2 ^ 64 ∧ (600 : Int) * 1000000000 % 2 ^ 64 < 2 ^ 63 := by decide

/-- An interval of 584 years is accepted and works, as one of less than a third of a second. -/
theorem C85_short_false : newTicker 18446744074 = .ok () ∧ (tickerDuration 18446744074).toInt = 290448384 := by decide

end StayRTR
