import Mathlib.Logic.Function.Iterate
import Verif.Props.Router

/-!
# C150: a restart of the server is noticed
-/

namespace StayRTR

/-! ## What is asked -/

/-- What a router makes of a PDU, if it has been away: as `receive`, but an Error Report with code 0 (corrupt data) says that the session is not the one of the server, and the router flushes all data (RFC 8210, section 5.1). -/
def Spec.Router.told (r : Spec.Router) : Pdu → Spec.Router
  | .errorReport _ code _ _ => if code = 0 then .new else r
  | p => r.receive p

/-- The router asks a server with the store `st`, which does not change meanwhile. `c0` is a new connection, made when the old one is dropped. -/
def Spec.asks (srv : Server) (c0 : Client) (v : U8) (st : Store) (s : Client × Spec.Router) : Client × Spec.Router :=
  match srv.processRead st st s.1 (Spec.Contact.packet (s.2.query v)) with
  | .ok (c', e) => if c'.connected = true then (c', (Spec.sent e).foldl Spec.Router.told s.2) else (c0, ((Spec.sent e).foldl Spec.Router.told s.2).lost)
  | _ => s

/-- A router that got its data from another server, or from one that was started again since, holds what this server serves after asking twice. -/
def Spec.Noticed (cfg : ServerConfig) (sid : U16) (c0 : Client) (v : U8) (st : Store) (r : Spec.Router) : Prop :=
  let r' := (Spec.asks (newServer cfg sid) c0 v st (Spec.asks (newServer cfg sid) c0 v st (c0, r))).2
  r'.synced = some (Spec.sessionOf sid v, st.serial) ∧ Spec.HoldsServed v (!c0.dontSendBGPsecKeys) st.current r'

open Spec Spec.Contact

/-! ## What is proved -/

theorem told_answer (cfg : ServerConfig) (sid : U16) (v : U8) (keys : Bool) (serial : U32) (d : List SD) (r : Router) :
    (dataAnswer cfg sid v keys serial d).foldl Router.told r = (dataAnswer cfg sid v keys serial d).foldl Router.receive r := by
  have key : ∀ (ps : List Pdu) (r : Router), (∀ p ∈ ps, ∀ r : Router, r.told p = r.receive p) → ps.foldl Router.told r = ps.foldl Router.receive r := by
    intro ps
    induction ps with
    | nil => intro r _; rfl
    | cons p ps ih =>
      intro r h
      rw [List.foldl_cons, List.foldl_cons, h p List.mem_cons_self, ih _ fun q hq => h q (List.mem_cons_of_mem _ hq)]
  refine key _ r fun p hp r => ?_
  unfold dataAnswer at hp
  rcases List.mem_append.1 hp with hp | hp
  · rcases List.mem_cons.1 hp with rfl | hp
    · rfl
    · obtain ⟨x, _, hx⟩ := List.mem_filterMap.1 hp
      rcases x with ⟨⟨(_ | a | a), n⟩, asn, ml, fl⟩ | ⟨asn, pk, ski, fl⟩ <;> simp only [dataPdu] at hx
      · cases hx
      · cases hx; rfl
      · cases hx; rfl
      · split at hx
        · cases hx; rfl
        · cases hx
  · rw [List.mem_singleton.1 hp]; rfl

/-- One answer to a router that is in the session, or in none. -/
theorem asks_same {cfg : ServerConfig} {sid : U16} {c0 c : Client} {v : U8} (h : Setup cfg sid c0 v) (g : ConnGood cfg sid c0 v c) {st : Store} (hne : st.current ≠ []) (r : Router)
    (hs : ∀ ss n, r.synced = some (ss, n) → ss = sessionOf sid v) :
    ∃ c', ConnGood cfg sid c0 v c' ∧ asks (newServer cfg sid) c0 v st (c, r) = (c', match r.synced with
      | none => ⟨noteAll v (!c0.dontSendBGPsecKeys) [] st.current, some (sessionOf sid v, st.serial), none⟩
      | some (_, n) => match st.getSDsSerialDiff n with
        | .ok (some d) => ⟨noteAll v (!c0.dontSendBGPsecKeys) r.held d, some (sessionOf sid v, st.serial), none⟩
        | _ => { r with synced := none }) := by
  obtain ⟨c', ps, hread, g', han⟩ := answered h g r hs st st
  refine ⟨c', g', ?_⟩
  unfold asks
  simp only [hread, sent_map_send, g'.up, if_true]
  congr 1
  cases han with
  | noData _ he => exact absurd he hne
  | full _ hsy => rw [told_answer, receive_answer, hsy]; rfl
  | diff _ hsy d hd => rw [told_answer, receive_answer, hsy]; simp only [hd]; rfl
  | reset _ hsy hd => rw [hsy]; simp only [hd]; rfl

/-- The router starts over: it gets everything. -/
theorem asks_new {cfg : ServerConfig} {sid : U16} {c0 c : Client} {v : U8} (h : Setup cfg sid c0 v) (g : ConnGood cfg sid c0 v c) {k : Int} {st : Store} {t : List (U32 × List SD)} (ht : Evolves k st t)
    (hne : st.current ≠ []) (r : Router) (hs : r.synced = none) :
    (asks (newServer cfg sid) c0 v st (c, r)).2.synced = some (sessionOf sid v, st.serial) ∧ HoldsServed v (!c0.dontSendBGPsecKeys) st.current (asks (newServer cfg sid) c0 v st (c, r)).2 := by
  obtain ⟨c', _, e⟩ := asks_same h g hne r (fun ss n hh => by rw [hs] at hh; cases hh)
  rw [e, hs]
  obtain ⟨t1, rfl⟩ := ht.head
  have hv := ht.valid _ List.mem_cons_self
  exact ⟨rfl, fun x => mem_noteAll_full hv.1 hv.2 x⟩

/-- A router whose session is not that of the server, whatever its serial number and data: the first answer makes it forget them. -/
theorem C150_forgotten {cfg : ServerConfig} {sid : U16} {c0 : Client} {v : U8} (h : Setup cfg sid c0 v) (st : Store) (r : Router) {ss : U16} {n : U32} (hr : r.synced = some (ss, n)) (hs : ss ≠ sessionOf sid v) :
    asks (newServer cfg sid) c0 v st (c0, r) = (c0, .new) := by
  have hq := query_packet v r
  have hqe : r.query v = .serialQuery v ss n := by unfold Router.query; rw [hr]
  rw [hqe] at hq
  have hl : lower v cfg.protocolVersion = v := lower_le h.le
  obtain ⟨c', text, hp, hc⟩ := C21_session_mismatch h.good.conn hq (by rw [hl]; exact hs) h.good.acc st st
  unfold asks
  rw [hqe]
  simp only [hp, hc]
  rfl

/-- So it holds exactly what is served after asking twice. -/
theorem C150_other_session_partial {cfg : ServerConfig} {sid : U16} {c0 : Client} {v : U8} (h : Setup cfg sid c0 v) {k : Int} {st : Store} {t : List (U32 × List SD)} (ht : Evolves k st t) (hne : st.current ≠ [])
    (r : Router) {ss : U16} {n : U32} (hr : r.synced = some (ss, n)) (hs : ss ≠ sessionOf sid v) : Noticed cfg sid c0 v st r := by
  unfold Noticed
  rw [C150_forgotten h st r hr hs]
  exact asks_new h h.good ht hne _ rfl

/-- So does a router whose session happens to be that of the server, if its serial number is none of those that the server can answer for. -/
theorem C150_other_serial_partial {cfg : ServerConfig} {sid : U16} {c0 : Client} {v : U8} (h : Setup cfg sid c0 v) {k : Int} {st : Store} {t : List (U32 × List SD)} (ht : Evolves k st t) (hne : st.current ≠ [])
    (r : Router) {n : U32} (hr : r.synced = some (sessionOf sid v, n)) (hn : st.getSDsSerialDiff n = .ok none) : Noticed cfg sid c0 v st r := by
  obtain ⟨c', g', e⟩ := asks_same h h.good hne r (fun ss m hh => by rw [hr] at hh; cases hh; rfl)
  rw [hr] at e
  simp only [hn] at e
  unfold Noticed
  rw [e]
  exact asks_new h g' ht hne _ rfl

/-- The code does not have the property: a router whose session and serial number happen to be those of the server keeps what it held, whatever that is, however often it asks. -/
theorem C150_mistaken_false {cfg : ServerConfig} {sid : U16} {c0 : Client} {v : U8} (h : Setup cfg sid c0 v) {st : Store} (hne : st.current ≠ []) (held : List Rec) (m : Nat) :
    ((asks (newServer cfg sid) c0 v st)^[m] (c0, ⟨held, some (sessionOf sid v, st.serial), none⟩)).2 = ⟨held, some (sessionOf sid v, st.serial), none⟩ := by
  suffices key : ∃ c, ConnGood cfg sid c0 v c ∧ (asks (newServer cfg sid) c0 v st)^[m] (c0, ⟨held, some (sessionOf sid v, st.serial), none⟩) = (c, ⟨held, some (sessionOf sid v, st.serial), none⟩) by
    obtain ⟨c, _, e⟩ := key
    rw [e]
  induction m with
  | zero => exact ⟨c0, h.good, rfl⟩
  | succ m ih =>
    obtain ⟨c, g, e⟩ := ih
    obtain ⟨c', g', e'⟩ := asks_same h g hne ⟨held, some (sessionOf sid v, st.serial), none⟩ (fun ss n hh => by cases hh; rfl)
    refine ⟨c', g', ?_⟩
    rw [Function.iterate_succ_apply', e, e']
    have hd : st.getSDsSerialDiff st.serial = .ok (some []) := by rw [getSDsSerialDiff_eq]; simp
    simp only [hd]
    rfl

/-- How it comes about: each restart draws one of 65536 session ids, each of which it can be, and of these exactly one is that of the router. -/
theorem C150_chance (v : U8) (ss : U16) : ∃ n : Fin 65536, ∀ m : Fin 65536, sessionOf (generateSessionId m) v = ss ↔ m = n := by
  refine ⟨⟨(ss - BitVec.ofNat 16 (100 * v.toNat)).toNat, (ss - BitVec.ofNat 16 (100 * v.toNat)).isLt⟩, fun m => ?_⟩
  unfold sessionOf generateSessionId
  generalize BitVec.ofNat 16 (100 * v.toNat) = x
  constructor
  · rintro rfl
    apply Fin.ext
    rw [BitVec.add_sub_cancel]
    simp
  · rintro rfl
    rw [BitVec.ofNat_toNat, BitVec.setWidth_eq, BitVec.sub_add_cancel]

/-- The witness in full: a server with the session id 7 served one record. Started again, with the same id by chance, it serves another. The router keeps the old one for good. -/
theorem C150_restart_false : ∃ st r, (∃ t, Evolves 3 st t) ∧ st.current = [exB] ∧ r = (happens (newServer exCfg 7) 3 exFresh 1 [.update [exA], .poll [] none]).router ∧
    (∀ m, ((asks (newServer exCfg 7) exFresh 1 st)^[m] (exFresh, r)).2.held = [exA.record]) ∧ ¬ Noticed exCfg 7 exFresh 1 st r := by
  have hr : (happens (newServer exCfg 7) 3 exFresh 1 [.update [exA], .poll [] none]).router = ⟨[exA.record], some (sessionOf 7 1, 0), none⟩ := by decide +kernel
  have hk := C150_mistaken_false exSetup (st := ((Store.init 3).addData [exB]).1) (by decide) [exA.record]
  refine ⟨((Store.init 3).addData [exB]).1, _, ⟨_, .add [exB] .init (by decide)⟩, by decide, rfl, fun m => ?_, fun hn => ?_⟩
  · rw [hr]
    exact congrArg Router.held (hk m)
  · rw [hr] at hn
    have h2 := (hn.2 exB.record).2 (by decide)
    have e : (asks (newServer exCfg 7) exFresh 1 ((Store.init 3).addData [exB]).1 (asks (newServer exCfg 7) exFresh 1 ((Store.init 3).addData [exB]).1 (exFresh, ⟨[exA.record], some (sessionOf 7 1, 0), none⟩))).2.held = [exA.record] :=
      congrArg Router.held (hk 2)
    rw [e] at h2
    revert h2
    decide

/-- The same router and a server that drew 8: the router notices. -/
example : Setup exCfg 8 exFresh 1 ∧ (∃ t, Evolves 3 ((Store.init 3).addData [exB]).1 t) ∧ ((Store.init 3).addData [exB]).1.current ≠ [] ∧ sessionOf 7 1 ≠ sessionOf 8 1 ∧
    (asks (newServer exCfg 8) exFresh 1 ((Store.init 3).addData [exB]).1 (exFresh, ⟨[exA.record], some (sessionOf 7 1, 0), none⟩)).2 = .new ∧
    (asks (newServer exCfg 8) exFresh 1 ((Store.init 3).addData [exB]).1 (exFresh, .new)).2 = ⟨[exB.record], some (sessionOf 8 1, 0), none⟩ :=
  ⟨⟨.inl rfl, .inr rfl, by decide, by decide⟩, ⟨_, .add [exB] .init (by decide)⟩, by decide, by decide, by decide +kernel, by decide +kernel⟩

/-- A server that drew 7 again, and a router that had got further: it is told to start over. -/
example : ((Store.init 3).addData [exB]).1.getSDsSerialDiff 5 = .ok none ∧
    (asks (newServer exCfg 7) exFresh 1 ((Store.init 3).addData [exB]).1 (exFresh, ⟨[exA.record], some (sessionOf 7 1, 5), none⟩)).2 = ⟨[exA.record], none, none⟩ ∧
    Noticed exCfg 7 exFresh 1 ((Store.init 3).addData [exB]).1 ⟨[exA.record], some (sessionOf 7 1, 5), none⟩ :=
  ⟨by decide, by decide +kernel, C150_other_serial_partial exSetup (.add [exB] .init (by decide)) (by decide) _ rfl (by decide)⟩

end StayRTR
