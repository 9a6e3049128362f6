import Verif.Props.Restart
import Verif.Props.Settle

/-!
# C180: a router moves from one server to another
-/

namespace StayRTR

/-! ## What is asked -/

/-- The router still holds what it held. -/
def Spec.StillHolds (r r' : Spec.Router) : Prop := ∀ x, x ∈ r'.held ↔ x ∈ r.held

open Spec Spec.Contact

/-! ## What is proved -/

/-- No answer of a server, to whatever serial number, changes the set of a router that holds what the server serves. -/
theorem diff_harmless {k : Int} {s : Store} {t : List (U32 × List SD)} (h : Evolves k s t) {n : U32} {d : List SD} (hd : s.getSDsSerialDiff n = .ok (some d)) (r : Rec) :
    routerApply (fun r => r ∈ records s.current) d r ↔ r ∈ records s.current := by
  obtain ⟨hg, hw⟩ := diff_good h hd
  rcases hw with rfl | hw
  · rfl
  obtain ⟨t', rfl⟩ := h.head
  rw [routerApply_iff hg.cons]
  have hwin : ((s.serial, s.current) :: t').map Prod.snd = s.current :: t'.map Prod.snd := rfl
  rw [hwin, List.take_succ_cons] at hw
  constructor
  · rintro (ha | ⟨-, hc⟩)
    · obtain ⟨c, rest, he, hc, -⟩ := (hw.announced r).1 ha
      rw [(List.cons.inj he).1]
      exact hc
    · exact hc
  · intro hc
    by_cases hr : r ∈ records d
    · obtain ⟨x, hx, rfl⟩ := List.mem_map.1 hr
      rcases hg.flags x hx with hf | hf
      · exact .inl ⟨x, hx, rfl, hf⟩
      · exfalso
        obtain ⟨newer, older, he, h1, -, h2, -⟩ := (hw.withdrawn x.record).1 ⟨x, hx, rfl, hf⟩
        cases newer with
        | nil => exact h1 rfl
        | cons c newer => exact h2 c List.mem_cons_self ((List.cons.inj he).1 ▸ hc)
    · exact .inr ⟨hr, hc⟩

theorem noteAll_harmless {k : Int} {s : Store} {t : List (U32 × List SD)} (h : Evolves k s t) {n : U32} {d : List SD} (hd : s.getSDsSerialDiff n = .ok (some d)) {v : U8} {keys : Bool} {held : List Rec}
    (hh : ∀ x, x ∈ held ↔ x ∈ records s.current ∧ wanted v keys x = true) (x : Rec) : x ∈ noteAll v keys held d ↔ x ∈ held := by
  rw [mem_noteAll (diff_good h hd).1.valid]
  by_cases hx : wanted v keys x = true
  · rw [if_pos hx, routerApply_congr d (b := fun r => r ∈ records s.current) (by rw [hh]; simp [hx]), diff_harmless h hd, hh]
    simp [hx]
  · rw [if_neg hx]

/-- **C180** (partial: the server serves something). A router that holds what a server serves, got from whatever server and with whatever session and serial number, holds just that after asking this server twice, also if its session happens
to be that of the server. -/
theorem C180_moves_partial {cfg : ServerConfig} {sid : U16} {c0 : Client} {v : U8} (h : Setup cfg sid c0 v) {k : Int} {st : Store} {t : List (U32 × List SD)} (ht : Evolves k st t) (hne : st.current ≠ [])
    (r : Router) (hr : HoldsServed v (!c0.dontSendBGPsecKeys) st.current r) : Noticed cfg sid c0 v st r := by
  cases hsy : r.synced with
  | none =>
    have := asks_new h h.good ht hne r hsy
    obtain ⟨c', g', e⟩ := asks_same h h.good hne r (fun ss n hh => by rw [hsy] at hh; cases hh)
    rw [hsy] at e
    simp only at e
    unfold Noticed
    rw [e] at this ⊢
    obtain ⟨c'', -, e'⟩ := asks_same h g' hne ⟨noteAll v (!c0.dontSendBGPsecKeys) [] st.current, some (sessionOf sid v, st.serial), none⟩ (fun ss n hh => by cases hh; rfl)
    rw [e']
    have hd : st.getSDsSerialDiff st.serial = .ok (some []) := by rw [getSDsSerialDiff_eq]; simp
    simp only [hd]
    exact ⟨trivial, fun x => this.2 x⟩
  | some p =>
    obtain ⟨ss, n⟩ := p
    by_cases hs : ss = sessionOf sid v
    · subst hs
      obtain ⟨o, ho⟩ := diff_total st n
      cases o with
      | none => exact C150_other_serial_partial h ht hne r hsy ho
      | some d =>
        obtain ⟨c', g', e⟩ := asks_same h h.good hne r (fun ss m hh => by rw [hsy] at hh; cases hh; rfl)
        rw [hsy] at e
        simp only [ho] at e
        unfold Noticed
        rw [e]
        obtain ⟨c'', -, e'⟩ := asks_same h g' hne ⟨noteAll v (!c0.dontSendBGPsecKeys) r.held d, some (sessionOf sid v, st.serial), none⟩ (fun ss n hh => by cases hh; rfl)
        rw [e']
        have hd : st.getSDsSerialDiff st.serial = .ok (some []) := by rw [getSDsSerialDiff_eq]; simp
        simp only [hd]
        exact ⟨trivial, fun x => by show x ∈ noteAll v (!c0.dontSendBGPsecKeys) r.held d ↔ _; rw [noteAll_harmless ht ho hr, hr]⟩
    · exact C150_other_session_partial h ht hne r hsy hs

/-- **C180** (partial, as before). If its session happens to be that of the server, there is no gap either: it holds the same after asking once. -/
theorem C180_no_gap_partial {cfg : ServerConfig} {sid : U16} {c0 : Client} {v : U8} (h : Setup cfg sid c0 v) {k : Int} {st : Store} {t : List (U32 × List SD)} (ht : Evolves k st t) (hne : st.current ≠ [])
    (r : Router) (hr : HoldsServed v (!c0.dontSendBGPsecKeys) st.current r) {n : U32} (hsy : r.synced = some (sessionOf sid v, n)) : StillHolds r (asks (newServer cfg sid) c0 v st (c0, r)).2 := by
  obtain ⟨c', g', e⟩ := asks_same h h.good hne r (fun ss m hh => by rw [hsy] at hh; cases hh; rfl)
  rw [e, hsy]
  obtain ⟨o, ho⟩ := diff_total st n
  intro x
  cases o with
  | none => simp only [ho]
  | some d =>
    simp only [ho]
    exact noteAll_harmless ht ho hr x

/-- **C180, false in between.** With another session, which is what the router has unless by chance, it holds nothing after asking once, whatever it held. -/
theorem C180_gap_false {cfg : ServerConfig} {sid : U16} {c0 : Client} {v : U8} (h : Setup cfg sid c0 v) (st : Store) (r : Router) {ss : U16} {n : U32} (hsy : r.synced = some (ss, n)) (hs : ss ≠ sessionOf sid v) :
    (asks (newServer cfg sid) c0 v st (c0, r)).2.held = [] := by
  rw [C150_forgotten h st r hsy hs]
  rfl

/-- **C180** (partial, as before and as C176). A router that holds what one of the servers serves that have settled behind a server, and moves to another of them, holds the same after asking twice. -/
theorem C180_settled_partial {wide : WideFloat} {e : Nat → Env} {parent : Nat → Nat} (hd : ∀ i, (e i).decode = decodeFile) (hs : ∀ i, (e i).sort.Ok) (hw : ∀ i, (e i).wide = wide)
    (hinj : ∀ i a b, (e i).sha a = (e i).sha b → a = b) {exc : Nat → Option Slurm} {clock₀ clock : Nat → Int} {σ₀ : Servers} {h : List Servers} (run : ServersAt e parent clock₀ (σ₀ :: h))
    (hlen : ∀ τ ∈ σ₀ :: h, ∀ i, ((τ i).exported.roas.getD []).length < 2 ^ 63) (hx : ∀ τ ∈ σ₀ :: h, NoExpiry (τ 0).exported) (hne : ∃ r, Asks wide (σ₀ 0).exported 0 r) {σ : Servers} {loads : List Nat}
    (hset : Settling e parent exc clock₀ σ₀ clock σ loads) {path path' : List Nat} {i j : Nat} (hp : path.Sublist loads) (hp' : path'.Sublist loads) (hpath : PathTo parent path i) (hpath' : PathTo parent path' j) (hi : i ≠ 0) (hj : j ≠ 0)
    (hex : ∀ j ∈ path, exc j = none) (hex' : ∀ j ∈ path', exc j = none) {cfg : ServerConfig} {sid : U16} {c0 : Client} {v : U8} (hset' : Setup cfg sid c0 v) (r : Router)
    (hr : HoldsServed v (!c0.dontSendBGPsecKeys) (σ i).store.current r) :
    Noticed cfg sid c0 v (σ j).store r ∧ StillHolds r (asks (newServer cfg sid) c0 v (σ j).store (asks (newServer cfg sid) c0 v (σ j).store (c0, r))).2 := by
  have a1 := (settling_ok hd hs hw hinj ((run_ok hd hs hinj run hlen hx).2 σ₀ rfl) hset).1
  have si := fun r => (C176_settle_partial hd hs hw hinj run hlen hx hne hset hp hpath hi hex 0 r).1
  have sj := fun r => (C176_settle_partial hd hs hw hinj run hlen hx hne hset hp' hpath' hj hex' 0 r).1
  have same : ∀ x, x ∈ records (σ i).store.current ↔ x ∈ records (σ j).store.current := fun x => (si x).trans (sj x).symm
  have hr' : HoldsServed v (!c0.dontSendBGPsecKeys) (σ j).store.current r := fun x => by rw [hr x, same]
  obtain ⟨t, ht⟩ := reached_evolves (hs j) (a1.reached j)
  have hcur : (σ j).store.current ≠ [] := by
    obtain ⟨r0, h0⟩ := hne
    have := (sj r0).2 h0
    intro hc
    unfold Served at this
    rw [hc] at this
    cases this
  have hn := C180_moves_partial hset' ht hcur r hr'
  exact ⟨hn, fun x => (hn.2 x).trans (hr' x).symm⟩

/-- **C180** (partial, as before and as C178, and with another session). A router that moves to a server that has settled, from wherever, holds what comes through the local exceptions on the way to that server after asking twice. -/
theorem C180_exceptions_partial {wide : WideFloat} {e : Nat → Env} {parent : Nat → Nat} (hd : ∀ i, (e i).decode = decodeFile) (hs : ∀ i, (e i).sort.Ok) (hw : ∀ i, (e i).wide = wide)
    (hinj : ∀ i a b, (e i).sha a = (e i).sha b → a = b) {exc : Nat → Option Slurm} {clock₀ clock : Nat → Int} {σ₀ : Servers} {h : List Servers} (run : ServersAt e parent clock₀ (σ₀ :: h))
    (hlen : ∀ τ ∈ σ₀ :: h, ∀ i, ((τ i).exported.roas.getD []).length < 2 ^ 63) (hx : ∀ τ ∈ σ₀ :: h, NoExpiry (τ 0).exported) {σ : Servers} {loads : List Nat} (hset : Settling e parent exc clock₀ σ₀ clock σ loads) {path : List Nat} {i : Nat}
    (hp : path.Sublist loads) (hpath : PathTo parent path i) (hi : i ≠ 0) (hne : ∀ q, q <+: path → ∃ r, throughExceptions exc (Asks wide (σ₀ 0).exported 0) q r)
    {cfg : ServerConfig} {sid : U16} {c0 : Client} {v : U8} (hset' : Setup cfg sid c0 v) (r : Router) {ss : U16} {n : U32} (hsy : r.synced = some (ss, n)) (hss : ss ≠ sessionOf sid v) (x : Rec) :
    x ∈ (asks (newServer cfg sid) c0 v (σ i).store (asks (newServer cfg sid) c0 v (σ i).store (c0, r))).2.held ↔ throughExceptions exc (Asks wide (σ₀ 0).exported 0) path x ∧ wanted v (!c0.dontSendBGPsecKeys) x = true := by
  have a1 := (settling_ok hd hs hw hinj ((run_ok hd hs hinj run hlen hx).2 σ₀ rfl) hset).1
  have b1 := C178_settle_partial hd hs hw hinj run hlen hx hset hp hpath hi fun q hq _ => hne q hq
  obtain ⟨t, ht⟩ := reached_evolves (hs i) (a1.reached i)
  have hcur : (σ i).store.current ≠ [] := by
    obtain ⟨r0, h0⟩ := hne path (List.prefix_refl _)
    have := (b1 r0).2 h0
    intro hc
    unfold Served at this
    rw [hc] at this
    cases this
  rw [(C150_other_session_partial hset' ht hcur r hsy hss).2 x]
  exact and_congr_left fun _ => b1 x

/-! ## Examples -/

/-- A router that holds the record and has the session and serial number of another server. -/
def movesRouter : Router := ⟨[chainRecord], some (300, 5), none⟩

/-- A router of the first server of the example for C176 as `C180_settled_partial` has it; what it holds before, in between and after. -/
example : let σ := settleLoad 2 (settleLoad 1 settleStart)
    Setup exCfg 7 exFresh 1 ∧ HoldsServed 1 (!exFresh.dontSendBGPsecKeys) (σ 1).store.current movesRouter ∧ movesRouter.synced ≠ some (sessionOf 7 1, 5) ∧
    (asks (newServer exCfg 7) exFresh 1 (σ 2).store (exFresh, movesRouter)).2.held = [] ∧
    (asks (newServer exCfg 7) exFresh 1 (σ 2).store (asks (newServer exCfg 7) exFresh 1 (σ 2).store (exFresh, movesRouter))).2.held = [chainRecord] := by
  intro σ
  refine ⟨exSetup, fun x => ?_, by decide, by decide +kernel, by decide +kernel⟩
  have h : records (σ 1).store.current = [chainRecord] := by decide +kernel
  rw [h]
  show x ∈ [chainRecord] ↔ _
  constructor
  · intro hx
    obtain rfl := List.mem_singleton.1 hx
    exact ⟨hx, rfl⟩
  · exact And.left

/-- A router that has by chance the session of a server with a longer history, as `C180_no_gap_partial` has it: the answer says again what it holds. -/
example : let st := (((Store.init 3).addData [exA]).1.addData [exA, exB]).1
    let r : Router := ⟨[exA.record, exB.record], some (sessionOf 7 1, 0), none⟩
    st.serial = 1 ∧ st.getSDsSerialDiff 0 = .ok (some [exB]) ∧ (∀ x, x ∈ r.held ↔ x ∈ records st.current) ∧ (asks (newServer exCfg 7) exFresh 1 st (exFresh, r)).2.synced = some (sessionOf 7 1, 1) := by
  intro st r
  refine ⟨by decide, by decide, fun x => ?_, by decide +kernel⟩
  have h : records st.current = [exA.record, exB.record] := by decide
  rw [h]

end StayRTR
