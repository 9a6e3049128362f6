import Verif.Props.Router

/-! # C143: a router has no cause to complain -/

namespace StayRTR

namespace Spec

/-- RFC 8210, sections 5.6, 5.10 and 12: in an answer a record may be announced only if the router does not hold it (else error 7, Duplicate Announcement Received) and withdrawn only if it does (else error 6, Withdrawal of
Unknown Record); outside of an answer neither may come. -/
def Router.Faulty (r : Router) (p : Pdu) : Prop :=
  ∃ x f, pduRecord p = some x ∧ pduFlag p = some f ∧ ∀ l, r.coming = some l → if f = 1 then x ∈ l else x ∉ l

/-- A router that reads these PDUs finds nothing wrong. -/
def Router.Content : Router → List Pdu → Prop
  | _, [] => True
  | r, p :: ps => ¬ r.Faulty p ∧ Router.Content (r.receive p) ps

/-- No list that is given to the server has a record twice. -/
def Contact.Distinct : ContactEvent → Prop
  | .update new => (records new).Nodup
  | .poll between _ => ∀ new ∈ between, (records new).Nodup

end Spec

open Spec Contact

/-- **C143** in full: whatever happens, no router has cause to complain about an answer. -/
def NoComplaints (cfg : ServerConfig) (sid : U16) (k : Int) (c0 : Client) (v : U8) : Prop :=
  ∀ s, Run (newServer cfg sid) k c0 v (fun _ e => Sane e ∧ Distinct e) s → ∀ c' e,
    (newServer cfg sid).processRead s.store s.store s.conn (packet (s.router.query v)) = .ok (c', e) → s.router.Content (sent e)

/-! ## Stores without duplicates -/

/-- Neither the served list nor a retained change has a record twice. -/
structure DistinctStore (s : Store) : Prop where
  current : (records s.current).Nodup
  diffs : ∀ d ∈ s.listDiff, GoodDiff d ∧ (records d).Nodup

theorem records_filter_sublist (l : List SD) (p : SD → Bool) : (records (l.filter p)).Sublist (records l) := List.Sublist.map _ List.filter_sublist

theorem applyDiff_nodup {diff prev : List SD} (hd : AllValid diff) (hp : AllValid prev) (h1 : (records diff).Nodup) (h2 : (records prev).Nodup) : (records (applyDiff diff prev)).Nodup := by
  unfold applyDiff
  dsimp only
  rw [records_append, List.nodup_append]
  refine ⟨h2.sublist (records_filter_sublist _ _), h1.sublist (records_filter_sublist _ _), ?_⟩
  intro a ha b hb hab
  subst hab
  obtain ⟨x, hx, rfl⟩ := List.mem_map.1 ha
  obtain ⟨hx, hn⟩ := List.mem_filter.1 hx
  have hn := convert_isNone hd (hp x hx) ▸ hn
  exact of_decide_eq_true hn ((records_filter_sublist _ _).subset hb)

theorem curDiff_nodup {new prev : List SD} (hn : AllValid new) (hp : AllValid prev) (h1 : (records new).Nodup) (h2 : (records prev).Nodup) : (records (curDiff new prev)).Nodup := by
  rw [curDiff_eq hn hp, records_append, records_map_withFlag, records_map_withFlag, List.nodup_append]
  refine ⟨h1.sublist (records_filter_sublist _ _), h2.sublist (records_filter_sublist _ _), ?_⟩
  intro a ha b hb hab
  subst hab
  rw [mem_records_filter (p := fun r => decide (r ∉ records prev))] at ha
  rw [mem_records_filter (p := fun r => decide (r ∉ records new))] at hb
  exact of_decide_eq_true ha.2 hb.1

theorem DistinctStore.init (k : Int) : DistinctStore (Store.init k) := ⟨by simp [Store.init, records], by simp [Store.init]⟩

theorem DistinctStore.addData {s : Store} (h : DistinctStore s) (ok : StoreOk s) {new : List SD} (hv : AllValid new) (hn : (records new).Nodup) : DistinctStore (s.addData new).1 := by
  cases hb : (s.addData new).2 with
  | false => rw [addData_false hb]; exact h
  | true =>
    refine ⟨addData_nodup ok hv h.current hn, ?_⟩
    rw [addData_true hb]
    intro d hd
    have hd : d ∈ (s.addSDsDiff (curDiff new s.current)).listDiff.reverse := List.mem_reverse.2 hd
    rw [addSDsDiff_list] at hd
    have hd : d ∈ curDiff new s.current :: [] :: s.listDiff.reverse.map (applyDiff (curDiff new s.current)) := by
      dsimp only at hd
      split at hd
      · exact List.mem_of_mem_take hd
      · exact hd
    have hg := curDiff_good hv ok.valid
    have hc := curDiff_nodup hv ok.valid hn h.current
    simp only [List.mem_cons, List.mem_map, List.mem_reverse] at hd
    rcases hd with rfl | rfl | ⟨e, he, rfl⟩
    · exact ⟨hg, hc⟩
    · exact ⟨GoodDiff.nil, by simp [records]⟩
    · have := h.diffs e he
      exact ⟨hg.applyDiff this.1, applyDiff_nodup hg.valid this.1.valid hc this.2⟩

theorem DistinctStore.updates (news : List (List SD)) {s : Contact} (h : DistinctStore s.store) (ok : StoreOk s.store) (hv : ∀ new ∈ news, AllValid new ∧ (records new).Nodup) :
    DistinctStore (news.foldl update s).store ∧ StoreOk (news.foldl update s).store := by
  induction news generalizing s with
  | nil => exact ⟨h, ok⟩
  | cons new news ih =>
    have := hv new List.mem_cons_self
    exact ih (s := s.update new) (h.addData ok this.1 this.2) (ok.addData this.1) (fun n hn => hv n (List.mem_cons_of_mem _ hn))

theorem step_store (srv : Server) (c0 : Client) (v : U8) (s : Contact) (between : List (List SD)) (arrives : Option Nat) :
    (s.step srv c0 v (.poll between arrives)).store = (between.foldl update s).store := by
  unfold Contact.step
  dsimp only
  split
  · split <;> rfl
  · rfl

theorem DistinctStore.run {srv : Server} {k : Int} {c0 : Client} {v : U8} {ok : Contact → ContactEvent → Prop} (hok : ∀ s e, ok s e → Sane e ∧ Distinct e) {s : Contact} (h : Run srv k c0 v ok s) :
    DistinctStore s.store ∧ StoreOk s.store := by
  induction h with
  | start => exact ⟨.init k, .init k⟩
  | step _ e he ih =>
    have := hok _ _ he
    cases e with
    | update new => exact ⟨ih.1.addData ih.2 this.1 this.2, ih.2.addData this.1⟩
    | poll between arrives =>
      rw [step_store]
      exact DistinctStore.updates between ih.1 ih.2 (fun new hn => ⟨this.1 new hn, this.2 new hn⟩)

theorem DistinctStore.answer {s : Store} (h : DistinctStore s) {n : U32} {d : List SD} (hd : s.getSDsSerialDiff n = .ok (some d)) : (records d).Nodup := by
  rw [getSDsSerialDiff_eq] at hd
  split at hd
  · simp only [GoRes.ok.injEq, Option.some.injEq] at hd; subst hd; simp [records]
  · split at hd
    · simp at hd
    · simp only [GoRes.ok.injEq] at hd
      exact (h.diffs d (List.mem_reverse.1 (List.mem_of_getElem? hd))).2

/-! ## Reading an answer -/

theorem content_data {v : U8} {keys : Bool} (d : List SD) (hv : AllValid d) (hf : FlagsOk d) (hn : (records d).Nodup) (r : Router) (l : List Rec) (hl : r.coming = some l)
    (h1 : ∀ x ∈ d, wanted v keys x.record = true → x.getFlag = 1 → x.record ∉ l) (h0 : ∀ x ∈ d, wanted v keys x.record = true → x.getFlag = 0 → x.record ∈ l)
    (ps : List Pdu) (hps : ∀ r' : Router, r'.Content ps) : r.Content (d.filterMap (dataPdu v keys) ++ ps) := by
  induction d generalizing r l with
  | nil => exact hps r
  | cons x d ih =>
    have hv' : AllValid d := fun y hy => hv y (List.mem_cons_of_mem _ hy)
    have hf' : FlagsOk d := fun y hy => hf y (List.mem_cons_of_mem _ hy)
    rw [records, List.map_cons, List.nodup_cons] at hn
    cases hd : dataPdu v keys x with
    | none =>
      rw [List.filterMap_cons_none hd]
      exact ih hv' hf' hn.2 r l hl (fun y hy => h1 y (List.mem_cons_of_mem _ hy)) (fun y hy => h0 y (List.mem_cons_of_mem _ hy))
    | some p =>
      obtain ⟨hcar, hrec, hfl⟩ := dataPdu_some hd
      rw [carried_wanted] at hcar
      rw [List.filterMap_cons_some hd, List.cons_append]
      have hr : r.receive p = { r with coming := r.coming.map (Router.note p) } := receive_data (d := [x]) (v := v) (keys := keys) (by simp [hd]) r
      refine ⟨?_, ?_⟩
      · rintro ⟨y, f, hy, hfy, hbad⟩
        rw [hrec] at hy; rw [hfl] at hfy
        cases hy; cases hfy
        have hbad := hbad l hl
        rcases hf x List.mem_cons_self with e | e
        · rw [if_pos (show x.getFlag = 1 from e)] at hbad; exact h1 x List.mem_cons_self hcar e hbad
        · rw [if_neg (by rw [e]; decide : ¬ x.getFlag = 1)] at hbad; exact hbad (h0 x List.mem_cons_self hcar e)
      · have hmem : ∀ y ∈ d, y.record ∈ Router.note p l ↔ y.record ∈ l := by
          intro y hy
          rw [mem_note hrec hfl, if_neg]
          intro e
          exact hn.1 (e ▸ List.mem_map_of_mem hy)
        rw [hr]
        refine ih hv' hf' hn.2 _ (Router.note p l) (by rw [hl]; rfl) ?_ ?_
        · intro y hy hw e; rw [hmem y hy]; exact h1 y (List.mem_cons_of_mem _ hy) hw e
        · intro y hy hw e; rw [hmem y hy]; exact h0 y (List.mem_cons_of_mem _ hy) hw e

/-- PDUs without a record are no cause to complain. -/
theorem content_none {p : Pdu} (h : pduRecord p = none) (r : Router) : r.Content [p] := by
  refine ⟨?_, trivial⟩
  rintro ⟨x, f, hx, _⟩
  rw [h] at hx; cases hx

theorem content_answer {cfg : ServerConfig} {sid : U16} {v : U8} {keys : Bool} {n : U32} (d : List SD) (hv : AllValid d) (hf : FlagsOk d) (hn : (records d).Nodup) (r : Router)
    (h1 : ∀ x ∈ d, wanted v keys x.record = true → x.getFlag = 1 → x.record ∉ if r.synced.isSome then r.held else [])
    (h0 : ∀ x ∈ d, wanted v keys x.record = true → x.getFlag = 0 → x.record ∈ if r.synced.isSome then r.held else []) : r.Content (dataAnswer cfg sid v keys n d) := by
  unfold dataAnswer
  rw [List.cons_append]
  refine ⟨?_, content_data d hv hf hn _ _ rfl h1 h0 _ (content_none rfl)⟩
  rintro ⟨x, f, hx, _⟩
  cases hx

/-! ## The theorems -/

/-- **C143**, partial: a router that keeps up (see C114) never has cause to complain, whether it asks for everything or for changes, if no list given to the server has a record twice. Missing: routers further behind,
and changes in the middle of an answer (both refuted below). -/
theorem C143_keeps_partial {cfg : ServerConfig} {sid : U16} {c0 : Client} {v : U8} (h : Setup cfg sid c0 v) {k : Int} {s : Contact}
    (hr : Run (newServer cfg sid) k c0 v (fun s e => (Sane e ∧ Keeps k s e) ∧ Distinct e) s) (hk : Keeps k s (.poll [] none)) {c' : Client} {e : List Effect}
    (hp : (newServer cfg sid).processRead s.store s.store s.conn (packet (s.router.query v)) = .ok (c', e)) : s.router.Content (sent e) := by
  have hr' : Run (newServer cfg sid) k c0 v (fun s e => Sane e ∧ Keeps k s e) s := by
    clear hp hk
    induction hr with
    | start => exact .start
    | step _ e he ih => exact .step ih e he.1
  obtain ⟨hds, ok⟩ := DistinctStore.run (fun _ _ h => ⟨h.1.1, h.2⟩) hr
  obtain ⟨g, hc, t, ht, hs⟩ := RouterInv.keeps h hr'
  obtain ⟨c1, ps, hread, _, han⟩ := answered h g s.router (fun ss n h => (hs ss n h).1) s.store s.store
  rw [hread] at hp
  cases hp
  rw [sent_map_send]
  obtain ⟨t1, rfl⟩ := ht.head
  have hv := ht.valid _ List.mem_cons_self
  cases han with
  | noData => exact content_none rfl _
  | reset => exact content_none rfl _
  | full hne hsy =>
    refine content_answer _ hv.1 (AllAdded.good hv.1 hv.2).flags hds.current _ ?_ ?_
    · intro x _ _ _; rw [hsy]; simp
    · intro x hx _ e; rw [hv.2 x hx] at e; exact absurd e (by decide)
  | @diff hne ss n hsy d hd =>
    have hg := (diff_good ht hd).1
    obtain ⟨_, pre, S, post, hp, hlen, hS, hst⟩ := hs _ _ hsy
    obtain ⟨hpn, hheld⟩ := hst trivial
    rw [hp] at ht
    have hdist := distance ht hS hpn
    have hkb := hk.2 (by rw [hsy]; rfl)
    match pre, hlen with
    | [], _ =>
      simp only [List.nil_append, List.cons.injEq, Prod.mk.injEq] at hp
      rw [getSDsSerialDiff_eq, if_pos hp.1.1.symm] at hd
      simp only [GoRes.ok.injEq, Option.some.injEq] at hd
      subst hd
      exact content_answer _ hg.valid hg.flags (by simp [records]) _ (by simp) (by simp)
    | [p], _ =>
      have hw := (diff_good ht hd).2
      have hd1 : (s.store.serial - n).toNat = 1 := by rw [hdist]; rfl
      rw [hd1] at hw
      refine content_answer _ hg.valid hg.flags (hds.answer hd) _ ?_ ?_
      · intro x hx _ e
        rw [hsy]
        show x.record ∉ s.router.held
        rw [hheld]
        rcases hw with rfl | hw
        · cases hx
        · obtain ⟨c, rest, hcr, _, o, ho, hno⟩ := (hw.announced x.record).1 ⟨x, hx, rfl, e⟩
          have : changesCovered 1 = 1 := rfl
          rw [this] at hcr
          simp only [List.singleton_append, List.map_cons, List.take_succ_cons, List.take_zero, List.cons.injEq] at hcr
          rw [← hcr.2, List.mem_singleton] at ho
          subst ho
          exact fun hh => hno hh.1
      · intro x hx hwant e
        rw [hsy]
        show x.record ∈ s.router.held
        rw [hheld]
        rcases hw with rfl | hw
        · cases hx
        · obtain ⟨newer, older, hno, h1, h2, _, hold⟩ := (hw.withdrawn x.record).1 ⟨x, hx, rfl, e⟩
          have : changesCovered 1 = 1 := rfl
          rw [this] at hno
          simp only [List.singleton_append, List.map_cons, List.take_succ_cons, List.take_zero] at hno
          refine ⟨hold S ?_, hwant⟩
          cases newer with
          | nil => exact absurd rfl h1
          | cons a newer =>
            simp only [List.cons_append, List.cons.injEq] at hno
            cases newer with
            | nil => rw [List.nil_append] at hno; rw [← hno.2]; simp
            | cons b newer =>
              simp only [List.cons_append, List.cons.injEq] at hno
              exact absurd (List.append_eq_nil_iff.1 hno.2.2.symm).2 h2
    | p :: q :: pre, hlen =>
      exfalso
      simp only [List.length_cons] at hlen
      rcases hkb with hkb | ⟨h1, h2, h3⟩
      · omega
      · simp only [List.length_cons] at hdist
        rw [Nat.mod_eq_of_lt (by omega)] at hdist
        rw [getSDsSerialDiff_eq, if_neg (fun he => by rw [he] at hdist; simp at hdist)] at hd
        split at hd
        · simp at hd
        · simp only [GoRes.ok.injEq] at hd
          have hl := ht.length
          rw [if_pos h1] at hl
          have := (List.getElem?_eq_some_iff.mp hd).1
          rw [List.length_reverse] at this
          omega

/-- A router that asks after every change, through a lost connection, and finds the update with an announcement and a withdrawal in order. -/
example : ∃ s, Run (newServer exCfg 7) 3 exFresh 1 (fun s e => (Sane e ∧ Keeps 3 s e) ∧ Distinct e) s ∧ Keeps 3 s (.poll [] none) ∧
    (newServer exCfg 7).processRead s.store s.store s.conn (packet (s.router.query 1)) = .ok (exFresh.setVersion 1, (dataAnswer exCfg 7 1 true 1 [exC, exA.withFlag 0]).map .send) := by
  refine ⟨_, .step (.step (.step (.step .start (.update [exA, exB]) ⟨⟨?_, ?_⟩, ?_⟩) (.poll [] none) ⟨⟨?_, ?_⟩, ?_⟩) (.update [exB, exC]) ⟨⟨?_, ?_⟩, ?_⟩) (.poll [] (some 2)) ⟨⟨?_, ?_⟩, ?_⟩, ?_, ?_⟩
  all_goals first
    | exact ⟨rfl, fun _ => .inl (by decide +kernel)⟩
    | (intro _ h; cases h; done)
    | (show AllValid _; decide)
    | (show (records _).Nodup; decide)
    | (intro _; decide +kernel)
    | decide +kernel

theorem Router.Content.at {r : Router} {a : List Pdu} {p : Pdu} {b : List Pdu} (h : r.Content (a ++ p :: b)) : ¬ (a.foldl Router.receive r).Faulty p := by
  induction a generalizing r with
  | nil => exact h.1
  | cons q a ih => exact ih h.2

/-- A record that is announced, withdrawn and announced again while the router does not ask. -/
def exAgain : List ContactEvent := [.update [exA], .poll [] none, .update [exA, exB], .update [exB], .update [exB, exA]]

theorem exAgain_ok : ∀ e ∈ exAgain, Sane e ∧ Distinct e := by
  intro e he
  simp only [exAgain, List.mem_cons, List.not_mem_nil, or_false] at he
  rcases he with rfl | rfl | rfl | rfl | rfl
  · exact ⟨show AllValid _ by decide, show (records _).Nodup by decide⟩
  · exact ⟨fun _ h => (List.not_mem_nil h).elim, fun _ h => (List.not_mem_nil h).elim⟩
  · exact ⟨show AllValid _ by decide, show (records _).Nodup by decide⟩
  · exact ⟨show AllValid _ by decide, show (records _).Nodup by decide⟩
  · exact ⟨show AllValid _ by decide, show (records _).Nodup by decide⟩

theorem exAgain_end : (happens (newServer exCfg 7) 3 exFresh 1 exAgain).router = ⟨[exA.record], some (sessionOf 7 1, 0), none⟩ ∧
    (newServer exCfg 7).processRead (happens (newServer exCfg 7) 3 exFresh 1 exAgain).store (happens (newServer exCfg 7) 3 exFresh 1 exAgain).store (happens (newServer exCfg 7) 3 exFresh 1 exAgain).conn
      (packet ((happens (newServer exCfg 7) 3 exFresh 1 exAgain).router.query 1)) = .ok (exFresh.setVersion 1, (dataAnswer exCfg 7 1 true 3 [exA]).map .send) :=
  ⟨by decide +kernel, by decide +kernel⟩

theorem happens_runs {srv : Server} {k : Int} {c0 : Client} {v : U8} {ok : Contact → ContactEvent → Prop} (l : List ContactEvent) (h : ∀ e ∈ l, ∀ s, ok s e) : Run srv k c0 v ok (happens srv k c0 v l) := by
  have : ∀ (l : List ContactEvent) (s : Contact), Run srv k c0 v ok s → (∀ e ∈ l, ∀ s, ok s e) → Run srv k c0 v ok (l.foldl (fun s e => s.step srv c0 v e) s) := by
    intro l
    induction l with
    | nil => intro s hs _; exact hs
    | cons e l ih => intro s hs hl; exact ih _ (.step hs e (hl e List.mem_cons_self s)) (fun e he => hl e (List.mem_cons_of_mem _ he))
  exact this l _ .start h

/-- The code does not have the property: with the retention limit 3 of stayrtr (cmd/stayrtr/stayrtr.go:757), a router that missed three changes is announced a record that it holds. RFC 8210 (section 12) makes it send an Error
Report with code 7 and drop the session. -/
theorem C143_behind_false : ¬ NoComplaints exCfg 7 3 exFresh 1 := by
  intro h
  have hc := h _ (happens_runs exAgain (fun e he _ => exAgain_ok e he)) _ _ exAgain_end.2
  rw [sent_map_send, exAgain_end.1] at hc
  have := Router.Content.at (a := [.cacheResponse 1 (sessionOf 7 1)]) (p := .ipv4Prefix 1 1 ⟨.v4 0x0a000000, 9⟩ 8 65000) hc
  exact this ⟨_, _, rfl, rfl, by decide⟩

/-- Nor for a router that asks after every change, if one comes between the two reads of the store that an answer takes: it gets the new data under the old serial number, and with the next answer the same once more. -/
theorem C143_race_false : ∃ s c' e, Run (newServer exCfg 7) 3 exFresh 1 (fun s e => (Sane e ∧ Distinct e) ∧ (∀ b a, e = .poll b a → s.behind ≤ 1) ∧ (∀ new, e = .update new → s.behind = 0)) s ∧ s.behind ≤ 1 ∧
    (newServer exCfg 7).processRead s.store s.store s.conn (packet (s.router.query 1)) = .ok (c', e) ∧ ¬ s.router.Content (sent e) := by
  refine ⟨((start 3 exFresh).step (newServer exCfg 7) exFresh 1 (.update [exA])).step (newServer exCfg 7) exFresh 1 (.poll [[exB]] none), exFresh.setVersion 1,
    (dataAnswer exCfg 7 1 true 1 [exB, exA.withFlag 0]).map .send, .step (.step .start _ ?_) _ ?_, by decide +kernel, by decide +kernel, ?_⟩
  · refine ⟨⟨show AllValid _ by decide, show (records _).Nodup by decide⟩, ?_, ?_⟩
    · intro _ _ h; cases h
    · intro _ _; decide +kernel
  · refine ⟨⟨?_, ?_⟩, ?_, ?_⟩
    · intro new h; simp only [List.mem_singleton] at h; subst h; show AllValid _; decide
    · intro new h; simp only [List.mem_singleton] at h; subst h; show (records _).Nodup; decide
    · intro _ _ _; decide +kernel
    · intro _ h; cases h
  · intro hc
    have hr : (((start 3 exFresh).step (newServer exCfg 7) exFresh 1 (.update [exA])).step (newServer exCfg 7) exFresh 1 (.poll [[exB]] none)).router = ⟨[exB.record], some (sessionOf 7 1, 0), none⟩ := by decide +kernel
    rw [sent_map_send, hr] at hc
    have := Router.Content.at (a := [.cacheResponse 1 (sessionOf 7 1)]) (p := .ipv6Prefix 1 1 ⟨.v6 0x20010db8000000000000000000000000, 33⟩ 48 65001) hc
    exact this ⟨_, _, rfl, rfl, by decide⟩

end StayRTR
