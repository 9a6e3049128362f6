import Verif.Spec.MonSys
import Verif.Proofs.Mon

/-!
# Lemmas on the shared entries of rtrmon
-/

namespace StayRTR

open MonMap

/-- The pointers of a map point to entries, no two names to the same one, and no name is there twice. -/
structure RefMap.Wf (h : MonHeap) (m : RefMap) : Prop where
  inside : ∀ x ∈ m, x.2 < h.length
  refs : (m.map (·.2)).Nodup
  keys : (m.map (·.1)).Nodup

namespace RefMap

theorem deref_nil (h : MonHeap) : deref h [] = [] := rfl

theorem deref_cons {h : MonHeap} {k : Str} {r : MonRef} {e : MonEntry} (he : h[r]? = some e) (m : RefMap) : deref h ((k, r) :: m) = (k, e) :: deref h m := by
  unfold deref
  rw [List.filterMap_cons]
  simp [he]

theorem deref_congr {h h' : MonHeap} {m : RefMap} (hm : ∀ x ∈ m, h[x.2]? = h'[x.2]?) : deref h m = deref h' m := by
  induction m with
  | nil => rfl
  | cons x m ih =>
    have := ih fun y hy => hm y (List.mem_cons_of_mem _ hy)
    unfold deref at this ⊢
    rw [List.filterMap_cons, List.filterMap_cons, hm x List.mem_cons_self, this]

theorem deref_append {h : MonHeap} (l : MonHeap) {m : RefMap} (hm : ∀ x ∈ m, x.2 < h.length) : deref (h ++ l) m = deref h m :=
  deref_congr fun x hx => by rw [List.getElem?_append_left (hm x hx)]

theorem deref_set {h : MonHeap} {r : MonRef} (e : MonEntry) {m : RefMap} (hm : ∀ x ∈ m, x.2 ≠ r) : deref (h.set r e) m = deref h m :=
  deref_congr fun x hx => by rw [List.getElem?_set_ne (fun hr => hm x hx hr.symm)]

theorem deref_del {h : MonHeap} {m : RefMap} (k : Str) : deref h (m.del k) = (deref h m).del k := by
  unfold deref MonMap.del RefMap.del
  induction m with
  | nil => rfl
  | cons x m ih =>
    rw [List.filter_cons, List.filterMap_cons]
    cases hx : h[x.2]? with
    | none =>
      simp only [Option.map_none]
      split
      · rw [List.filterMap_cons, hx]; exact ih
      · exact ih
    | some e =>
      simp only [Option.map_some, List.filter_cons]
      split
      · rw [List.filterMap_cons, hx]; simp only [Option.map_some]; rw [ih]
      · exact ih

theorem deref_put {h : MonHeap} {m : RefMap} (k : Str) {r : MonRef} {e : MonEntry} (he : h[r]? = some e) : deref h (m.put k r) = (deref h m).put k e := by
  unfold put MonMap.put
  rw [deref_cons he, deref_del]

theorem get_deref {h : MonHeap} {m : RefMap} (hm : ∀ x ∈ m, x.2 < h.length) (k : Str) : (deref h m).get k = (m.get k).bind fun r => h[r]? := by
  induction m with
  | nil => rfl
  | cons x m ih =>
    obtain ⟨a, r⟩ := x
    have hr : r < h.length := hm (a, r) List.mem_cons_self
    rw [deref_cons (List.getElem?_eq_getElem hr), MonMap.get, get]
    split
    · simp [hr]
    · exact ih fun x hx => hm x (List.mem_cons_of_mem _ hx)

theorem get_isNone_deref {h : MonHeap} {m : RefMap} (hm : ∀ x ∈ m, x.2 < h.length) (k : Str) : ((deref h m).get k).isNone = (m.get k).isNone := by
  induction m with
  | nil => rfl
  | cons x m ih =>
    obtain ⟨a, r⟩ := x
    have hr : r < h.length := hm (a, r) List.mem_cons_self
    rw [deref_cons (List.getElem?_eq_getElem hr), MonMap.get, get]
    split
    · rfl
    · exact ih fun x hx => hm x (List.mem_cons_of_mem _ hx)

theorem deref_length {h : MonHeap} {m : RefMap} (hm : ∀ x ∈ m, x.2 < h.length) : (deref h m).length = m.length := by
  induction m with
  | nil => rfl
  | cons x m ih =>
    obtain ⟨a, r⟩ := x
    have hr : r < h.length := hm (a, r) List.mem_cons_self
    rw [deref_cons (List.getElem?_eq_getElem hr), List.length_cons, List.length_cons, ih fun x hx => hm x (List.mem_cons_of_mem _ hx)]

theorem deref_keys {h : MonHeap} {m : RefMap} (hm : ∀ x ∈ m, x.2 < h.length) : (deref h m).map (·.1) = m.map (·.1) := by
  induction m with
  | nil => rfl
  | cons x m ih =>
    obtain ⟨a, r⟩ := x
    have hr : r < h.length := hm (a, r) List.mem_cons_self
    rw [deref_cons (List.getElem?_eq_getElem hr), List.map_cons, List.map_cons, ih fun x hx => hm x (List.mem_cons_of_mem _ hx)]

theorem mem_put {m : RefMap} {k : Str} {r : MonRef} {x : Str × MonRef} (h : x ∈ m.put k r) : x = (k, r) ∨ x ∈ m := by
  rcases List.mem_cons.1 h with h | h
  · exact .inl h
  · exact .inr (List.mem_filter.1 h).1

theorem Wf.nil (h : MonHeap) : Wf h [] := ⟨by simp, by simp, by simp⟩

theorem Wf.put {h : MonHeap} {m : RefMap} (w : Wf h m) (k : Str) {r : MonRef} (hr : r < h.length) (hn : ∀ x ∈ m, x.2 ≠ r) : Wf h (m.put k r) where
  inside x hx := by 
    rcases mem_put hx with hx | hx
    · rw [hx]; exact hr
    · exact w.inside x hx
  refs := by
    unfold RefMap.put RefMap.del
    rw [List.map_cons, List.nodup_cons]
    refine ⟨fun hx => ?_, w.refs.sublist (List.filter_sublist.map _)⟩
    obtain ⟨x, hx, hxr⟩ := List.mem_map.1 hx
    exact hn x (List.mem_filter.1 hx).1 hxr
  keys := by
    unfold RefMap.put RefMap.del
    rw [List.map_cons, List.nodup_cons]
    refine ⟨by simp, w.keys.sublist (List.filter_sublist.map _)⟩

theorem Wf.del {h : MonHeap} {m : RefMap} (w : Wf h m) (k : Str) : Wf h (m.del k) where
  inside x hx := w.inside x (List.mem_filter.1 hx).1
  refs := w.refs.sublist (List.filter_sublist.map _)
  keys := w.keys.sublist (List.filter_sublist.map _)

theorem Wf.mono {h h' : MonHeap} {m : RefMap} (w : Wf h m) (hl : h.length ≤ h'.length) : Wf h' m := ⟨fun x hx => Nat.lt_of_lt_of_le (w.inside x hx) hl, w.refs, w.keys⟩

theorem Wf.append {h : MonHeap} {m : RefMap} (w : Wf h m) (l : MonHeap) : Wf (h ++ l) m where
  inside x hx := by rw [List.length_append]; exact Nat.lt_add_right _ (w.inside x hx)
  refs := w.refs
  keys := w.keys

theorem Wf.set {h : MonHeap} {m : RefMap} (w : Wf h m) (r : MonRef) (e : MonEntry) : Wf (h.set r e) m where
  inside x hx := by rw [List.length_set]; exact w.inside x hx
  refs := w.refs
  keys := w.keys

end RefMap

open RefMap

theorem refFirstSeen_eq {h : MonHeap} {cur : RefMap} (hc : ∀ x ∈ cur, x.2 < h.length) (now : Int) (k : Str) : refFirstSeen h cur now k = monFirstSeen (cur.deref h) now k := by
  unfold refFirstSeen monFirstSeen
  rw [get_deref hc]
  cases (cur.get k).bind fun r => h[r]? <;> rfl

/-- What the map being built is like during the first two loops. -/
structure Building (h : MonHeap) (cur : RefMap) (s : MonHeap × RefMap) (v : MonMap) : Prop where
  heap : ∃ l, s.1 = h ++ l
  wf : Wf s.1 s.2
  fresh : ∀ x ∈ s.2, h.length ≤ x.2
  value : s.2.deref s.1 = v

theorem Building.new {h : MonHeap} {cur : RefMap} {s : MonHeap × RefMap} {v : MonMap} (b : Building h cur s v) (k : Str) (e : MonEntry) : Building h cur (refNew s k e) (v.put k e) := by
  obtain ⟨hp, m⟩ := s
  obtain ⟨⟨l, hl⟩, wf, fresh, value⟩ := b
  simp only at hl wf fresh value
  have hne : ∀ x ∈ m, x.2 ≠ hp.length := fun x hx => Nat.ne_of_lt (wf.inside x hx)
  refine ⟨⟨l ++ [e], by simp [refNew, hl]⟩, (wf.append [e]).put k (by simp) hne, fun x hx => ?_, ?_⟩
  · rcases mem_put hx with hx | hx
    · rw [hx, hl, List.length_append]; exact Nat.le_add_right _ _
    · exact fresh x hx
  · unfold refNew
    rw [deref_put (e := e) k (by simp), deref_append [e] wf.inside, value]

theorem Building.firstSeen {h : MonHeap} {cur : RefMap} {s : MonHeap × RefMap} {v : MonMap} (hc : ∀ x ∈ cur, x.2 < h.length) (b : Building h cur s v) (now : Int) (k : Str) :
    refFirstSeen s.1 cur now k = monFirstSeen (cur.deref h) now k := by
  obtain ⟨l, hl⟩ := b.heap
  rw [hl, refFirstSeen_eq (fun x hx => by rw [List.length_append]; exact Nat.lt_add_right _ (hc x hx)), deref_append l hc]

theorem Building.vrps {h : MonHeap} {cur : RefMap} (hc : ∀ x ∈ cur, x.2 < h.length) (wide : WideFloat) (now : Int) (l : List VRPJson) {s : MonHeap × RefMap} {v : MonMap} (b : Building h cur s v) :
    Building h cur (l.foldl (refAddVrp wide cur now) s) (l.foldl (monAddVrp wide (cur.deref h) now) v) := by
  induction l generalizing s v with
  | nil => exact b
  | cons a l ih =>
    rw [List.foldl_cons, List.foldl_cons]
    apply ih
    unfold refAddVrp monAddVrp
    cases a.getASN2 wide with
    | none => exact b
    | some asn =>
      cases a.getPrefix2 with
      | none => exact b
      | some p =>
        simp only
        rw [b.firstSeen hc]
        exact b.new _ _

theorem Building.keys {h : MonHeap} {cur : RefMap} (hc : ∀ x ∈ cur, x.2 < h.length) (now : Int) (l : List BgpSecKeyJson) {s : MonHeap × RefMap} {v : MonMap} (b : Building h cur s v) :
    Building h cur (l.foldl (refAddKey cur now) s) (l.foldl (monAddKey (cur.deref h) now) v) := by
  induction l generalizing s v with
  | nil => exact b
  | cons a l ih =>
    rw [List.foldl_cons, List.foldl_cons]
    apply ih
    unfold refAddKey monAddKey
    simp only
    rw [b.firstSeen hc]
    exact b.new _ _

/-- What the third loop may change in the heap: entries of `cur`, and of those only `visible`, and only to `false`. -/
def Hidden (cur : RefMap) (h h' : MonHeap) : Prop :=
  h'.length = h.length ∧ ∀ r, h'[r]? = h[r]? ∨ (r ∈ cur.map (·.2) ∧ ∃ e, h[r]? = some e ∧ h'[r]? = some { e with visible := false })

theorem Hidden.refl (cur : RefMap) (h : MonHeap) : Hidden cur h h := ⟨rfl, fun _ => .inl rfl⟩

theorem Hidden.step {cur : RefMap} {h h' : MonHeap} (hh : Hidden cur h h') {r : MonRef} (hr : r ∈ cur.map (·.2)) {e : MonEntry} (he : h'[r]? = some e) : Hidden cur h (h'.set r { e with visible := false }) := by
  refine ⟨by rw [List.length_set, hh.1], fun q => ?_⟩
  by_cases hq : r = q
  · subst hq
    have hlt : r < h'.length := (List.getElem?_eq_some_iff.1 he).1
    rw [List.getElem?_set_self hlt]
    right
    refine ⟨hr, ?_⟩
    rcases hh.2 r with h1 | ⟨-, e0, h1, h2⟩
    · exact ⟨e, by rw [← h1, he], rfl⟩
    · rw [he] at h2
      exact ⟨e0, h1, by rw [Option.some.inj h2]⟩
  · rw [List.getElem?_set_ne hq]; exact hh.2 q

theorem grace_refs (ends : Int) (cur : RefMap) (h0 : MonHeap) :
    ∀ (l : RefMap) (h : MonHeap) (m : RefMap) (n : Nat), (∀ x ∈ l, x ∈ cur) → (l.map (·.2)).Nodup → (∀ x ∈ l, h[x.2]? = h0[x.2]?) → (∀ x ∈ l, x.2 < h0.length) → Wf h m → (∀ x ∈ l, ∀ y ∈ m, y.2 ≠ x.2) → Hidden cur h0 h →
      let r := l.foldl (refGrace ends) (h, m, n)
      let v := (l.deref h0).foldl (monGrace ends) (m.deref h, n)
      Wf r.1 r.2.1 ∧ r.2.1.deref r.1 = v.1 ∧ r.2.2 = v.2 ∧ Hidden cur h0 r.1 := by
  intro l
  induction l with
  | nil => intro h m n _ _ _ _ wf _ hh; exact ⟨wf, rfl, rfl, hh⟩
  | cons x l ih =>
    intro h m n hs hn he hi wf hd hh
    obtain ⟨k, r⟩ := x
    have hr0 : r < h0.length := hi _ List.mem_cons_self
    have hr : r < h.length := by rw [hh.1]; exact hr0
    obtain ⟨e, hre⟩ : ∃ e, h[r]? = some e := ⟨h[r], List.getElem?_eq_getElem hr⟩
    have hre0 : h0[r]? = some e := by rw [← he _ List.mem_cons_self]; exact hre
    rw [List.map_cons, List.nodup_cons] at hn
    have hl : ∀ x ∈ l, x.2 ≠ r := fun x hx hxr => hn.1 (List.mem_map.2 ⟨x, hx, hxr⟩)
    simp only [List.foldl_cons, deref_cons hre0]
    have hg : refGrace ends (h, m, n) (k, r) = if ((m.deref h).get k).isNone && decide (e.lastSeen ≥ ends) then (h.set r { e with visible := false }, m.put k r, n + 1) else (h, m, n) := by
      unfold refGrace
      simp only [hre]
      rw [get_isNone_deref wf.inside]
    rw [hg]
    simp only [monGrace]
    split
    · have hset : (h.set r { e with visible := false })[r]? = some { e with visible := false } := List.getElem?_set_self hr
      have hmr : ∀ y ∈ m, y.2 ≠ r := fun y hy => hd _ List.mem_cons_self y hy
      have hput : (m.put k r).deref (h.set r { e with visible := false }) = (m.deref h).put k { e with visible := false } := by
        rw [deref_put k hset, deref_set _ hmr]
      rw [← hput]
      apply ih
      · exact fun x hx => hs x (List.mem_cons_of_mem _ hx)
      · exact hn.2
      · intro x hx
        rw [List.getElem?_set_ne (hl x hx).symm]
        exact he x (List.mem_cons_of_mem _ hx)
      · exact fun x hx => hi x (List.mem_cons_of_mem _ hx)
      · exact (wf.set r _).put k (by rw [List.length_set]; exact hr) hmr
      · intro x hx y hy
        rcases mem_put hy with hy | hy
        · rw [hy]; exact (hl x hx).symm
        · exact hd x (List.mem_cons_of_mem _ hx) y hy
      · exact hh.step (List.mem_map.2 ⟨_, hs _ List.mem_cons_self, rfl⟩) hre
    · exact ih h m n (fun x hx => hs x (List.mem_cons_of_mem _ hx)) hn.2 (fun x hx => he x (List.mem_cons_of_mem _ hx)) (fun x hx => hi x (List.mem_cons_of_mem _ hx)) wf
        (fun x hx => hd x (List.mem_cons_of_mem _ hx)) hh

/-- `BuildNewVrpMap` on pointers gives the map of `buildNewVrpMap`; of the entries that were there, those of the old map may be hidden. -/
theorem refBuild_eq (wide : WideFloat) (grace : Int) {h : MonHeap} {cur : RefMap} (hc : Wf h cur) (vrps : List VRPJson) (keys : List BgpSecKeyJson) (now : Int) :
    let r := refBuild wide grace h cur vrps keys now
    Wf r.1 r.2.1 ∧ (r.2.1.deref r.1, r.2.2) = buildNewVrpMap wide grace (cur.deref h) vrps keys now ∧ ∃ l, Hidden cur (h ++ l) r.1 := by
  intro r
  have b0 : Building h cur (h, []) [] := ⟨⟨[], by simp⟩, Wf.nil h, by simp, rfl⟩
  have b := Building.keys hc.inside now keys (Building.vrps hc.inside wide now vrps b0)
  obtain ⟨l, hl⟩ := b.heap
  have hv : cur.deref h = cur.deref (keys.foldl (refAddKey cur now) (vrps.foldl (refAddVrp wide cur now) (h, []))).1 := by rw [hl, deref_append l hc.inside]
  obtain ⟨w, v1, v2, hh⟩ := grace_refs (now - grace) cur (h ++ l) cur (h ++ l) (keys.foldl (refAddKey cur now) (vrps.foldl (refAddVrp wide cur now) (h, []))).2 0 (fun _ h => h) hc.refs (fun _ _ => rfl)
    (fun x hx => by rw [List.length_append]; exact Nat.lt_add_right _ (hc.inside x hx)) (hl ▸ b.wf) (fun x hx y hy => Nat.ne_of_gt (Nat.lt_of_lt_of_le (hc.inside x hx) (b.fresh y hy))) (Hidden.refl _ _)
  have hr : r = cur.foldl (refGrace (now - grace)) (h ++ l, (keys.foldl (refAddKey cur now) (vrps.foldl (refAddVrp wide cur now) (h, []))).2, 0) := by
    show refBuild wide grace h cur vrps keys now = _
    unfold refBuild
    rw [← hl]
  rw [← hr] at w v1 v2 hh
  refine ⟨w, ?_, l, hh⟩
  have hv2 : (keys.foldl (refAddKey cur now) (vrps.foldl (refAddVrp wide cur now) (h, []))).2.deref (h ++ l) = keys.foldl (monAddKey (cur.deref h) now) (vrps.foldl (monAddVrp wide (cur.deref h) now) []) := by
    rw [← hl]; exact b.value
  rw [hv2, deref_append l hc.inside] at v1 v2
  unfold buildNewVrpMap
  rw [Prod.ext_iff]
  exact ⟨v1, v2⟩

theorem keep_refs (now ends : Int) {cur : RefMap} {h : MonHeap} :
    ∀ (l : RefMap) (s : MonHeap × RefMap) (v : MonMap) (n : Nat), (∀ x ∈ l, x.2 < h.length) → Building h cur s v →
      let r := l.foldl (refKeep now ends) (s, n)
      let w := (l.deref h).foldl (monKeep now ends) (v, n)
      Building h cur r.1 w.1 ∧ r.2 = w.2 := by
  intro l
  induction l with
  | nil => intro s v n _ b; exact ⟨b, rfl⟩
  | cons x l ih =>
    intro s v n hi b
    obtain ⟨k, r⟩ := x
    have hr0 : r < h.length := hi _ List.mem_cons_self
    obtain ⟨e, hre⟩ : ∃ e, h[r]? = some e := ⟨h[r], List.getElem?_eq_getElem hr0⟩
    obtain ⟨t, ht⟩ := b.heap
    have hrs : s.1[r]? = some e := by rw [ht, List.getElem?_append_left hr0, hre]
    have hi' : ∀ x ∈ l, x.2 < h.length := fun x hx => hi x (List.mem_cons_of_mem _ hx)
    simp only [List.foldl_cons, deref_cons hre, refKeep, hrs, monKeep]
    split
    · exact ih s v n hi' b
    · split
      · exact ih _ _ _ hi' (b.new _ _)
      · exact ih _ _ _ hi' (b.new _ _)

/-- `UpdateCurrentVrpMap` on pointers gives the map of `updateCurrentVrpMap`, and changes no entry. -/
theorem refUpdate_eq (grace : Int) {h : MonHeap} {cur : RefMap} (hc : Wf h cur) (now : Int) :
    let r := refUpdate grace h cur now
    Wf r.1.1 r.1.2 ∧ (r.1.2.deref r.1.1, r.2) = updateCurrentVrpMap grace (cur.deref h) now ∧ ∃ l, r.1.1 = h ++ l := by
  intro r
  have b0 : Building h cur (h, []) [] := ⟨⟨[], by simp⟩, Wf.nil h, by simp, rfl⟩
  obtain ⟨b, hn⟩ := keep_refs now (now - grace) cur (h, []) [] 0 hc.inside b0
  exact ⟨b.wf, Prod.ext b.value hn, b.heap⟩

/-! ## The difference -/

/-- The loop of `Diff` as one function (cmd/rtrmon/rtrmon.go:691-701). -/
def refDiff (h : MonHeap) (a b : RefMap) : RefMap := a.foldl (refDiffStep h b) []

theorem diff_refs {h : MonHeap} {b : RefMap} (hb : ∀ x ∈ b, x.2 < h.length) :
    ∀ (a res : RefMap), (∀ x ∈ a, x.2 < h.length) → (∀ x ∈ res, x.2 < h.length) → (a.foldl (refDiffStep h b) res).deref h =
      (a.deref h).foldl (fun res x => if x.2.visible && (match (b.deref h).get x.1 with | none => true | some e => !e.visible) then res.put x.1 x.2 else res) (res.deref h) ∧
      ∀ x ∈ a.foldl (refDiffStep h b) res, x.2 < h.length := by
  intro a
  induction a with
  | nil => intro res _ hr; exact ⟨rfl, hr⟩
  | cons x a ih =>
    intro res ha hr
    obtain ⟨k, r⟩ := x
    have hr0 : r < h.length := ha _ List.mem_cons_self
    have hre : h[r]? = some h[r] := List.getElem?_eq_getElem hr0
    have ha' : ∀ x ∈ a, x.2 < h.length := fun x hx => ha x (List.mem_cons_of_mem _ hx)
    have hstep : refDiffStep h b res (k, r) = if h[r].visible && (match (b.deref h).get k with | none => true | some e => !e.visible) then res.put k r else res := by
      unfold refDiffStep
      rw [get_deref hb]
      simp only [hre]
      rfl
    rw [List.foldl_cons, deref_cons hre, List.foldl_cons, hstep]
    dsimp only
    generalize (h[r].visible && _) = q
    cases q
    · exact ih _ ha' hr
    · simp only [if_true]
      rw [← deref_put k hre]
      refine ih _ ha' fun x hx => ?_
      rcases mem_put hx with hx | hx
      · rw [hx]; exact hr0
      · exact hr x hx

theorem refDiff_eq {h : MonHeap} {a b : RefMap} (ha : ∀ x ∈ a, x.2 < h.length) (hb : ∀ x ∈ b, x.2 < h.length) :
    (refDiff h a b).deref h = monDiff (a.deref h) (b.deref h) ∧ ∀ x ∈ refDiff h a b, x.2 < h.length := diff_refs hb a [] ha (by simp)

end StayRTR

namespace StayRTR

open MonMap RefMap Spec

/-! ## What the sources do -/

/-- What is asked of the steps of a source for the comparator to be right: maps stay maps and point to entries, nothing is freed. -/
structure Sound (work : Work) : Prop where
  wf : ∀ {h c h' c'}, work h c h' c' → Wf h c.vrps → Wf h c.vrpsRtr → Wf h' c'.vrps ∧ Wf h' c'.vrpsRtr
  grow : ∀ {h c h' c'}, work h c h' c' → Wf h c.vrps → h.length ≤ h'.length

/-- The pointers a source has. -/
def owns (c : MonSrc) : List MonRef := c.vrps.map (·.2) ++ c.vrpsRtr.map (·.2)

/-- A source changes and keeps only what it has, and what it allocates. -/
structure Local (work : Work) : Prop where
  own : ∀ {h c h' c'}, work h c h' c' → Wf h c.vrps → ∀ r ∈ owns c', r < h.length → r ∈ owns c
  frame : ∀ {h c h' c'}, work h c h' c' → Wf h c.vrps → ∀ r, r < h.length → r ∉ owns c → h'[r]? = h[r]?

theorem Wf.record {h : MonHeap} {m : RefMap} (w : Wf h m) (k : Str) (e : MonEntry) : Wf (h ++ [e]) (m.put k h.length) :=
  (w.append [e]).put k (by simp) fun x hx => Nat.ne_of_lt (w.inside x hx)

/-- The data of a source with the entries in the place of the pointers, `g` being the gauge. -/
def asClient (h : MonHeap) (c : MonSrc) (g : Nat) : MonClient := ⟨c.vrps.deref h, c.vrpsRtr.deref h, c.serial, c.sessionID, c.lastUpdate, c.rtrRefresh, c.rtrRetry, c.rtrExpire, g⟩

theorem refRecord_eq {h : MonHeap} {c : MonSrc} (hc : Wf h c.vrps) (hr : Wf h c.vrpsRtr) (f : U8) (k : Str) (e : MonEntry) (g : Nat) :
    asClient (refRecord h c f k e).1 (refRecord h c f k e).2 g = (asClient h c g).record f k e := by
  unfold refRecord MonClient.record
  split
  · unfold asClient
    simp only
    rw [deref_append [e] hc.inside, deref_put k (e := e) (by simp), deref_append [e] hr.inside]
  · unfold asClient
    simp only
    rw [deref_del]

/-- `HandlePDU` on pointers does what `monPdu` does on values. -/
theorem refPdu_eq {h : MonHeap} {c : MonSrc} (hc : Wf h c.vrps) (hr : Wf h c.vrpsRtr) (now : Int) (b : Bool) (g : Nat) (p : Pdu) :
    asClient (refPdu now h c p).1 (refPdu now h c p).2 g = (monPdu now b (asClient h c g) p).1 := by
  cases p with
  | ipv4Prefix => exact refRecord_eq hc hr _ _ _ g
  | ipv6Prefix => exact refRecord_eq hc hr _ _ _ g
  | routerKey => exact refRecord_eq hc hr _ _ _ g
  | _ => rfl

theorem refRecord_cases {P : MonHeap × MonSrc → Prop} {h : MonHeap} {c : MonSrc} (f : U8) (k : Str) (e : MonEntry) (h1 : P (h ++ [e], { c with vrpsRtr := c.vrpsRtr.put k h.length }))
    (h2 : P (h, { c with vrpsRtr := c.vrpsRtr.del k })) : P (refRecord h c f k e) := by
  unfold refRecord
  split
  · exact h1
  · exact h2

/-- The cases of a PDU. -/
theorem refPdu_cases {P : MonHeap × MonSrc → Prop} {h : MonHeap} {c : MonSrc} (now : Int) (p : Pdu) (h1 : ∀ k e, P (h ++ [e], { c with vrpsRtr := c.vrpsRtr.put k h.length }))
    (h2 : ∀ k, P (h, { c with vrpsRtr := c.vrpsRtr.del k })) (h3 : ∀ n refresh retry expire, P (h, { c with serial := n, vrps := c.vrpsRtr, rtrRefresh := refresh, rtrRetry := retry, rtrExpire := expire, lastUpdate := some now }))
    (h4 : ∀ i, P (h, { c with sessionID := i })) (h5 : P (h, c)) : P (refPdu now h c p) := by
  cases p with
  | ipv4Prefix => exact refRecord_cases _ _ _ (h1 _ _) (h2 _)
  | ipv6Prefix => exact refRecord_cases _ _ _ (h1 _ _) (h2 _)
  | routerKey => exact refRecord_cases _ _ _ (h1 _ _) (h2 _)
  | endOfData => exact h3 _ _ _ _
  | cacheResponse => exact h4 _
  | _ => exact h5

theorem rtr_sound : Sound RtrWork where
  wf := by
    rintro h c h' c' ⟨now, p, hp⟩ hv hr
    have : Wf (refPdu now h c p).1 (refPdu now h c p).2.vrps ∧ Wf (refPdu now h c p).1 (refPdu now h c p).2.vrpsRtr :=
      refPdu_cases (P := fun x => Wf x.1 x.2.vrps ∧ Wf x.1 x.2.vrpsRtr) now p (fun k e => ⟨hv.append _, Wf.record hr k e⟩) (fun k => ⟨hv, hr.del k⟩) (fun _ _ _ _ => ⟨hr, hr⟩) (fun _ => ⟨hv, hr⟩) ⟨hv, hr⟩
    rw [← hp] at this
    exact this
  grow := by
    rintro h c h' c' ⟨now, p, hp⟩ -
    have : h.length ≤ (refPdu now h c p).1.length :=
      refPdu_cases (P := fun x => h.length ≤ x.1.length) now p (fun k e => by simp) (fun k => Nat.le_refl _) (fun _ _ _ _ => Nat.le_refl _) (fun _ => Nat.le_refl _) (Nat.le_refl _)
    rw [← hp] at this
    exact this

theorem rtr_local : Local RtrWork where
  own := by
    rintro h c h' c' ⟨now, p, hp⟩ -
    have : ∀ r ∈ owns (refPdu now h c p).2, r < h.length → r ∈ owns c := by
      refine refPdu_cases (P := fun x => ∀ r ∈ owns x.2, r < h.length → r ∈ owns c) now p (fun k e => ?_) (fun k => ?_) (fun _ _ _ _ => ?_) (fun _ => ?_) ?_
      · intro r hr hlt
        rcases List.mem_append.1 hr with hr | hr
        · exact List.mem_append_left _ hr
        · obtain ⟨x, hx, rfl⟩ := List.mem_map.1 hr
          rcases mem_put hx with hx | hx
          · rw [hx] at hlt; exact absurd hlt (Nat.lt_irrefl _)
          · exact List.mem_append_right _ (List.mem_map.2 ⟨x, hx, rfl⟩)
      · intro r hr hlt
        rcases List.mem_append.1 hr with hr | hr
        · exact List.mem_append_left _ hr
        · obtain ⟨x, hx, rfl⟩ := List.mem_map.1 hr
          exact List.mem_append_right _ (List.mem_map.2 ⟨x, (List.mem_filter.1 hx).1, rfl⟩)
      · intro r hr hlt
        rcases List.mem_append.1 hr with hr | hr
        · exact List.mem_append_right _ hr
        · exact List.mem_append_right _ hr
      · exact fun r hr _ => hr
      · exact fun r hr _ => hr
    rw [← hp] at this
    exact this
  frame := by
    rintro h c h' c' ⟨now, p, hp⟩ -
    have : ∀ r, r < h.length → r ∉ owns c → (refPdu now h c p).1[r]? = h[r]? :=
      refPdu_cases (P := fun x => ∀ r, r < h.length → r ∉ owns c → x.1[r]? = h[r]?) now p (fun k e r hr _ => List.getElem?_append_left hr) (fun k r _ _ => rfl) (fun _ _ _ _ r _ _ => rfl) (fun _ r _ _ => rfl) fun r _ _ => rfl
    rw [← hp] at this
    exact this

theorem hidden_frame {cur : RefMap} {h l h' : MonHeap} (hh : Hidden cur (h ++ l) h') {r : MonRef} (hr : r < h.length) (hn : r ∉ cur.map (·.2)) : h'[r]? = h[r]? := by
  rcases hh.2 r with h1 | ⟨h1, -⟩
  · rw [h1, List.getElem?_append_left hr]
  · exact absurd h1 hn

/-- The references of a map built from new entries and entries of `cur`. -/
theorem grace_own (ends : Int) (cur : RefMap) : ∀ (l : RefMap) (s : MonHeap × RefMap × Nat), (∀ x ∈ l, x ∈ cur) → ∀ x ∈ (l.foldl (refGrace ends) s).2.1, x ∈ s.2.1 ∨ x.2 ∈ cur.map (·.2) := by
  intro l
  induction l with
  | nil => intro s _ x hx; exact .inl hx
  | cons a l ih =>
    intro s hs x hx
    rcases ih _ (fun x hx => hs x (List.mem_cons_of_mem _ hx)) x hx with h | h
    · unfold refGrace at h
      split at h
      · exact .inl h
      · split at h
        · rcases mem_put h with h | h
          · right; rw [h]; exact List.mem_map.2 ⟨a, hs a List.mem_cons_self, rfl⟩
          · exact .inl h
        · exact .inl h
    · exact .inr h

theorem refBuild_own (wide : WideFloat) (grace : Int) {h : MonHeap} {cur : RefMap} (hc : Wf h cur) (vrps : List VRPJson) (keys : List BgpSecKeyJson) (now : Int) :
    ∀ x ∈ (refBuild wide grace h cur vrps keys now).2.1, x.2 < h.length → x.2 ∈ cur.map (·.2) := by
  intro x hx hlt
  have b0 : Building h cur (h, []) [] := ⟨⟨[], by simp⟩, Wf.nil h, by simp, rfl⟩
  have b := Building.keys hc.inside now keys (Building.vrps hc.inside wide now vrps b0)
  rcases grace_own _ cur cur _ (fun _ h => h) x hx with h1 | h1
  · exact absurd hlt (Nat.not_lt.2 (b.fresh x h1))
  · exact h1

theorem refUpdate_own (grace : Int) {h : MonHeap} {cur : RefMap} (hc : Wf h cur) (now : Int) : ∀ x ∈ (refUpdate grace h cur now).1.2, h.length ≤ x.2 := by
  have b0 : Building h cur (h, []) [] := ⟨⟨[], by simp⟩, Wf.nil h, by simp, rfl⟩
  obtain ⟨b, -⟩ := keep_refs now (now - grace) cur (h, []) [] 0 hc.inside b0
  exact b.fresh

theorem file_sound (wide : WideFloat) (grace : Int) : Sound (FileWork wide grace) where
  wf := by
    intro h c h' c' hw hv hr
    cases hw with
    | file _ _ vrps keys now =>
      obtain ⟨w, -, l, hh⟩ := refBuild_eq wide grace hv vrps keys now
      exact ⟨w, hr.mono (by rw [hh.1, List.length_append]; exact Nat.le_add_right _ _)⟩
    | unchanged _ _ now =>
      obtain ⟨w, -, l, hh⟩ := refUpdate_eq grace hv now
      exact ⟨w, hr.mono (by rw [hh, List.length_append]; exact Nat.le_add_right _ _)⟩
  grow := by
    intro h c h' c' hw hv
    cases hw with
    | file _ _ vrps keys now =>
      obtain ⟨w, -, l, hh⟩ := refBuild_eq wide grace hv vrps keys now
      rw [hh.1, List.length_append]; exact Nat.le_add_right _ _
    | unchanged _ _ now =>
      obtain ⟨w, -, l, hh⟩ := refUpdate_eq grace hv now
      rw [hh, List.length_append]; exact Nat.le_add_right _ _

theorem file_local (wide : WideFloat) (grace : Int) : Local (FileWork wide grace) where
  own := by
    intro h c h' c' hw hv r hr hlt
    cases hw with
    | file _ _ vrps keys now =>
      rcases List.mem_append.1 hr with hr | hr
      · obtain ⟨x, hx, rfl⟩ := List.mem_map.1 hr
        exact List.mem_append_left _ (refBuild_own wide grace hv vrps keys now x hx hlt)
      · exact List.mem_append_right _ hr
    | unchanged _ _ now =>
      rcases List.mem_append.1 hr with hr | hr
      · obtain ⟨x, hx, rfl⟩ := List.mem_map.1 hr
        exact absurd hlt (Nat.not_lt.2 (refUpdate_own grace hv now x hx))
      · exact List.mem_append_right _ hr
  frame := by
    intro h c h' c' hw hv r hlt hn
    cases hw with
    | file _ _ vrps keys now =>
      obtain ⟨-, -, l, hh⟩ := refBuild_eq wide grace hv vrps keys now
      exact hidden_frame hh hlt fun hm => hn (List.mem_append_left _ hm)
    | unchanged _ _ now =>
      obtain ⟨-, -, l, hh⟩ := refUpdate_eq grace hv now
      rw [hh, List.getElem?_append_left hlt]

theorem code_sound (wide : WideFloat) (grace : Int) : Sound (CodeWork wide grace) where
  wf := fun hw => hw.elim (file_sound wide grace).wf rtr_sound.wf
  grow := fun hw => hw.elim (file_sound wide grace).grow rtr_sound.grow

theorem code_local (wide : WideFloat) (grace : Int) : Local (CodeWork wide grace) where
  own := fun hw => hw.elim (file_local wide grace).own rtr_local.own
  frame := fun hw => hw.elim (file_local wide grace).frame rtr_local.frame

/-! ## The system -/

theorem setAt_same {α : Type} (f : Bool → α) (i : Bool) (x : α) : setAt f i x i = x := if_pos rfl

theorem setAt_ne {α : Type} (f : Bool → α) {i j : Bool} (x : α) (h : j ≠ i) : setAt f i x j = f j := if_neg h

/-- All pointers are to entries. -/
structure PointersIn (s : MonSys) : Prop where
  vrps : ∀ i, Wf s.heap (s.src i).vrps
  rtr : ∀ i, Wf s.heap (s.src i).vrpsRtr

theorem reach_inside {work : Work} (hw : Sound work) {startedAt : Int} {thresholds : List Int} {path : Bool → Str} {s : MonSys} (h : MonSys.Reach work startedAt thresholds path s) : PointersIn s := by
  induction h with
  | start => exact ⟨fun _ => Wf.nil _, fun _ => Wf.nil _⟩
  | step _ hs ih =>
    cases hs with
    | work i hp h' c' hx =>
      have hg := hw.grow hx (ih.vrps i)
      have hf := hw.wf hx (ih.vrps i) (ih.rtr i)
      refine ⟨fun j => ?_, fun j => ?_⟩
      · by_cases hj : j = i
        · subst hj; simp only [setAt_same]; exact hf.1
        · simp only [setAt_ne _ _ hj]; exact (ih.vrps j).mono hg
      · by_cases hj : j = i
        · subst hj; simp only [setAt_same]; exact hf.2
        · simp only [setAt_ne _ _ hj]; exact (ih.rtr j).mono hg
    | _ => exact ⟨ih.vrps, ih.rtr⟩

/-- The comparison in progress, or the published one, is of the data as it is. -/
def Right (startedAt : Int) (thresholds : List Int) (s : MonSys) : Prop :=
  match s.comp with
  | .waiting => s.published = none ∨ ∃ clock, s.published = some (refReport startedAt clock thresholds s.heap (s.src false).vrps (s.src false).getData.2 (s.src true).vrps (s.src true).getData.2
      (refDiff s.heap (s.src false).vrps (s.src true).vrps) (refDiff s.heap (s.src true).vrps (s.src false).vrps))
  | .got _ => True
  | .one _ m1 md1 => (m1, md1) = (s.src false).getData
  | .diff1 _ m1 md1 m2 md2 todo acc => (m1, md1) = (s.src false).getData ∧ (m2, md2) = (s.src true).getData ∧ todo.foldl (refDiffStep s.heap m2) acc = refDiff s.heap m1 m2
  | .diff2 _ m1 md1 m2 md2 only1 todo acc => (m1, md1) = (s.src false).getData ∧ (m2, md2) = (s.src true).getData ∧ only1 = refDiff s.heap m1 m2 ∧ todo.foldl (refDiffStep s.heap m1) acc = refDiff s.heap m2 m1

theorem step_right {work : Work} {startedAt : Int} {thresholds : List Int} {s s' : MonSys} (hs : MonSys.Step work startedAt thresholds s s')
    (ih : s.phase false = .idle → s.phase true = .idle → Right startedAt thresholds s) : s'.phase false = .idle → s'.phase true = .idle → Right startedAt thresholds s' := by
  intro h1 h2
  have hno : ∀ (i : Bool) (ph : SrcPhase), setAt s.phase i ph false = .idle → setAt s.phase i ph true = .idle → ph = .idle := by
    intro i ph h1 h2
    cases i
    · simpa [setAt] using h1
    · simpa [setAt] using h2
  cases hs with
  | begin i hp => exact absurd (hno _ _ h1 h2) (by decide)
  | work i hp h' c' hx =>
    cases i
    · rw [hp] at h1; cases h1
    · rw [hp] at h2; cases h2
  | finish i hp => exact absurd (hno _ _ h1 h2) (by decide)
  | meet i hp hc => trivial
  | data1 id hc => exact rfl
  | data2 id m1 md1 hc =>
    have := ih h1 h2
    unfold Right at this ⊢
    rw [hc] at this
    exact ⟨this, rfl, rfl⟩
  | scan1 id m1 md1 m2 md2 x todo acc hc =>
    have := ih h1 h2
    unfold Right at this ⊢
    rw [hc] at this
    exact this
  | next id m1 md1 m2 md2 acc hc =>
    have := ih h1 h2
    unfold Right at this ⊢
    rw [hc] at this
    exact ⟨this.1, this.2.1, this.2.2, rfl⟩
  | scan2 id m1 md1 m2 md2 only1 x todo acc hc =>
    have := ih h1 h2
    unfold Right at this ⊢
    rw [hc] at this
    exact this
  | publish id m1 md1 m2 md2 only1 only2 clock hc =>
    have := ih h1 h2
    unfold Right at this ⊢
    rw [hc] at this
    obtain ⟨e1, e2, e3, e4⟩ := this
    right
    refine ⟨clock, ?_⟩
    have hm1 : m1 = (s.src false).vrps := (Prod.ext_iff.1 e1).1
    have hm2 : m2 = (s.src true).vrps := (Prod.ext_iff.1 e2).1
    have hd1 : md1 = (s.src false).getData.2 := (Prod.ext_iff.1 e1).2
    have hd2 : md2 = (s.src true).getData.2 := (Prod.ext_iff.1 e2).2
    have e4' : only2 = refDiff s.heap m2 m1 := e4
    simp only
    rw [e4', e3, hm1, hm2, hd1, hd2]

theorem reach_right {work : Work} {startedAt : Int} {thresholds : List Int} {path : Bool → Str} {s : MonSys} (h : MonSys.Reach work startedAt thresholds path s) :
    s.phase false = .idle → s.phase true = .idle → Right startedAt thresholds s := by
  induction h with
  | start => intro _ _; exact .inl rfl
  | step _ hs ih => exact step_right hs ih

/-- Before anything is published, a source that is not working is new. -/
theorem reach_new {work : Work} {startedAt : Int} {thresholds : List Int} {path : Bool → Str} {s : MonSys} (h : MonSys.Reach work startedAt thresholds path s) :
    s.comp = .waiting → s.published = none → ∀ i, s.phase i = .idle → s.src i = MonSrc.new (path i) := by
  induction h with
  | start => intro _ _ i _; rfl
  | @step s s' _ hs ih =>
    intro hc hp i hi
    cases hs with
    | begin j hj =>
      by_cases hij : i = j
      · subst hij; simp [setAt] at hi
      · simp only [setAt_ne _ _ hij] at hi; exact ih hc hp i hi
    | work j hj h' c' hx =>
      have hij : i ≠ j := by rintro rfl; rw [hj] at hi; cases hi
      simp only [setAt_ne _ _ hij]
      exact ih hc hp i hi
    | finish j hj =>
      by_cases hij : i = j
      · subst hij; simp [setAt] at hi
      · simp only [setAt_ne _ _ hij] at hi; exact ih hc hp i hi
    | meet => cases hc
    | data1 => cases hc
    | data2 => cases hc
    | scan1 => cases hc
    | next => cases hc
    | scan2 => cases hc
    | publish => cases hp

/-- The id being handled. -/
def CompPhase.id : CompPhase → Option Bool
  | .waiting => none
  | .got i => some i
  | .one i .. => some i
  | .diff1 i .. => some i
  | .diff2 i .. => some i

/-- The metadata of a source read in the comparison in progress. -/
def CompPhase.read (i : Bool) : CompPhase → Option DiffMeta
  | .waiting => none
  | .got _ => none
  | .one _ _ md1 => if i then none else some md1
  | .diff1 _ _ md1 _ md2 .. => some (if i then md2 else md1)
  | .diff2 _ _ md1 _ md2 .. => some (if i then md2 else md1)

/-- The gauge of the last update of an idle source is right, unless the comparator is about to set it, and then to the right value. -/
theorem reach_gauge {work : Work} {startedAt : Int} {thresholds : List Int} {path : Bool → Str} {s : MonSys} (h : MonSys.Reach work startedAt thresholds path s) (i : Bool) (hi : s.phase i = .idle) :
    (s.comp.id = some i → ∀ md, s.comp.read i = some md → md = (s.src i).getData.2) ∧
    (s.comp.id ≠ some i → (s.lastUpdate i = none ∧ s.src i = MonSrc.new (path i)) ∨ s.lastUpdate i = some (lastFetchOf (s.src i).lastUpdate)) := by
  induction h with
  | start => exact ⟨fun h => by simp [MonSys.start, CompPhase.id] at h, fun _ => .inl ⟨rfl, rfl⟩⟩
  | @step s s' _ hs ih =>
    cases hs with
    | begin j hj =>
      by_cases hij : i = j
      · subst hij; simp [setAt] at hi
      · simp only [setAt_ne _ _ hij] at hi; exact ih hi
    | work j hj h' c' hx =>
      have hij : i ≠ j := by rintro rfl; rw [hj] at hi; cases hi
      simp only [setAt_ne _ _ hij]
      exact ih hi
    | finish j hj =>
      by_cases hij : i = j
      · subst hij; simp [setAt] at hi
      · simp only [setAt_ne _ _ hij] at hi; exact ih hi
    | meet j hj hc =>
      refine ⟨fun _ md hm => (by simp [CompPhase.read] at hm), fun hne => ?_⟩
      have hij : i ≠ j := by rintro rfl; exact hne rfl
      simp only [setAt_ne _ _ hij] at hi
      exact (ih hi).2 (by rw [hc]; simp [CompPhase.id])
    | data1 id hc =>
      have := ih hi
      rw [hc] at this
      refine ⟨fun _ md hm => ?_, this.2⟩
      cases i
      · simp only [CompPhase.read, Bool.false_eq_true, if_false, Option.some.injEq] at hm; exact hm.symm
      · simp [CompPhase.read] at hm
    | data2 id m1 md1 hc =>
      have := ih hi
      rw [hc] at this
      refine ⟨fun hid md hm => ?_, this.2⟩
      cases i
      · exact this.1 hid md hm
      · simp only [CompPhase.read, if_true, Option.some.injEq] at hm; exact hm.symm
    | scan1 id m1 md1 m2 md2 x todo acc hc => have := ih hi; rw [hc] at this; exact this
    | next id m1 md1 m2 md2 acc hc => have := ih hi; rw [hc] at this; exact this
    | scan2 id m1 md1 m2 md2 only1 x todo acc hc => have := ih hi; rw [hc] at this; exact this
    | publish id m1 md1 m2 md2 only1 only2 clock hc =>
      have := ih hi
      rw [hc] at this
      refine ⟨fun h => by simp [CompPhase.id] at h, fun _ => ?_⟩
      by_cases hij : i = id
      · subst hij
        right
        simp only [setAt_same]
        have h1 := this.1 rfl _ rfl
        cases i <;> simp only [Bool.false_eq_true, if_false, if_true] at h1 ⊢ <;> rw [h1] <;> rfl
      · simp only [setAt_ne _ _ hij]
        exact this.2 (by simp only [CompPhase.id, ne_eq, Option.some.injEq]; exact fun h => hij h.symm)

/-- No entry belongs to both sources. -/
theorem reach_apart {work : Work} (hw : Sound work) (hl : Local work) {startedAt : Int} {thresholds : List Int} {path : Bool → Str} {s : MonSys} (h : MonSys.Reach work startedAt thresholds path s) :
    ∀ i j, i ≠ j → ∀ r ∈ owns (s.src i), r ∉ owns (s.src j) := by
  induction h with
  | start => intro i j _ r hr; exact absurd hr (by simp [owns, MonSys.start, MonSrc.new])
  | @step s s' hr hs ih =>
    have hin := reach_inside hw hr
    have hlt : ∀ i, ∀ r ∈ owns (s.src i), r < s.heap.length := by
      intro i r hr
      rcases List.mem_append.1 hr with hr | hr
      · obtain ⟨x, hx, rfl⟩ := List.mem_map.1 hr; exact (hin.vrps i).inside x hx
      · obtain ⟨x, hx, rfl⟩ := List.mem_map.1 hr; exact (hin.rtr i).inside x hx
    cases hs with
    | work k hp h' c' hx =>
      intro i j hij r hri hrj
      by_cases hik : i = k
      · subst hik
        simp only [setAt_same] at hri
        simp only [setAt_ne _ _ hij.symm] at hrj
        exact ih i j hij r (hl.own hx (hin.vrps i) r hri (hlt j r hrj)) hrj
      · simp only [setAt_ne _ _ hik] at hri
        by_cases hjk : j = k
        · subst hjk
          simp only [setAt_same] at hrj
          exact ih i j hij r hri (hl.own hx (hin.vrps j) r hrj (hlt i r hri))
        · simp only [setAt_ne _ _ hjk] at hrj
          exact ih i j hij r hri hrj
    | _ => exact ih

end StayRTR
