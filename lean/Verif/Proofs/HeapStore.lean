import Verif.Proofs.Heap

/-!
# The diffs and the store on shared memory

Every function of Model/Heap.lean computes what its counterpart on values does (Model/SD.lean, Model/Store.lean), whatever others do meanwhile.
-/

namespace StayRTR

open HProg

theorem newSlice_sat {n : Ref} {F W : Set Ref} {h : Heap} (hc : Cells F W h) (hn : n ≤ h.next) :
    Sat newSlice F W h (fun s F' W' h' => F = F' ∧ W' = insert s.arr W ∧ s.arr ∉ F ∪ W ∧ Rely (F ∪ W) h h' ∧ Cells F W' h' ∧ IsDst n F W' h' s []) := by
  intro h1 hr1
  have hc1 := hc.rely hr1
  refine sat_ret fun h2 hr2 => ⟨rfl, rfl, hc1.fresh, ?_, (hc1.alloc _).rely hr2, .inl rfl, hn.trans hr1.next, [], ?_, rfl, .nil⟩
  · exact (hr1.trans (rely_alloc _ hc1.fresh)).trans (hr2.mono (by rintro x (hx | hx); exacts [.inl hx, .inr (.inr hx)]))
  · rw [hr2.cell _ (.inr (.inl rfl)), Heap.alloc_cell]

theorem appendTo_sat {n : Ref} {F W : Set Ref} {h : Heap} {d : Slice} {vals : List SD} {x : Ref} {v : SD} (hc : Cells F W h) (hd : IsDst n F W h d vals) (hx : IsSD (Above n F) h x v) :
    Sat (appendTo d x) F W h (fun d' F' W' h' => d'.arr = d.arr ∧ Later {d.arr} F W h F' W' h' ∧ IsDst n F' W' h' d' (vals ++ [v])) := by
  obtain ⟨l, hl, hlen, hall⟩ := hd.elems
  refine ⟨.inr hd.mem, fun h1 hr1 => ?_⟩
  rw [hr1.cell _ (.inr hd.mem), hl]
  refine ⟨hd.mem, fun h2 hr2 => ?_⟩
  have e12 := hr1.trans hr2
  have hn : d.arr ∉ F := fun hm => hc.apart _ hm hd.mem
  refine sat_ret fun h3 hr3 => ⟨rfl, ⟨rfl, Set.Subset.rfl, ?_, ?_⟩, hd.mem, hd.above, l ++ [x], ?_, ?_, ?_⟩
  · refine ((e12.mono Set.sdiff_subset).trans (rely_set _ ?_)).trans (hr3.mono Set.sdiff_subset)
    exact fun hm => hm.2 rfl
  · exact (hc.rely e12).rely (M := ∅) ⟨hr3.next, fun _ h => (nomatch h)⟩
  · rw [hr3.cell _ (.inr hd.mem), Heap.set_cell, hlen, List.take_length]
  · rw [List.length_append, hlen]; rfl
  · have e : Rely (Above n F) h h3 := ((e12.mono fun r hr => .inl hr.1).trans (rely_set _ fun hm => hn hm.1)).trans (hr3.mono fun r hr => .inl hr.1)
    exact List.rel_append (hall.imp fun _ _ h => h.mono Set.Subset.rfl e) (.cons (hx.mono Set.Subset.rfl e) .nil)

theorem forall₂_get {α β : Type} {R : α → β → Prop} {pre post : List β} {v : β} : ∀ {l : List α}, List.Forall₂ R l (pre ++ v :: post) → ∃ x, l[pre.length]? = some x ∧ R x v := by
  induction pre with
  | nil =>
    intro l h
    cases h with
    | cons h _ => exact ⟨_, rfl, h⟩
  | cons y pre ih =>
    intro l h
    cases h with
    | cons _ h =>
      obtain ⟨x, h1, h2⟩ := ih h
      exact ⟨x, by simpa using h1, h2⟩

/-- Loops: `I done b` holds after the elements `done`. -/
theorem range_sat {β : Type} {G F W D : Set Ref} {h : Heap} {s : Slice} {vals : List SD} {f : β → Ref → HProg β} {b : β} (I : List SD → β → Set Ref → Heap → Prop) (hc : Cells F W h) (hD : D ⊆ W) (hG : G ⊆ F)
    (hs : IsSlice G h s vals) (hI : I [] b F h) (hst : ∀ {done b F h h'}, I done b F h → Rely (F ∪ W) h h' → I done b F h')
    (hf : ∀ {pre v post b F1 h1 r}, vals = pre ++ v :: post → F ⊆ F1 → h.next ≤ h1.next → Cells F1 W h1 → IsSD G h1 r v → Rely ((F ∪ W) \ D) h h1 → I pre b F1 h1 →
      Sat (f b r) F1 W h1 (fun b' F' W' h' => Later D F1 W h1 F' W' h' ∧ I (pre ++ [v]) b' F' h')) :
    Sat (rangeOver s b f) F W h (fun b' F' W' h' => Later D F W h F' W' h' ∧ I vals b' F' h') := by
  have key : ∀ post pre (b : β) F1 h1, vals = pre ++ post → Later D F W h F1 W h1 → I pre b F1 h1 →
      Sat (rangeFrom s f pre.length post.length b) F1 W h1 (fun b' F' W' h' => Later D F W h F' W' h' ∧ I vals b' F' h') := by
    intro post
    induction post with
    | nil =>
      intro pre b F1 h1 hv hl hi
      rw [List.append_nil] at hv
      subst hv
      exact sat_ret fun h2 hr2 => ⟨hl.trans (.of_rely hl.cells hr2), hst hi hr2⟩
    | cons v post ih =>
      intro pre b F1 h1 hv hl hi
      have hGF : G ⊆ F1 := hG.trans hl.fixed
      refine ⟨.inl (hGF hs.mem), fun h2 hr2 => ?_⟩
      have l2 := hl.trans (.of_rely hl.cells hr2)
      have hs2 : IsSlice G h2 s vals := hs.mono Set.Subset.rfl ((l2.rely hc hD).mono hG)
      obtain ⟨l, e1, e2, e3⟩ := hs2.elems
      rw [e1]
      rw [hv] at e3
      obtain ⟨x, hx, hxv⟩ := forall₂_get e3
      have hget : l.getD pre.length 0 = x := by
        have hlt : pre.length < s.len := by rw [hs.len, hv, List.length_append, List.length_cons]; omega
        rw [List.getElem?_take_of_lt hlt] at hx
        rw [List.getD_eq_getElem?_getD, hx]; rfl
      show Sat ((f b (l.getD pre.length 0)).bind fun b' => rangeFrom s f (pre.length + 1) post.length b') F1 W h2 _
      rw [hget]
      refine Sat.bind (hf hv l2.fixed l2.same.next l2.cells hxv l2.same (hst hi hr2)) ?_
      rintro b' F3 W3 h3 ⟨l3, i3⟩
      obtain rfl := l3.own
      have := ih (pre ++ [v]) b' F3 h3 (by rw [hv, List.append_assoc]; rfl) (l2.trans l3) i3
      rwa [List.length_append] at this
  have := key vals [] b F h rfl (.of_rely hc (.refl _ _)) hI
  rw [rangeOver, hs.len]
  exact this

theorem convertH_sat {F W : Set Ref} {h : Heap} {s : Slice} {vals : List SD} (hc : Cells F W h) (hs : IsSlice F h s vals) :
    Sat (convertH s) F W h (fun m F' W' h' => convertSDListToMap vals = m ∧ Later ∅ F W h F' W' h') := by
  refine Sat.imp (range_sat (D := ∅) (fun done m _ _ => convertSDListToMap done = m) hc (Set.empty_subset _) Set.Subset.rfl hs rfl (fun hi _ => hi) ?_) fun _ _ _ _ h => h.symm
  intro pre v post m F1 h1 r hv hF hn hc1 hr hrel hi
  refine Sat.bind (readSD_sat hr (hF.trans Set.subset_union_left)) ?_
  rintro _ _ _ h2 ⟨rfl, rfl, rfl, hr2⟩
  refine sat_ret fun h3 hr3 => ⟨.of_rely hc1 (hr2.trans hr3), ?_⟩
  rw [← hi]
  unfold convertSDListToMap
  rw [List.foldl_append]
  rfl

/-- The invariant of the loops that fill a slice. -/
theorem dst_stable {n : Ref} {F W : Set Ref} {h h' : Heap} {d : Slice} {vals : List SD} (hd : IsDst n F W h d vals) (hr : Rely (F ∪ W) h h') : IsDst n F W h' d vals :=
  hd.mono Set.Subset.rfl hd.mem (hr.mono (by rintro x (rfl | hx); exacts [.inr hd.mem, .inl hx]))

theorem dst_later {n : Ref} {F W F' W' : Set Ref} {h h' : Heap} {d : Slice} {vals : List SD} (hd : IsDst n F W h d vals) (hl : Later ∅ F W h F' W' h') : IsDst n F' W' h' d vals :=
  hd.mono hl.fixed (hl.own ▸ hd.mem) (hl.whole.mono (by rintro x (rfl | hx); exacts [.inr hd.mem, .inl hx]))

theorem computeLoop_sat {n : Ref} {F W : Set Ref} {h : Heap} {s d : Slice} {vals : List SD} {m : FlagMap} {f : U8} (hc : Cells F W h) (hn : n ≤ h.next) (hs : IsSlice F h s vals) (hd : IsDst n F W h d []) :
    Sat (computeLoop s m f d) F W h (fun d' F' W' h' => Later {d.arr} F W h F' W' h' ∧ d'.arr = d.arr ∧ IsDst n F' W h' d' ((vals.filter fun x => (m x.hashKey).isNone).map (SD.withFlag f))) := by
  refine range_sat (D := {d.arr}) (fun done d' F' h' => d'.arr = d.arr ∧ IsDst n F' W h' d' ((done.filter fun x => (m x.hashKey).isNone).map (SD.withFlag f))) hc (by rintro x rfl; exact hd.mem) Set.Subset.rfl hs
    ⟨rfl, hd⟩ (by rintro _ _ _ _ _ ⟨q, hi⟩ hr; exact ⟨q, dst_stable hi hr⟩) ?_
  intro pre v post d1 F1 h1 r hv hF hn1 hc1 hr hrel ⟨ha, hi⟩
  refine Sat.bind (readSD_sat hr (hF.trans Set.subset_union_left)) ?_
  rintro _ _ _ h2 ⟨rfl, rfl, rfl, hr2⟩
  have hr2' : IsSD F1 h2 r v := hr.mono hF (hr2.mono (hF.trans Set.subset_union_left))
  split
  · rename_i hnone
    refine copyFlag_sat (n := n) (hc1.rely hr2) (hn.trans (hn1.trans hr2.next)) hr2' ?_
    intro a F3 h3 l3 hv3
    refine Sat.imp (appendTo_sat l3.cells (dst_later (dst_stable hi hr2) l3) hv3) ?_
    rintro d4 F4 W4 h4 ⟨e4, l4, i4⟩
    have l24 := ((Later.of_rely (D := {d1.arr}) hc1 hr2).trans (l3.wider (Set.empty_subset _))).trans l4
    rw [ha] at l24
    refine ⟨l24, e4.trans ha, ?_⟩
    obtain rfl := l4.own
    rw [List.filter_append, List.map_append, List.filter_cons, if_pos hnone]
    exact i4
  · rename_i hnone
    refine sat_ret fun h3 hr3 => ⟨.of_rely hc1 (hr2.trans hr3), ha, ?_⟩
    rw [List.filter_append, List.map_append, List.filter_cons, if_neg hnone]
    simpa using dst_stable hi (hr2.trans hr3)

theorem applyLoop_sat {n : Ref} {F W : Set Ref} {h : Heap} {s d : Slice} {vals base : List SD} {keep : SD → Bool} (hc : Cells F W h) (hn : n ≤ h.next) (hs : IsSlice F h s vals) (hd : IsDst n F W h d base) :
    Sat (applyLoop s keep d) F W h (fun d' F' W' h' => Later {d.arr} F W h F' W' h' ∧ d'.arr = d.arr ∧ IsDst n F' W h' d' (base ++ vals.filter keep)) := by
  refine range_sat (D := {d.arr}) (fun done d' F' h' => d'.arr = d.arr ∧ IsDst n F' W h' d' (base ++ done.filter keep)) hc (by rintro x rfl; exact hd.mem) Set.Subset.rfl hs
    ⟨rfl, by simpa using hd⟩ (by rintro _ _ _ _ _ ⟨q, hi⟩ hr; exact ⟨q, dst_stable hi hr⟩) ?_
  intro pre v post d1 F1 h1 r hv hF hn1 hc1 hr hrel ⟨ha, hi⟩
  refine Sat.bind (readSD_sat hr (hF.trans Set.subset_union_left)) ?_
  rintro _ _ _ h2 ⟨rfl, rfl, rfl, hr2⟩
  have hr2' : IsSD F1 h2 r v := hr.mono hF (hr2.mono (hF.trans Set.subset_union_left))
  split
  · rename_i hk
    refine Sat.bind (copySD_sat (n := n) (hc1.rely hr2) (hn.trans (hn1.trans hr2.next)) hr2') ?_
    rintro a F3 W3 h3 ⟨l3, hv3⟩
    obtain rfl := l3.own
    refine Sat.imp (appendTo_sat l3.cells (dst_later (dst_stable hi hr2) l3) hv3) ?_
    rintro d4 F4 W4 h4 ⟨e4, l4, i4⟩
    have l24 := ((Later.of_rely (D := {d1.arr}) hc1 hr2).trans (l3.wider (Set.empty_subset _))).trans l4
    rw [ha] at l24
    refine ⟨l24, e4.trans ha, ?_⟩
    obtain rfl := l4.own
    rw [List.filter_append, List.filter_cons, if_pos hk, ← List.append_assoc]
    exact i4
  · rename_i hk
    refine sat_ret fun h3 hr3 => ⟨.of_rely hc1 (hr2.trans hr3), ha, ?_⟩
    rw [List.filter_append, List.filter_cons, if_neg hk]
    simpa using dst_stable hi (hr2.trans hr3)

/-- A goroutine without own cells, later on. -/
structure Grown (F : Set Ref) (h : Heap) (F' W' : Set Ref) (h' : Heap) : Prop where
  own : W' = ∅
  fixed : F ⊆ F'
  same : Rely F h h'
  cells : Cells F' W' h'

theorem Grown.trans {F F1 W1 F2 W2 : Set Ref} {h h1 h2 : Heap} (a : Grown F h F1 W1 h1) (b : Grown F1 h1 F2 W2 h2) : Grown F h F2 W2 h2 := ⟨b.own, a.fixed.trans b.fixed, a.same.trans (b.same.mono a.fixed), b.cells⟩

/-- The destination is done: its array becomes fixed. -/
theorem freeze_dst {n : Ref} {F W F' : Set Ref} {h h' : Heap} {d : Slice} {vals : List SD} (hF : F ⊆ F') (hr : Rely F h h') (hc : Cells F' W h') (hd : IsDst n F' W h' d vals) :
    F ⊆ insert d.arr F' ∧ W \ {d.arr} ⊆ W ∧ insert d.arr F' ∪ W \ {d.arr} ⊆ F' ∪ W ∧ Cells (insert d.arr F') (W \ {d.arr}) h' ∧ IsSlice (Above n (insert d.arr F')) h' d vals := by
  refine ⟨hF.trans (Set.subset_insert _ _), Set.sdiff_subset, ?_, hc.freeze hd.mem, hd.slice⟩
  rintro x ((rfl | hx) | hx)
  exacts [.inr hd.mem, .inl hx, .inr hx.1]

theorem applyDiffH_sat {n : Ref} {F : Set Ref} {h : Heap} {diff prev : Slice} {dv pv : List SD} (hc : Cells F ∅ h) (hn : n ≤ h.next) (hd : IsSlice F h diff dv) (hp : IsSlice F h prev pv) :
    Sat (applyDiffH diff prev) F ∅ h (fun s F' W' h' => Grown F h F' W' h' ∧ IsSlice (Above n F') h' s (applyDiff dv pv)) := by
  refine Sat.bind (newSlice_sat (n := n) hc hn) ?_
  rintro d F1 W1 h1 ⟨rfl, rfl, hd1, hr1, hc1, i1⟩
  rw [Set.union_empty] at hr1
  refine Sat.bind (convertH_sat hc1 (hd.mono Set.Subset.rfl hr1)) ?_
  rintro _ F2 W2 h2 ⟨rfl, l2⟩
  obtain rfl := l2.own
  have hr2 : Rely F h h2 := hr1.trans (l2.whole.mono Set.subset_union_left)
  refine Sat.bind (convertH_sat l2.cells (hp.mono l2.fixed hr2)) ?_
  rintro _ F3 W3 h3 ⟨rfl, l3⟩
  obtain rfl := l3.own
  have hr3 : Rely F h h3 := hr2.trans (l3.whole.mono (l2.fixed.trans Set.subset_union_left))
  have hF3 := l2.fixed.trans l3.fixed
  refine Sat.bind (applyLoop_sat (n := n) l3.cells (hn.trans hr3.next) (hp.mono hF3 hr3) (dst_later (dst_later i1 l2) l3)) ?_
  rintro d4 F4 W4 h4 ⟨l4, e4, i4⟩
  obtain rfl := l4.own
  have hr4 : Rely F h h4 := hr3.trans ((l4.rely l3.cells (by rintro x rfl; exact .inl rfl)).mono hF3)
  have hF4 := hF3.trans l4.fixed
  refine Sat.change (applyLoop_sat (n := n) l4.cells (hn.trans hr4.next) (hd.mono hF4 hr4) i4) ?_
  rintro d5 F5 W5 h5 ⟨l5, e5, i5⟩
  obtain rfl := l5.own
  have hr5 : Rely F h h5 := hr4.trans ((l5.rely l4.cells (by rintro x rfl; rw [e4]; exact .inl rfl)).mono hF4)
  obtain ⟨f1, f2, f3, f4, f5⟩ := freeze_dst (hF4.trans l5.fixed) hr5 l5.cells i5
  refine ⟨_, _, f2, f3, ⟨?_, f1, hr5, f4⟩, f5⟩
  rw [e5, e4]
  simp

theorem appendAll_sat {n : Ref} {F W : Set Ref} {h : Heap} {d s : Slice} {base vals : List SD} (hc : Cells F W h) (hs : IsSlice (Above n F) h s vals) (hd : IsDst n F W h d base) :
    Sat (appendAll d s) F W h (fun d' F' W' h' => Later {d.arr} F W h F' W' h' ∧ d'.arr = d.arr ∧ IsDst n F' W h' d' (base ++ vals)) := by
  refine range_sat (D := {d.arr}) (fun done d' F' h' => d'.arr = d.arr ∧ IsDst n F' W h' d' (base ++ done)) hc (by rintro x rfl; exact hd.mem) above_sub hs
    ⟨rfl, by simpa using hd⟩ (by rintro _ _ _ _ _ ⟨q, hi⟩ hr; exact ⟨q, dst_stable hi hr⟩) ?_
  intro pre v post d1 F1 h1 r hv hF hn1 hc1 hr hrel ⟨ha, hi⟩
  refine Sat.imp (appendTo_sat hc1 hi (hr.mono (above_mono hF) (.refl _ _))) ?_
  rintro d4 F4 W4 h4 ⟨e4, l4, i4⟩
  rw [ha] at l4
  refine ⟨l4, e4.trans ha, ?_⟩
  obtain rfl := l4.own
  rw [← List.append_assoc]
  exact i4

theorem computeDiffH_sat {n : Ref} {F : Set Ref} {h : Heap} {new prev : Slice} {nv pv : List SD} (hc : Cells F ∅ h) (hn : n ≤ h.next) (hnew : IsSlice F h new nv) (hp : IsSlice F h prev pv) :
    Sat (computeDiffH new prev) F ∅ h (fun d F' W' h' => F ⊆ F' ∧ W' = {d.1.arr} ∧ Rely F h h' ∧ Cells F' W' h' ∧ IsDst n F' W' h' d.1 (computeDiff nv pv false).1 ∧ IsSlice (Above n F') h' d.2 (computeDiff nv pv false).2.1) := by
  refine Sat.bind (newSlice_sat (n := n) hc hn) ?_
  rintro a F1 W1 h1 ⟨rfl, rfl, ha1, hr1, hc1, i1⟩
  rw [Set.union_empty] at hr1
  refine Sat.bind (newSlice_sat (n := n) hc1 (hn.trans hr1.next)) ?_
  rintro b F2 W2 h2 ⟨rfl, rfl, hb2, hr2, hc2, i2⟩
  have hab : a.arr ≠ b.arr := fun he => hb2 (he ▸ .inr (.inl rfl))
  have ia2 : IsDst n F (insert b.arr (insert a.arr ∅)) h2 a [] := i1.mono Set.Subset.rfl (.inr (.inl rfl)) (hr2.mono (by rintro x (rfl | hx); exacts [.inr (.inl rfl), .inl hx]))
  have e2 : Rely F h h2 := hr1.trans (hr2.mono Set.subset_union_left)
  refine Sat.bind (convertH_sat hc2 (hnew.mono Set.Subset.rfl e2)) ?_
  rintro _ F3 W3 h3 ⟨rfl, l3⟩
  obtain rfl := l3.own
  have e3 : Rely F h h3 := e2.trans (l3.whole.mono Set.subset_union_left)
  refine Sat.bind (convertH_sat l3.cells (hp.mono l3.fixed e3)) ?_
  rintro _ F4 W4 h4 ⟨rfl, l4⟩
  obtain rfl := l4.own
  have hF4 := l3.fixed.trans l4.fixed
  have e4 : Rely F h h4 := e3.trans (l4.whole.mono (l3.fixed.trans Set.subset_union_left))
  have ia4 := dst_later (dst_later ia2 l3) l4
  have ib4 := dst_later (dst_later i2 l3) l4
  refine Sat.bind (computeLoop_sat (n := n) (f := flagAdded) l4.cells (hn.trans e4.next) (hnew.mono hF4 e4) ia4) ?_
  rintro a5 F5 W5 h5 ⟨l5, q5, ia5⟩
  obtain rfl := l5.own
  have hF5 := hF4.trans l5.fixed
  have e5 : Rely F h h5 := e4.trans ((l5.rely l4.cells (by rintro x rfl; exact .inr (.inl rfl))).mono hF4)
  have ib5 : IsDst n F5 (insert b.arr (insert a.arr ∅)) h5 b [] := ib4.mono l5.fixed (.inl rfl) (l5.same.mono (by
    rintro x (rfl | hx)
    · exact ⟨.inr (.inl rfl), fun hh => hab (Set.mem_singleton_iff.1 hh).symm⟩
    · exact ⟨.inl hx, by rintro rfl; exact l4.cells.apart _ hx (.inr (.inl rfl))⟩))
  refine Sat.bind (computeLoop_sat (n := n) (f := flagRemoved) l5.cells (hn.trans e5.next) (hp.mono hF5 e5) ib5) ?_
  rintro b6 F6 W6 h6 ⟨l6, q6, ib6⟩
  obtain rfl := l6.own
  have hF6 := hF5.trans l6.fixed
  have e6 : Rely F h h6 := e5.trans ((l6.rely l5.cells (by rintro x rfl; exact .inl rfl)).mono hF5)
  have ia6 : IsDst n F6 (insert b.arr (insert a.arr ∅)) h6 a5 ((nv.filter fun x => (convertSDListToMap pv x.hashKey).isNone).map (SD.withFlag flagAdded)) := ia5.mono l6.fixed (by rw [q5]; exact .inr (.inl rfl)) (l6.same.mono (by
    rintro x (rfl | hx)
    · rw [q5]; exact ⟨.inr (.inr (.inl rfl)), fun hh => hab (Set.mem_singleton_iff.1 hh)⟩
    · exact ⟨.inl hx, by rintro rfl; exact l5.cells.apart _ hx (.inl rfl)⟩))
  intro h7 hr7
  have ia7 := dst_stable ia6 hr7
  have ib7 := dst_stable ib6 hr7
  have e7 : Rely F h h7 := e6.trans (hr7.mono (hF6.trans Set.subset_union_left))
  obtain ⟨f1, f2, f3, f4, f5⟩ := freeze_dst hF6 e7 (l6.cells.rely hr7) ib7
  have hw : (insert b.arr (insert a.arr ∅) : Set Ref) \ {b6.arr} = {a5.arr} := by
    rw [q6, q5, Set.insert_sdiff_of_mem _ (Set.mem_singleton _), Set.sdiff_singleton_eq_self (by rintro (hh | hh); exacts [hab hh.symm, hh])]
    simp
  refine ⟨_, _, f2, f3, f1, hw, e7, f4, ?_, f5⟩
  rw [hw]
  exact ia7.mono (Set.subset_insert _ _) rfl (.refl _ _)

/-- The fields of the server, all of it in cells of `F`, are those of `S`. -/
structure IsStore (F : Set Ref) (h : Heap) (s : RefStore) (S : Store) : Prop where
  list : List.Forall₂ (IsSlice F h) s.listDiff S.listDiff
  current : IsSlice F h s.current S.current
  serial : s.serial = S.serial
  keep : s.keepDiff = S.keepDiff

theorem IsStore.mono {F F' : Set Ref} {h h' : Heap} {s : RefStore} {S : Store} (hv : IsStore F h s S) (hs : F ⊆ F') (hr : Rely F h h') : IsStore F' h' s S :=
  ⟨hv.list.imp fun _ _ h => h.mono hs hr, hv.current.mono hs hr, hv.serial, hv.keep⟩

theorem applyAll_sat {n : Ref} {diff : Slice} {dv : List SD} : ∀ {l : List Slice} {vs : List (List SD)} {F : Set Ref} {h : Heap}, Cells F ∅ h → n ≤ h.next → IsSlice F h diff dv → List.Forall₂ (IsSlice F h) l vs →
    Sat (applyAll diff l) F ∅ h (fun l' F' W' h' => Grown F h F' W' h' ∧ List.Forall₂ (IsSlice (Above n F') h') l' (vs.map (applyDiff dv)))
  | [], _, F, h, hc, _, _, .nil => sat_ret fun h' hr => by
    rw [Set.union_empty] at hr
    exact ⟨⟨rfl, Set.Subset.rfl, hr, hc.rely hr⟩, .nil⟩
  | s :: l, v :: vs, F, h, hc, hn, hd, .cons hs hl => by
    refine Sat.bind (applyDiffH_sat (n := n) hc hn hd hs) ?_
    rintro s1 F1 W1 h1 ⟨g1, i1⟩
    obtain rfl := g1.own
    refine Sat.bind (applyAll_sat (n := n) g1.cells (hn.trans g1.same.next) (hd.mono g1.fixed g1.same) (hl.imp fun _ _ h => h.mono g1.fixed g1.same)) ?_
    rintro l2 F2 W2 h2 ⟨g2, i2⟩
    obtain rfl := g2.own
    refine sat_ret fun h3 hr3 => ?_
    rw [Set.union_empty] at hr3
    refine ⟨(g1.trans g2).trans ⟨rfl, Set.Subset.rfl, hr3, g2.cells.rely hr3⟩, .cons (i1.mono (above_mono g2.fixed) ?_) (i2.imp fun _ _ h => h.mono Set.Subset.rfl (hr3.mono above_sub))⟩
    exact (g2.same.mono above_sub).trans (hr3.mono (above_sub.trans g2.fixed))

theorem forall₂_drop {α β : Type} {R : α → β → Prop} {l : List α} {l' : List β} (h : List.Forall₂ R l l') (k : Nat) : List.Forall₂ R (l.drop k) (l'.drop k) := by
  induction k generalizing l l' with
  | zero => exact h
  | succ k ih =>
    cases h with
    | nil => exact .nil
    | cons _ h => exact ih h

theorem addSDsDiffH_sat {n : Ref} {F : Set Ref} {h : Heap} {diff : Slice} {dv : List SD} {s : RefStore} {S : Store} (hc : Cells F ∅ h) (hn : n ≤ h.next) (hd : IsSlice (Above n F) h diff dv) (hs : IsStore F h s S) :
    Sat (addSDsDiffH diff s) F ∅ h (fun s' F' W' h' => Grown F h F' W' h' ∧ IsStore (Above n F') h' s' (S.addSDsDiff dv)) := by
  have hdF := hd.mono above_sub (.refl _ _)
  refine Sat.bind (applyAll_sat (n := n) hc hn hdF hs.list) ?_
  rintro l1 F1 W1 h1 ⟨g1, i1⟩
  obtain rfl := g1.own
  refine Sat.bind (applyDiffH_sat (n := n) g1.cells (hn.trans g1.same.next) (hdF.mono g1.fixed g1.same) (hs.current.mono g1.fixed g1.same)) ?_
  rintro c2 F2 W2 h2 ⟨g2, i2⟩
  obtain rfl := g2.own
  refine sat_ret fun h3 hr3 => ?_
  rw [Set.union_empty] at hr3
  have g3 := (g1.trans g2).trans ⟨rfl, Set.Subset.rfl, hr3, g2.cells.rely hr3⟩
  have hd3 : IsSlice (Above n F2) h3 diff dv := hd.mono (above_mono g3.fixed) (g3.same.mono above_sub)
  have hl3 : List.Forall₂ (IsSlice (Above n F2) h3) (l1 ++ [⟨diff.arr, 0⟩] ++ [diff]) (S.listDiff.map (applyDiff dv) ++ [[]] ++ [dv]) := by
    refine List.rel_append (List.rel_append (i1.imp fun _ _ h => h.mono (above_mono g2.fixed) ?_) (.cons ?_ .nil)) (.cons hd3 .nil)
    · obtain ⟨l, e1, -, -⟩ := hd3.elems
      exact ⟨hd3.mem, l, e1, Nat.zero_le _, by simp⟩
    · exact (g2.same.mono above_sub).trans (hr3.mono (above_sub.trans g2.fixed))
  refine ⟨g3, ?_, i2.mono Set.Subset.rfl (hr3.mono above_sub), ?_, hs.keep⟩
  · show List.Forall₂ (IsSlice (Above n F2) h3) (if _ then _ else _) (if _ then _ else _)
    rw [hs.keep, hl3.length_eq]
    split
    · exact forall₂_drop hl3 _
    · exact hl3
  · show (if s.current.len > 0 then s.serial + 1 else s.serial) = if S.current.length > 0 then S.serial + 1 else S.serial
    rw [hs.current.len, hs.serial]

/-- What `AddData` leaves. -/
structure AddDone (n : Ref) (F' : Set Ref) (h' : Heap) (nv : List SD) (S : Store) (o : Option RefStore) : Prop where
  none : o = none → (S.addData nv).2 = false ∧ (S.addData nv).1 = S
  some : ∀ s', o = some s' → (S.addData nv).2 = true ∧ IsStore (Above n F') h' s' (S.addData nv).1

theorem addDataH_sat {n : Ref} {F : Set Ref} {h : Heap} {new : Slice} {nv : List SD} {s : RefStore} {S : Store} (hc : Cells F ∅ h) (hn : n ≤ h.next) (hnew : IsSlice F h new nv) (hs : IsStore F h s S) :
    Sat (addDataH new s) F ∅ h (fun o F' W' h' => Grown F h F' W' h' ∧ AddDone n F' h' nv S o) := by
  refine Sat.bind (computeDiffH_sat (n := n) hc hn hnew hs.current) ?_
  rintro ⟨a, b⟩ F1 W1 h1 ⟨hF1, rfl, hr1, hc1, ia, ib⟩
  have key : Sat (appendAll a b) F1 {a.arr} h1 (fun d F' W' h' => Grown F h F' W' h' ∧ IsSlice (Above n F') h' d ((computeDiff nv S.current false).1 ++ (computeDiff nv S.current false).2.1)) := by
    refine Sat.change (appendAll_sat hc1 ib ia) ?_
    rintro d F2 W2 h2 ⟨l2, q2, i2⟩
    obtain rfl := l2.own
    have hr2 : Rely F h h2 := hr1.trans ((l2.rely hc1 Set.Subset.rfl).mono hF1)
    obtain ⟨f1, f2, f3, f4, f5⟩ := freeze_dst (hF1.trans l2.fixed) hr2 l2.cells i2
    exact ⟨_, _, f2, f3, ⟨by rw [q2]; simp, f1, hr2, f4⟩, f5⟩
  refine Sat.bind key ?_
  rintro d F2 W2 h2 ⟨g2, i2⟩
  obtain rfl := g2.own
  have hl := i2.len
  split
  · rename_i h0
    rw [h0] at hl
    refine sat_ret fun h3 hr3 => ?_
    rw [Set.union_empty] at hr3
    have e : S.addData nv = (S, false) := by unfold Store.addData; exact if_pos hl.symm
    exact ⟨g2.trans ⟨rfl, Set.Subset.rfl, hr3, g2.cells.rely hr3⟩, fun _ => by rw [e]; exact ⟨rfl, rfl⟩, fun _ he => (nomatch he)⟩
  · rename_i h0
    have e : S.addData nv = (S.addSDsDiff ((computeDiff nv S.current false).1 ++ (computeDiff nv S.current false).2.1), true) := by unfold Store.addData; exact if_neg fun hh => h0 (hl.trans hh)
    refine Sat.bind (addSDsDiffH_sat (n := n) g2.cells (hn.trans g2.same.next) i2 (hs.mono g2.fixed g2.same)) ?_
    rintro s3 F3 W3 h3 ⟨g3, i3⟩
    obtain rfl := g3.own
    refine sat_ret fun h4 hr4 => ?_
    rw [Set.union_empty] at hr4
    refine ⟨(g2.trans g3).trans ⟨rfl, Set.Subset.rfl, hr4, g3.cells.rely hr4⟩, fun he => (nomatch he), fun s' he => ?_⟩
    cases he
    rw [e]
    exact ⟨rfl, i3.mono Set.Subset.rfl (hr4.mono above_sub)⟩

theorem allocBytes_sat {n : Ref} {F W : Set Ref} {h : Heap} (b : Bytes) (hc : Cells F W h) (hn : n ≤ h.next) :
    Sat (.alloc (.bytes b) .ret) F W h (fun a F' W' h' => Later ∅ F W h F' W' h' ∧ a ∈ Above n F' ∧ h'.cell a = .bytes b) := by
  intro h1 hr1 h2 hr2
  have hc1 := hc.rely hr1
  refine ⟨insert h1.next F, W, Set.subset_insert _ _, frozen_sub, .frozen Set.Subset.rfl hc1.fresh ?_ ((hc1.alloc _).rely hr2), ⟨.inl rfl, hn.trans hr1.next⟩, ?_⟩
  · exact (hr1.trans (rely_alloc _ hc1.fresh)).trans (hr2.mono (by rintro x (hx | hx); exacts [.inl hx, .inr (.inr hx)]))
  · rw [hr2.cell _ (.inr (.inl rfl)), Heap.alloc_cell]

theorem allocRec_sat {n : Ref} {F W : Set Ref} {h : Heap} (r : HRec) (hc : Cells F W h) (hn : n ≤ h.next) :
    Sat (.alloc (.record r) .ret) F W h (fun a F' W' h' => Later ∅ F W h F' W' h' ∧ a ∈ Above n F' ∧ h'.cell a = .record r) := by
  intro h1 hr1 h2 hr2
  have hc1 := hc.rely hr1
  refine ⟨insert h1.next F, W, Set.subset_insert _ _, frozen_sub, .frozen Set.Subset.rfl hc1.fresh ?_ ((hc1.alloc _).rely hr2), ⟨.inl rfl, hn.trans hr1.next⟩, ?_⟩
  · exact (hr1.trans (rely_alloc _ hc1.fresh)).trans (hr2.mono (by rintro x (hx | hx); exacts [.inl hx, .inr (.inr hx)]))
  · rw [hr2.cell _ (.inr (.inl rfl)), Heap.alloc_cell]

theorem allocSD_sat {n : Ref} {F W : Set Ref} {h : Heap} (v : SD) (hc : Cells F W h) (hn : n ≤ h.next) :
    Sat (allocSD v) F W h (fun a F' W' h' => Later ∅ F W h F' W' h' ∧ IsSD (Above n F') h' a v) := by
  cases v with
  | vrp v => exact Sat.imp (allocRec_sat (n := n) _ hc hn) fun a F' W' h' hh => ⟨hh.1, .vrp hh.2.1 hh.2.2⟩
  | brk k =>
    refine Sat.bind (allocBytes_sat (n := n) k.pubkey hc hn) ?_
    rintro p F1 W1 h1 ⟨l1, hp, hpc⟩
    refine Sat.bind (allocBytes_sat (n := n) k.ski l1.cells (hn.trans l1.whole.next)) ?_
    rintro s F2 W2 h2 ⟨l2, hs, hsc⟩
    refine Sat.imp (allocRec_sat (n := n) _ l2.cells (hn.trans (l1.whole.next.trans l2.whole.next))) ?_
    rintro a F3 W3 h3 ⟨l3, ha, hac⟩
    refine ⟨(l1.trans l2).trans l3, .brk ha hac (above_mono (l2.fixed.trans l3.fixed) hp) ?_ (above_mono l3.fixed hs) ?_⟩
    · rw [l3.whole.cell _ (.inl (l2.fixed hp.1)), l2.whole.cell _ (.inl hp.1), hpc]
    · rw [l3.whole.cell _ (.inl hs.1), hsc]

theorem buildSlice_sat {n : Ref} {W : Set Ref} {arr : Ref} (harr : arr ∈ W) : ∀ {l base : List SD} {F : Set Ref} {h : Heap} {d : Slice}, d.arr = arr → Cells F W h → n ≤ h.next → IsDst n F W h d base →
    Sat (buildSlice l d) F W h (fun d' F' W' h' => d'.arr = arr ∧ Later {arr} F W h F' W' h' ∧ IsDst n F' W h' d' (base ++ l))
  | [], base, F, h, d, ha, hc, _, hd => sat_ret fun h' hr => ⟨ha, .of_rely hc hr, by rw [List.append_nil]; exact dst_stable hd hr⟩
  | v :: l, base, F, h, d, ha, hc, hn, hd => by
    refine Sat.bind (allocSD_sat (n := n) v hc hn) ?_
    rintro r F1 W1 h1 ⟨l1, i1⟩
    obtain rfl := l1.own
    refine Sat.bind (appendTo_sat l1.cells (dst_later hd l1) i1) ?_
    rintro d2 F2 W2 h2 ⟨e2, l2, i2⟩
    obtain rfl := l2.own
    rw [ha] at l2 e2
    refine Sat.imp (buildSlice_sat harr e2 l2.cells (hn.trans (l1.whole.next.trans l2.same.next)) i2) ?_
    rintro d3 F3 W3 h3 ⟨e3, l3, i3⟩
    refine ⟨e3, ((l1.wider (Set.empty_subset _)).trans l2).trans l3, ?_⟩
    rw [List.append_assoc] at i3
    exact i3

theorem updateH_sat {F : Set Ref} {h : Heap} {s : RefStore} {S : Store} (new : List SD) (hc : Cells F ∅ h) (hs : IsStore F h s S) :
    Sat (updateH new s) F ∅ h (fun o F' W' h' => Grown F h F' W' h' ∧ AddDone 0 F' h' new S o) := by
  refine Sat.bind (newSlice_sat (n := 0) hc (Nat.zero_le _)) ?_
  rintro d F1 W1 h1 ⟨rfl, rfl, hd1, hr1, hc1, i1⟩
  rw [Set.union_empty] at hr1
  have key : Sat (buildSlice new d) F (insert d.arr ∅) h1 (fun d' F' W' h' => Grown F h F' W' h' ∧ IsSlice F' h' d' new) := by
    refine Sat.change (buildSlice_sat (n := 0) (.inl rfl) rfl hc1 (Nat.zero_le _) i1) ?_
    rintro d2 F2 W2 h2 ⟨e2, l2, i2⟩
    obtain rfl := l2.own
    have hr2 : Rely F h h2 := hr1.trans (l2.rely hc1 (by rintro x rfl; exact .inl rfl))
    obtain ⟨f1, f2, f3, f4, f5⟩ := freeze_dst l2.fixed hr2 l2.cells i2
    exact ⟨_, _, f2, f3, ⟨by rw [e2]; simp, f1, hr2, f4⟩, f5.mono above_sub (.refl _ _)⟩
  refine Sat.bind key ?_
  rintro d2 F2 W2 h2 ⟨g2, i2⟩
  obtain rfl := g2.own
  refine Sat.imp (addDataH_sat (n := 0) g2.cells (Nat.zero_le _) i2 (hs.mono g2.fixed g2.same)) ?_
  rintro o F3 W3 h3 ⟨g3, i3⟩
  exact ⟨g2.trans g3, i3⟩

theorem sendH_sat {F : Set Ref} {h : Heap} {s : Slice} {vals : List SD} (hc : Cells F ∅ h) (hs : IsSlice F h s vals) : Sat (sendH s) F ∅ h (fun out _ _ _ => out = vals) := by
  refine Sat.imp (range_sat (D := ∅) (fun done out _ _ => out = done) hc Set.Subset.rfl Set.Subset.rfl hs rfl (fun hi _ => hi) ?_) fun _ _ _ _ h => h.2
  rintro pre v post _ F1 h1 r hv hF hn hc1 hr hrel rfl
  refine Sat.bind (copySD_sat (n := 0) hc1 (Nat.zero_le _) (hr.mono hF (.refl _ _))) ?_
  rintro c F2 W2 h2 ⟨l2, i2⟩
  obtain rfl := l2.own
  refine Sat.bind (readSD_sat i2 (above_sub.trans Set.subset_union_left)) ?_
  rintro _ _ _ h3 ⟨rfl, rfl, rfl, hr3⟩
  exact sat_ret fun h4 hr4 => ⟨l2.trans (.of_rely l2.cells (hr3.trans hr4)), rfl⟩

end StayRTR
