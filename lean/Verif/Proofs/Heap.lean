import Verif.Model.Heap
import Mathlib.Data.Set.Basic
import Mathlib.Data.Set.Insert
import Mathlib.Order.BooleanAlgebra.Set
import Mathlib.Data.List.Forall2

/-!
# A logic for programs on shared memory

`Sat p F W h Q`: program `p`, started in memory `h` with the fixed cells `F` (it may read them, nobody changes them) and its own cells `W` (it may read and write them, nobody else touches them), reads and writes only what it may,
whatever others do to the other cells between its steps, and when it ends with `a`, then `Q a` holds of its cells and memory. Cells allocated are its own; at the end own cells may become fixed.
-/

namespace StayRTR

/-- What others may do: allocate, and change other cells than `M`. -/
structure Rely (M : Set Ref) (h h' : Heap) : Prop where
  next : h.next ≤ h'.next
  cell : ∀ r ∈ M, h'.cell r = h.cell r

theorem Rely.refl (M : Set Ref) (h : Heap) : Rely M h h := ⟨Nat.le_refl _, fun _ _ => rfl⟩
theorem Rely.trans {M : Set Ref} {a b c : Heap} (h1 : Rely M a b) (h2 : Rely M b c) : Rely M a c := ⟨h1.next.trans h2.next, fun r hr => (h2.cell r hr).trans (h1.cell r hr)⟩
theorem Rely.mono {M N : Set Ref} {a b : Heap} (hs : N ⊆ M) (h : Rely M a b) : Rely N a b := ⟨h.next, fun r hr => h.cell r (hs hr)⟩

namespace HProg

/-- See the beginning of this file. -/
def Sat {α : Type} : HProg α → Set Ref → Set Ref → Heap → (α → Set Ref → Set Ref → Heap → Prop) → Prop
  | ret a, F, W, h, Q => ∀ h', Rely (F ∪ W) h h' → ∃ F' W', W' ⊆ W ∧ F' ∪ W' ⊆ F ∪ W ∧ Q a F' W' h'
  | alloc c k, F, W, h, Q => ∀ h', Rely (F ∪ W) h h' → Sat (k h'.next) F (insert h'.next W) (h'.alloc c) Q
  | read r k, F, W, h, Q => r ∈ F ∪ W ∧ ∀ h', Rely (F ∪ W) h h' → Sat (k (h'.cell r)) F W h' Q
  | write r c k, F, W, h, Q => r ∈ W ∧ ∀ h', Rely (F ∪ W) h h' → Sat k F W (h'.set r c) Q

theorem Sat.rely {α : Type} {p : HProg α} {F W : Set Ref} {h h' : Heap} {Q : α → Set Ref → Set Ref → Heap → Prop} (hs : Sat p F W h Q) (hr : Rely (F ∪ W) h h') : Sat p F W h' Q := by
  cases p with
  | ret a => exact fun h2 h3 => hs h2 (hr.trans h3)
  | alloc c k => exact fun h2 h3 => hs h2 (hr.trans h3)
  | read r k => exact ⟨hs.1, fun h2 h3 => hs.2 h2 (hr.trans h3)⟩
  | write r c k => exact ⟨hs.1, fun h2 h3 => hs.2 h2 (hr.trans h3)⟩

theorem Sat.more {α : Type} {p : HProg α} {Q : α → Set Ref → Set Ref → Heap → Prop} : ∀ {F W F' W' : Set Ref} {h : Heap}, Sat p F W h Q → W ⊆ W' → F ∪ W ⊆ F' ∪ W' → Sat p F' W' h Q := by
  induction p with
  | ret a =>
    intro F W F' W' h hs hw hm h' hr
    obtain ⟨F2, W2, h1, h2, h3⟩ := hs h' (hr.mono hm)
    exact ⟨F2, W2, h1.trans hw, h2.trans hm, h3⟩
  | alloc c k ih =>
    intro F W F' W' h hs hw hm h' hr
    refine ih _ (hs h' (hr.mono hm)) (Set.insert_subset_insert hw) ?_
    rintro r (hr | rfl | hr)
    · exact (hm (.inl hr)).imp id .inr
    · exact .inr (.inl rfl)
    · exact (hm (.inr hr)).imp id .inr
  | read r k ih =>
    intro F W F' W' h hs hw hm
    exact ⟨hm hs.1, fun h' hr => ih _ (hs.2 h' (hr.mono hm)) hw hm⟩
  | write r c k ih =>
    intro F W F' W' h hs hw hm
    exact ⟨hw hs.1, fun h' hr => ih (hs.2 h' (hr.mono hm)) hw hm⟩

theorem Sat.bind {α β : Type} {p : HProg α} {f : α → HProg β} {R : α → Set Ref → Set Ref → Heap → Prop} {Q : β → Set Ref → Set Ref → Heap → Prop} :
    ∀ {F W : Set Ref} {h : Heap}, Sat p F W h R → (∀ a F' W' h', R a F' W' h' → Sat (f a) F' W' h' Q) → Sat (p.bind f) F W h Q := by
  induction p with
  | ret a =>
    intro F W h hs hf
    have key : ∀ h', Rely (F ∪ W) h h' → Sat (f a) F W h' Q := fun h' hr => by
      obtain ⟨F2, W2, h1, h2, h3⟩ := hs h' hr
      exact (hf a F2 W2 h' h3).more h1 h2
    exact key h (.refl _ _)
  | alloc c k ih => intro F W h hs hf; exact fun h' hr => ih _ (hs h' hr) hf
  | read r k ih => intro F W h hs hf; exact ⟨hs.1, fun h' hr => ih _ (hs.2 h' hr) hf⟩
  | write r c k ih => intro F W h hs hf; exact ⟨hs.1, fun h' hr => ih (hs.2 h' hr) hf⟩

theorem Sat.imp {α : Type} {p : HProg α} {R Q : α → Set Ref → Set Ref → Heap → Prop} :
    ∀ {F W : Set Ref} {h : Heap}, Sat p F W h R → (∀ a F' W' h', R a F' W' h' → Q a F' W' h') → Sat p F W h Q := by
  induction p with
  | ret a =>
    intro F W h hs hf h' hr
    obtain ⟨F2, W2, h1, h2, h3⟩ := hs h' hr
    exact ⟨F2, W2, h1, h2, hf _ _ _ _ h3⟩
  | alloc c k ih => intro F W h hs hf; exact fun h' hr => ih _ (hs h' hr) hf
  | read r k ih => intro F W h hs hf; exact ⟨hs.1, fun h' hr => ih _ (hs.2 h' hr) hf⟩
  | write r c k ih => intro F W h hs hf; exact ⟨hs.1, fun h' hr => ih (hs.2 h' hr) hf⟩

theorem bind_eq {α β : Type} (p : HProg α) (f : α → HProg β) : (p >>= f) = p.bind f := rfl

end HProg

open HProg

/-- The cells of a goroutine are in use, and the fixed ones are not its own. -/
structure Cells (F W : Set Ref) (h : Heap) : Prop where
  below : ∀ r ∈ F ∪ W, r < h.next
  apart : ∀ r ∈ F, r ∉ W

theorem Cells.rely {F W M : Set Ref} {h h' : Heap} (hc : Cells F W h) (hr : Rely M h h') : Cells F W h' := ⟨fun r h => (hc.below r h).trans_le hr.next, hc.apart⟩

theorem Cells.alloc {F W : Set Ref} {h : Heap} (hc : Cells F W h) (c : Cell) : Cells F (insert h.next W) (h.alloc c) where
  below r hr := by
    show r < h.next + 1
    rcases hr with hr | rfl | hr
    · exact Nat.lt_succ_of_lt (hc.below r (.inl hr))
    · exact Nat.lt_succ_self _
    · exact Nat.lt_succ_of_lt (hc.below r (.inr hr))
  apart r hr hw := by
    rcases hw with rfl | hw
    · exact Nat.lt_irrefl _ (hc.below _ (.inl hr))
    · exact hc.apart r hr hw

theorem Cells.fresh {F W : Set Ref} {h : Heap} (hc : Cells F W h) : h.next ∉ F ∪ W := fun hm => Nat.lt_irrefl _ (hc.below _ hm)

theorem Cells.freeze {F W : Set Ref} {h : Heap} {r : Ref} (hc : Cells F W h) (hr : r ∈ W) : Cells (insert r F) (W \ {r}) h where
  below x hx := by
    rcases hx with (rfl | hx) | hx
    · exact hc.below _ (.inr hr)
    · exact hc.below x (.inl hx)
    · exact hc.below x (.inr hx.1)
  apart x hx hw := by
    rcases hx with rfl | hx
    · exact hw.2 rfl
    · exact hc.apart x hx hw.1

theorem rely_alloc {M : Set Ref} {h : Heap} (c : Cell) (hn : h.next ∉ M) : Rely M h (h.alloc c) := ⟨Nat.le_succ _, fun r hr => if_neg (fun he : r = h.next => hn (he ▸ hr))⟩
theorem rely_set {M : Set Ref} {h : Heap} {r : Ref} (c : Cell) (hn : r ∉ M) : Rely M h (h.set r c) := ⟨Nat.le_refl _, fun x hx => if_neg (fun he : x = r => hn (he ▸ hx))⟩
theorem Heap.alloc_cell (h : Heap) (c : Cell) : (h.alloc c).cell h.next = c := if_pos rfl
theorem Heap.set_cell (h : Heap) (r : Ref) (c : Cell) : (h.set r c).cell r = c := if_pos rfl

/-- The cells from `n` on. -/
def Above (n : Ref) (F : Set Ref) : Set Ref := {r | r ∈ F ∧ n ≤ r}

theorem above_sub {n : Ref} {F : Set Ref} : Above n F ⊆ F := fun _ h => h.1
theorem above_mono {n : Ref} {F F' : Set Ref} (h : F ⊆ F') : Above n F ⊆ Above n F' := fun _ hr => ⟨h hr.1, hr.2⟩

/-- The record at `r`, all of it in cells of `F`, is `v`. -/
inductive IsSD (F : Set Ref) (h : Heap) (r : Ref) : SD → Prop
  | vrp {v : VRP} (hr : r ∈ F) (hc : h.cell r = .record (.vrp v)) : IsSD F h r (.vrp v)
  | brk {asn : U32} {p s : Ref} {f : U8} {pb sb : Bytes} (hr : r ∈ F) (hc : h.cell r = .record (.brk asn p s f)) (hp : p ∈ F) (hpc : h.cell p = .bytes pb) (hs : s ∈ F) (hsc : h.cell s = .bytes sb) :
      IsSD F h r (.brk ⟨asn, pb, sb, f⟩)

theorem IsSD.mem {F : Set Ref} {h : Heap} {r : Ref} {v : SD} (hv : IsSD F h r v) : r ∈ F := by cases hv <;> assumption

theorem IsSD.mono {F F' : Set Ref} {h h' : Heap} {r : Ref} {v : SD} (hv : IsSD F h r v) (hs : F ⊆ F') (hr : Rely F h h') : IsSD F' h' r v := by
  cases hv with
  | vrp hm hc => exact .vrp (hs hm) ((hr.cell _ hm).trans hc)
  | brk hm hc hp hpc hss hsc => exact .brk (hs hm) ((hr.cell _ hm).trans hc) (hs hp) ((hr.cell _ hp).trans hpc) (hs hss) ((hr.cell _ hss).trans hsc)

/-- The slice, all of it in cells of `F`, has the elements `vals`. -/
structure IsSlice (F : Set Ref) (h : Heap) (s : Slice) (vals : List SD) : Prop where
  mem : s.arr ∈ F
  elems : ∃ l, h.cell s.arr = .refs l ∧ s.len ≤ l.length ∧ List.Forall₂ (IsSD F h) (l.take s.len) vals

theorem IsSlice.mono {F F' : Set Ref} {h h' : Heap} {s : Slice} {vals : List SD} (hv : IsSlice F h s vals) (hs : F ⊆ F') (hr : Rely F h h') : IsSlice F' h' s vals := by
  obtain ⟨l, h1, h2, h3⟩ := hv.elems
  exact ⟨hs hv.mem, l, (hr.cell _ hv.mem).trans h1, h2, h3.imp fun _ _ h => h.mono hs hr⟩

theorem IsSlice.len {F : Set Ref} {h : Heap} {s : Slice} {vals : List SD} (hv : IsSlice F h s vals) : s.len = vals.length := by
  obtain ⟨l, -, h2, h3⟩ := hv.elems
  have := h3.length_eq
  rw [List.length_take, Nat.min_eq_left h2] at this
  exact this

/-- The slice under construction, with its array an own cell and its elements fixed, from `n` on. -/
structure IsDst (n : Ref) (F W : Set Ref) (h : Heap) (s : Slice) (vals : List SD) : Prop where
  mem : s.arr ∈ W
  above : n ≤ s.arr
  elems : ∃ l, h.cell s.arr = .refs l ∧ s.len = l.length ∧ List.Forall₂ (IsSD (Above n F) h) l vals

theorem IsDst.mono {n : Ref} {F F' W W' : Set Ref} {h h' : Heap} {s : Slice} {vals : List SD} (hv : IsDst n F W h s vals) (hs : F ⊆ F') (hm : s.arr ∈ W') (hr : Rely (insert s.arr F) h h') : IsDst n F' W' h' s vals := by
  obtain ⟨l, h1, h2, h3⟩ := hv.elems
  exact ⟨hm, hv.above, l, (hr.cell _ (.inl rfl)).trans h1, h2, h3.imp fun _ _ h => h.mono (above_mono hs) (hr.mono fun x hx => .inr hx.1)⟩

theorem IsDst.slice {n : Ref} {F W : Set Ref} {h : Heap} {s : Slice} {vals : List SD} (hv : IsDst n F W h s vals) : IsSlice (Above n (insert s.arr F)) h s vals := by
  obtain ⟨l, h1, h2, h3⟩ := hv.elems
  refine ⟨⟨.inl rfl, hv.above⟩, l, h1, Nat.le_of_eq h2, ?_⟩
  rw [h2, List.take_length]
  exact h3.imp fun _ _ h => h.mono (above_mono (Set.subset_insert _ _)) (.refl _ _)

/-- The cells of a goroutine later on: the fixed ones are still fixed, its own are the same, and only own cells in `D` have changed. -/
structure Later (D F W : Set Ref) (h : Heap) (F' W' : Set Ref) (h' : Heap) : Prop where
  own : W' = W
  fixed : F ⊆ F'
  same : Rely ((F ∪ W) \ D) h h'
  cells : Cells F' W' h'

theorem Later.of_rely {D F W : Set Ref} {h h' : Heap} (hc : Cells F W h) (hr : Rely (F ∪ W) h h') : Later D F W h F W h' := ⟨rfl, fun _ h => h, hr.mono Set.sdiff_subset, hc.rely hr⟩

theorem Later.trans {D F W F1 W1 F2 W2 : Set Ref} {h h1 h2 : Heap} (a : Later D F W h F1 W1 h1) (b : Later D F1 W1 h1 F2 W2 h2) : Later D F W h F2 W2 h2 where
  own := b.own.trans a.own
  fixed := a.fixed.trans b.fixed
  same := a.same.trans (b.same.mono (Set.sdiff_subset_sdiff_left (by rw [a.own]; exact Set.union_subset_union_left _ a.fixed)))
  cells := b.cells

theorem Later.rely {D F W F1 W1 : Set Ref} {h h1 : Heap} (a : Later D F W h F1 W1 h1) (hc : Cells F W h) (hD : D ⊆ W) : Rely F h h1 := a.same.mono fun r (hr : r ∈ F) => (⟨.inl hr, fun hd => hc.apart r hr (hD hd)⟩ : r ∈ (F ∪ W) \ D)

theorem Later.wider {D D' F W F1 W1 : Set Ref} {h h1 : Heap} (a : Later D F W h F1 W1 h1) (hD : D ⊆ D') : Later D' F W h F1 W1 h1 := ⟨a.own, a.fixed, a.same.mono (Set.sdiff_subset_sdiff_right hD), a.cells⟩

theorem Later.whole {F W F1 W1 : Set Ref} {h h1 : Heap} (a : Later ∅ F W h F1 W1 h1) : Rely (F ∪ W) h h1 := by have := a.same; rwa [Set.sdiff_empty] at this

/-! ## Records -/

theorem sat_ret {α : Type} {a : α} {F W : Set Ref} {h : Heap} {Q : α → Set Ref → Set Ref → Heap → Prop} (hq : ∀ h', Rely (F ∪ W) h h' → Q a F W h') : Sat (.ret a) F W h Q :=
  fun h' hr => ⟨F, W, Set.Subset.rfl, Set.Subset.rfl, hq h' hr⟩

theorem readBytes_sat {F W : Set Ref} {h : Heap} {r : Ref} {b : Bytes} (hm : r ∈ F ∪ W) (hb : h.cell r = .bytes b) : Sat (readBytes r) F W h (fun a F' W' h' => b = a ∧ F = F' ∧ W = W' ∧ Rely (F ∪ W) h h') := by
  refine ⟨hm, fun h' hr => ?_⟩
  rw [hr.cell r hm, hb]
  exact sat_ret fun h2 hr2 => ⟨rfl, rfl, rfl, hr.trans hr2⟩

theorem readSD_sat {G F W : Set Ref} {h : Heap} {r : Ref} {v : SD} (hv : IsSD G h r v) (hG : G ⊆ F ∪ W) : Sat (readSD r) F W h (fun a F' W' h' => v = a ∧ F = F' ∧ W = W' ∧ Rely (F ∪ W) h h') := by
  cases hv with
  | vrp hm hc =>
    refine ⟨hG hm, fun h' hr => ?_⟩
    rw [hr.cell r (hG hm), hc]
    exact sat_ret fun h2 hr2 => ⟨rfl, rfl, rfl, hr.trans hr2⟩
  | brk hm hc hp hpc hs hsc =>
    refine ⟨hG hm, fun h' hr => ?_⟩
    rw [hr.cell r (hG hm), hc]
    refine Sat.bind (readBytes_sat (hG hp) ((hr.cell _ (hG hp)).trans hpc)) ?_
    rintro _ _ _ h2 ⟨rfl, rfl, rfl, hr2⟩
    refine Sat.bind (readBytes_sat (hG hs) (((hr.trans hr2).cell _ (hG hs)).trans hsc)) ?_
    rintro _ _ _ h3 ⟨rfl, rfl, rfl, hr3⟩
    exact sat_ret fun h4 hr4 => ⟨rfl, rfl, rfl, ((hr.trans hr2).trans hr3).trans hr4⟩

theorem copyBytes_sat {n : Ref} {F W : Set Ref} {h : Heap} {r : Ref} {b : Bytes} (hc : Cells F W h) (hn : n ≤ h.next) (hm : r ∈ F) (hb : h.cell r = .bytes b) :
    Sat (copyBytes r) F W h (fun a F' W' h' => Later ∅ F W h F' W' h' ∧ a ∈ Above n F' ∧ h'.cell a = .bytes b) := by
  refine Sat.bind (readBytes_sat (.inl hm) hb) ?_
  rintro _ _ _ h1 ⟨rfl, rfl, rfl, hr1⟩
  intro h2 hr2
  have hc2 : Cells F W h2 := hc.rely (hr1.trans hr2)
  have e2 : Rely (F ∪ W) h2 (h2.alloc (.bytes (List.replicate b.length 0))) := rely_alloc _ hc2.fresh
  generalize ha : h2.next = a
  generalize hh : h2.alloc (.bytes (List.replicate b.length 0)) = h3 at e2
  have hc3 : Cells F (insert a W) h3 := by rw [← hh, ← ha]; exact hc2.alloc _
  have hna : a ∉ F ∪ W := ha ▸ hc2.fresh
  show Sat ((readBytes r).bind fun b => .write a (.bytes b) (.ret a)) F (insert a W) h3 _
  refine Sat.bind (readBytes_sat (b := b) (.inl hm) (((hr1.trans hr2).trans e2).cell r (.inl hm) |>.trans hb)) ?_
  rintro _ _ _ h4 ⟨rfl, rfl, rfl, hr4⟩
  refine ⟨.inl rfl, fun h5 hr5 => ?_⟩
  intro h6 hr6
  have e4 : Rely (F ∪ W) h3 h5 := (hr4.trans hr5).mono (by rintro x (hx | hx); exacts [.inl hx, .inr (.inr hx)])
  have e5 : Rely (F ∪ W) h5 (h5.set a (.bytes b)) := rely_set _ hna
  have e6 : Rely (F ∪ W) (h5.set a (.bytes b)) h6 := hr6.mono (by rintro x (hx | hx); exacts [.inl hx, .inr (.inr hx)])
  have hc6 : Cells F (insert a W) h6 := hc3.rely (M := ∅) ⟨((hr4.trans hr5).next.trans (Nat.le_refl _)).trans hr6.next, fun _ h => (nomatch h)⟩
  have hw : insert a W \ {a} = W := by rw [Set.insert_sdiff_of_mem _ (Set.mem_singleton a), Set.sdiff_singleton_eq_self fun h => hna (.inr h)]
  refine ⟨insert a F, W, Set.subset_insert _ _, ?_, ⟨rfl, Set.subset_insert _ _, ?_, ?_⟩, ⟨.inl rfl, ?_⟩, ?_⟩
  · rintro x ((rfl | hx) | hx)
    exacts [.inr (.inl rfl), .inl hx, .inr (.inr hx)]
  · rw [Set.sdiff_empty]
    exact ((((hr1.trans hr2).trans e2).trans e4).trans e5).trans e6
  · have := hc6.freeze (r := a) (.inl rfl)
    rwa [hw] at this
  · rw [← ha]; exact hn.trans (hr1.trans hr2).next
  · rw [hr6.cell a (.inr (.inl rfl)), Heap.set_cell]

theorem copySD_own {n : Ref} {F W : Set Ref} {h : Heap} {r : Ref} {v : SD} (hc : Cells F W h) (hn : n ≤ h.next) (hv : IsSD F h r v) :
    Sat (copySD r) F W h (fun a F' W' h' => F ⊆ F' ∧ W' = insert a W ∧ a ∉ F' ∪ W ∧ n ≤ a ∧ Rely (F ∪ W) h h' ∧ Cells F' W' h' ∧ IsSD (insert a (Above n F')) h' a v) := by
  cases hv with
  | vrp hm hcell =>
    refine ⟨.inl hm, fun h1 hr1 => ?_⟩
    rw [hr1.cell r (.inl hm), hcell]
    intro h2 hr2
    have hc2 : Cells F W h2 := hc.rely (hr1.trans hr2)
    refine sat_ret fun h3 hr3 => ⟨Set.Subset.rfl, rfl, hc2.fresh, hn.trans (hr1.trans hr2).next, ?_, (hc2.alloc _).rely hr3, .vrp (.inl rfl) ?_⟩
    · exact ((hr1.trans hr2).trans (rely_alloc _ hc2.fresh)).trans (hr3.mono (by rintro x (hx | hx); exacts [.inl hx, .inr (.inr hx)]))
    · rw [hr3.cell _ (.inr (.inl rfl)), Heap.alloc_cell]
  | @brk asn p s f pb sb hm hcell hp hpc hs hsc =>
    refine ⟨.inl hm, fun h1 hr1 => ?_⟩
    rw [hr1.cell r (.inl hm), hcell]
    refine Sat.bind (copyBytes_sat (n := n) (b := pb) (hc.rely hr1) (hn.trans hr1.next) hp ((hr1.cell p (.inl hp)).trans hpc)) ?_
    rintro np F2 W2 h2 ⟨l2, hnp, hnpc⟩
    obtain rfl := l2.own
    have hr2 := hr1.trans l2.whole
    refine Sat.bind (copyBytes_sat (n := n) (b := sb) l2.cells (hn.trans hr2.next) (l2.fixed hs) ((hr2.cell s (.inl hs)).trans hsc)) ?_
    rintro ns F3 W3 h3 ⟨l3, hns, hnsc⟩
    obtain rfl := l3.own
    have hr3 := hr2.trans (l3.whole.mono (Set.union_subset_union_left _ l2.fixed))
    intro h4 hr4
    have hc4 : Cells F3 W3 h4 := l3.cells.rely hr4
    have hr34 := hr3.trans (hr4.mono (Set.union_subset_union_left _ (l2.fixed.trans l3.fixed)))
    refine sat_ret fun h5 hr5 => ⟨l2.fixed.trans l3.fixed, rfl, hc4.fresh, hn.trans hr34.next, ?_, (hc4.alloc _).rely hr5, ?_⟩
    · have := (rely_alloc (.record (.brk asn np ns f)) hc4.fresh).trans (hr5.mono (N := F3 ∪ W3) (by rintro x (hx | hx); exacts [.inl hx, .inr (.inr hx)]))
      exact hr34.trans (this.mono (Set.union_subset_union_left _ (l2.fixed.trans l3.fixed)))
    · have e : ∀ x ∈ F3, h5.cell x = h3.cell x := fun x hx => by
        rw [hr5.cell x (.inl hx), ← hr4.cell x (.inl hx)]
        exact if_neg (fun he : x = h4.next => hc4.fresh (he ▸ .inl hx))
      refine .brk (.inl rfl) (by rw [hr5.cell _ (.inr (.inl rfl)), Heap.alloc_cell]) (.inr ⟨l3.fixed hnp.1, hnp.2⟩) ?_ (.inr hns) ?_
      · rw [e _ (l3.fixed hnp.1), l3.whole.cell _ (.inl hnp.1), hnpc]
      · rw [e _ hns.1, hnsc]

/-- Freezing a cell that was allocated meanwhile. -/
theorem Later.frozen {F W F' : Set Ref} {h h' : Heap} {a : Ref} (hF : F ⊆ F') (ha : a ∉ F' ∪ W) (hr : Rely (F ∪ W) h h') (hc : Cells F' (insert a W) h') : Later ∅ F W h (insert a F') W h' where
  own := rfl
  fixed := hF.trans (Set.subset_insert _ _)
  same := by rw [Set.sdiff_empty]; exact hr
  cells := by
    have := hc.freeze (r := a) (.inl rfl)
    rwa [Set.insert_sdiff_of_mem _ (Set.mem_singleton a), Set.sdiff_singleton_eq_self fun h => ha (.inr h)] at this

theorem frozen_sub {F W : Set Ref} {a : Ref} : insert a F ∪ W ⊆ F ∪ insert a W := by
  rintro x ((rfl | hx) | hx)
  exacts [.inr (.inl rfl), .inl hx, .inr (.inr hx)]

/-- Changing the cells at the end. -/
theorem Sat.change {α : Type} {p : HProg α} {R Q : α → Set Ref → Set Ref → Heap → Prop} {F W : Set Ref} {h : Heap} (hs : Sat p F W h R)
    (hf : ∀ a F' W' h', R a F' W' h' → ∃ F2 W2, W2 ⊆ W' ∧ F2 ∪ W2 ⊆ F' ∪ W' ∧ Q a F2 W2 h') : Sat p F W h Q := by
  induction p generalizing F W h with
  | ret a =>
    intro h' hr
    obtain ⟨F1, W1, h1, h2, h3⟩ := hs h' hr
    obtain ⟨F2, W2, h4, h5, h6⟩ := hf _ _ _ _ h3
    exact ⟨F2, W2, h4.trans h1, h5.trans h2, h6⟩
  | alloc c k ih => exact fun h' hr => ih _ (hs h' hr)
  | read r k ih => exact ⟨hs.1, fun h' hr => ih _ (hs.2 h' hr)⟩
  | write r c k ih => exact ⟨hs.1, fun h' hr => ih (hs.2 h' hr)⟩

theorem copySD_sat {n : Ref} {F W : Set Ref} {h : Heap} {r : Ref} {v : SD} (hc : Cells F W h) (hn : n ≤ h.next) (hv : IsSD F h r v) :
    Sat (copySD r) F W h (fun a F' W' h' => Later ∅ F W h F' W' h' ∧ IsSD (Above n F') h' a v) := by
  refine Sat.change (copySD_own hc hn hv) ?_
  rintro a F' W' h' ⟨hF, rfl, ha, hna, hr, hc', hv'⟩
  refine ⟨insert a F', W, Set.subset_insert _ _, frozen_sub, .frozen hF ha hr hc', hv'.mono ?_ (.refl _ _)⟩
  rintro x (rfl | hx)
  exacts [⟨.inl rfl, hna⟩, ⟨.inr hx.1, hx.2⟩]

/-- `Copy` and `SetFlag`. -/
theorem copyFlag_sat {α : Type} {k : Ref → HProg α} {Q : α → Set Ref → Set Ref → Heap → Prop} {n : Ref} {F W : Set Ref} {h : Heap} {r : Ref} {v : SD} {f : U8} (hc : Cells F W h) (hn : n ≤ h.next) (hv : IsSD F h r v)
    (hk : ∀ a F' h', Later ∅ F W h F' W h' → IsSD (Above n F') h' a (v.withFlag f) → Sat (k a) F' W h' Q) :
    Sat ((copySD r).bind fun a => (setFlag a f).bind fun _ => k a) F W h Q := by
  refine Sat.bind (copySD_own hc hn hv) ?_
  rintro a F' W' h' ⟨hF, rfl, ha, hna, hr, hc', hv'⟩
  have key : Sat (setFlag a f) F' (insert a W) h' (fun _ F2 W2 h2 => Later ∅ F W h F2 W2 h2 ∧ W2 = W ∧ IsSD (Above n F2) h2 a (v.withFlag f)) := by
    cases hv' with
    | vrp _ hcell =>
      refine ⟨.inr (.inl rfl), fun h1 hr1 => ?_⟩
      rw [hr1.cell a (.inr (.inl rfl)), hcell]
      refine ⟨.inl rfl, fun h2 hr2 h3 hr3 => ⟨insert a F', W, Set.subset_insert _ _, frozen_sub, ?_, rfl, .vrp ⟨.inl rfl, hna⟩ ?_⟩⟩
      · refine .frozen hF ha (hr.trans ?_) ((hc'.rely (hr1.trans hr2)).rely (M := ∅) ⟨hr3.next, fun _ h => (nomatch h)⟩)
        have e1 := (hr1.trans hr2).mono (N := F ∪ W) (by rintro x (hx | hx); exacts [.inl (hF hx), .inr (.inr hx)])
        have e3 := hr3.mono (N := F ∪ W) (by rintro x (hx | hx); exacts [.inl (hF hx), .inr (.inr hx)])
        exact (e1.trans (rely_set _ fun hx => ha (hx.imp (@hF _) id))).trans e3
      · rw [hr3.cell _ (.inr (.inl rfl)), Heap.set_cell]
    | @brk asn p s fl pb sb _ hcell hp hpc hs hsc =>
      refine ⟨.inr (.inl rfl), fun h1 hr1 => ?_⟩
      rw [hr1.cell a (.inr (.inl rfl)), hcell]
      refine ⟨.inl rfl, fun h2 hr2 h3 hr3 => ⟨insert a F', W, Set.subset_insert _ _, frozen_sub, ?_, rfl, ?_⟩⟩
      · refine .frozen hF ha (hr.trans ?_) ((hc'.rely (hr1.trans hr2)).rely (M := ∅) ⟨hr3.next, fun _ h => (nomatch h)⟩)
        have e1 := (hr1.trans hr2).mono (N := F ∪ W) (by rintro x (hx | hx); exacts [.inl (hF hx), .inr (.inr hx)])
        have e3 := hr3.mono (N := F ∪ W) (by rintro x (hx | hx); exacts [.inl (hF hx), .inr (.inr hx)])
        exact (e1.trans (rely_set _ fun hx => ha (hx.imp (@hF _) id))).trans e3
      · have hpa : p ∈ F' ∧ n ≤ p := by
          rcases hp with rfl | hp
          · rw [hcell] at hpc; cases hpc
          · exact hp
        have hsa : s ∈ F' ∧ n ≤ s := by
          rcases hs with rfl | hs
          · rw [hcell] at hsc; cases hsc
          · exact hs
        have e : ∀ x ∈ F', h3.cell x = h'.cell x := fun x hx => by
          rw [hr3.cell x (.inl hx), ← (hr1.trans hr2).cell x (.inl hx)]
          exact if_neg (fun he : x = a => ha (he ▸ .inl hx))
        exact .brk ⟨.inl rfl, hna⟩ (by rw [hr3.cell _ (.inr (.inl rfl)), Heap.set_cell]) ⟨.inr hpa.1, hpa.2⟩ (by rw [e _ hpa.1, hpc]) ⟨.inr hsa.1, hsa.2⟩ (by rw [e _ hsa.1, hsc])
  refine Sat.bind key ?_
  rintro _ F2 W2 h2 ⟨l2, rfl, hv2⟩
  exact hk a F2 h2 l2 hv2

end StayRTR
