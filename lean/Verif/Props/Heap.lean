import Verif.Proofs.HeapStore

/-!
# C122: answers are snapshots; C123: the store is the server's own

A router is answered from memory that an update may be working next to. What it gets is what the store held when its slice was taken; and the store after any number of updates is that of the model on values.
-/

namespace StayRTR

open HProg

namespace Spec

/-- The updates that are over. -/
def updatesOf (log : List HEvent) : List (List SD) := log.filterMap fun
  | .updated new => some new
  | _ => none

/-- Whether an event belongs to router `i`. -/
def OfRouter (i : Nat) : HEvent → Prop
  | .updated _ => False
  | .got j _ => j = i
  | .sent j _ => j = i

/-- What a query asks for, of the store as a value: everything, or the changes since a serial. -/
def Asked (S : Store) : DataQuery → List SD → Prop
  | .all, l => l = S.current
  | .since n, l => S.getSDsSerialDiff n = .ok (some l)

/-- After `log` router `i` waits for `l`: this is what its last query, not yet answered, asked for when it was made. -/
def Awaits (keepDiff : Int) (log : List HEvent) (i : Nat) (l : List SD) : Prop :=
  ∃ A q B, log = A ++ .got i q :: B ∧ (∀ e ∈ B, ¬ OfRouter i e) ∧ Asked ((Store.init keepDiff).run (updatesOf A)) q l

end Spec

open Spec

theorem Store.run_append (s : Store) (l : List (List SD)) (new : List SD) : s.run (l ++ [new]) = ((s.run l).addData new).1 := by
  induction l generalizing s with
  | nil => rfl
  | cons x l ih => exact ih _

theorem Spec.Awaits.more {k : Int} {log : List HEvent} {i : Nat} {l : List SD} {e : HEvent} (h : Awaits k log i l) (he : ¬ OfRouter i e) : Awaits k (log ++ [e]) i l := by
  obtain ⟨A, q, B, h1, h2, h3⟩ := h
  refine ⟨A, q, B ++ [e], by rw [h1, List.append_assoc]; rfl, fun x hx => ?_, h3⟩
  rcases List.mem_append.1 hx with hx | hx
  · exact h2 x hx
  · rw [List.mem_singleton] at hx; rwa [hx]

theorem answer_sat {F : Set Ref} {h : Heap} {s : RefStore} {S : Store} (hs : IsStore F h s S) {q : DataQuery} {sl : Slice} (hq : s.answer q = .ok (some sl)) : ∃ l, IsSlice F h sl l ∧ Asked S q l := by
  cases q with
  | all => cases hq; exact ⟨S.current, hs.current, rfl⟩
  | since n =>
    unfold RefStore.answer at hq
    show ∃ l, IsSlice F h sl l ∧ S.getSDsSerialDiff n = .ok (some l)
    unfold Store.getSDsSerialDiff
    simp only [hs.serial, hs.list.length_eq] at hq
    split at hq
    · rename_i he
      cases hq
      obtain ⟨l, e1, -, -⟩ := hs.current.elems
      exact ⟨[], ⟨hs.current.mem, l, e1, Nat.zero_le _, by simp⟩, if_pos he⟩
    · rename_i hne
      rw [if_neg hne]
      split at hq
      · cases hq
      · rename_i hgt
        rw [if_neg hgt]
        split at hq
        · cases hq
        · rename_i hd
          simp only [if_neg hd]
          have hlen := hs.list.length_eq
          simp only [goIndex] at hq ⊢
          cases hx : s.listDiff[S.listDiff.length - (S.serial - n).toNat]? with
          | none => rw [hx] at hq; cases hq
          | some x =>
            rw [hx] at hq
            cases hq
            have hlt : S.listDiff.length - (S.serial - n).toNat < S.listDiff.length := by
              rw [← hlen]
              by_contra hc
              rw [List.getElem?_eq_none (by omega)] at hx
              cases hx
            refine ⟨S.listDiff[S.listDiff.length - (S.serial - n).toNat], ?_, by rw [List.getElem?_eq_getElem hlt]; rfl⟩
            have := hs.list.get (hlen ▸ hlt) hlt
            rw [List.getElem?_eq_getElem (hlen ▸ hlt)] at hx
            rw [← Option.some.inj hx]
            exact this

/-- The goroutines: the one of the updates (`none`), and the senders. -/
abbrev Thread := Option Nat

/-- Where the goroutines and the store are in memory. -/
structure Placed (h : Heap) (Fs : Set Ref) (F W : Thread → Set Ref) : Prop where
  below : ∀ r ∈ Fs, r < h.next
  cells : ∀ t, Cells (F t) (W t) h
  off : ∀ t, ∀ r ∈ W t, r ∉ Fs
  apart : ∀ t u, t ≠ u → ∀ r ∈ W t, r ∉ F u ∪ W u

/-- Cells of one goroutine replaced. -/
def place (F : Thread → Set Ref) (t : Thread) (X : Set Ref) : Thread → Set Ref := fun u => if u = t then X else F u

theorem place_same (F : Thread → Set Ref) (t : Thread) (X : Set Ref) : place F t X t = X := if_pos rfl
theorem place_other (F : Thread → Set Ref) {t u : Thread} (h : u ≠ t) (X : Set Ref) : place F t X u = F u := if_neg h

/-- A goroutine begins with the cells of the store, or ends. -/
theorem Placed.begin {h : Heap} {Fs : Set Ref} {F W : Thread → Set Ref} (hp : Placed h Fs F W) (t : Thread) : Placed h Fs (place F t Fs) (place W t ∅) where
  below := hp.below
  cells u := by
    by_cases hu : u = t
    · subst hu; rw [place_same, place_same]; exact ⟨fun r hr => hp.below r (by simpa using hr), fun _ _ h => h⟩
    · rw [place_other _ hu, place_other _ hu]; exact hp.cells u
  off u r hr := by
    by_cases hu : u = t
    · subst hu; rw [place_same] at hr; exact hr.elim
    · rw [place_other _ hu] at hr; exact hp.off u r hr
  apart u v huv r hr := by
    by_cases hu : u = t
    · subst hu; rw [place_same] at hr; exact hr.elim
    · rw [place_other _ hu] at hr
      by_cases hv : v = t
      · subst hv; rw [place_same, place_same, Set.union_empty]; exact hp.off u r hr
      · rw [place_other _ hv, place_other _ hv]; exact hp.apart u v huv r hr

/-- The store is replaced by what a goroutine has made. -/
theorem Placed.publish {h : Heap} {Fs X : Set Ref} {F W : Thread → Set Ref} (hp : Placed h Fs F W) (t : Thread) (hX : X ⊆ F t ∪ W t) : Placed h X (place F t X) (place W t ∅) := by
  have hb : ∀ r ∈ X, r < h.next := fun r hr => (hp.cells t).below r (hX hr)
  have base : Placed h X (place F t ∅) (place W t ∅) := by
    refine ⟨hb, fun u => ?_, fun u r hr => ?_, fun u v huv r hr => ?_⟩
    · by_cases hu : u = t
      · subst hu; rw [place_same, place_same]; exact ⟨fun r hr => by simp at hr, fun _ _ h => h⟩
      · rw [place_other _ hu, place_other _ hu]; exact hp.cells u
    · by_cases hu : u = t
      · subst hu; rw [place_same] at hr; exact hr.elim
      · rw [place_other _ hu] at hr; exact fun hx => hp.apart u t hu r hr (hX hx)
    · by_cases hu : u = t
      · subst hu; rw [place_same] at hr; exact hr.elim
      · rw [place_other _ hu] at hr
        by_cases hv : v = t
        · subst hv; rw [place_same, place_same]; simp
        · rw [place_other _ hv, place_other _ hv]; exact hp.apart u v huv r hr
  have := base.begin t
  have e : ∀ (G : Thread → Set Ref) (Y Z : Set Ref), place (place G t Y) t Z = place G t Z := fun G Y Z => by
    funext u
    by_cases hu : u = t
    · subst hu; rw [place_same, place_same]
    · rw [place_other _ hu, place_other _ hu, place_other _ hu]
  rwa [e, e] at this

/-- One access to memory. -/
theorem HProg.Sat.step {α : Type} {p p' : HProg α} {F W : Set Ref} {h h' : Heap} {Q : α → Set Ref → Set Ref → Heap → Prop} (hs : Sat p F W h Q) (hc : Cells F W h) (hp : p.step h = some (h', p')) :
    ∃ W', Sat p' F W' h' Q ∧ Cells F W' h' ∧ (∀ M : Set Ref, (∀ r ∈ M, r < h.next) → (∀ r ∈ W, r ∉ M) → Rely M h h') ∧ ∀ r ∈ W', r ∈ W ∨ h.next ≤ r := by
  cases p with
  | ret a => cases hp
  | alloc c k =>
    cases hp
    refine ⟨_, hs h (.refl _ _), hc.alloc c, fun M hM _ => rely_alloc c fun hm => Nat.lt_irrefl _ (hM _ hm), ?_⟩
    rintro r (rfl | hr)
    exacts [.inr (Nat.le_refl _), .inl hr]
  | read r k => cases hp; exact ⟨W, hs.2 h (.refl _ _), hc, fun M _ _ => .refl _ _, fun r hr => .inl hr⟩
  | write r c k => cases hp; exact ⟨W, hs.2 h (.refl _ _), ⟨hc.below, hc.apart⟩, fun M _ hM => rely_set c (hM r hs.1), fun r hr => .inl hr⟩

/-- One access to memory by goroutine `t`: the others and the store do not notice. -/
theorem Placed.step {h h' : Heap} {Fs W' : Set Ref} {F W : Thread → Set Ref} (hp : Placed h Fs F W) (t : Thread) (hc : Cells (F t) W' h') (hr : ∀ M : Set Ref, (∀ r ∈ M, r < h.next) → (∀ r ∈ W t, r ∉ M) → Rely M h h')
    (hw : ∀ r ∈ W', r ∈ W t ∨ h.next ≤ r) : Placed h' Fs F (place W t W') ∧ Rely Fs h h' ∧ ∀ u, u ≠ t → Rely (F u ∪ W u) h h' := by
  have hrs : Rely Fs h h' := hr Fs hp.below (hp.off t)
  have hru : ∀ u, u ≠ t → Rely (F u ∪ W u) h h' := fun u hu => hr _ (hp.cells u).below (hp.apart t u hu.symm)
  refine ⟨⟨fun r hm => (hp.below r hm).trans_le hrs.next, fun u => ?_, fun u r hm => ?_, fun u v huv r hm => ?_⟩, hrs, hru⟩
  · by_cases hu : u = t
    · subst hu; rw [place_same]; exact hc
    · rw [place_other _ hu]; exact (hp.cells u).rely (hru u hu)
  · by_cases hu : u = t
    · subst hu
      rw [place_same] at hm
      rcases hw r hm with hm | hm
      · exact hp.off u r hm
      · exact fun hx => absurd (hp.below r hx) (Nat.not_lt.2 hm)
    · rw [place_other _ hu] at hm; exact hp.off u r hm
  · by_cases hu : u = t
    · subst hu
      rw [place_same] at hm
      rw [place_other _ huv.symm]
      rcases hw r hm with hm | hm
      · exact hp.apart u v huv r hm
      · exact fun hx => absurd ((hp.cells v).below r hx) (Nat.not_lt.2 hm)
    · rw [place_other _ hu] at hm
      by_cases hv : v = t
      · subst hv
        rw [place_same]
        rintro (hx | hx)
        · exact hp.apart u v huv r hm (.inl hx)
        · rcases hw r hx with hx | hx
          · exact hp.apart u v huv r hm (.inr hx)
          · exact absurd ((hp.cells u).below r (.inr hm)) (Nat.not_lt.2 hx)
      · rw [place_other _ hv]; exact hp.apart u v huv r hm

/-- What holds of the system. -/
structure HInv (k : Int) (s : HSys) (Fs : Set Ref) (F W : Thread → Set Ref) : Prop where
  placed : Placed s.heap Fs F W
  store : IsStore Fs s.heap s.store ((Store.init k).run (updatesOf s.log))
  updater : ∀ new p, s.updater = some (new, p) → Sat p (F none) (W none) s.heap fun o F' _ h' => AddDone 0 F' h' new ((Store.init k).run (updatesOf s.log)) o
  sender : ∀ i p, s.senders i = some p → ∃ l, Awaits k s.log i l ∧ Sat p (F (some i)) (W (some i)) s.heap fun out _ _ _ => out = l
  sent : ∀ A i out C, s.log = A ++ .sent i out :: C → Awaits k A i out

theorem HInv.init (k : Int) : HInv k (HSys.init k) {0} (fun _ => ∅) (fun _ => ∅) where
  placed := ⟨fun r hr => by rw [Set.mem_singleton_iff.1 hr]; exact Nat.zero_lt_one, fun _ => ⟨fun r hr => by simp at hr, fun _ _ h => h⟩, fun _ _ h => h.elim, fun _ _ _ _ h => h.elim⟩
  store := ⟨.nil, ⟨rfl, [], rfl, Nat.le_refl _, .nil⟩, rfl, rfl⟩
  updater _ _ h := nomatch h
  sender _ _ h := nomatch h
  sent A i out C h := by
    have := congrArg List.length h
    simp [HSys.init] at this

/-- The log grows by an event that is no answer. -/
theorem sent_snoc {k : Int} {log : List HEvent} {e : HEvent} (h : ∀ A i out C, log = A ++ .sent i out :: C → Awaits k A i out) (he : ∀ i out, e = .sent i out → Awaits k log i out) :
    ∀ A i out C, log ++ [e] = A ++ .sent i out :: C → Awaits k A i out := by
  intro A i out C heq
  rcases List.eq_nil_or_concat C with rfl | ⟨C', x, rfl⟩
  · obtain ⟨h1, h2⟩ := List.append_inj' heq rfl
    subst h1
    exact he i out (List.head_eq_of_cons_eq h2)
  · rw [List.concat_eq_append, ← List.cons_append, ← List.append_assoc] at heq
    exact h A i out C' (List.append_inj' heq rfl).1

theorem updatesOf_got {log : List HEvent} (i : Nat) (q : DataQuery) : updatesOf (log ++ [.got i q]) = updatesOf log := by simp [updatesOf]
theorem updatesOf_sent {log : List HEvent} (i : Nat) (out : List SD) : updatesOf (log ++ [.sent i out]) = updatesOf log := by simp [updatesOf]
theorem updatesOf_updated {log : List HEvent} (new : List SD) : updatesOf (log ++ [.updated new]) = updatesOf log ++ [new] := by simp [updatesOf]

theorem HInv.step {k : Int} {s s' : HSys} {Fs : Set Ref} {F W : Thread → Set Ref} (inv : HInv k s Fs F W) (hs : HStep s s') : ∃ Fs' F' W', HInv k s' Fs' F' W' := by
  cases hs with
  | start new hu =>
    refine ⟨Fs, place F none Fs, place W none ∅, inv.placed.begin none, inv.store, fun new' p hp => ?_, fun i p hp => ?_, inv.sent⟩
    · cases hp
      rw [place_same, place_same]
      exact Sat.imp (updateH_sat new ⟨fun r hr => inv.placed.below r (by simpa using hr), fun _ _ h => h⟩ inv.store) fun _ _ _ _ h => h.2
    · rw [place_other _ (by simp), place_other _ (by simp)]
      exact inv.sender i p hp
  | @update new p p' h' hu hp =>
    obtain ⟨W', h1, h2, h3, h4⟩ := (inv.updater new p hu).step (inv.placed.cells none) hp
    obtain ⟨e1, e2, e3⟩ := inv.placed.step none h2 h3 h4
    refine ⟨Fs, F, place W none W', e1, inv.store.mono Set.Subset.rfl e2, fun new' q hq => ?_, fun i q hq => ?_, inv.sent⟩
    · cases hq
      rw [place_same]
      exact h1
    · rw [place_other _ (by simp)]
      obtain ⟨l, hl, hsat⟩ := inv.sender i q hq
      exact ⟨l, hl, hsat.rely (e3 _ (by simp))⟩
  | unchanged hu =>
    obtain ⟨F', W', -, -, h3⟩ := inv.updater _ _ hu s.heap (.refl _ _)
    refine ⟨Fs, F, W, inv.placed, ?_, fun _ _ h => (nomatch h), fun i p hp => ?_, sent_snoc inv.sent fun _ _ h => (nomatch h)⟩
    · show IsStore Fs s.heap s.store ((Store.init k).run (updatesOf (s.log ++ [_])))
      rw [updatesOf_updated, Store.run_append, (h3.none rfl).2]
      exact inv.store
    · obtain ⟨l, hl, hsat⟩ := inv.sender i p hp
      exact ⟨l, hl.more id, hsat⟩
  | @publish new st hu =>
    obtain ⟨F', W', h1, h2, h3⟩ := inv.updater _ _ hu s.heap (.refl _ _)
    refine ⟨Above 0 F', place F none (Above 0 F'), place W none ∅, inv.placed.publish none (above_sub.trans (Set.subset_union_left.trans h2)), ?_, fun _ _ h => (nomatch h), fun i p hp => ?_, sent_snoc inv.sent fun _ _ h => (nomatch h)⟩
    · show IsStore (Above 0 F') s.heap st ((Store.init k).run (updatesOf (s.log ++ [_])))
      rw [updatesOf_updated, Store.run_append]
      exact (h3.some st rfl).2
    · rw [place_other _ (by simp), place_other _ (by simp)]
      obtain ⟨l, hl, hsat⟩ := inv.sender i p hp
      exact ⟨l, hl.more id, hsat⟩
  | @get i q sl hi hq =>
    obtain ⟨l, hsl, hl⟩ := answer_sat inv.store hq
    refine ⟨Fs, place F (some i) Fs, place W (some i) ∅, inv.placed.begin (some i), ?_, fun new p hp => ?_, fun j p hp => ?_, sent_snoc inv.sent fun _ _ h => (nomatch h)⟩
    · show IsStore Fs s.heap s.store ((Store.init k).run (updatesOf (s.log ++ [_])))
      rw [updatesOf_got]
      exact inv.store
    · show Sat p _ _ s.heap fun o F' _ h' => AddDone 0 F' h' new ((Store.init k).run (updatesOf (s.log ++ [_]))) o
      rw [place_other _ (by simp), place_other _ (by simp), updatesOf_got]
      exact inv.updater new p hp
    · by_cases hj : j = i
      · subst hj
        have : sendH sl = p := by simpa [HSys.setSender] using hp
        subst this
        rw [place_same, place_same]
        exact ⟨l, ⟨s.log, q, [], rfl, fun _ h => (nomatch h), hl⟩, sendH_sat ⟨fun r hr => inv.placed.below r (by simpa using hr), fun _ _ h => h⟩ hsl⟩
      · rw [place_other _ (by simpa using hj), place_other _ (by simpa using hj)]
        obtain ⟨l', hl', hsat⟩ := inv.sender j p (by simpa [HSys.setSender, hj] using hp)
        exact ⟨l', hl'.more fun h => hj h.symm, hsat⟩
  | @send i p p' h' hi hp =>
    obtain ⟨l, hl, hsat⟩ := inv.sender i p hi
    obtain ⟨W', h1, h2, h3, h4⟩ := hsat.step (inv.placed.cells (some i)) hp
    obtain ⟨e1, e2, e3⟩ := inv.placed.step (some i) h2 h3 h4
    refine ⟨Fs, F, place W (some i) W', e1, inv.store.mono Set.Subset.rfl e2, fun new q hq => ?_, fun j q hq => ?_, inv.sent⟩
    · rw [place_other _ (by simp)]
      exact (inv.updater new q hq).rely (e3 _ (by simp))
    · by_cases hj : j = i
      · subst hj
        have : p' = q := by simpa [HSys.setSender] using hq
        subst this
        rw [place_same]
        exact ⟨l, hl, h1⟩
      · rw [place_other _ (by simpa using hj)]
        obtain ⟨l', hl', hsat'⟩ := inv.sender j q (by simpa [HSys.setSender, hj] using hq)
        exact ⟨l', hl', hsat'.rely (e3 _ (by simpa using hj))⟩
  | @done i out hi =>
    obtain ⟨l, hl, hsat⟩ := inv.sender i _ hi
    obtain ⟨-, -, -, -, rfl⟩ := hsat s.heap (.refl _ _)
    refine ⟨Fs, F, W, inv.placed, ?_, fun new p hp => ?_, fun j p hp => ?_, sent_snoc inv.sent fun j o h => by cases h; exact hl⟩
    · show IsStore Fs s.heap s.store ((Store.init k).run (updatesOf (s.log ++ [_])))
      rw [updatesOf_sent]
      exact inv.store
    · show Sat p _ _ s.heap fun o F' _ h' => AddDone 0 F' h' new ((Store.init k).run (updatesOf (s.log ++ [_]))) o
      rw [updatesOf_sent]
      exact inv.updater new p hp
    · by_cases hj : j = i
      · subst hj
        simp [HSys.setSender] at hp
      · obtain ⟨l', hl', hsat'⟩ := inv.sender j p (by simpa [HSys.setSender, hj] using hp)
        exact ⟨l', hl'.more fun h => hj h.symm, hsat'⟩

theorem HReached.inv {k : Int} {s : HSys} (h : HReached k s) : ∃ Fs F W, HInv k s Fs F W := by
  induction h with
  | init => exact ⟨_, _, _, HInv.init k⟩
  | step _ hs ih =>
    obtain ⟨Fs, F, W, inv⟩ := ih
    exact inv.step hs

/-- **C122.** In every interleaving of updates with any number of answers, each answer carries what the store held, as a value, when its slice was taken: no update changes, reorders or mixes the records of an answer that is being sent. -/
theorem C122_snapshot (k : Int) (s : HSys) (h : HReached k s) (A C : List HEvent) (i : Nat) (out : List SD) (hl : s.log = A ++ .sent i out :: C) : Awaits k A i out := by
  obtain ⟨_, _, _, inv⟩ := h.inv
  exact inv.sent A i out C hl

/-- The contents of a record in memory. -/
def Heap.sd (h : Heap) (r : Ref) : SD := ((readSD r).exec h).1

/-- The contents of a slice in memory. -/
def Heap.sds (h : Heap) (s : Slice) : List SD := match h.cell s.arr with
  | .refs l => (l.take s.len).map h.sd
  | _ => []

/-- The contents of the server's fields in memory. -/
def Heap.store (h : Heap) (s : RefStore) : Store := ⟨s.listDiff.map h.sds, h.sds s.current, s.serial, s.keepDiff⟩

theorem IsSD.sd {F : Set Ref} {h : Heap} {r : Ref} {v : SD} (hv : IsSD F h r v) : h.sd r = v := by
  cases hv with
  | vrp hr hc => simp [Heap.sd, readSD, HProg.exec, hc]
  | brk hr hc hp hpc hs hsc => simp [Heap.sd, readSD, HProg.exec, hc, readBytes, HProg.bind_eq, HProg.bind, hpc, hsc]

theorem IsSlice.sds {F : Set Ref} {h : Heap} {s : Slice} {l : List SD} (hv : IsSlice F h s l) : h.sds s = l := by
  obtain ⟨rs, e1, -, e3⟩ := hv.elems
  simp only [Heap.sds, e1]
  clear hv
  generalize rs.take s.len = x at e3
  induction e3 with
  | nil => rfl
  | cons ha _ ih => rw [List.map_cons, ha.sd, ih]

theorem IsStore.store {F : Set Ref} {h : Heap} {s : RefStore} {S : Store} (hv : IsStore F h s S) : h.store s = S := by
  have : s.listDiff.map h.sds = S.listDiff := by
    have := hv.list
    generalize s.listDiff = x at this
    generalize S.listDiff = y at this
    induction this with
    | nil => rfl
    | cons ha _ ih => rw [List.map_cons, ha.sds, ih]
  rw [Heap.store, this, hv.current.sds, hv.serial, hv.keep]

/-- **C122.** In every reachable state, also in the middle of an update and of answers, the memory of the store has the value of the model on values after the updates that are over: the value model of the other properties is what the memory holds. -/
theorem C122_store (k : Int) (s : HSys) (h : HReached k s) : s.heap.store s.store = (Store.init k).run (updatesOf s.log) := by
  obtain ⟨_, _, _, inv⟩ := h.inv
  exact inv.store.store

/-! ## Races -/

/-- The cell that the next access touches, and whether it is written. -/
def HProg.access {α : Type} : HProg α → Option (Ref × Bool)
  | .ret _ => none
  | .alloc _ _ => none
  | .read r _ => some (r, false)
  | .write r _ _ => some (r, true)

/-- The next access of a goroutine. -/
def HSys.access (s : HSys) : Thread → Option (Ref × Bool)
  | none => s.updater.bind fun u => u.2.access
  | some i => (s.senders i).bind HProg.access

theorem HProg.Sat.access {α : Type} {p : HProg α} {F W : Set Ref} {h : Heap} {Q : α → Set Ref → Set Ref → Heap → Prop} (hs : Sat p F W h Q) {r : Ref} {w : Bool} (hp : p.access = some (r, w)) : r ∈ F ∪ W ∧ (w = true → r ∈ W) := by
  cases p with
  | ret a => cases hp
  | alloc c k => cases hp
  | read r' k => cases hp; exact ⟨hs.1, fun h => nomatch h⟩
  | write r' c k => cases hp; exact ⟨.inr hs.1, fun _ => hs.1⟩

theorem HInv.access {k : Int} {s : HSys} {Fs : Set Ref} {F W : Thread → Set Ref} (inv : HInv k s Fs F W) {t : Thread} {r : Ref} {w : Bool} (h : s.access t = some (r, w)) : r ∈ F t ∪ W t ∧ (w = true → r ∈ W t) := by
  cases t with
  | none =>
    obtain ⟨⟨new, p⟩, h1, h2⟩ := Option.bind_eq_some_iff.1 h
    exact (inv.updater new p h1).access h2
  | some i =>
    obtain ⟨p, h1, h2⟩ := Option.bind_eq_some_iff.1 h
    obtain ⟨l, -, hsat⟩ := inv.sender i p h1
    exact hsat.access h2

/-- **C122.** No data race on records, keys or slices: when two goroutines are both about to touch a cell, neither is about to write it, though neither holds a lock. -/
theorem C122_norace (k : Int) (s : HSys) (h : HReached k s) (t u : Thread) (htu : t ≠ u) (r : Ref) (w w' : Bool) (ht : s.access t = some (r, w)) (hu : s.access u = some (r, w')) : w = false ∧ w' = false := by
  obtain ⟨_, F, W, inv⟩ := h.inv
  obtain ⟨t1, t2⟩ := inv.access ht
  obtain ⟨u1, u2⟩ := inv.access hu
  constructor
  · cases w with
    | false => rfl
    | true => exact absurd u1 (inv.placed.apart t u htu r (t2 rfl))
  · cases w' with
    | false => rfl
    | true => exact absurd t1 (inv.placed.apart u t htu.symm r (u2 rfl))

/-- **C122.** No goroutine ever writes a cell of the store: the memory of the store has no change between two updates. -/
theorem C122_fixed (k : Int) (s s' : HSys) (h : HReached k s) (hs : HStep s s') (he : s'.store = s.store) : s'.heap.store s.store = s.heap.store s.store := by
  obtain ⟨Fs, F, W, inv⟩ := h.inv
  suffices hr : Rely Fs s.heap s'.heap from (inv.store.mono Set.Subset.rfl hr).store.trans inv.store.store.symm
  cases hs with
  | update hu hp =>
    obtain ⟨W', -, h2, h3, h4⟩ := (inv.updater _ _ hu).step (inv.placed.cells none) hp
    exact (inv.placed.step none h2 h3 h4).2.1
  | @send i p p' h' hi hp =>
    obtain ⟨l, -, hsat⟩ := inv.sender i p hi
    obtain ⟨W', -, h2, h3, h4⟩ := hsat.step (inv.placed.cells (some i)) hp
    exact (inv.placed.step (some i) h2 h3 h4).2.1
  | _ => exact .refl _ _

/-! ## Ownership -/

/-- A goroutine alone. -/
theorem HProg.Sat.exec {α : Type} {p : HProg α} {Q : α → Set Ref → Set Ref → Heap → Prop} : ∀ {F W : Set Ref} {h : Heap}, Sat p F W h Q → ∃ F' W', Q (p.exec h).1 F' W' (p.exec h).2 := by
  induction p with
  | ret a =>
    intro F W h hs
    obtain ⟨F', W', -, -, hq⟩ := hs h (.refl _ _)
    exact ⟨F', W', hq⟩
  | alloc c k ih => intro F W h hs; exact ih _ (hs h (.refl _ _))
  | read r k ih => intro F W h hs; exact ih _ (hs.2 h (.refl _ _))
  | write r c k ih => intro F W h hs; exact ih (hs.2 h (.refl _ _))

/-- **C123, for `AddData`.** `AddData` keeps none of the records, keys and slices it is given, nor of those the store had: whatever is done afterwards to memory that was in use before the call, the new store has the value that the model on values says. -/
theorem C123_data_partial (F : Set Ref) (h : Heap) (new : Slice) (nv : List SD) (s : RefStore) (S : Store) (hb : ∀ r ∈ F, r < h.next) (hn : IsSlice F h new nv) (hs : IsStore F h s S) (s' : RefStore) (h' h2 : Heap)
    (hx : (addDataH new s).exec h = (some s', h')) (h2next : h'.next ≤ h2.next) (h2cell : ∀ r, h.next ≤ r → r < h'.next → h2.cell r = h'.cell r) : (S.addData nv).2 = true ∧ h2.store s' = (S.addData nv).1 := by
  obtain ⟨F', W', g, d⟩ := (addDataH_sat (n := h.next) ⟨fun r hr => hb r (by simpa using hr), fun _ _ h => h⟩ (Nat.le_refl _) hn hs).exec
  rw [hx] at g d
  obtain ⟨d1, d2⟩ := d.some s' rfl
  refine ⟨d1, (d2.mono (h' := h2) Set.Subset.rfl ⟨h2next, fun r hr => ?_⟩).store⟩
  exact h2cell r hr.2 (g.cells.below r (.inl hr.1))

/-! ## Concrete runs -/

/-- Several steps. -/
inductive HSteps : HSys → HSys → Prop
  | refl (s : HSys) : HSteps s s
  | step {s t u : HSys} (h : HStep s t) (hs : HSteps t u) : HSteps s u

theorem HSteps.trans {s t u : HSys} (h1 : HSteps s t) (h2 : HSteps t u) : HSteps s u := by
  induction h1 with
  | refl => exact h2
  | step h _ ih => exact .step h (ih h2)

theorem HSteps.reached {k : Int} {s t : HSys} (h : HSteps s t) (hr : HReached k s) : HReached k t := by
  induction h with
  | refl => exact hr
  | step h _ ih => exact ih (.step hr h)

theorem setSender_twice (s : HSys) (i : Nat) (p q : Option (HProg (List SD))) (h : Heap) (l : List HEvent) : HSys.setSender { s with heap := h, senders := s.setSender i p, log := l } i q = s.setSender i q := by
  funext j
  by_cases hj : j = i <;> simp [HSys.setSender, hj]

/-- The answers that are under way, of those that were taken. -/
def Spec.underWay (i : Nat) (log : List HEvent) : Bool := log.foldl (fun b e => match e with
  | .updated _ => b
  | .got j _ => if j = i then true else b
  | .sent j _ => if j = i then false else b) false

theorem HReached.underWay {k : Int} {s : HSys} (h : HReached k s) (i : Nat) : underWay i s.log = (s.senders i).isSome := by
  induction h with
  | init => rfl
  | step _ hs ih =>
    cases hs with
    | start => exact ih
    | update => exact ih
    | unchanged => unfold Spec.underWay at ih ⊢; rw [List.foldl_append]; exact ih
    | publish => unfold Spec.underWay at ih ⊢; rw [List.foldl_append]; exact ih
    | @get j q sl hi hq =>
      unfold Spec.underWay at ih ⊢
      rw [List.foldl_append]
      by_cases hj : i = j
      · simp [HSys.setSender, hj]
      · simp only [List.foldl_cons, List.foldl_nil, HSys.setSender, if_neg hj, if_neg (Ne.symm hj)]; exact ih
    | @send j p p' h' hi hp =>
      by_cases hj : i = j
      · subst hj; rw [ih, hi]; simp [HSys.setSender]
      · simp only [HSys.setSender, if_neg hj]; exact ih
    | @done j out hi =>
      unfold Spec.underWay at ih ⊢
      rw [List.foldl_append]
      by_cases hj : i = j
      · simp [HSys.setSender, hj]
      · simp only [List.foldl_cons, List.foldl_nil, HSys.setSender, if_neg hj, if_neg (Ne.symm hj)]; exact ih

theorem completes (s : HSys) (i : Nat) (p : HProg (List SD)) (hi : s.senders i = some p) : ∃ out s', HSteps s s' ∧ s'.log = s.log ++ [.sent i out] ∧ s'.store = s.store ∧ s'.updater = s.updater := by
  induction p generalizing s with
  | ret out => exact ⟨out, _, .step (.done hi) (.refl _), rfl, rfl, rfl⟩
  | alloc c k ih =>
    obtain ⟨out, s', h1, h2⟩ := ih s.heap.next { s with heap := s.heap.alloc c, senders := s.setSender i (some (k s.heap.next)) } (by simp [HSys.setSender])
    exact ⟨out, s', .step (.send hi rfl) h1, h2⟩
  | read r k ih =>
    obtain ⟨out, s', h1, h2⟩ := ih (s.heap.cell r) { s with senders := s.setSender i (some (k (s.heap.cell r))) } (by simp [HSys.setSender])
    exact ⟨out, s', .step (.send (h' := s.heap) hi rfl) h1, h2⟩
  | write r c k ih =>
    obtain ⟨out, s', h1, h2⟩ := ih { s with heap := s.heap.set r c, senders := s.setSender i (some k) } (by simp [HSys.setSender])
    exact ⟨out, s', .step (.send hi rfl) h1, h2⟩

/-- **C122.** Whatever happens after a query was taken, its answer, as long as it has not been given, can be completed, by steps of its own goroutine alone: no update makes it wait or takes it away. -/
theorem C122_completes (k : Int) (s : HSys) (h : HReached k s) (i : Nat) (hu : underWay i s.log = true) : ∃ out s', HSteps s s' ∧ s'.log = s.log ++ [.sent i out] ∧ s'.store = s.store ∧ s'.updater = s.updater := by
  rw [h.underWay i] at hu
  obtain ⟨p, hp⟩ := Option.isSome_iff_exists.1 hu
  exact completes s i p hp

/-- What is to happen next in a run. -/
inductive HSched where
  | start (new : List SD)
  | update
  | get (i : Nat) (q : DataQuery)
  | send (i : Nat)

/-- The step chosen. -/
def HSys.next (s : HSys) : HSched → Option HSys
  | .start new => match s.updater with
    | none => some { s with updater := some (new, updateH new s.store) }
    | some _ => none
  | .update => match s.updater with
    | none => none
    | some (new, .ret none) => some { s with updater := none, log := s.log ++ [.updated new] }
    | some (new, .ret (some st)) => some { s with updater := none, store := st, log := s.log ++ [.updated new] }
    | some (new, p) => (p.step s.heap).map fun x => { s with heap := x.1, updater := some (new, x.2) }
  | .get i q => match s.senders i, s.store.answer q with
    | none, .ok (some sl) => some { s with senders := s.setSender i (some (sendH sl)), log := s.log ++ [.got i q] }
    | _, _ => none
  | .send i => match s.senders i with
    | none => none
    | some (.ret out) => some { s with senders := s.setSender i none, log := s.log ++ [.sent i out] }
    | some p => (p.step s.heap).map fun x => { s with heap := x.1, senders := s.setSender i (some x.2) }

theorem HSys.next_step {s s' : HSys} {c : HSched} (h : s.next c = some s') : HStep s s' := by
  unfold HSys.next at h
  split at h
  · split at h
    · cases h; exact .start _ (by assumption)
    · cases h
  · split at h
    · cases h
    · cases h; exact .unchanged (by assumption)
    · cases h; exact .publish (by assumption)
    · obtain ⟨x, h1, rfl⟩ := Option.map_eq_some_iff.1 h
      exact .update (by assumption) h1
  · split at h
    · cases h; exact .get _ _ (by assumption) (by assumption)
    · cases h
  · split at h
    · cases h
    · cases h; exact .done (by assumption)
    · obtain ⟨x, h1, rfl⟩ := Option.map_eq_some_iff.1 h
      exact .send (by assumption) h1

/-- The steps chosen; one that is not possible is left out. -/
def HSys.play (s : HSys) : List HSched → HSys
  | [] => s
  | c :: l => ((s.next c).getD s).play l

theorem HSys.play_reached {k : Int} (l : List HSched) : ∀ {s : HSys}, HReached k s → HReached k (s.play l) := by
  induction l with
  | nil => exact id
  | cons c l ih =>
    intro s hs
    refine ih ?_
    cases h : s.next c with
    | none => exact hs
    | some s' => exact .step hs (next_step h)

/-- A VRP, a key, and another VRP, with flags. -/
def hv1 (f : U8) : SD := .vrp ⟨⟨.v4 0x0a000000#32, 9⟩, 1, 8, f⟩
def hv2 (f : U8) : SD := .brk ⟨2, [1, 2], [3], f⟩
def hv3 (f : U8) : SD := .vrp ⟨⟨.v4 0x0b000000#32, 9⟩, 3, 8, f⟩

/-- A router is answered while an update that removes one of the records and adds another is under way and then over; a second one asks for what changed. -/
def hrun : List HSched := [.start [hv1 0, hv2 0]] ++ List.replicate 100 .update ++ [.get 0 .all] ++ List.replicate 6 (.send 0) ++ [.start [hv2 0, hv3 0]] ++ List.replicate 30 .update ++ List.replicate 3 (.send 0) ++ List.replicate 150 .update ++
  [.get 1 .all] ++ List.replicate 3 (.send 1) ++ List.replicate 60 (.send 0) ++ List.replicate 60 (.send 1) ++ [.get 0 (.since 0)] ++ List.replicate 60 (.send 0)

example : HReached 3 ((HSys.init 3).play hrun) ∧ ((HSys.init 3).play hrun).log =
    [.updated [hv1 0, hv2 0], .got 0 .all, .updated [hv2 0, hv3 0], .got 1 .all] ++ .sent 0 [hv1 1, hv2 1] :: [.sent 1 [hv2 1, hv3 1], .got 0 (.since 0), .sent 0 [hv3 1, hv1 0]] := by
  refine ⟨HSys.play_reached _ .init, ?_⟩
  decide +kernel

/-- In the middle of it two goroutines touch the same cell: both read the array of the store's slice. -/
example : ∃ s, HReached 3 s ∧ s.access none = s.access (some 0) ∧ (s.access none).map (fun a => a.2) = some false :=
  ⟨_, HSys.play_reached (hrun.take 102 ++ [.start []] ++ List.replicate 3 .update) .init, by decide +kernel⟩

/-- There are moments in it at which the update is over and the answer begun before is not. -/
example : underWay 0 (((HSys.init 3).play (hrun.take 300)).log) = true ∧ ((HSys.init 3).play (hrun.take 300)).updater.isNone = true := by decide +kernel

/-- Memory with a record and a slice of it. -/
def hmem : Heap := ⟨fun r => if r = 0 then .record (.vrp ⟨⟨.v4 0x0a000000#32, 9⟩, 1, 8, 1⟩) else if r = 1 then .refs [0] else .refs [], 3⟩

theorem hmem_slice : IsSlice {r | r < 3} hmem ⟨1, 1⟩ [hv1 1] := ⟨by decide, [0], rfl, by decide, .cons (.vrp (by decide) rfl) .nil⟩
theorem hmem_store : IsStore {r | r < 3} hmem ⟨[], ⟨2, 0⟩, 0, 3⟩ (Store.init 3) := ⟨.nil, ⟨by decide, [], rfl, by decide, .nil⟩, rfl, rfl⟩

example : (∀ r ∈ {r | r < 3}, r < hmem.next) ∧ ∃ s', ((addDataH ⟨1, 1⟩ ⟨[], ⟨2, 0⟩, 0, 3⟩).exec hmem).1 = some s' ∧ (((addDataH ⟨1, 1⟩ ⟨[], ⟨2, 0⟩, 0, 3⟩).exec hmem).2.set 0 (.bytes [])).store s' = ((Store.init 3).addData [hv1 1]).1 :=
  ⟨fun _ h => h, _, rfl, by decide +kernel⟩

/-- **C123, what fails.** `AddSDsDiff`, which is exported, keeps the slice and the records it is given in the list of diffs: a caller that goes on to change one of its records changes what routers are sent. `AddData` makes its records itself and is not affected. -/
theorem C123_diff_false : ¬ ∀ (F : Set Ref) (h : Heap) (diff : Slice) (dv : List SD) (s : RefStore) (S : Store), (∀ r ∈ F, r < h.next) → IsSlice F h diff dv → IsStore F h s S → ∀ (s' : RefStore) (h' h2 : Heap),
    (addSDsDiffH diff s).exec h = (s', h') → h'.next ≤ h2.next → (∀ r, h.next ≤ r → r < h'.next → h2.cell r = h'.cell r) → h2.store s' = h'.store s' := by
  intro hall
  have := hall _ hmem _ _ _ _ (fun _ h => h) hmem_slice hmem_store _ _ (((addSDsDiffH ⟨1, 1⟩ ⟨[], ⟨2, 0⟩, 0, 3⟩).exec hmem).2.set 0 (.record (.vrp ⟨⟨.v4 0x0b000000#32, 9⟩, 1, 8, 1⟩))) rfl (Nat.le_refl _)
    (fun r h1 _ => if_neg (Nat.ne_of_gt (Nat.lt_of_lt_of_le (by decide : 0 < hmem.next) h1)))
  exact absurd (congrArg Store.listDiff this) (by decide +kernel)

end StayRTR
