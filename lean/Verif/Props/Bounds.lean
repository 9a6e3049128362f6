import Verif.Props.Store
import Verif.Props.Deadlock
import Verif.Props.MonRtr
import Mathlib.Data.List.Perm.Subperm

/-!
# C172: what is kept does not grow with age
-/

namespace StayRTR

open Spec

/-! ## The store -/

theorem applyDiff_length (d e : List SD) : (applyDiff d e).length ≤ d.length + e.length := by
  unfold applyDiff
  simp only [List.length_append]
  rw [Nat.add_comm]
  exact Nat.add_le_add (List.length_filter_le _ _) (List.length_filter_le _ _)

theorem curDiff_length {new prev : List SD} (hn : AllValid new) (hp : AllValid prev) : (curDiff new prev).length ≤ new.length + prev.length := by
  rw [curDiff_eq hn hp, List.length_append, List.length_map, List.length_map]
  have h1 := List.length_filter_le (fun x : SD => decide (x.record ∉ records prev)) new
  have h2 := List.length_filter_le (fun x : SD => decide (x.record ∉ records new)) prev
  omega

theorem sameSet_length {l m : List SD} (hl : (records l).Nodup) (h : SameSet l m) : l.length ≤ m.length := by
  have h1 : l.length = (records l).length := by simp [records]
  have h2 : m.length = (records m).length := by simp [records]
  rw [h1, h2]
  exact (List.Nodup.subperm hl (fun r hr => (h r).mp hr)).length_le

/-- Newest first, the change sets are at most so long. -/
def Spec.Stepped (N : Nat) (l : List (List SD)) : Prop := ∀ i (h : i < l.length), l[i].length ≤ N * (i + 2)

theorem Spec.Stepped.take {N : Nat} {l : List (List SD)} (h : Stepped N l) (k : Nat) : Stepped N (l.take k) := by
  intro i hi
  rw [List.getElem_take]
  exact h i _

/-- The invariant. -/
structure Bounded (k : Int) (N : Nat) (s : Store) : Prop where
  ok : StoreOk s
  nodup : (records s.current).Nodup
  keep : s.keepDiff = k
  current : s.current.length ≤ N
  short : s.listDiff.length ≤ k.toNat
  steps : Stepped N s.listDiff.reverse

theorem Bounded.addData {k : Int} (hk : 0 < k) {N : Nat} {s : Store} (g : Bounded k N s) {new : List SD} (hv : AllValid new) (hn : (records new).Nodup) (hl : new.length ≤ N) :
    Bounded k N (s.addData new).1 := by
  have hok := g.ok.addData hv
  have hnd := addData_nodup g.ok hv g.nodup hn
  have hsame := addData_sameSet g.ok hv
  have hcur := Nat.le_trans (sameSet_length hnd hsame) hl
  cases h : (s.addData new).2 with
  | false => rw [addData_false h] at *; exact g
  | true =>
    have hlist : (s.addData new).1.listDiff.reverse = (curDiff new s.current :: [] :: s.listDiff.reverse.map (applyDiff (curDiff new s.current))).take k.toNat := by
      rw [addData_true h, addSDsDiff_list, g.keep]
      simp only
      rw [if_pos hk]
    refine ⟨hok, hnd, by rw [addData_keep, g.keep], hcur, ?_, ?_⟩
    · rw [← List.length_reverse, hlist, List.length_take]; omega
    · rw [hlist]
      refine Stepped.take ?_ _
      have hd : (curDiff new s.current).length ≤ N * 2 := by
        have := curDiff_length hv g.ok.valid (new := new); have := g.current; omega
      intro i hi
      rcases i with _ | _ | i
      · exact hd
      · exact Nat.zero_le _
      · simp only [List.getElem_cons_succ, List.getElem_map]
        have h1 := applyDiff_length (curDiff new s.current) (s.listDiff.reverse[i]'(by simpa using hi))
        have h2 := g.steps i (by simpa using hi)
        have h3 : N * (i + 1 + 1 + 2) = N * 2 + N * (i + 2) := by rw [← Nat.mul_add]; congr 1; omega
        omega

theorem Bounded.run {k : Int} (hk : 0 < k) {N : Nat} : ∀ (hist : List (List SD)) {s : Store}, Bounded k N s → (∀ l ∈ hist, AllValid l ∧ (records l).Nodup ∧ l.length ≤ N) → Bounded k N (s.run hist)
  | [], _, g, _ => g
  | new :: hist, _, g, h => by
    have h1 := h new List.mem_cons_self
    exact Bounded.run hk hist (g.addData hk h1.1 h1.2.1 h1.2.2) fun l hl => h l (List.mem_cons_of_mem _ hl)

/-- **C172**, of the server's data: however often a new list is loaded, what is kept is bounded by the number of change sets to keep and the length of the longest list: `N` records are served, and there are at most `k` change sets, of at
most `N * (k + 1)` records each. -/
theorem C172_store_partial {k : Int} (hk : 0 < k) {N : Nat} (hist : List (List SD)) (h : ∀ l ∈ hist, AllValid l ∧ (records l).Nodup ∧ l.length ≤ N) :
    ((Store.init k).run hist).current.length ≤ N ∧ (((Store.init k).run hist).listDiff.length : Int) ≤ k ∧
    ∀ d ∈ ((Store.init k).run hist).listDiff, (d.length : Int) ≤ N * (k + 1) := by
  have g : Bounded k N ((Store.init k).run hist) :=
    Bounded.run hk hist ⟨StoreOk.init k, by simp [Store.init, records], rfl, Nat.zero_le _, Nat.zero_le _, fun i hi => absurd hi (by simp [Store.init])⟩ h
  refine ⟨g.current, by have := g.short; omega, ?_⟩
  intro d hd
  obtain ⟨i, hi, rfl⟩ := List.mem_iff_getElem.mp (List.mem_reverse.mpr hd)
  have h1 := g.steps i hi
  have h2 : i < k.toNat := by have := g.short; rw [List.length_reverse] at hi; omega
  have h3 : N * (i + 2) ≤ N * (k.toNat + 1) := Nat.mul_le_mul_left N (by omega)
  have h4 : ((N * (k.toNat + 1) : Nat) : Int) = (N : Int) * (k + 1) := by push_cast; rw [Int.toNat_of_nonneg (Int.le_of_lt hk)]
  omega

/-- Without the condition that no list has a record twice it is false: two lists of two entries, and three records are served. -/
theorem C172_twice_false : ∃ hist : List (List SD), (∀ l ∈ hist, AllValid l ∧ l.length ≤ 2) ∧ ((Store.init 3).run hist).current.length = 3 :=
  ⟨[[exA, exA], [exA, exB]], by decide +kernel, by decide +kernel⟩

/-- A store told to keep all change sets (`KeepDifference` 0, lib/server.go:387; stayrtr always has 3) would grow with every change, though one record is served at all times. -/
theorem C172_unlimited_false (n : Nat) : ∃ hist : List (List SD), (∀ l ∈ hist, AllValid l ∧ l.length = 1) ∧ n ≤ ((Store.init 0).run hist).listDiff.length := by
  suffices H : ∀ (n : Nat) (s : Store), StoreOk s → s.keepDiff = 0 → ∃ hist : List (List SD), (∀ l ∈ hist, AllValid l ∧ l.length = 1) ∧ n ≤ (s.run hist).listDiff.length from
    H n _ (StoreOk.init 0) rfl
  intro n
  suffices H : ∀ (s : Store), StoreOk s → s.keepDiff = 0 → ∃ hist : List (List SD), (∀ l ∈ hist, AllValid l ∧ l.length = 1) ∧ n + s.listDiff.length ≤ (s.run hist).listDiff.length by
    intro s h1 h2
    obtain ⟨hist, h3, h4⟩ := H s h1 h2
    exact ⟨hist, h3, by omega⟩
  induction n with
  | zero => exact fun s _ _ => ⟨[], fun l hl => absurd hl List.not_mem_nil, by simp [Store.run]⟩
  | succ n ih =>
    intro s hs hk
    obtain ⟨new, hv, hl, hne⟩ : ∃ new, AllValid new ∧ new.length = 1 ∧ ¬ SameSet s.current new := by
      by_cases h : SameSet s.current [exA]
      · refine ⟨[exB], by decide +kernel, rfl, fun h' => ?_⟩
        have h1 := (h exA.record).mpr (by decide +kernel)
        exact absurd ((h' exA.record).mp h1) (by decide +kernel)
      · exact ⟨[exA], by decide +kernel, rfl, h⟩
    have he : (s.addData new).2 = true := (addData_effective _ _).mpr fun h => hne ((curDiff_nil_iff hv hs.valid).mp h)
    have hlen : (s.addData new).1.listDiff.length = s.listDiff.length + 2 := by
      rw [← List.length_reverse, addData_true he, addSDsDiff_list, hk]
      simp
    obtain ⟨hist, h3, h4⟩ := ih _ (hs.addData hv) (by rw [addData_keep, hk])
    refine ⟨new :: hist, fun l hm => ?_, ?_⟩
    · rcases List.mem_cons.mp hm with rfl | hm
      · exact ⟨hv, hl⟩
      · exact h3 l hm
    · show _ ≤ ((s.addData new).1.run hist).listDiff.length
      omega

/-! ## The goroutines -/

/-- What the channel of a connection holds is bounded by its capacity, in every reachable state of the server. -/
theorem C172_queues_partial {pending : List (Nat × Pdu)} {n : Net} (h : Net.Steps (Net.fresh pending) n) (i : Nat) : (n.link i).queue.length ≤ 256 :=
  (Link.Good.init.steps (h.reach i)).cap

/-- **C172** is false of the connections: any number of routers that have gone away can have left a goroutine each behind, which waits for ever and never closes its connection. -/
theorem C172_goroutines_false (n : Nat) : ∃ s, Net.Steps (Net.fresh []) s ∧ ∀ i < n, (s.link i).connected = false ∧ Link.Halted (s.link i) ∧ (s.link i).reader = .done ∧ (s.link i).sender = .parked := by
  have one : Link.Steps Link.Step Link.init ⟨false, .done, [], .parked, false, [], []⟩ := by
    refine .tail (.tail (.tail (.tail (.tail (.tail (.tail .refl (.inl (.readerCheck rfl))) (.inl (.senderCheck rfl)))
      (.inr (.inl (.readFails rfl)))) (.inl (.readerAct rfl rfl))) (.inl (.readerAct rfl rfl))) (.inl (.readerNext rfl))) (.inl (.park rfl rfl))
  suffices H : ∃ s, Net.Steps (Net.fresh []) s ∧ (∀ i < n, s.link i = ⟨false, .done, [], .parked, false, [], []⟩) ∧ ∀ i, n ≤ i → s.link i = Link.init by
    obtain ⟨s, h1, h2, -⟩ := H
    refine ⟨s, h1, fun i hi => ?_⟩
    rw [h2 i hi]
    exact ⟨rfl, by intro l' ho; cases ho <;> simp_all, rfl, rfl⟩
  induction n with
  | zero => exact ⟨_, .refl, fun _ h => absurd h (Nat.not_lt_zero _), fun _ _ => rfl⟩
  | succ n ih =>
    obtain ⟨s, h1, h2, h3⟩ := ih
    refine ⟨s.set n ⟨false, .done, [], .parked, false, [], []⟩, h1.trans (Net.Steps.link (by rw [h3 n (Nat.le_refl n)]; exact one)), ?_, ?_⟩
    · intro i hi
      simp only [Net.set]
      split
      · rfl
      · exact h2 i (by omega)
    · intro i hi
      simp only [Net.set]
      rw [if_neg (by omega)]
      exact h3 i (by omega)

/-! ## rtrmon -/

/-- A session in which the cache has one record, with this ASN. -/
def oneRecord (a : U32) : List MonEvent := fullSync 0 7 1 [(0, exPdu 1 a)]

theorem oneRecord_run (s : MonState) (hc : s.session.connected = false) (he : s.ended = false) (a : U32) :
    (s.run true (oneRecord a)).1.session.connected = false ∧ (s.run true (oneRecord a)).1.ended = false ∧
    (s.run true (oneRecord a)).1.client.vrpsRtr = s.client.vrpsRtr.put (monVrpKey ⟨.v4 0x0a000000, 9⟩ 24 a) (monVrpEntry 0 ⟨.v4 0x0a000000, 9⟩ 24 a) ∧
    (s.run true (oneRecord a)).1.client.vrps = (s.run true (oneRecord a)).1.client.vrpsRtr := by
  obtain ⟨c, ⟨v, cn⟩, en⟩ := s
  simp only at hc he
  subst hc he
  exact ⟨rfl, rfl, rfl, rfl⟩

/-- `n` sessions after each other; the cache has one record each time, with another ASN. -/
def sessions (n : Nat) : List MonEvent := (List.range n).flatMap fun i => oneRecord (BitVec.ofNat 32 i)

/-- **C172** is false of rtrmon: it has the records of all sessions, one for each, though the cache never had more than one (the map of a source is never emptied, cmd/rtrmon/rtrmon.go:245-252, 481-485; up to the number of ASNs here). -/
theorem C172_monitor_false (n : Nat) (hn : n ≤ 4294967296) : (MonState.init.run true (sessions n)).1.client.vrps.length = n := by
  suffices H : (MonState.init.run true (sessions n)).1.session.connected = false ∧ (MonState.init.run true (sessions n)).1.ended = false ∧
      (MonState.init.run true (sessions n)).1.client.vrps = (MonState.init.run true (sessions n)).1.client.vrpsRtr ∧
      (MonState.init.run true (sessions n)).1.client.vrpsRtr.length = n ∧
      ∀ x ∈ (MonState.init.run true (sessions n)).1.client.vrpsRtr, ∃ i < n, x.1 = monVrpKey ⟨.v4 0x0a000000, 9⟩ 24 (BitVec.ofNat 32 i) by
    rw [H.2.2.1, H.2.2.2.1]
  induction n with
  | zero => exact ⟨rfl, rfl, rfl, rfl, fun x hx => absurd hx List.not_mem_nil⟩
  | succ n ih =>
    obtain ⟨h1, h2, -, h4, h5⟩ := ih (by omega)
    have e : sessions (n + 1) = sessions n ++ oneRecord (BitVec.ofNat 32 n) := by
      simp [sessions, List.range_succ, List.flatMap_append]
    have e1 : (MonState.init.run true (sessions (n + 1))).1 = ((MonState.init.run true (sessions n)).1.run true (oneRecord (BitVec.ofNat 32 n))).1 := by
      rw [e, run_append]
    rw [e1]
    obtain ⟨g1, g2, g3, g4⟩ := oneRecord_run _ h1 h2 (BitVec.ofNat 32 n)
    have fresh : ∀ x ∈ (MonState.init.run true (sessions n)).1.client.vrpsRtr, x.1 ≠ monVrpKey ⟨.v4 0x0a000000, 9⟩ 24 (BitVec.ofNat 32 n) := by
      intro x hx he
      obtain ⟨i, hi, hk⟩ := h5 x hx
      rw [hk] at he
      have he := List.append_cancel_left he
      injection he with _ he
      have he := List.append_cancel_left he
      injection he with _ he
      have he := decStr_inj he
      rw [BitVec.toNat_ofNat, BitVec.toNat_ofNat, Nat.mod_eq_of_lt (by omega), Nat.mod_eq_of_lt (by omega)] at he
      omega
    have hdel : MonMap.del (MonState.init.run true (sessions n)).1.client.vrpsRtr (monVrpKey ⟨.v4 0x0a000000, 9⟩ 24 (BitVec.ofNat 32 n)) =
        (MonState.init.run true (sessions n)).1.client.vrpsRtr := by
      refine List.filter_eq_self.mpr fun x hx => ?_
      simpa using fresh x hx
    refine ⟨g1, g2, g4, ?_, ?_⟩
    · rw [g3, MonMap.put, hdel, List.length_cons, h4]
    · rw [g3, MonMap.put, hdel]
      intro x hx
      rcases List.mem_cons.mp hx with rfl | hx
      · exact ⟨n, by omega, rfl⟩
      · obtain ⟨i, hi, hk⟩ := h5 x hx; exact ⟨i, by omega, hk⟩

/-- Lists that meet the hypotheses of `C172_store_partial`, and the store after four loads: three change sets. -/
example : (∀ l ∈ [[exA, exB], [exC, exB], [exA], [exB, exC]], AllValid l ∧ (records l).Nodup ∧ l.length ≤ 2) ∧
    ((Store.init 3).run [[exA, exB], [exC, exB], [exA], [exB, exC]]).listDiff.map List.length = [2, 0, 3] := by decide +kernel

end StayRTR
