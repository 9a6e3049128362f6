import Verif.Model.Slices
import Verif.Proofs.Update

/-!
# Facts about slices
-/

namespace StayRTR
open Spec

namespace Mem

variable {α : Type}

/-- A slice within its array. -/
structure Valid (m : Mem α) (s : MSlice) : Prop where
  addr : s.addr < m.length
  len : s.len ≤ (m.array s.addr).length

theorem read_length {m : Mem α} {s : MSlice} (h : m.Valid s) : (m.read s).length = s.len := by
  unfold read; rw [List.length_take]; exact Nat.min_eq_left h.len

theorem array_alloc_old (m : Mem α) (l spare : List α) {a : Nat} (h : a < m.length) : (m.alloc l spare).1.array a = m.array a := by
  unfold array alloc; rw [List.getElem?_append_left h]

theorem array_alloc_new (m : Mem α) (l spare : List α) : (m.alloc l spare).1.array m.length = l ++ spare := by
  simp [array, alloc]

theorem valid_alloc (m : Mem α) (l spare : List α) : (m.alloc l spare).1.Valid (m.alloc l spare).2 :=
  ⟨by simp [alloc], by rw [show (m.alloc l spare).2 = ⟨m.length, l.length⟩ from rfl, array_alloc_new]; simp⟩

theorem read_alloc (m : Mem α) (l spare : List α) : (m.alloc l spare).1.read (m.alloc l spare).2 = l := by
  unfold read; rw [show (m.alloc l spare).2 = ⟨m.length, l.length⟩ from rfl, array_alloc_new]; simp

theorem alloc_kept (m : Mem α) (l spare : List α) {t : MSlice} (h : m.Valid t) : (m.alloc l spare).1.Valid t ∧ (m.alloc l spare).1.read t = m.read t := by
  have := array_alloc_old m l spare h.addr
  exact ⟨⟨by simp only [alloc, List.length_append]; exact Nat.lt_add_right _ h.addr, by rw [this]; exact h.len⟩, by unfold read; rw [this]⟩

theorem overwrite_length {l : List α} {n : Nat} {xs : List α} (h : n + xs.length ≤ l.length) : (overwrite l n xs).length = l.length := by
  simp only [overwrite, List.length_append, List.length_take, List.length_drop]; omega

theorem take_overwrite {l : List α} {n : Nat} {xs : List α} (h : n + xs.length ≤ l.length) (k : Nat) : (overwrite l n xs).take k =
    if k ≤ n then l.take k else if k ≤ n + xs.length then l.take n ++ xs.take (k - n) else l.take n ++ xs ++ (l.drop (n + xs.length)).take (k - (n + xs.length)) := by
  have hn : (l.take n).length = n := by rw [List.length_take]; omega
  unfold overwrite
  rw [List.append_assoc]
  split
  · rename_i hk
    rw [List.take_append_of_le_length (by omega), List.take_take, Nat.min_eq_left hk]
  · rw [List.take_append, hn, List.take_of_length_le (l := l.take n) (by omega)]
    split
    · rename_i hk; rw [List.take_append_of_le_length (by omega)]
    · rename_i hk
      rw [List.take_append, List.take_of_length_le (l := xs) (by omega), List.append_assoc, Nat.sub_sub]

theorem array_set (m : Mem α) {a b : Nat} (l : List α) (h : a < m.length) : array (m.set a l) b = if b = a then l else m.array b := by
  unfold array
  rw [List.getElem?_set]
  split
  · rename_i hb; subst hb; simp [h]
  · rename_i hb; rw [if_neg (fun h => hb h.symm)]

theorem valid_append {m : Mem α} {s : MSlice} (h : m.Valid s) (xs spare : List α) : (m.append s xs spare).1.Valid (m.append s xs spare).2 := by
  unfold append
  split
  · rename_i hc
    refine ⟨by simpa using h.addr, ?_⟩
    simp only [array_set m _ h.addr, if_true]
    rw [overwrite_length hc]; exact hc
  · exact valid_alloc ..

theorem read_append {m : Mem α} {s : MSlice} (h : m.Valid s) (xs spare : List α) : (m.append s xs spare).1.read (m.append s xs spare).2 = m.read s ++ xs := by
  unfold append
  split
  · rename_i hc
    show List.take _ (array _ _) = _
    simp only [array_set m _ h.addr, if_true]
    rw [take_overwrite hc]
    unfold read
    split
    · have : xs = [] := by rw [← List.length_eq_zero_iff]; omega
      subst this
      simp
    · rw [if_pos (Nat.le_refl _), Nat.add_sub_cancel_left, List.take_length]
  · exact read_alloc ..

/-- Appending leaves every slice whose elements after those of the slice appended to are the ones written anyway. -/
theorem append_kept {m : Mem α} {s t : MSlice} (h : m.Valid s) (ht : m.Valid t) {A : List α} (xs spare : List α) (hx : xs = A ∨ xs = [])
    (hs : t.addr = s.addr → ∃ k, m.read t = m.read s ++ A.take k) :
    (m.append s xs spare).1.Valid t ∧ (m.append s xs spare).1.read t = m.read t := by
  unfold append
  split
  · rename_i hc
    by_cases ha : t.addr = s.addr
    · have hlen : ((m.array s.addr).take s.len).length = s.len := by rw [List.length_take]; have := h.len; omega
      refine ⟨⟨by simpa using ht.addr, ?_⟩, ?_⟩
      · simp only [array_set m _ h.addr, if_pos ha]
        rw [overwrite_length hc, ← ha]; exact ht.len
      · obtain ⟨k, hk⟩ := hs ha
        have hl := congrArg List.length hk
        rw [List.length_append, read_length h, read_length ht, List.length_take] at hl
        show List.take _ (array _ _) = _
        simp only [array_set m _ h.addr, if_pos ha]
        rw [take_overwrite hc]
        unfold read at hk ⊢
        rw [ha] at hk ⊢
        rcases hx with rfl | rfl
        · split
          · rfl
          · rw [if_pos (by omega), hk]
            congr 1
            rw [List.take_eq_take_iff]
            omega
        · simp only [List.length_nil, Nat.add_zero, List.append_nil, List.take_nil]
          split
          · rfl
          · have e : List.take t.len (m.array s.addr) = List.take (s.len + (t.len - s.len)) (m.array s.addr) := by congr 1; omega
            rw [e, List.take_add]
    · refine ⟨⟨by simpa using ht.addr, ?_⟩, ?_⟩
      · simp only [array_set m _ h.addr, if_neg ha]; exact ht.len
      · show List.take _ (array _ _) = _
        simp only [array_set m _ h.addr, if_neg ha]
        rfl
  · exact alloc_kept _ _ _ ht

/-- Where the result of appending is. -/
theorem append_addr {m : Mem α} {s : MSlice} (xs spare : List α) : (m.append s xs spare).2.addr = s.addr ∨ (m.append s xs spare).2.addr = m.length := by
  unfold append
  split
  · exact .inl rfl
  · exact .inr rfl

/-- The pattern of `FilterAssert`: the slice itself or a new one, then `append`. -/
def rebuilt (m : Mem α) (x : MSlice) (c : Bool) (l spare xs spare' : List α) : Mem α × MSlice :=
  let p := if c then (m, x) else m.alloc l spare
  p.1.append p.2 xs spare'

theorem rebuilt_spec {m : Mem α} {x : MSlice} (h : m.Valid x) (c : Bool) (l spare xs spare' : List α) :
    (m.rebuilt x c l spare xs spare').1.Valid (m.rebuilt x c l spare xs spare').2 ∧
    (m.rebuilt x c l spare xs spare').1.read (m.rebuilt x c l spare xs spare').2 = (if c then m.read x else l) ++ xs ∧
    ((m.rebuilt x c l spare xs spare').2.addr = x.addr → c = true) := by
  unfold rebuilt
  cases c with
  | true => exact ⟨valid_append h _ _, read_append h _ _, fun _ => rfl⟩
  | false =>
    have hv := valid_alloc m l spare
    refine ⟨valid_append hv _ _, ?_, ?_⟩
    · have := read_append hv xs spare'
      rw [read_alloc] at this
      exact this
    · intro ha
      have h1 := h.addr
      have h2 : (m.alloc l spare).2.addr = m.length := rfl
      have h3 : (m.alloc l spare).1.length = m.length + 1 := by simp [alloc]
      rcases append_addr (m := (m.alloc l spare).1) (s := (m.alloc l spare).2) xs spare' with h' | h' <;>
        (rw [show ((m.alloc l spare).1.append (m.alloc l spare).2 xs spare').2.addr = x.addr from ha] at h'; omega)

theorem rebuilt_kept {m : Mem α} {x t : MSlice} (h : m.Valid x) (ht : m.Valid t) {A : List α} (c : Bool) (l spare xs spare' : List α) (hx : c = true → xs = A ∨ xs = [])
    (hs : t.addr = x.addr → ∃ k, m.read t = m.read x ++ A.take k) :
    (m.rebuilt x c l spare xs spare').1.Valid t ∧ (m.rebuilt x c l spare xs spare').1.read t = m.read t := by
  unfold rebuilt
  cases c with
  | true => exact append_kept h ht _ _ (hx rfl) hs
  | false =>
    obtain ⟨h1, h2⟩ := alloc_kept m l spare ht
    have := append_kept (valid_alloc m l spare) h1 (A := xs) xs spare' (.inl rfl) (fun ha => by have h3 := ht.addr; exact absurd ha (Nat.ne_of_lt h3))
    exact ⟨this.1, this.2.trans h2⟩

/-- A slice holds a list; nil holds nothing. -/
structure Holds (m : Mem α) (o : Option MSlice) (v : Option (List α)) : Prop where
  read : o.map m.read = v
  valid : ∀ x, o = some x → m.Valid x

/-- The elements of a slice, where those in the array of the slice `o` are followed only by what is in `A`. -/
structure Good (m : Mem α) (o : Option MSlice) (A : List α) (t : MSlice) : Prop where
  valid : m.Valid t
  shared : ∀ x, o = some x → t.addr = x.addr → ∃ k, m.read t = m.read x ++ A.take k

/-- Such slices are left alone. -/
def Wrote (m m' : Mem α) (o : Option MSlice) (A : List α) : Prop := ∀ t, m.Good o A t → m'.Valid t ∧ m'.read t = m.read t

theorem Holds.good {m : Mem α} {o : Option MSlice} {v : Option (List α)} (h : m.Holds o v) (A : List α) {x : MSlice} (hx : o = some x) : m.Good o A x :=
  ⟨h.valid x hx, fun y hy _ => ⟨0, by rw [hx] at hy; cases hy; simp⟩⟩

theorem Holds.wrote {m m' : Mem α} {o : Option MSlice} {v : Option (List α)} (h : m.Holds o v) {A : List α} (hw : Wrote m m' o A) : m'.Holds o v := by
  cases o with
  | none => exact ⟨h.read, nofun⟩
  | some x =>
    have := hw x (h.good A rfl)
    exact ⟨by rw [← h.read]; simp [this.2], fun y hy => by cases hy; exact this.1⟩

theorem Good.wrote {m m' : Mem α} {o : Option MSlice} {v : Option (List α)} (h : m.Holds o v) {A : List α} (hw : Wrote m m' o A) {t : MSlice} (hg : m.Good o A t) : m'.Good o A t := by
  obtain ⟨h1, h2⟩ := hw t hg
  refine ⟨h1, fun x hx ha => ?_⟩
  rw [h2, (hw x (h.good A hx)).2]
  exact hg.shared x hx ha

theorem Wrote.refl (m : Mem α) (o : Option MSlice) (A : List α) : Wrote m m o A := fun _ h => ⟨h.valid, rfl⟩

theorem Wrote.alloc (m : Mem α) (o : Option MSlice) (A l spare : List α) : Wrote m (m.alloc l spare).1 o A := fun _ h => alloc_kept m l spare h.valid

end Mem

/-! ## `FilterAssert` on slices -/

namespace MState

theorem filterAssertV_eq (wide : WideFloat) (c : Slurm) (p : Spare) (m : Mem VRPJson) (x : MSlice) : filterAssertV wide c p m x =
    m.rebuilt x (decide (c.prefixFilters = [])) (Slurm.filterOnVRPs wide c.prefixFilters (m.read x)).1 p.filterV (Slurm.assertVRPs c.prefixAssertions) p.growV := by
  unfold filterAssertV Mem.rebuilt
  by_cases h : c.prefixFilters = []
  · simp only [h, if_true, decide_true]
  · simp only [h, if_false, decide_false, Bool.false_eq_true]

theorem filterAssertK_eq (c : Slurm) (p : Spare) (m : Mem BgpSecKeyJson) (x : MSlice) : filterAssertK c p m x =
    m.rebuilt x (decide (c.bgpsecFilters = [])) (Slurm.filterOnBRKs c.bgpsecFilters (m.read x)).1 p.filterK (Slurm.assertBRKs c.bgpsecAssertions) p.growK := by
  unfold filterAssertK Mem.rebuilt
  by_cases h : c.bgpsecFilters = []
  · simp only [h, if_true, decide_true]
  · simp only [h, if_false, decide_false, Bool.false_eq_true]

theorem filterV_nil (wide : WideFloat) (c : Slurm) (l : List VRPJson) :
    (if decide (c.prefixFilters = []) = true then l else (Slurm.filterOnVRPs wide c.prefixFilters l).1) = (Slurm.filterOnVRPs wide c.prefixFilters l).1 := by
  by_cases h : c.prefixFilters = []
  · simp [h, Slurm.filterOnVRPs]
  · simp [h]

theorem filterK_nil (c : Slurm) (l : List BgpSecKeyJson) :
    (if decide (c.bgpsecFilters = []) = true then l else (Slurm.filterOnBRKs c.bgpsecFilters l).1) = (Slurm.filterOnBRKs c.bgpsecFilters l).1 := by
  by_cases h : c.bgpsecFilters = []
  · simp [h, Slurm.filterOnBRKs]
  · simp [h]

/-- The loaded file is in memory. -/
structure Ok (s : MState) : Prop where
  roas : s.memV.Holds s.roas s.u.lastdata.roas
  keys : s.memK.Holds s.keys s.u.lastdata.keys

/-- Whatever is written after the loaded lists is this. -/
structure Tame (c : Slurm) (A : List VRPJson) (K : List BgpSecKeyJson) : Prop where
  roas : c.prefixFilters = [] → Slurm.assertVRPs c.prefixAssertions = A ∨ Slurm.assertVRPs c.prefixAssertions = []
  keys : c.bgpsecFilters = [] → Slurm.assertBRKs c.bgpsecAssertions = K ∨ Slurm.assertBRKs c.bgpsecAssertions = []

theorem tame_self (c : Slurm) : Tame c (Slurm.assertVRPs c.prefixAssertions) (Slurm.assertBRKs c.bgpsecAssertions) := ⟨fun _ => .inl rfl, fun _ => .inl rfl⟩

theorem wrote_rebuilt {α : Type} {m : Mem α} {x : MSlice} (h : m.Valid x) {A : List α} (c : Bool) (l spare xs spare' : List α) (hx : c = true → xs = A ∨ xs = []) :
    Mem.Wrote m (m.rebuilt x c l spare xs spare').1 (some x) A :=
  fun _ ht => Mem.rebuilt_kept h ht.valid c l spare xs spare' hx (ht.shared x rfl)

theorem good_rebuilt {α : Type} {m : Mem α} {x : MSlice} (h : m.Valid x) {A : List α} (c : Bool) (l spare xs spare' : List α) (hx : c = true → xs = A ∨ xs = []) :
    (m.rebuilt x c l spare xs spare').1.Good (some x) A (m.rebuilt x c l spare xs spare').2 := by
  obtain ⟨h1, h2, h3⟩ := Mem.rebuilt_spec h c l spare xs spare'
  refine ⟨h1, fun y hy ha => ?_⟩
  cases hy
  have hc := h3 ha
  have hk := (Mem.rebuilt_kept h h (A := A) c l spare xs spare' hx (fun _ => ⟨0, by simp⟩)).2
  rw [h2, hk, if_pos hc]
  rcases hx hc with e | e
  · exact ⟨A.length, by rw [List.take_length, e]⟩
  · exact ⟨0, by rw [e, List.take_zero]⟩

/-- What `withSlurm` does. -/
theorem withSlurm_spec (e : Env) (p : Spare) {s : MState} (ok : s.Ok) {x : MSlice} (hx : s.roas = some x) {A : List VRPJson} {K : List BgpSecKeyJson}
    (ht : ∀ c, s.u.slurm = some c → Tame c A K) :
    Mem.Wrote s.memV (s.withSlurm e p x).1 s.roas A ∧ Mem.Wrote s.memK (s.withSlurm e p x).2.1 s.keys K ∧
    (s.withSlurm e p x).1.Good s.roas A (s.withSlurm e p x).2.2.1 ∧ (s.withSlurm e p x).2.1.Good s.keys K (s.withSlurm e p x).2.2.2 ∧
    (s.withSlurm e p x).1.read (s.withSlurm e p x).2.2.1 = (withExceptions e.wide s.u.slurm s.u.lastdata).1 ∧
    (s.withSlurm e p x).2.1.read (s.withSlurm e p x).2.2.2 = (withExceptions e.wide s.u.slurm s.u.lastdata).2 := by
  have hvx := ok.roas.valid x hx
  have hr : s.memV.read x = s.u.lastdata.roas.getD [] := by rw [← ok.roas.read, hx]; rfl
  unfold withSlurm
  rw [hx]
  cases hk : s.keys with
  | some y =>
    have hvy := ok.keys.valid y hk
    have hrk : s.memK.read y = s.u.lastdata.keys.getD [] := by rw [← ok.keys.read, hk]; rfl
    cases hs : s.u.slurm with
    | none =>
      exact ⟨Mem.Wrote.refl _ _ _, Mem.Wrote.refl _ _ _, (⟨hvx, fun z hz _ => by cases hz; exact ⟨0, by simp⟩⟩), ⟨hvy, fun z hz _ => by cases hz; exact ⟨0, by simp⟩⟩, hr, hrk⟩
    | some c =>
      have hc := ht c hs
      simp only [filterAssertV_eq, filterAssertK_eq]
      refine ⟨wrote_rebuilt hvx _ _ _ _ _ (fun h => hc.roas (by simpa using h)), wrote_rebuilt hvy _ _ _ _ _ (fun h => hc.keys (by simpa using h)),
        good_rebuilt hvx _ _ _ _ _ (fun h => hc.roas (by simpa using h)), good_rebuilt hvy _ _ _ _ _ (fun h => hc.keys (by simpa using h)), ?_, ?_⟩
      · rw [(Mem.rebuilt_spec hvx ..).2.1, filterV_nil, hr]; rfl
      · rw [(Mem.rebuilt_spec hvy ..).2.1, filterK_nil, hrk]; rfl
  | none =>
    have hrk : s.u.lastdata.keys.getD [] = [] := by rw [← ok.keys.read, hk]; rfl
    have hvy := Mem.valid_alloc s.memK [] []
    have h0 := Mem.read_alloc s.memK [] []
    cases hs : s.u.slurm with
    | none =>
      exact ⟨Mem.Wrote.refl _ _ _, Mem.Wrote.alloc _ _ _ _ _, ⟨hvx, fun z hz _ => by cases hz; exact ⟨0, by simp⟩⟩, ⟨hvy, nofun⟩, hr, h0.trans hrk.symm⟩
    | some c =>
      have hc := ht c hs
      simp only [filterAssertV_eq, filterAssertK_eq]
      refine ⟨wrote_rebuilt hvx _ _ _ _ _ (fun h => hc.roas (by simpa using h)), ?_,
        good_rebuilt hvx _ _ _ _ _ (fun h => hc.roas (by simpa using h)), ?_, ?_, ?_⟩
      · intro t htt
        obtain ⟨h1, h2⟩ := Mem.alloc_kept s.memK [] [] htt.valid
        have := Mem.rebuilt_kept hvy h1 (A := Slurm.assertBRKs c.bgpsecAssertions) (decide (c.bgpsecFilters = []))
          (Slurm.filterOnBRKs c.bgpsecFilters (Mem.read (Mem.alloc s.memK [] []).1 (Mem.alloc s.memK [] []).2)).1 p.filterK (Slurm.assertBRKs c.bgpsecAssertions) p.growK (fun _ => .inl rfl)
          (fun ha => absurd ha (Nat.ne_of_lt htt.valid.addr))
        exact ⟨this.1, this.2.trans h2⟩
      · exact ⟨(Mem.rebuilt_spec hvy ..).1, nofun⟩
      · rw [(Mem.rebuilt_spec hvx ..).2.1, filterV_nil, hr]; rfl
      · rw [(Mem.rebuilt_spec hvy ..).2.1, filterK_nil, h0, ← hrk]; rfl

end MState

end StayRTR
