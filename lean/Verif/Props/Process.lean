import Verif.Proofs.Process
import Verif.Model.Store

/-!
# From the cache file to the records: C43-C48
-/

namespace StayRTR
open Spec

/-! ## The assumption on sorting is satisfiable -/

/-- The comparison function as arithmetic. -/
theorem vrpLess_iff (a b : VRP) : vrpLess a b = true ↔
    a.pfx.bits > b.pfx.bits ∨ (a.pfx.bits = b.pfx.bits ∧ (a.maxLen.toNat > b.maxLen.toNat ∨ (a.maxLen.toNat = b.maxLen.toNat ∧
      (a.pfx.ip.bitLen < b.pfx.ip.bitLen ∨ (a.pfx.ip.bitLen = b.pfx.ip.bitLen ∧ a.pfx.ip.value ≤ b.pfx.ip.value))))) := by
  unfold vrpLess Addr.compareLe
  split
  · rename_i h
    split
    · rename_i hm
      have : a.maxLen.toNat ≠ b.maxLen.toNat := fun e => hm (BitVec.eq_of_toNat_eq e)
      simp only [decide_eq_true_eq]
      omega
    · rename_i hm
      have : a.maxLen.toNat = b.maxLen.toNat := by rw [Decidable.not_not.mp hm]
      simp only [Bool.or_eq_true, decide_eq_true_eq, Bool.and_eq_true, beq_iff_eq]
      omega
  · simp only [decide_eq_true_eq]
    omega

theorem vrpLess_trans (a b c : VRP) (h1 : vrpLess a b = true) (h2 : vrpLess b c = true) : vrpLess a c = true := by
  rw [vrpLess_iff] at *
  omega

theorem vrpLess_total (a b : VRP) : (vrpLess a b || vrpLess b a) = true := by
  rw [Bool.or_eq_true, vrpLess_iff, vrpLess_iff]
  omega

/-- Insertion into a sorted list. -/
def insertVRP (a : VRP) : List VRP → List VRP
  | [] => [a]
  | b :: l => if vrpLess a b then a :: b :: l else b :: insertVRP a l

/-- A sorting function of the assumed kind: insertion sort. -/
def insertionSorter : Sorter := fun l => l.foldr insertVRP []

theorem insertVRP_perm (a : VRP) (l : List VRP) : (insertVRP a l).Perm (a :: l) := by
  induction l with
  | nil => exact .refl _
  | cons b l ih =>
    simp only [insertVRP]
    split
    · exact .refl _
    · exact ((ih.cons b).trans (.swap a b l))

theorem insertVRP_sorted {a : VRP} {l : List VRP} (h : l.Pairwise (fun a b => vrpLess a b = true)) : (insertVRP a l).Pairwise (fun a b => vrpLess a b = true) := by
  induction l with
  | nil => simp [insertVRP]
  | cons b l ih =>
    rw [List.pairwise_cons] at h
    simp only [insertVRP]
    split
    · rename_i hab
      rw [List.pairwise_cons, List.pairwise_cons]
      refine ⟨?_, h⟩
      intro c hc
      rcases List.mem_cons.mp hc with rfl | hc
      · exact hab
      · exact vrpLess_trans _ _ _ hab (h.1 c hc)
    · rename_i hab
      rw [List.pairwise_cons]
      refine ⟨?_, ih h.2⟩
      intro c hc
      rcases List.mem_cons.mp ((insertVRP_perm a l).mem_iff.mp hc) with rfl | hc
      · have := vrpLess_total c b
        simpa [hab] using this
      · exact h.1 c hc

theorem insertionSorter_ok : insertionSorter.Ok := by
  intro l
  induction l with
  | nil => exact ⟨.refl _, .nil⟩
  | cons a l ih => exact ⟨(insertVRP_perm a _).trans (ih.1.cons a), insertVRP_sorted ih.2⟩

/-- Two orders of the same VRPs that `sort.Slice` may give differ only in VRPs with the same prefix length, maximum length and address. -/
theorem sorter_forced {sort sort' : Sorter} (h : sort.Ok) (h' : sort'.Ok) (l : List VRP)
    (hanti : ∀ a ∈ l, ∀ b ∈ l, vrpLess a b = true → vrpLess b a = true → a = b) : sort l = sort' l := by
  refine List.Perm.eq_of_pairwise (le := fun a b => vrpLess a b = true) ?_ (h l).2 (h' l).2 ((h l).1.trans (h' l).1.symm)
  intro a b ha hb
  exact hanti a ((h l).1.mem_iff.mp ha) b ((h' l).1.mem_iff.mp hb)

/-! ## C43, C44: exactly the valid entries -/

theorem processData_mem (wide : WideFloat) {sort : Sorter} (hs : sort.Ok) (now : Int) (vs : List VRPJson) (ks : List BgpSecKeyJson) (x : VRP) :
    x ∈ (processData wide sort now vs ks).vrps ↔ x.flags = 0 ∧ ∃ v ∈ vs, checkVRP wide now v = some (x.pfx, x.asn) ∧ v.length = x.maxLen := by
  have inv := procInv wide now vs
  unfold processData
  simp only [(hs _).1.mem_iff]
  constructor
  · intro hx; exact ⟨inv.flags x hx, (inv.mem x.triple).mp (List.mem_map.mpr ⟨x, hx, rfl⟩)⟩
  · rintro ⟨hf, h⟩
    obtain ⟨y, hy, he⟩ := List.mem_map.mp ((inv.mem x.triple).mpr h)
    have hyf := inv.flags y hy
    obtain ⟨p, a, m, f⟩ := x
    obtain ⟨p', a', m', f'⟩ := y
    simp only [VRP.triple, Prod.mk.injEq] at he hf hyf
    obtain ⟨rfl, rfl, rfl⟩ := he
    subst hf; subst hyf
    exact hy

/-- Every VRP that comes out is asked for by an entry of the file, if numeric ASNs in the file are in range. Missing: a number out of range (`C43_range_false`). -/
theorem C43_valid_partial (wide : WideFloat) {sort : Sorter} (hs : sort.Ok) (now : Int) (vs : List VRPJson) (ks : List BgpSecKeyJson)
    (hr : ∀ v ∈ vs, AsnInRange v.asn) (x : VRP) (hx : x ∈ (processData wide sort now vs ks).vrps) : ∃ v ∈ vs, Serves now v (x.pfx, x.maxLen, x.asn) := by
  obtain ⟨_, v, hv, hc, hl⟩ := (processData_mem wide hs now vs ks x).mp hx
  obtain ⟨h1, h2, h3, h4, h5, h6⟩ := (checkVRP_iff ..).mp hc
  rw [hl] at h4 h5
  exact ⟨v, hv, (prefixText_iff ..).mp h1, (getASN2_iff wide v (hr v hv) _).mp h2, hl, h3, h4, h5, h6⟩

/-- Whatever the ASNs: the prefix and maximum length of every VRP that comes out are valid, and it is not expired. -/
theorem C43_lengths (wide : WideFloat) {sort : Sorter} (hs : sort.Ok) (now : Int) (vs : List VRPJson) (ks : List BgpSecKeyJson)
    (x : VRP) (hx : x ∈ (processData wide sort now vs ks).vrps) :
    (SD.vrp x).Valid ∧ 1 ≤ x.pfx.bits ∧ x.pfx.bits ≤ (x.maxLen.toNat : Int) ∧ x.maxLen.toNat ≤ x.pfx.ip.bitLen ∧
      ∃ v ∈ vs, PrefixText v.pfx x.pfx ∧ v.length = x.maxLen ∧ AsnReads wide v.asn x.asn ∧ ∀ e, v.expires = some e → now ≤ e := by
  obtain ⟨_, v, hv, hc, hl⟩ := (processData_mem wide hs now vs ks x).mp hx
  obtain ⟨h1, h2, h3, h4, h5, h6⟩ := (checkVRP_iff ..).mp hc
  rw [hl] at h4 h5
  exact ⟨parsePrefix_valid h1, h3, h4, h5, v, hv, (prefixText_iff ..).mp h1, hl, (asnReads_iff ..).mp h2, h6⟩

/-- An ASN that is not a 32-bit number does not stop an entry: some other ASN is served for it. -/
theorem C43_range_false (wide : WideFloat) {sort : Sorter} (hs : sort.Ok) :
    let v : VRPJson := ⟨"10.0.0.0/8".toList, 8, .float (2 ^ 32), [], none⟩
    (∀ n, ¬ AsnIs v.asn n) ∧ ∃ x ∈ (processData wide sort 0 [v] []).vrps, x.asn = wide (2 ^ 32) := by
  refine ⟨fun n h => ?_, ⟨⟨.v4 0x0a000000, 9⟩, wide (2 ^ 32), 8, 0⟩, ?_, rfl⟩
  · have := n.isLt
    simp only [AsnIs] at h
    omega
  · rw [processData_mem wide hs]
    refine ⟨rfl, _, List.mem_singleton.mpr rfl, ?_, rfl⟩
    have hp : parsePrefix "10.0.0.0/8".toList = some ⟨.v4 0x0a000000, 9⟩ := by decide
    have hb : (1 : Int) ≤ (⟨.v4 0x0a000000, 9⟩ : Prefix).bits ∧ (⟨.v4 0x0a000000, 9⟩ : Prefix).bits ≤ ((8 : U8).toNat : Int) ∧ (8 : U8).toNat ≤ (⟨.v4 0x0a000000, 9⟩ : Prefix).ip.bitLen := by decide
    exact (checkVRP_iff ..).mpr ⟨hp, by simp [VRPJson.getASN2], hb.1, hb.2.1, hb.2.2, by simp⟩

/-- Every VRP that an entry asks for comes out exactly once, however often and in whatever spelling it is in the file. -/
theorem C44_exactly_once (wide : WideFloat) {sort : Sorter} (hs : sort.Ok) (now : Int) (vs : List VRPJson) (ks : List BgpSecKeyJson) (v : VRPJson)
    (hv : v ∈ vs) (r : Prefix × U8 × U32) (h : Serves now v r) :
    ((processData wide sort now vs ks).vrps.map (fun x => (x.pfx, x.maxLen, x.asn))).count r = 1 := by
  obtain ⟨h1, h2, h3, h4, h5, h6, h7⟩ := h
  have inv := procInv wide now vs
  have hperm := ((hs (vs.foldl (procStep wide now) ⟨[], [], 0, 0⟩).out).1.map VRP.triple)
  have hc : checkVRP wide now v = some (r.1, r.2.2) :=
    (checkVRP_iff ..).mpr ⟨(prefixText_iff ..).mpr h1, (getASN2_iff wide v (asnIs_inRange h2) _).mpr h2, h4, by rw [h3]; exact h5, by rw [h3]; exact h6, h7⟩
  have hm := (inv.mem r).mpr ⟨v, hv, hc, h3⟩
  have : ((processData wide sort now vs ks).vrps.map VRP.triple).count r = 1 := by
    unfold processData
    simp only
    rw [hperm.count_eq, inv.nodup.count, if_pos hm]
  exact this

/-- No VRP comes out twice. -/
theorem C44_nodup (wide : WideFloat) {sort : Sorter} (hs : sort.Ok) (now : Int) (vs : List VRPJson) (ks : List BgpSecKeyJson) :
    ((processData wide sort now vs ks).vrps.map (fun x => (x.pfx, x.maxLen, x.asn))).Nodup := by
  have inv := procInv wide now vs
  have hperm := ((hs (vs.foldl (procStep wide now) ⟨[], [], 0, 0⟩).out).1.map VRP.triple)
  exact hperm.nodup_iff.mpr inv.nodup

/-- A file with duplicates in different spellings, an expired entry, a default route and a bad maximum length: two VRPs come out. -/
example :
    let vs : List VRPJson :=
      [⟨"10.0.0.0/8".toList, 8, .str "AS1".toList, [], none⟩, ⟨"10.0.0.0/8".toList, 8, .float 1, "x".toList, some 100⟩,
       ⟨"2001:DB8:0::/32".toList, 48, .str "as0002".toList, [], some 50⟩, ⟨"2001:db8::/32".toList, 48, .float 2, [], none⟩,
       ⟨"10.1.0.0/16".toList, 16, .float 3, [], some 49⟩, ⟨"0.0.0.0/0".toList, 0, .float 4, [], none⟩, ⟨"10.1.0.0/16".toList, 15, .float 5, [], none⟩]
    processData (fun _ => 0) insertionSorter 50 vs [] = ⟨[⟨⟨.v6 0x20010db8000000000000000000000000, 33⟩, 2, 48, 0⟩, ⟨⟨.v4 0x0a000000, 9⟩, 1, 8, 0⟩], [], 2, 2⟩ := by
  decide

/-- The hypothesis of `C44_exactly_once` on that file. -/
example : Serves 50 ⟨"2001:DB8:0::/32".toList, 48, .float 2, [], some 50⟩ (⟨.v6 0x20010db8000000000000000000000000, 33⟩, 48, 2) := by
  refine ⟨(prefixText_iff ..).mp (by decide), by simp [AsnIs], rfl, by decide, by decide, by decide, ?_⟩
  intro e he
  simp only [Option.some.injEq] at he
  omega

/-! ## C45-C47: the order -/

/-- No VRP comes before one for a longer prefix: a sub-prefix precedes every prefix that covers it, whatever `sort.Slice` makes of equal elements. -/
theorem C45_subprefix_first (wide : WideFloat) {sort : Sorter} (hs : sort.Ok) (now : Int) (vs : List VRPJson) (ks : List BgpSecKeyJson) :
    (processData wide sort now vs ks).vrps.Pairwise (fun earlier later => ¬ (Covers earlier.pfx later.pfx ∧ earlier.pfx.bits < later.pfx.bits)) := by
  refine List.Pairwise.imp ?_ (hs _).2
  rintro a b h ⟨_, hlt⟩
  rw [vrpLess_iff] at h
  omega

example :
    let vs : List VRPJson := [⟨"10.0.0.0/8".toList, 24, .float 1, [], none⟩, ⟨"10.1.0.0/16".toList, 16, .float 2, [], none⟩]
    ((processData (fun _ => 0) insertionSorter 0 vs []).vrps.map (fun x => (x.pfx.bits, x.asn.toNat))) = [(16, 2), (8, 1)] ∧
    Covers ⟨.v4 0x0a000000, 9⟩ ⟨.v4 0x0a010000, 17⟩ := by
  refine ⟨by decide, ?_⟩
  simp only [Covers]
  refine ⟨by decide, ?_⟩
  have : ∀ i : Fin 8, (0x0a000000 : BitVec 32).getMsbD i.val = (0x0a010000 : BitVec 32).getMsbD i.val := by decide
  intro i hi
  exact this ⟨i, by omega⟩

/-- After an update the order of processing is gone: the new sub-prefix is sent after the covering prefix that was there. -/
theorem C46_update_false {sort : Sorter} (hs : sort.Ok) :
    let cover : VRPJson := ⟨"10.0.0.0/8".toList, 8, .float 1, [], none⟩
    let sub : VRPJson := ⟨"10.1.0.0/16".toList, 16, .float 2, [], none⟩
    let s1 := ((Store.init 3).addData (processData (fun _ => 0) sort 0 [cover] []).sds).1
    let s2 := (s1.addData (processData (fun _ => 0) sort 0 [cover, sub] []).sds).1
    s2.current.map SD.record = [.vrp ⟨.v4 0x0a000000, 9⟩ 8 1, .vrp ⟨.v4 0x0a010000, 17⟩ 16 2] := by
  intro cover sub
  have f1 : ([cover].foldl (procStep (fun _ => 0) 0) ⟨[], [], 0, 0⟩).out = [⟨⟨.v4 0x0a000000, 9⟩, 1, 8, 0⟩] := by decide
  have f2 : ([cover, sub].foldl (procStep (fun _ => 0) 0) ⟨[], [], 0, 0⟩).out = [⟨⟨.v4 0x0a000000, 9⟩, 1, 8, 0⟩, ⟨⟨.v4 0x0a010000, 17⟩, 2, 16, 0⟩] := by decide
  have anti1 : sort [⟨⟨.v4 0x0a000000, 9⟩, 1, 8, 0⟩] = [⟨⟨.v4 0x0a000000, 9⟩, 1, 8, 0⟩] := by
    rw [sorter_forced hs insertionSorter_ok]
    · decide
    · decide
  have anti2 : sort [⟨⟨.v4 0x0a000000, 9⟩, 1, 8, 0⟩, ⟨⟨.v4 0x0a010000, 17⟩, 2, 16, 0⟩] = [⟨⟨.v4 0x0a010000, 17⟩, 2, 16, 0⟩, ⟨⟨.v4 0x0a000000, 9⟩, 1, 8, 0⟩] := by
    rw [sorter_forced hs insertionSorter_ok]
    · decide
    · decide
  simp only [processData, f1, f2, anti1, anti2, processKeys, List.filterMap_nil]
  decide

/-- The first data, or data after an empty set, is served in the order of processing: VRPs in order, then router keys. Missing: later updates (`C46_update_false`). -/
theorem C46_first_partial (wide : WideFloat) (sort : Sorter) (now : Int) (vs : List VRPJson) (ks : List BgpSecKeyJson) (s : Store) (h0 : s.current = []) :
    (s.addData (processData wide sort now vs ks).sds).1.current.map SD.record = (processData wide sort now vs ks).sds.map SD.record := by
  generalize (processData wide sort now vs ks).sds = l
  have hw : ∀ (f : U8) (x : SD), (x.withFlag f).record = x.record ∧ (x.withFlag f).getFlag = f := by
    intro f x; cases x <;> exact ⟨rfl, rfl⟩
  have hd : computeDiff l s.current false = (l.map (SD.withFlag flagAdded), [], []) := by
    simp [computeDiff, h0, convertSDListToMap]
    all_goals rw [List.filter_eq_self.mpr (by simp)]
  unfold Store.addData
  simp only [hd, List.append_nil, List.length_map]
  split
  · rename_i h
    simp only [h0, List.map_nil]
    rw [List.length_eq_zero_iff.mp h]
    rfl
  · simp only [Store.addSDsDiff, h0, applyDiff, List.filter_nil, List.nil_append]
    rw [List.filter_eq_self.mpr]
    · rw [List.map_map]
      exact List.map_congr_left (fun x _ => (hw _ x).1)
    · intro x hx
      obtain ⟨y, _, rfl⟩ := List.mem_map.mp hx
      simp [(hw flagAdded y).2]

/-- VRPs for one prefix with different maximum lengths are separated by VRPs for other prefixes. -/
theorem C47_apart_false (wide : WideFloat) {sort : Sorter} (hs : sort.Ok) :
    let vs : List VRPJson := [⟨"10.0.0.0/16".toList, 24, .float 1, [], none⟩, ⟨"10.1.0.0/16".toList, 20, .float 2, [], none⟩, ⟨"10.0.0.0/16".toList, 16, .float 3, [], none⟩]
    ((processData wide sort 0 vs []).vrps.map (fun x => x.pfx)) = [⟨.v4 0x0a000000, 17⟩, ⟨.v4 0x0a010000, 17⟩, ⟨.v4 0x0a000000, 17⟩] := by
  intro vs
  have hf : (vs.foldl (procStep wide 0) ⟨[], [], 0, 0⟩).out =
      [⟨⟨.v4 0x0a000000, 17⟩, 1, 24, 0⟩, ⟨⟨.v4 0x0a010000, 17⟩, 2, 20, 0⟩, ⟨⟨.v4 0x0a000000, 17⟩, 3, 16, 0⟩] := by
    have h1 : checkVRP wide 0 ⟨"10.0.0.0/16".toList, 24, .float 1, [], none⟩ = some (⟨.v4 0x0a000000, 17⟩, 1) := by
      rw [checkVRP_iff]; exact ⟨by decide, by simp [VRPJson.getASN2], by decide, by decide, by decide, by simp⟩
    have h2 : checkVRP wide 0 ⟨"10.1.0.0/16".toList, 20, .float 2, [], none⟩ = some (⟨.v4 0x0a010000, 17⟩, 2) := by
      rw [checkVRP_iff]; exact ⟨by decide, by simp [VRPJson.getASN2], by decide, by decide, by decide, by simp⟩
    have h3 : checkVRP wide 0 ⟨"10.0.0.0/16".toList, 16, .float 3, [], none⟩ = some (⟨.v4 0x0a000000, 17⟩, 3) := by
      rw [checkVRP_iff]; exact ⟨by decide, by simp [VRPJson.getASN2], by decide, by decide, by decide, by simp⟩
    simp only [vs, List.foldl_cons, List.foldl_nil, procStep, h1, h2, h3]
    decide
  simp only [processData, hf]
  rw [sorter_forced hs insertionSorter_ok]
  · decide
  · decide

/-- VRPs for one prefix with the same maximum length are adjacent: whatever stands between two of them is for the same prefix. Missing: different maximum lengths (`C47_apart_false`). -/
theorem C47_same_length_partial (wide : WideFloat) {sort : Sorter} (hs : sort.Ok) (now : Int) (vs : List VRPJson) (ks : List BgpSecKeyJson)
    (l1 l2 l3 l4 : List VRP) (a b c : VRP) (h : (processData wide sort now vs ks).vrps = l1 ++ a :: l2 ++ b :: l3 ++ c :: l4)
    (hp : a.pfx = c.pfx) (hm : a.maxLen = c.maxLen) : b.pfx = a.pfx ∧ b.maxLen = a.maxLen := by
  have hsorted : (processData wide sort now vs ks).vrps.Pairwise (fun a b => vrpLess a b = true) := (hs _).2
  have hvalid : ∀ x ∈ (processData wide sort now vs ks).vrps, x.pfx.Valid := by
    intro x hx
    have := (C43_lengths wide hs now vs ks x hx).1
    exact ⟨this.1, by simpa [Prefix.isValid] using this.2⟩
  rw [h] at hsorted hvalid
  have hab : vrpLess a b = true := by
    rw [List.pairwise_append, List.pairwise_append] at hsorted
    exact hsorted.1.2.2 a (by simp) b (by simp)
  have hbc : vrpLess b c = true := by
    rw [List.pairwise_append] at hsorted
    exact hsorted.2.2 b (by simp) c (by simp)
  have va := hvalid a (by simp)
  have vb := hvalid b (by simp)
  obtain ⟨pc, ac, mc, fc⟩ := c
  simp only at hp hm
  subst hp; subst hm
  rw [vrpLess_iff] at hab hbc
  simp only at hbc
  have hm : b.maxLen = a.maxLen := BitVec.eq_of_toNat_eq (by omega)
  have hn : b.pfx.bitsPlusOne = a.pfx.bitsPlusOne := by unfold Prefix.bits at hab hbc; omega
  have hip : b.pfx.ip = a.pfx.ip := by
    have hz1 := va.ip_ne
    have hz2 := vb.ip_ne
    have hl : b.pfx.ip.bitLen = a.pfx.ip.bitLen := by omega
    have hv : b.pfx.ip.value = a.pfx.ip.value := by omega
    cases ha : a.pfx.ip <;> cases hbb : b.pfx.ip <;> simp only [ha, hbb, Addr.bitLen, Addr.value] at hl hv hz1 hz2 <;> first
      | exact absurd rfl hz1
      | exact absurd rfl hz2
      | omega
      | (congr 1; exact BitVec.eq_of_toNat_eq hv)
  refine ⟨?_, hm⟩
  cases hx : a.pfx; cases hy : b.pfx
  rw [hx, hy] at hip hn
  simp only at hip hn
  rw [hip, hn]

/-! ## C48: router keys -/

/-- The router keys that come out are exactly the unexpired ones with a decodable SKI, unchanged, in order. -/
theorem C48_keys (wide : WideFloat) (sort : Sorter) (now : Int) (vs : List VRPJson) (ks : List BgpSecKeyJson) (x : BgpsecKey) :
    x ∈ (processData wide sort now vs ks).brks ↔ x.flags = 0 ∧ ∃ k ∈ ks, ServesKey now k (x.asn, x.ski, x.pubkey) := by
  unfold processData processKeys ServesKey
  simp only [List.mem_filterMap]
  constructor
  · rintro ⟨k, hk, h⟩
    split at h
    · simp at h
    · rename_i he
      rw [Bool.not_eq_true, isExpired_iff] at he
      split at h
      · simp at h
      · rename_i hd
        simp only [Option.some.injEq] at h
        subst h
        refine ⟨rfl, k, hk, rfl, (hexText_iff ..).mp ?_, rfl, he⟩
        rw [Bool.not_eq_false] at hd
        rw [← hd]
  · rintro ⟨hf, k, hk, h1, h2, h3, h4⟩
    rw [← hexText_iff] at h2
    refine ⟨k, hk, ?_⟩
    have he := (isExpired_iff now k.expires).mpr h4
    rw [he, h2, h1, h3, ← hf]
    simp

/-- Each entry is treated on its own, in order. -/
theorem C48_list (wide : WideFloat) (sort : Sorter) (now : Int) (vs : List VRPJson) (ks ks' : List BgpSecKeyJson) (k : BgpSecKeyJson) :
    (processData wide sort now vs (ks ++ k :: ks')).brks =
      (processData wide sort now vs ks).brks ++ (processData wide sort now vs [k]).brks ++ (processData wide sort now vs ks').brks ∧
    (processData wide sort now vs [k]).brks.length ≤ 1 := by
  unfold processData processKeys
  simp only [List.filterMap_append, List.filterMap_cons, List.filterMap_nil]
  refine ⟨?_, ?_⟩
  · split <;> simp
  · split <;> simp

example : (processData (fun _ => 0) insertionSorter 10 [] [⟨1, none, [], [7], "AB".toList⟩, ⟨2, some 9, [], [7], "AB".toList⟩, ⟨3, some 10, [], [], "".toList⟩, ⟨4, none, [], [7], "ABC".toList⟩]).brks
    = [⟨1, [7], [0xAB], 0⟩, ⟨3, [], [], 0⟩] := by decide

/-! ## C76: the default route -/

/-- No VRP for a default route ever comes out, although one is a valid ROA and could be sent. -/
theorem C76_default_route_false (wide : WideFloat) {sort : Sorter} (hs : sort.Ok) (now : Int) (vs : List VRPJson) (ks : List BgpSecKeyJson) :
    (∀ x ∈ (processData wide sort now vs ks).vrps, x.pfx.bits ≠ 0) ∧
    (∃ v : VRPJson, PrefixText v.pfx ⟨.v4 0, 1⟩ ∧ AsnIs v.asn 0 ∧ v.length = 0 ∧ v.expires = none ∧ (processData wide sort now [v] []).vrps = []) := by
  constructor
  · intro x hx
    have := (C43_lengths wide hs now vs ks x hx).2.1
    omega
  · refine ⟨⟨"0.0.0.0/0".toList, 0, .uint32 0, [], none⟩, (prefixText_iff ..).mp (by decide), rfl, rfl, rfl, ?_⟩
    have hp : parsePrefix "0.0.0.0/0".toList = some ⟨.v4 0, 1⟩ := by decide
    rw [List.eq_nil_iff_forall_not_mem]
    intro x hx
    obtain ⟨_, h1, _, _, v, hv, h2, _⟩ := C43_lengths wide hs now _ [] x hx
    rw [List.mem_singleton] at hv
    subst hv
    rw [← prefixText_iff, hp, Option.some.injEq] at h2
    rw [← h2] at h1
    revert h1
    decide

/-- Every entry for a longer prefix with valid lengths that is not expired is served. Missing: the default routes. -/
theorem C76_others_partial (wide : WideFloat) {sort : Sorter} (hs : sort.Ok) (now : Int) (vs : List VRPJson) (ks : List BgpSecKeyJson) (v : VRPJson) (hv : v ∈ vs)
    (p : Prefix) (asn : U32) (hp : PrefixText v.pfx p) (ha : AsnReads wide v.asn asn) (hb : 1 ≤ p.bits)
    (hl : p.bits ≤ (v.length.toNat : Int)) (hw : v.length.toNat ≤ p.ip.bitLen) (he : ∀ e, v.expires = some e → now ≤ e) :
    (⟨p, asn, v.length, 0⟩ : VRP) ∈ (processData wide sort now vs ks).vrps := by
  rw [← prefixText_iff] at hp
  rw [← asnReads_iff] at ha
  exact (processData_mem wide hs now vs ks _).mpr ⟨rfl, v, hv, (checkVRP_iff ..).mpr ⟨hp, ha, hb, hl, hw, he⟩, rfl⟩

/-! ## C77: host bits -/

/-- The bits of the address after the prefix length are zero. -/
def Spec.NoHostBits (p : Prefix) : Prop :=
  match p.ip with
  | .v4 a => ∀ i, p.bitsPlusOne ≤ i + 1 → a.getMsbD i = false
  | .v6 a => ∀ i, p.bitsPlusOne ≤ i + 1 → a.getMsbD i = false
  | .zero => True

/-- An entry with host bits is served as it is, next to the entry for the same prefix without: a router gets two announcements for one VRP. -/
theorem C77_host_bits_false (wide : WideFloat) {sort : Sorter} (hs : sort.Ok) :
    let vs : List VRPJson := [⟨"10.0.0.0/8".toList, 8, .uint32 1, [], none⟩, ⟨"10.0.0.1/8".toList, 8, .uint32 1, [], none⟩]
    ∃ x ∈ (processData wide sort 0 vs []).vrps, ∃ y ∈ (processData wide sort 0 vs []).vrps, x.pfx ≠ y.pfx ∧
      Covers x.pfx y.pfx ∧ Covers y.pfx x.pfx ∧ x.asn = y.asn ∧ x.maxLen = y.maxLen ∧ ¬ NoHostBits y.pfx := by
  intro vs
  have bits : ∀ i : Fin 8, (0x0a000000 : BitVec 32).getMsbD i.val = (0x0a000001 : BitVec 32).getMsbD i.val := by decide
  refine ⟨⟨⟨.v4 0x0a000000, 9⟩, 1, 8, 0⟩, ?_, ⟨⟨.v4 0x0a000001, 9⟩, 1, 8, 0⟩, ?_, by decide, ?_, ?_, rfl, rfl, ?_⟩
  · exact C76_others_partial wide hs 0 vs [] ⟨"10.0.0.0/8".toList, 8, .uint32 1, [], none⟩ (by simp [vs]) ⟨.v4 0x0a000000, 9⟩ 1 ((prefixText_iff ..).mp (by decide)) rfl (by decide) (by decide) (by decide) (by simp)
  · exact C76_others_partial wide hs 0 vs [] ⟨"10.0.0.1/8".toList, 8, .uint32 1, [], none⟩ (by simp [vs]) ⟨.v4 0x0a000001, 9⟩ 1 ((prefixText_iff ..).mp (by decide)) rfl (by decide) (by decide) (by decide) (by simp)
  · exact ⟨by decide, fun i hi => bits ⟨i, by simp only at hi; omega⟩⟩
  · exact ⟨by decide, fun i hi => (bits ⟨i, by simp only at hi; omega⟩).symm⟩
  · intro h
    have := h 31 (by decide)
    revert this
    decide

/-- If no prefix in the file has host bits, none that comes out has, and a VRP is determined by the set of addresses, maximum length and ASN. Missing: files with host bits. -/
theorem C77_canonical_partial (wide : WideFloat) {sort : Sorter} (hs : sort.Ok) (now : Int) (vs : List VRPJson) (ks : List BgpSecKeyJson)
    (hc : ∀ v ∈ vs, ∀ p, v.getPrefix2 = some p → NoHostBits p) :
    (∀ x ∈ (processData wide sort now vs ks).vrps, NoHostBits x.pfx) ∧
    ∀ x ∈ (processData wide sort now vs ks).vrps, ∀ y ∈ (processData wide sort now vs ks).vrps, Covers x.pfx y.pfx → Covers y.pfx x.pfx → x.pfx = y.pfx := by
  have h1 : ∀ x ∈ (processData wide sort now vs ks).vrps, NoHostBits x.pfx := by
    intro x hx
    obtain ⟨_, _, _, _, v, hv, hp, _⟩ := C43_lengths wide hs now vs ks x hx
    rw [← prefixText_iff] at hp
    rw [← getPrefix2_eq] at hp
    exact hc v hv _ hp
  refine ⟨h1, ?_⟩
  intro x hx y hy hxy hyx
  have hnx := h1 x hx
  have hny := h1 y hy
  obtain ⟨⟨xi, xn⟩, _, _, _⟩ := x
  obtain ⟨⟨yi, yn⟩, _, _, _⟩ := y
  simp only at hxy hyx hnx hny ⊢
  have ext : ∀ {w : Nat} (a b : BitVec w), (∀ i, i + 1 < xn → a.getMsbD i = b.getMsbD i) → (∀ i, xn ≤ i + 1 → a.getMsbD i = false) →
      (∀ i, xn ≤ i + 1 → b.getMsbD i = false) → a = b := by
    intro w a b h1 h2 h3
    apply BitVec.eq_of_getMsbD_eq
    intro i _
    by_cases hi : i + 1 < xn
    · exact h1 i hi
    · rw [h2 i (by omega), h3 i (by omega)]
  cases xi <;> cases yi <;> simp only [Covers, NoHostBits] at hxy hyx hnx hny
  · have : xn = yn := by omega
    subst this
    rw [ext _ _ hxy.2 hnx hny]
  · have : xn = yn := by omega
    subst this
    rw [ext _ _ hxy.2 hnx hny]

example : ∀ v ∈ [(⟨"10.0.0.0/8".toList, 8, .uint32 1, [], none⟩ : VRPJson)], ∀ p, v.getPrefix2 = some p → NoHostBits p := by
  intro v hv p hp
  rw [List.mem_singleton] at hv
  subst hv
  have : p = ⟨.v4 0x0a000000, 9⟩ := by
    have h : (⟨"10.0.0.0/8".toList, 8, .uint32 1, [], none⟩ : VRPJson).getPrefix2 = some ⟨.v4 0x0a000000, 9⟩ := by decide
    rw [h] at hp; simpa using hp.symm
  subst this
  intro i hi
  by_cases h : i < 32
  · have : ∀ i : Fin 32, 9 ≤ i.val + 1 → (0x0a000000 : BitVec 32).getMsbD i.val = false := by decide
    exact this ⟨i, h⟩ hi
  · simp [BitVec.getMsbD, h]

/-! ## C78: a router key once -/

/-- A router key that is twice in the file is served twice: after the first load the full set contains it two times. -/
theorem C78_twice_false (wide : WideFloat) (sort : Sorter) (hs : sort.Ok) :
    let k : BgpSecKeyJson := ⟨1, none, [], [7], "AB".toList⟩
    (((Store.init 3).addData (processData wide sort 0 [] [k, k]).sds).1.current.map SD.record) = [.brk 1 [0xAB] [7], .brk 1 [0xAB] [7]] := by
  intro k
  rw [C46_first_partial wide sort 0 [] [k, k] (Store.init 3) rfl]
  have h0 : sort [] = [] := (hs []).1.eq_nil
  unfold processData
  simp only [List.foldl_nil, h0]
  decide

/-- If the file has no router key twice (as ASN, SKI in any case, key), no record is handed over twice. Missing: files with repeated keys. -/
theorem C78_once_partial (wide : WideFloat) {sort : Sorter} (hs : sort.Ok) (now : Int) (vs : List VRPJson) (ks : List BgpSecKeyJson)
    (hk : (ks.map (fun k => (k.asn, (hexDecode k.ski).1, k.pubkey))).Nodup) : (records (processData wide sort now vs ks).sds).Nodup := by
  unfold records Processed.sds
  rw [List.map_append, List.map_map, List.map_map, List.nodup_append]
  refine ⟨?_, ?_, ?_⟩
  · have := C44_nodup wide hs now vs ks
    have h2 : (SD.record ∘ SD.vrp) = (fun r : Prefix × U8 × U32 => Rec.vrp r.1 r.2.1 r.2.2) ∘ VRP.triple := rfl
    rw [h2, ← List.map_map]
    refine List.Pairwise.map _ ?_ this
    rintro ⟨a, b, c⟩ ⟨a', b', c'⟩ hne he
    simp only [Rec.vrp.injEq] at he
    obtain ⟨rfl, rfl, rfl⟩ := he
    exact hne rfl
  · unfold processData processKeys
    simp only
    clear vs
    induction ks with
    | nil => simp
    | cons k ks ih =>
      rw [List.map_cons, List.nodup_cons] at hk
      rw [List.filterMap_cons]
      split
      · exact ih hk.2
      · rename_i x hx
        split at hx
        · simp at hx
        · split at hx
          · simp at hx
          · simp only [Option.some.injEq] at hx
            subst hx
            rw [List.map_cons, List.nodup_cons]
            refine ⟨?_, ih hk.2⟩
            intro hm
            simp only [List.mem_map, List.mem_filterMap, Function.comp_apply] at hm
            obtain ⟨y, ⟨k', hk', hy⟩, he⟩ := hm
            split at hy
            · simp at hy
            · split at hy
              · simp at hy
              · simp only [Option.some.injEq] at hy
                subst hy
                simp only [SD.record, Rec.brk.injEq] at he
                apply hk.1
                rw [List.mem_map]
                exact ⟨k', hk', by rw [he.1, he.2.1, he.2.2]⟩
  · intro a ha b hb
    rw [List.mem_map] at ha hb
    obtain ⟨x, _, rfl⟩ := ha
    obtain ⟨y, _, rfl⟩ := hb
    simp [SD.record]

example : ([(⟨1, none, [], [7], "AB".toList⟩ : BgpSecKeyJson), ⟨1, none, [], [7], "AC".toList⟩].map (fun k => (k.asn, (hexDecode k.ski).1, k.pubkey))).Nodup := by decide

/-! ## C79: the order of the file -/

/-- The order of the entries and repetitions do not matter: the same VRPs and router keys come out (the router keys as a set). -/
theorem C79_order (wide : WideFloat) {sort sort' : Sorter} (hs : sort.Ok) (hs' : sort'.Ok) (now : Int) (vs vs' : List VRPJson) (ks ks' : List BgpSecKeyJson)
    (hv : ∀ v, v ∈ vs ↔ v ∈ vs') (hk : ∀ k, k ∈ ks ↔ k ∈ ks') :
    (processData wide sort now vs ks).vrps.Perm (processData wide sort' now vs' ks').vrps ∧
    ∀ x, x ∈ (processData wide sort now vs ks).brks ↔ x ∈ (processData wide sort' now vs' ks').brks := by
  have nd : ∀ {sort : Sorter} (hs : sort.Ok) (vs : List VRPJson) (ks : List BgpSecKeyJson), (processData wide sort now vs ks).vrps.Nodup := by
    intro sort hs vs ks
    exact (List.pairwise_map.mp (C44_nodup wide hs now vs ks)).imp (fun h e => h (by rw [e]))
  constructor
  · rw [List.perm_ext_iff_of_nodup (nd hs vs ks) (nd hs' vs' ks')]
    intro x
    rw [processData_mem wide hs, processData_mem wide hs']
    simp only [hv]
  · intro x
    rw [C48_keys, C48_keys]
    simp only [hk]

end StayRTR
