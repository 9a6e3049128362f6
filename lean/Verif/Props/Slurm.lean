import Verif.Proofs.ParseExact
import Verif.Proofs.Process
import Verif.Spec.Slurm
import Mathlib.Tactic.Tauto

/-!
# SLURM and the fields of the cache file: C38-C42, C72
-/

namespace StayRTR
open Spec Slurm

/-! ## Helpers -/

theorem partition_fold {α : Type} (P : α → Bool) (l : List α) (r : List α × List α) :
    l.foldl (fun (r : List α × List α) x => if P x then (r.1, r.2 ++ [x]) else (r.1 ++ [x], r.2)) r
      = (r.1 ++ l.filter (fun x => !P x), r.2 ++ l.filter P) := by
  induction l generalizing r with
  | nil => simp
  | cons a l ih =>
    simp only [List.foldl_cons]
    cases h : P a <;> rw [ih] <;> simp [h]

theorem filterOnVRPs_eq (wide : WideFloat) (fs : List PrefixFilter) (vrps : List VRPJson) :
    filterOnVRPs wide fs vrps = (vrps.filter (fun v => !fs.any (filterMatches wide v.getPrefix v)), vrps.filter (fun v => fs.any (filterMatches wide v.getPrefix v))) := by
  unfold filterOnVRPs
  split
  · rename_i h
    subst h
    simp only [List.any_nil, Bool.not_false, Prod.mk.injEq]
    exact ⟨(List.filter_eq_self.mpr (by simp)).symm, (List.filter_eq_nil_iff.mpr (by simp)).symm⟩
  · rw [partition_fold (fun v => fs.any (filterMatches wide v.getPrefix v))]; simp

theorem filterOnBRKs_eq (fs : List BgpsecFilter) (brks : List BgpSecKeyJson) :
    filterOnBRKs fs brks = (brks.filter (fun k => !brkRemoved k none fs), brks.filter (fun k => brkRemoved k none fs)) := by
  unfold filterOnBRKs
  split
  · rename_i h
    subst h
    simp only [brkRemoved, Bool.not_false, Prod.mk.injEq]
    exact ⟨(List.filter_eq_self.mpr (by simp)).symm, (List.filter_eq_nil_iff.mpr (by simp)).symm⟩
  · rw [partition_fold (fun k => brkRemoved k none fs)]; simp

/-- One filter, on a VRP whose prefix parses. -/
theorem filterMatches_iff (wide : WideFloat) (f : PrefixFilter) (v : VRPJson) {p : Prefix} (hp : parsePrefix v.pfx = some p) :
    filterMatches wide v.getPrefix v f = true ↔ PrefixFilterMatches f.pfx f.asn p (v.getASN wide) := by
  have hv := parsePrefix_valid hp
  have hg : v.getPrefix = p := by simp [VRPJson.getPrefix, getPrefix2_eq, hp]
  unfold filterMatches PrefixFilterMatches filterPrefix
  simp only [← prefixText_iff]
  rw [hg]
  cases hf : parsePrefix f.pfx with
  | none =>
    cases ha : f.asn <;> simp [Prefix.invalid, Prefix.isValid]
  | some q =>
    have hq := parsePrefix_valid hf
    have := overlaps_covers hq.1 hv.1 hq.2 hv.2
    simp only [Bool.and_eq_true, decide_eq_true_eq] at this
    cases ha : f.asn <;> simp [hq.2, hv.2, this]

/-- One filter, on a VRP whose prefix does not parse: only the ASN counts. -/
theorem filterMatches_malformed (wide : WideFloat) (f : PrefixFilter) (v : VRPJson) (hp : parsePrefix v.pfx = none) :
    filterMatches wide v.getPrefix v f = true ↔ ∀ a, f.asn = some a → v.getASN wide = a := by
  have hg : v.getPrefix = Prefix.invalid := by simp [VRPJson.getPrefix, getPrefix2_eq, hp]
  unfold filterMatches
  rw [hg]
  cases ha : f.asn <;> simp [Prefix.invalid, Prefix.isValid]

/-! ## C38: prefix filters -/

/-- The two results are the input split in two, in order: nothing is lost, invented or moved, whatever the filters and VRPs. -/
theorem C38_partition (wide : WideFloat) (fs : List PrefixFilter) (vrps : List VRPJson) :
    ∃ P : VRPJson → Bool, filterOnVRPs wide fs vrps = (vrps.filter (fun v => !P v), vrps.filter P)
      ∧ (filterOnVRPs wide fs vrps).1.length + (filterOnVRPs wide fs vrps).2.length = vrps.length := by
  refine ⟨_, filterOnVRPs_eq wide fs vrps, ?_⟩
  rw [filterOnVRPs_eq]
  simp only
  induction vrps with
  | nil => rfl
  | cons v l ih =>
    simp only [List.filter_cons]
    cases fs.any (filterMatches wide v.getPrefix v) <;> simp only [Bool.not_false, Bool.not_true, if_true, Bool.false_eq_true, if_false, List.length_cons] <;> omega

/-- A VRP with a parsable prefix and ASN is removed exactly if it is in the input and some filter matches it: the filter's prefix (if it has a parsable one) covers the VRP's, and its ASN
(if it has one) is the VRP's. It is kept exactly if it is in the input and no filter matches it. Missing: VRPs that do not parse (`C38_malformed_false`). -/
theorem C38_exact_partial (wide : WideFloat) (fs : List PrefixFilter) (vrps : List VRPJson) (v : VRPJson) (p : Prefix) (a : U32)
    (hp : PrefixText v.pfx p) (ha : AsnReads wide v.asn a) :
    (v ∈ (filterOnVRPs wide fs vrps).2 ↔ v ∈ vrps ∧ ∃ f ∈ fs, PrefixFilterMatches f.pfx f.asn p a) ∧
    (v ∈ (filterOnVRPs wide fs vrps).1 ↔ v ∈ vrps ∧ ∀ f ∈ fs, ¬ PrefixFilterMatches f.pfx f.asn p a) := by
  rw [← prefixText_iff] at hp
  rw [← asnReads_iff] at ha
  have hA : v.getASN wide = a := by simp [VRPJson.getASN, ha]
  have key : fs.any (filterMatches wide v.getPrefix v) = true ↔ ∃ f ∈ fs, PrefixFilterMatches f.pfx f.asn p a := by
    simp only [List.any_eq_true, filterMatches_iff wide _ v hp, hA]
  rw [filterOnVRPs_eq]
  constructor
  · simp only [List.mem_filter, key]
  · simp only [List.mem_filter, Bool.not_eq_true', ← Bool.not_eq_true, key]
    constructor
    · rintro ⟨h, hn⟩; exact ⟨h, fun f hf hm => hn ⟨f, hf, hm⟩⟩
    · rintro ⟨h, hn⟩; exact ⟨h, fun ⟨f, hf, hm⟩ => hn f hf hm⟩

/-- The whole result, when every VRP in the input parses. -/
theorem C38_all_partial (wide : WideFloat) (fs : List PrefixFilter) (vrps : List VRPJson)
    (hv : ∀ v ∈ vrps, (∃ p, PrefixText v.pfx p) ∧ ∃ a, AsnReads wide v.asn a) :
    ∃ P : VRPJson → Bool, filterOnVRPs wide fs vrps = (vrps.filter (fun v => !P v), vrps.filter P) ∧
      ∀ v ∈ vrps, ∀ p a, PrefixText v.pfx p → AsnReads wide v.asn a → (P v = true ↔ ∃ f ∈ fs, PrefixFilterMatches f.pfx f.asn p a) := by
  refine ⟨_, filterOnVRPs_eq wide fs vrps, ?_⟩
  intro v _ p a hp ha
  rw [← prefixText_iff] at hp
  rw [← asnReads_iff] at ha
  have hA : v.getASN wide = a := by simp [VRPJson.getASN, ha]
  simp only [List.any_eq_true, filterMatches_iff wide _ v hp, hA]

/-- An input on which the hypotheses hold, with one VRP removed and two kept. -/
example :
    let v1 : VRPJson := ⟨"10.1.0.0/16".toList, 24, .str "AS65001".toList, [], none⟩
    let v2 : VRPJson := ⟨"10.0.0.0/7".toList, 24, .str "65001".toList, [], none⟩
    let v3 : VRPJson := ⟨"2001:db8::/32".toList, 48, .float 65001, [], none⟩
    let fs : List PrefixFilter := [⟨"10.0.0.0/8".toList, some 65001⟩]
    (∀ v ∈ [v1, v2, v3], (∃ p, PrefixText v.pfx p) ∧ ∃ a, AsnReads (fun _ => 0) v.asn a) ∧ filterOnVRPs (fun _ => 0) fs [v1, v2, v3] = ([v2, v3], [v1]) := by
  simp only [← prefixText_iff, ← asnReads_iff, ← Option.isSome_iff_exists]
  decide

/-- For every VRP, whether it parses or not: it is removed exactly if it is in the input and there is a filter whose ASN, if given, is the VRP's ASN (0 for one that does not parse),
and whose prefix covers the VRP's prefix if both parse. -/
theorem C38_general (wide : WideFloat) (fs : List PrefixFilter) (vrps : List VRPJson) (v : VRPJson) (a : U32)
    (ha : AsnReads wide v.asn a ∨ ((∀ b, ¬ AsnReads wide v.asn b) ∧ a = 0)) :
    v ∈ (filterOnVRPs wide fs vrps).2 ↔ v ∈ vrps ∧ ∃ f ∈ fs, (∀ x p, PrefixText f.pfx x → PrefixText v.pfx p → Covers x p) ∧ ∀ b, f.asn = some b → a = b := by
  have hA : v.getASN wide = a := by
    rcases ha with ha | ⟨hn, rfl⟩
    · simp [VRPJson.getASN, (asnReads_iff wide v a).mpr ha]
    · cases h : v.getASN2 wide with
      | none => simp [VRPJson.getASN, h]
      | some b => exact absurd ((asnReads_iff wide v b).mp h) (hn b)
  rw [filterOnVRPs_eq]
  simp only [List.mem_filter, List.any_eq_true]
  refine and_congr_right fun _ => exists_congr fun f => and_congr_right fun _ => ?_
  cases hp : parsePrefix v.pfx with
  | none =>
    rw [filterMatches_malformed wide f v hp, hA]
    have hn := (no_prefixText _).mp hp
    exact ⟨fun h => ⟨fun _ p _ h2 => absurd h2 (hn p), h⟩, fun h => h.2⟩
  | some p =>
    rw [filterMatches_iff wide f v hp, hA]
    have hP := (prefixText_iff ..).mp hp
    constructor
    · rintro ⟨h1, h2⟩
      refine ⟨fun x q hx hq => ?_, h2⟩
      have := (prefixText_iff ..).mpr hq
      rw [hp] at this
      cases this
      exact h1 x hx
    · rintro ⟨h1, h2⟩
      exact ⟨fun x hx => h1 x p hx hP, h2⟩

example : (∀ b, ¬ AsnReads (fun _ => 0) (.str "x".toList) b) ∧ AsnReads (fun _ => 0) (.str "AS7".toList) 7 := by
  refine ⟨fun b h => ?_, ?_⟩
  · have h' := (asnReads_iff (fun _ => 0) ⟨[], 8, .str "x".toList, [], none⟩ b).mpr h
    cases h'
  · exact (asnReads_iff (fun _ => 0) ⟨[], 8, .str "AS7".toList, [], none⟩ 7).mp (by decide)

/-- A VRP with a prefix that does not parse is removed by a filter for an unrelated prefix; one whose ASN does not parse is removed by a filter for AS 0. -/
theorem C38_malformed_false :
    (let v : VRPJson := ⟨"10.0.0.0/33".toList, 33, .str "65001".toList, [], none⟩
     (∀ p, ¬ PrefixText v.pfx p) ∧ filterOnVRPs (fun _ => 0) [⟨"192.0.2.0/24".toList, none⟩] [v] = ([], [v])) ∧
    (let v : VRPJson := ⟨"10.0.0.0/8".toList, 8, .str "x".toList, [], none⟩
     (∀ a, ¬ AsnReads (fun _ => 0) v.asn a) ∧ filterOnVRPs (fun _ => 0) [⟨[], some 0⟩] [v] = ([], [v])) := by
  refine ⟨⟨(no_prefixText _).mp (by decide), by decide⟩, fun a h => ?_, by decide⟩
  have h' := (asnReads_iff (fun _ => 0) ⟨"10.0.0.0/8".toList, 8, .str "x".toList, [], none⟩ a).mpr h
  cases h'

/-! ## C39: malformed filters -/

/-- A filter with a malformed prefix and no ASN removes everything; so does a filter whose prefix is given a length but no address, and the one for a bare address. -/
theorem C39_removes_all_false (wide : WideFloat) (vrps : List VRPJson) :
    ∀ s ∈ ["10.0.0.0/33".toList, "10.0.0.0".toList, "010.0.0.0/8".toList, "10.0.0.0/08".toList, "10/8".toList],
      (∀ p, ¬ PrefixText s p) ∧ filterOnVRPs wide [⟨s, none⟩] vrps = ([], vrps) := by
  intro s hs
  have hp : ∀ p, ¬ PrefixText s p := by
    rw [← no_prefixText]
    revert s
    decide
  refine ⟨hp, ?_⟩
  rw [filterOnVRPs_eq]
  have : ∀ v : VRPJson, filterMatches wide v.getPrefix v ⟨s, none⟩ = true := by
    intro v
    cases hv : parsePrefix v.pfx with
    | none => exact (filterMatches_malformed wide _ v hv).mpr (by simp)
    | some p => exact (filterMatches_iff wide _ v hv).mpr (by simp [PrefixFilterMatches, hp])
  simp [this]

/-- What is true: a filter with a malformed prefix and an ASN removes exactly the VRPs of that ASN, as if it had no prefix. Missing: without an ASN it removes everything (`C39_removes_all_false`). -/
theorem C39_asn_partial (wide : WideFloat) (s : Str) (a : U32) (vrps : List VRPJson) (hs : ∀ p, ¬ PrefixText s p) :
    filterOnVRPs wide [⟨s, some a⟩] vrps = (vrps.filter (fun v => v.getASN wide ≠ a), vrps.filter (fun v => v.getASN wide = a)) := by
  have : ∀ v : VRPJson, filterMatches wide v.getPrefix v ⟨s, some a⟩ = decide (v.getASN wide = a) := by
    intro v
    rw [Bool.eq_iff_iff, decide_eq_true_eq]
    cases hv : parsePrefix v.pfx with
    | none => rw [filterMatches_malformed wide _ v hv]; simp
    | some p => rw [filterMatches_iff wide _ v hv]; simp [PrefixFilterMatches, hs]
  rw [filterOnVRPs_eq]
  simp only [List.any_cons, List.any_nil, this, Bool.or_false, decide_not]

example : (∀ p, ¬ PrefixText "10.0.0.0/33".toList p) ∧
    filterOnVRPs (fun _ => 0) [⟨"10.0.0.0/33".toList, some 1⟩] [⟨"192.0.2.0/24".toList, 24, .uint32 1, [], none⟩, ⟨"10.0.0.0/8".toList, 24, .uint32 2, [], none⟩]
      = ([⟨"10.0.0.0/8".toList, 24, .uint32 2, [], none⟩], [⟨"192.0.2.0/24".toList, 24, .uint32 1, [], none⟩]) := by
  rw [← no_prefixText]
  decide

/-! ## C40: BGPsec filters -/

/-- With a decodable SKI the cache does not matter. -/
theorem brkRemoved_iff {k : BgpSecKeyJson} {ski : Bytes} (hk : hexDecode k.ski = (ski, true)) (fs : List BgpsecFilter) :
    ∀ c : Option Bytes, (c = none ∨ c = some ski) → (brkRemoved k c fs = true ↔ ∃ f ∈ fs, KeyFilterMatches f.asn f.ski k.asn ski) := by
  have hm : ∀ (c : Option Bytes) (x : Bytes), (c = none ∨ c = some ski) → skiMatches k c x = (some ski, ski == x) := by
    rintro c x (rfl | rfl) <;> simp [skiMatches, hk]
  have step : ∀ (c : Option Bytes) (f : BgpsecFilter), (c = none ∨ c = some ski) →
      ((brkFilterStep k c f).1 = none ∨ (brkFilterStep k c f).1 = some ski) ∧ ((brkFilterStep k c f).2 = true ↔ KeyFilterMatches f.asn f.ski k.asn ski) := by
    intro c f hc
    unfold brkFilterStep KeyFilterMatches
    cases f.asn with
    | none =>
      by_cases h : f.ski = []
      · simp [h, hc]
      · simp [h, hm c f.ski hc]
    | some a =>
      by_cases ha : k.asn = a
      · by_cases h : f.ski = []
        · simp [h, hc, ha]
        · simp [h, hm c f.ski hc, ha]
      · simp [ha, hc]
  induction fs with
  | nil => intro c _; simp [brkRemoved]
  | cons f fs ih =>
    intro c hc
    obtain ⟨h1, h2⟩ := step c f hc
    have hstep : brkRemoved k c (f :: fs) = if (brkFilterStep k c f).2 then true else brkRemoved k (brkFilterStep k c f).1 fs := rfl
    rw [hstep]
    by_cases hb : (brkFilterStep k c f).2 = true
    · simp only [hb, if_true, true_iff]
      exact ⟨f, by simp, h2.mp hb⟩
    · rw [if_neg hb, ih _ h1]
      constructor
      · rintro ⟨g, hg, hgm⟩; exact ⟨g, by simp [hg], hgm⟩
      · rintro ⟨g, hg, hgm⟩
        rcases List.mem_cons.mp hg with rfl | hg
        · exact absurd (h2.mpr hgm) hb
        · exact ⟨g, hg, hgm⟩

/-- The two results are the input split in two, in order. -/
theorem C40_partition (fs : List BgpsecFilter) (ks : List BgpSecKeyJson) :
    ∃ P : BgpSecKeyJson → Bool, filterOnBRKs fs ks = (ks.filter (fun v => !P v), ks.filter P) := ⟨_, filterOnBRKs_eq fs ks⟩

/-- A key with a decodable SKI is removed exactly if some filter has a field and all its fields match, and kept exactly if none does, whatever the order of the filters. Missing: keys whose SKI
does not decode (`C40_order_false`). -/
theorem C40_exact_partial (fs : List BgpsecFilter) (ks : List BgpSecKeyJson) (k : BgpSecKeyJson) (ski : Bytes) (hk : HexText k.ski ski) :
    (k ∈ (filterOnBRKs fs ks).2 ↔ k ∈ ks ∧ ∃ f ∈ fs, KeyFilterMatches f.asn f.ski k.asn ski) ∧
    (k ∈ (filterOnBRKs fs ks).1 ↔ k ∈ ks ∧ ∀ f ∈ fs, ¬ KeyFilterMatches f.asn f.ski k.asn ski) := by
  have key := brkRemoved_iff ((hexText_iff ..).mpr hk) fs none (.inl rfl)
  rw [filterOnBRKs_eq]
  constructor
  · simp only [List.mem_filter, key]
  · simp only [List.mem_filter, Bool.not_eq_true', ← Bool.not_eq_true, key]
    constructor
    · rintro ⟨h, hn⟩; exact ⟨h, fun f hf hm => hn ⟨f, hf, hm⟩⟩
    · rintro ⟨h, hn⟩; exact ⟨h, fun ⟨f, hf, hm⟩ => hn f hf hm⟩

/-- Three filters, four keys: by ASN, by SKI in upper case, by both, and a filter with no field that removes nothing. -/
example :
    let k (asn : U32) (s : String) : BgpSecKeyJson := ⟨asn, none, [], [1], s.toList⟩
    let fs : List BgpsecFilter := [⟨none, []⟩, ⟨some 1, []⟩, ⟨none, [0xAB]⟩, ⟨some 2, [0xCD]⟩]
    HexText (k 3 "ab").ski [0xAB] ∧
    filterOnBRKs fs [k 1 "00", k 3 "AB", k 2 "cd", k 3 "cd", k 2 "ef"] = ([k 3 "cd", k 2 "ef"], [k 1 "00", k 3 "AB", k 2 "cd"]) := by
  simp only [← hexText_iff]
  decide

/-- For any key: a filter with only its ASN removes it, wherever the filter is. -/
theorem C40_asn_filter (fs : List BgpsecFilter) (ks : List BgpSecKeyJson) (k : BgpSecKeyJson) (hk : k ∈ ks) (hf : (⟨some k.asn, []⟩ : BgpsecFilter) ∈ fs) :
    k ∈ (filterOnBRKs fs ks).2 := by
  rw [filterOnBRKs_eq]
  refine List.mem_filter.mpr ⟨hk, ?_⟩
  generalize none = c
  induction fs generalizing c with
  | nil => simp at hf
  | cons f fs ih =>
    have hstep : brkRemoved k c (f :: fs) = if (brkFilterStep k c f).2 then true else brkRemoved k (brkFilterStep k c f).1 fs := rfl
    rw [hstep]
    split
    · rfl
    · rename_i hb
      rcases List.mem_cons.mp hf with rfl | hf
      · simp [brkFilterStep] at hb
      · exact ih hf _

/-- Of a SKI with a bad digit the part before the bad digit is compared, but only by the second filter that looks at it, so the outcome depends on the order of the filters. -/
theorem C40_order_false :
    let k : BgpSecKeyJson := ⟨1, none, [], [1], "ABZZ".toList⟩
    let f : BgpsecFilter := ⟨none, [0xAB]⟩
    let g : BgpsecFilter := ⟨none, [0xCC]⟩
    filterOnBRKs [f, g] [k] = ([k], []) ∧ filterOnBRKs [g, f] [k] = ([], [k]) := by decide

/-- Text that is not hexadecimal, with what is decoded of it: pairs of digits, and then something that does not begin with a pair of digits. -/
def Spec.HexBroken (s : Str) (part : Bytes) : Prop :=
  ∃ good rest, s = good ++ rest ∧ HexText good part ∧ rest ≠ [] ∧ ∀ c d l, rest = c :: d :: l → hexValueOf c = none ∨ hexValueOf d = none

theorem hexBroken_iff (s : Str) (part : Bytes) : hexDecode s = (part, false) ↔ HexBroken s part := by
  constructor
  · intro h
    fun_induction hexDecode s generalizing part with
    | case1 => cases h
    | case2 c => cases h; exact ⟨[], [c], rfl, .nil, by simp, by simp⟩
    | case3 a c l x y hc ha r ok hr ih =>
      simp only [Prod.mk.injEq] at h
      obtain ⟨rfl, rfl⟩ := h
      obtain ⟨good, rest, hs, hg, hne, hb⟩ := ih _ hr
      rw [Nat.mul_comm]
      exact ⟨a :: c :: good, rest, by rw [hs]; rfl, .cons (by rw [hexValueOf_eq, ha]) (by rw [hexValueOf_eq, hc]) hg, hne, hb⟩
    | case4 a c l hn =>
      cases h
      refine ⟨[], a :: c :: l, rfl, .nil, by simp, ?_⟩
      rintro c' d' l' he
      simp only [List.cons.injEq] at he
      obtain ⟨rfl, rfl, rfl⟩ := he
      rw [hexValueOf_eq, hexValueOf_eq]
      cases h1 : hexDigit a with
      | none => exact .inl rfl
      | some x =>
        cases h2 : hexDigit c with
        | none => exact .inr rfl
        | some y => exact absurd h2 (hn x y h1)
  · rintro ⟨good, rest, rfl, hg, hne, hb⟩
    induction hg with
    | nil =>
      simp only [List.nil_append]
      cases rest with
      | nil => exact absurd rfl hne
      | cons c rest =>
        cases rest with
        | nil => rfl
        | cons d l =>
          have := hb c d l rfl
          rw [hexValueOf_eq, hexValueOf_eq] at this
          unfold hexDecode
          rcases this with h | h
          · rw [h]
          · rw [h]; cases hexDigit c <;> rfl
    | cons ha hb' _ ih =>
      rw [hexValueOf_eq] at ha hb'
      simp only [List.cons_append, hexDecode, ha, hb', ih, Nat.mul_comm]

/-- A filter for which the ASN of the key, if it is given, is right. -/
def Spec.AsnMatches (f : BgpsecFilter) (asn : U32) : Prop := ∀ a, f.asn = some a → asn = a

/-- A key whose SKI does not decode is removed exactly if its ASN is that of a filter without SKI, or if a filter that fits its ASN has as SKI the part that was decoded, and an earlier filter that fits its ASN
has some SKI too: that one saw the error, the later ones do not. -/
theorem C40_undecodable (fs : List BgpsecFilter) (ks : List BgpSecKeyJson) (k : BgpSecKeyJson) (part : Bytes) (hk : HexBroken k.ski part) :
    k ∈ (filterOnBRKs fs ks).2 ↔ k ∈ ks ∧ ((∃ f ∈ fs, f.asn = some k.asn ∧ f.ski = []) ∨
      ∃ pre f post, fs = pre ++ f :: post ∧ AsnMatches f k.asn ∧ f.ski ≠ [] ∧ f.ski = part ∧ ∃ g ∈ pre, AsnMatches g k.asn ∧ g.ski ≠ []) := by
  have hd := (hexBroken_iff ..).mpr hk
  have key : ∀ (fs : List BgpsecFilter),
      (brkRemoved k (some part) fs = true ↔ ∃ f ∈ fs, AsnMatches f k.asn ∧ ((f.ski = [] ∧ f.asn ≠ none) ∨ (f.ski ≠ [] ∧ f.ski = part))) ∧
      (brkRemoved k none fs = true ↔ (∃ f ∈ fs, f.asn = some k.asn ∧ f.ski = []) ∨
        ∃ pre f post, fs = pre ++ f :: post ∧ AsnMatches f k.asn ∧ f.ski ≠ [] ∧ f.ski = part ∧ ∃ g ∈ pre, AsnMatches g k.asn ∧ g.ski ≠ []) := by
    intro fs
    induction fs with
    | nil => simp [brkRemoved]
    | cons f fs ih =>
      have hstep : ∀ c, brkRemoved k c (f :: fs) = if (brkFilterStep k c f).2 then true else brkRemoved k (brkFilterStep k c f).1 fs := fun _ => rfl
      obtain ⟨ih1, ih2⟩ := ih
      have s1 : (brkFilterStep k (some part) f).1 = some part ∧
          ((brkFilterStep k (some part) f).2 = true ↔ AsnMatches f k.asn ∧ ((f.ski = [] ∧ f.asn ≠ none) ∨ (f.ski ≠ [] ∧ f.ski = part))) := by
        unfold brkFilterStep AsnMatches skiMatches
        cases f.asn with
        | none =>
          by_cases h : f.ski = []
          · simp [h]
          · simp [h]; exact eq_comm
        | some a =>
          by_cases ha : k.asn = a
          · by_cases h : f.ski = []
            · simp [h, ha]
            · simp [h, ha]; exact eq_comm
          · simp [ha]
      have s2 : (AsnMatches f k.asn ∧ f.ski ≠ [] ∧ brkFilterStep k none f = (some part, false)) ∨
          (¬ (AsnMatches f k.asn ∧ f.ski ≠ []) ∧ (brkFilterStep k none f).1 = none ∧ ((brkFilterStep k none f).2 = true ↔ f.asn = some k.asn ∧ f.ski = [])) := by
        unfold brkFilterStep AsnMatches skiMatches
        cases f.asn with
        | none => by_cases h : f.ski = [] <;> simp [h, hd]
        | some a => by_cases ha : k.asn = a <;> by_cases h : f.ski = [] <;> simp [h, ha, hd] <;> exact fun e => ha e.symm
      constructor
      · rw [hstep, s1.1]
        by_cases hb : (brkFilterStep k (some part) f).2 = true
        · rw [if_pos hb]
          exact ⟨fun _ => ⟨f, List.mem_cons_self, s1.2.mp hb⟩, fun _ => rfl⟩
        · rw [if_neg hb, ih1]
          constructor
          · rintro ⟨g, hg, h⟩; exact ⟨g, List.mem_cons_of_mem _ hg, h⟩
          · rintro ⟨g, hg, h⟩
            rcases List.mem_cons.mp hg with rfl | hg
            · exact absurd (s1.2.mpr h) hb
            · exact ⟨g, hg, h⟩
      · rw [hstep]
        rcases s2 with ⟨hm, hne, he⟩ | ⟨hno, h1, h2⟩
        · rw [he]
          simp only [Bool.false_eq_true, if_false]
          rw [ih1]
          constructor
          · rintro ⟨g, hg, hgm, ⟨h1, h2⟩ | ⟨h1, h2⟩⟩
            · left
              refine ⟨g, List.mem_cons_of_mem _ hg, ?_, h1⟩
              cases ha : g.asn with
              | none => exact absurd ha h2
              | some a => rw [hgm a ha]
            · right
              obtain ⟨pre, post, rfl⟩ := List.append_of_mem hg
              exact ⟨f :: pre, g, post, rfl, hgm, h1, h2, f, List.mem_cons_self, hm, hne⟩
          · rintro (⟨g, hg, hga, hgs⟩ | ⟨pre, g, post, hfs, hgm, h1, h2, _⟩)
            · rcases List.mem_cons.mp hg with rfl | hg
              · exact absurd hgs hne
              · exact ⟨g, hg, fun a ha => by rw [hga] at ha; exact Option.some.inj ha, .inl ⟨hgs, by rw [hga]; simp⟩⟩
            · cases pre with
              | nil => rename_i hx; obtain ⟨_, hx, _⟩ := hx; cases hx
              | cons p pre =>
                simp only [List.cons_append, List.cons.injEq] at hfs
                exact ⟨g, by rw [hfs.2]; simp, hgm, .inr ⟨h1, h2⟩⟩
        · rw [h1]
          by_cases hb : (brkFilterStep k none f).2 = true
          · rw [if_pos hb]
            exact ⟨fun _ => .inl ⟨f, List.mem_cons_self, h2.mp hb⟩, fun _ => rfl⟩
          · rw [if_neg hb, ih2]
            constructor
            · rintro (⟨g, hg, h⟩ | ⟨pre, g, post, rfl, h3, h4, h5, x, hx, hx'⟩)
              · exact .inl ⟨g, List.mem_cons_of_mem _ hg, h⟩
              · exact .inr ⟨f :: pre, g, post, rfl, h3, h4, h5, x, List.mem_cons_of_mem _ hx, hx'⟩
            · rintro (⟨g, hg, h⟩ | ⟨pre, g, post, hfs, h3, h4, h5, x, hx, hx'⟩)
              · rcases List.mem_cons.mp hg with rfl | hg
                · exact absurd (h2.mpr h) hb
                · exact .inl ⟨g, hg, h⟩
              · cases pre with
                | nil => cases hx
                | cons p pre =>
                  simp only [List.cons_append, List.cons.injEq] at hfs
                  obtain ⟨rfl, rfl⟩ := hfs
                  rcases List.mem_cons.mp hx with rfl | hx
                  · exact absurd hx' hno
                  · exact .inr ⟨pre, g, post, rfl, h3, h4, h5, x, hx, hx'⟩
  rw [filterOnBRKs_eq]
  simp only [List.mem_filter, (key fs).2]

example : HexBroken "ABZZ".toList [0xAB] := (hexBroken_iff ..).mp (by decide)

/-! ## C41: assertions -/

/-- A prefix assertion that `netip.ParsePrefix` accepts, with a maximum length below 256, becomes one VRP with that prefix, its ASN, no expiry, and the larger of the two lengths.
Missing: lengths of 256 and more are cut (`C41_length_false`). -/
theorem C41_assertion_partial (wide : WideFloat) (a : PrefixAssertion) (p : Prefix) (hp : PrefixText a.pfx p) (hm : a.maxPrefixLength < 256) :
    ∃ v, assertVRP a = some v ∧ PrefixText v.pfx p ∧ AsnReads wide v.asn a.asn ∧ (v.length.toNat : Int) = max a.maxPrefixLength p.bits
      ∧ v.ta = a.comment ∧ v.expires = none := by
  rw [← prefixText_iff] at hp
  have hc := parsePrefix_parseCIDR hp
  have hv := parsePrefix_valid hp
  have hb : 1 ≤ p.bitsPlusOne ∧ p.bitsPlusOne ≤ 129 := by
    have h0 : p.bitsPlusOne ≠ 0 := by simpa [Prefix.isValid] using hv.2
    rcases hv.1 with h | ⟨_, h⟩
    · exact absurd h h0
    · refine ⟨by omega, ?_⟩
      cases hip : p.ip <;> rw [hip] at h <;> simp [Addr.bitLen] at h <;> omega
  refine ⟨_, by simp only [assertVRP, hc]; rfl, ?_, by simp [AsnReads, AsnIs], ?_, rfl, rfl⟩
  · rw [← prefixText_iff]; exact hp
  · simp only [Prefix.bits, BitVec.toNat_ofInt]
    split <;> omega

/-- The result is one VRP per accepted assertion, in order, and nothing else. -/
theorem C41_list (l l' : List PrefixAssertion) (a : PrefixAssertion) :
    assertVRPs (l ++ a :: l') = assertVRPs l ++ (assertVRP a).toList ++ assertVRPs l' ∧ assertVRPs [] = [] := by
  unfold assertVRPs
  cases h : assertVRP a <;> simp [h]

/-- An assertion gives no VRP exactly if its prefix is not an address, a slash and a length that fits. -/
theorem C41_refused (a : PrefixAssertion) : assertVRP a = none ↔ ∀ n, ¬ CidrText a.pfx n := by
  rw [← no_cidrText]
  unfold assertVRP
  cases parseCIDR a.pfx <;> simp

/-- Each BGPsec assertion becomes one router key with its ASN, key and SKI: decoding the hexadecimal SKI gives back the asserted bytes. -/
theorem C41_keys (l : List BgpsecAssertion) (wanted : List (U32 × Bytes × Bytes)) (h : wanted = l.map (fun a => (a.asn, a.ski, a.routerPublicKey))) :
    List.Forall₂ (fun k w => k.asn = w.1 ∧ HexText k.ski w.2.1 ∧ k.pubkey = w.2.2) (assertBRKs l) wanted ∧
      ∀ k ∈ assertBRKs l, k.expires = none := by
  subst h
  constructor
  · simp only [assertBRKs]
    induction l with
    | nil => exact .nil
    | cons a l ih => exact .cons ⟨rfl, (hexText_iff ..).mp (hexDecode_hexBytes a.ski), rfl⟩ ih
  · intro k hk
    simp only [assertBRKs, List.mem_map] at hk
    obtain ⟨a, _, rfl⟩ := hk
    rfl

example : PrefixText "2001:db8::/32".toList ⟨.v6 0x20010db8000000000000000000000000, 33⟩ ∧
    assertVRPs [⟨"2001:db8::/32".toList, 1, 48, []⟩, ⟨"nonsense".toList, 1, 8, []⟩, ⟨"10.0.0.0/8".toList, 2, 0, "c".toList⟩]
      = [⟨"2001:db8::/32".toList, 48, .uint32 1, [], none⟩, ⟨"10.0.0.0/8".toList, 8, .uint32 2, "c".toList, none⟩] ∧
    assertBRKs [⟨[0xAB, 0x01], 7, [9]⟩] = [⟨7, none, [], [9], "ab01".toList⟩] := by
  rw [← prefixText_iff]
  decide

/-- A maximum length of 280 becomes 24: instead of being refused, the assertion authorises other announcements. -/
theorem C41_length_false :
    assertVRPs [⟨"10.0.0.0/8".toList, 1, 280, []⟩] = [⟨"10.0.0.0/8".toList, 24, .uint32 1, [], none⟩] := by decide

/-- An assertion that `net.ParseCIDR` accepts can have a prefix that later stages cannot read: the VRP made of it is dropped later. -/
theorem C41_parsers_false (wide : WideFloat) :
    ∃ a v, assertVRP a = some v ∧ (∀ p, ¬ PrefixText v.pfx p) ∧ v.getASN wide = a.asn := by
  refine ⟨⟨"10.0.0.0/08".toList, 1, 8, []⟩, _, rfl, (no_prefixText _).mp (by decide), rfl⟩

/-! ## C42: the result -/

/-- The result is the kept input, in order, followed by the assertions, which no filter touches. -/
theorem C42_shape (wide : WideFloat) (s : Slurm) (vrps : List VRPJson) (ks : List BgpSecKeyJson) :
    ∃ (P : VRPJson → Bool) (Q : BgpSecKeyJson → Bool),
      filterAssert wide s vrps ks = (vrps.filter P ++ assertVRPs s.prefixAssertions, ks.filter Q ++ assertBRKs s.bgpsecAssertions) ∧
      (∀ v p, PrefixText v.pfx p → (P v = true ↔ ∀ f ∈ s.prefixFilters, ¬ PrefixFilterMatches f.pfx f.asn p (v.getASN wide))) ∧
      (∀ k ski, HexText k.ski ski → (Q k = true ↔ ∀ f ∈ s.bgpsecFilters, ¬ KeyFilterMatches f.asn f.ski k.asn ski)) := by
  refine ⟨_, _, by simp only [filterAssert, filterOnVRPs_eq, filterOnBRKs_eq]; rfl, ?_, ?_⟩
  · intro v p hp
    rw [← prefixText_iff] at hp
    simp only [Bool.not_eq_true', ← Bool.not_eq_true, List.any_eq_true, filterMatches_iff wide _ v hp, not_exists, not_and]
  · intro k ski hk
    rw [← hexText_iff] at hk
    simp only [Bool.not_eq_true', ← Bool.not_eq_true, brkRemoved_iff hk s.bgpsecFilters none (.inl rfl), not_exists, not_and]

/-- No filters and no assertions: nothing changes. -/
theorem C42_empty (wide : WideFloat) (vrps : List VRPJson) (ks : List BgpSecKeyJson) : filterAssert wide ⟨[], [], [], []⟩ vrps ks = (vrps, ks) := by
  simp [filterAssert, filterOnVRPs, filterOnBRKs, assertVRPs, assertBRKs]

/-- Filtering again changes nothing. -/
theorem C42_idempotent (wide : WideFloat) (fs : List PrefixFilter) (gs : List BgpsecFilter) (vrps : List VRPJson) (ks : List BgpSecKeyJson) :
    filterOnVRPs wide fs (filterOnVRPs wide fs vrps).1 = ((filterOnVRPs wide fs vrps).1, []) ∧
    filterOnBRKs gs (filterOnBRKs gs ks).1 = ((filterOnBRKs gs ks).1, []) := by
  constructor
  · rw [filterOnVRPs_eq, filterOnVRPs_eq]; simp [List.filter_filter]
  · rw [filterOnBRKs_eq, filterOnBRKs_eq]; simp [List.filter_filter]

/-- The order of the prefix filters and repetitions do not matter. -/
theorem C42_order (wide : WideFloat) (fs fs' : List PrefixFilter) (vrps : List VRPJson) (h : ∀ f, f ∈ fs ↔ f ∈ fs') :
    filterOnVRPs wide fs vrps = filterOnVRPs wide fs' vrps := by
  have : ∀ v : VRPJson, fs.any (filterMatches wide v.getPrefix v) = fs'.any (filterMatches wide v.getPrefix v) := by
    intro v
    rw [Bool.eq_iff_iff]
    simp only [List.any_eq_true]
    exact ⟨fun ⟨f, hf, hm⟩ => ⟨f, (h f).mp hf, hm⟩, fun ⟨f, hf, hm⟩ => ⟨f, (h f).mpr hf, hm⟩⟩
  rw [filterOnVRPs_eq, filterOnVRPs_eq]
  simp only [this]

/-- The same for BGPsec filters, when the SKIs of the keys decode. Missing: SKIs that do not (`C40_order_false`). -/
theorem C42_keys_order_partial (fs fs' : List BgpsecFilter) (ks : List BgpSecKeyJson) (hk : ∀ k ∈ ks, ∃ b, HexText k.ski b) (h : ∀ f, f ∈ fs ↔ f ∈ fs') :
    filterOnBRKs fs ks = filterOnBRKs fs' ks := by
  have : ∀ k ∈ ks, brkRemoved k none fs = brkRemoved k none fs' := by
    intro k hkm
    obtain ⟨b, hb⟩ := hk k hkm
    have hd := (hexText_iff ..).mpr hb
    rw [Bool.eq_iff_iff, brkRemoved_iff hd fs none (.inl rfl), brkRemoved_iff hd fs' none (.inl rfl)]
    exact ⟨fun ⟨f, hf, hm⟩ => ⟨f, (h f).mp hf, hm⟩, fun ⟨f, hf, hm⟩ => ⟨f, (h f).mpr hf, hm⟩⟩
  rw [filterOnBRKs_eq, filterOnBRKs_eq]
  congr 1
  · exact List.filter_congr (fun k hk => by rw [this k hk])
  · exact List.filter_congr (fun k hk => this k hk)

example : (∀ f : BgpsecFilter, f ∈ [⟨some 1, []⟩, ⟨none, [0xAB]⟩] ↔ f ∈ [⟨none, [0xAB]⟩, ⟨some 1, []⟩, ⟨some 1, []⟩]) ∧
    filterOnBRKs [⟨none, [0xAB]⟩, ⟨some 1, []⟩, ⟨some 1, []⟩] [⟨1, none, [], [], "cd".toList⟩, ⟨2, none, [], [], "cd".toList⟩] =
      ([⟨2, none, [], [], "cd".toList⟩], [⟨1, none, [], [], "cd".toList⟩]) := by
  refine ⟨?_, by decide⟩
  intro f
  simp only [List.mem_cons, List.not_mem_nil, or_false]
  tauto

/-! ## C72: ASNs -/

/-- A textual ASN is accepted with value `n` exactly if it is any number of the letters `a A s S` followed by decimal digits that denote `n`, which is below 2^32. -/
theorem C72_text (wide : WideFloat) (v : VRPJson) (s : Str) (n : U32) (hv : v.asn = .str s) :
    v.getASN2 wide = some n ↔ ∃ pre d, s = pre ++ d ∧ (∀ c ∈ pre, c ∈ ['a', 'A', 's', 'S']) ∧ Spec.Denotes d n.toNat := by
  have hw : ∀ d : Str, parseUint32 d = some n ↔ Spec.Denotes d n.toNat := by
    intro d
    rw [denotes_iff]
    unfold parseUint32
    cases parseDec d with
    | none => simp
    | some m =>
      simp only [Option.some.injEq]
      split
      · rename_i hm
        simp only [Option.some.injEq]
        constructor
        · rintro rfl; simp only [BitVec.toNat_ofNat]; omega
        · rintro rfl; simp
      · have := n.isLt
        simp only [reduceCtorEq, false_iff]
        omega
  simp only [VRPJson.getASN2, hv, hw]
  constructor
  · intro h
    refine ⟨s.takeWhile _, _, (List.takeWhile_append_dropWhile ..).symm, ?_, h⟩
    intro c hc
    have := List.all_eq_true.mp List.all_takeWhile c hc
    simpa [or_assoc] using this
  · rintro ⟨pre, d, rfl, hp, hd⟩
    rw [dropWhile_split]
    · exact hd
    · intro c hc
      have := hp c hc
      simpa [or_assoc] using this
    · intro c hc
      have := digit_no_letter hd c hc
      simpa [not_or, and_assoc] using this

example : (⟨[], 0, .str "aSsA0065001".toList, [], none⟩ : VRPJson).getASN2 (fun _ => 0) = some 65001 ∧
    (⟨[], 0, .str "AS".toList, [], none⟩ : VRPJson).getASN2 (fun _ => 0) = none ∧
    (⟨[], 0, .str "AS4294967296".toList, [], none⟩ : VRPJson).getASN2 (fun _ => 0) = none ∧
    (⟨[], 0, .str "AS1.10".toList, [], none⟩ : VRPJson).getASN2 (fun _ => 0) = none := by decide

/-- Numbers in range are taken as they are (a fraction is cut off). -/
theorem C72_number (wide : WideFloat) (v : VRPJson) (n : U32) (h : v.asn = .uint32 n ∨ v.asn = .int n.toNat ∨ v.asn = .float n.toNat) :
    v.getASN2 wide = some n := by
  have hn := n.isLt
  have hi : BitVec.ofInt 32 (n.toNat : Int) = n := by
    rw [BitVec.ofInt_natCast]; simp
  rcases h with h | h | h <;> simp only [VRPJson.getASN2, h, hi]
  rw [if_pos ⟨by omega, by omega⟩]

/-- A number out of range is not refused: a JSON number is converted with whatever the machine gives, an `int` is cut to 32 bits. -/
theorem C72_out_of_range (wide : WideFloat) :
    (⟨[], 0, .float (2 ^ 32), [], none⟩ : VRPJson).getASN2 wide = some (wide (2 ^ 32)) ∧
    (⟨[], 0, .float (-1), [], none⟩ : VRPJson).getASN2 wide = some (wide (-1)) ∧
    (⟨[], 0, .int (2 ^ 32 + 5), [], none⟩ : VRPJson).getASN2 wide = some 5 := by
  refine ⟨?_, ?_, ?_⟩ <;> simp [VRPJson.getASN2]

/-- What is neither text nor number (also: no ASN at all) is refused, and `GetASN` then says 0. -/
theorem C72_other (wide : WideFloat) (v : VRPJson) (h : v.asn = .other) : v.getASN2 wide = none ∧ v.getASN wide = 0 := by
  simp [VRPJson.getASN2, VRPJson.getASN, h]

end StayRTR
