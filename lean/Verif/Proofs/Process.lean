import Verif.Model.Process
import Verif.Spec.Process
import Verif.Spec.Records
import Verif.Proofs.Parse
import Verif.Proofs.ParseExact

/-! Facts about `processData`. -/

namespace StayRTR
open Spec

theorem valid_of_parse {s : Str} {p : Prefix} (h : parsePrefix s = some p) : p.Valid := by
  have := parsePrefix_valid h
  exact ⟨this.1, by simpa [Prefix.isValid] using this.2⟩

theorem Prefix.Valid.bits_le {p : Prefix} (h : p.Valid) : 0 ≤ p.bits ∧ p.bits ≤ p.ip.bitLen ∧ p.ip.bitLen ≤ 128 := by
  obtain ⟨h1, h2⟩ := h
  rcases h1 with h1 | ⟨_, h1⟩
  · exact absurd h1 h2
  · unfold Prefix.bits
    refine ⟨by omega, by omega, ?_⟩
    cases p.ip <;> simp [Addr.bitLen]

theorem isValidPrefixLength_iff {p : Prefix} (h : p.Valid) (m : U8) :
    isValidPrefixLength p m = true ↔ 1 ≤ p.bits ∧ p.bits ≤ (m.toNat : Int) ∧ m.toNat ≤ p.ip.bitLen := by
  have hb := h.bits_le
  unfold isValidPrefixLength
  have h1 : ((BitVec.ofInt 8 p.bits).toNat : Int) = p.bits := by
    rw [BitVec.toNat_ofInt]; omega
  have h2 : (BitVec.ofNat 8 p.ip.bitLen).toNat = p.ip.bitLen := by
    rw [BitVec.toNat_ofNat]; omega
  simp only [h2, Bool.not_eq_true', Bool.or_eq_false_iff, beq_eq_false_iff_ne, ne_eq, decide_eq_false_iff_not, gt_iff_lt, Nat.not_lt]
  omega

theorem isExpired_iff (now : Int) (e : Option Int) : isExpired now e = false ↔ ∀ x, e = some x → now ≤ x := by
  cases e <;> simp [isExpired]

/-- When an entry passes. -/
theorem checkVRP_iff (wide : WideFloat) (now : Int) (v : VRPJson) (p : Prefix) (asn : U32) :
    checkVRP wide now v = some (p, asn) ↔
      parsePrefix v.pfx = some p ∧ v.getASN2 wide = some asn ∧ 1 ≤ p.bits ∧ p.bits ≤ (v.length.toNat : Int) ∧ v.length.toNat ≤ p.ip.bitLen
        ∧ ∀ e, v.expires = some e → now ≤ e := by
  unfold checkVRP
  rw [getPrefix2_eq, ← isExpired_iff]
  cases hp : parsePrefix v.pfx with
  | none => simp
  | some q =>
    cases ha : v.getASN2 wide with
    | none => simp
    | some a =>
      simp only [Option.some.injEq]
      have := isValidPrefixLength_iff (valid_of_parse hp) v.length
      by_cases hv : isValidPrefixLength q v.length = true
      · have h' := this.mp hv
        cases he : isExpired now v.expires
        · simp only [hv, Bool.true_eq_false, if_false, Bool.false_eq_true, Option.some.injEq, Prod.mk.injEq, and_true]
          constructor
          · rintro ⟨rfl, rfl⟩; exact ⟨rfl, rfl, h'⟩
          · rintro ⟨rfl, rfl, _⟩; exact ⟨rfl, rfl⟩
        · simp [hv]
      · rw [Bool.not_eq_true] at hv
        simp only [hv, if_true, reduceCtorEq, false_iff]
        rintro ⟨rfl, rfl, h1, h2, h3, _⟩
        have := this.mpr ⟨h1, h2, h3⟩
        rw [hv] at this
        simp at this

/-! ## The keys for duplicates -/

theorem comma_not_digit : ¬ IsDigit ',' := by unfold IsDigit; decide

theorem dedupKey_inj {p q : Prefix} (hp : p.Valid) (hq : q.Valid) {a b : U32} {m n : U8} (h : dedupKey p a m = dedupKey q b n) : p = q ∧ a = b ∧ m = n := by
  unfold dedupKey at h
  have hc : ∀ {r : Prefix}, r.Valid → ',' ∉ r.toStr := by
    intro r hr hm
    rcases r.toStr_chars hr hm with h | h | h | h
    · simp at h
    · simp at h
    · simp at h
    · exact comma_not_digit h
  obtain ⟨h1, h2⟩ := append_sep_inj (hc hp) (hc hq) h
  obtain ⟨h3, h4⟩ := append_sep_inj (not_mem_of_digits (decStr_digits _) comma_not_digit) (not_mem_of_digits (decStr_digits _) comma_not_digit) h2
  exact ⟨Prefix.toStr_inj hp hq h1, BitVec.eq_of_toNat_eq (decStr_inj h3), BitVec.eq_of_toNat_eq (decStr_inj h4)⟩

/-- What identifies a VRP. -/
def VRP.triple (v : VRP) : Prefix × U8 × U32 := (v.pfx, v.maxLen, v.asn)

/-- The state of the first loop after the entries `l`. -/
structure ProcInv (wide : WideFloat) (now : Int) (l : List VRPJson) (s : ProcState) : Prop where
  mem : ∀ r : Prefix × U8 × U32, r ∈ s.out.map VRP.triple ↔ ∃ v ∈ l, checkVRP wide now v = some (r.1, r.2.2) ∧ v.length = r.2.1
  nodup : (s.out.map VRP.triple).Nodup
  seen : ∀ k, k ∈ s.seen ↔ ∃ x ∈ s.out, k = dedupKey x.pfx x.asn x.maxLen
  flags : ∀ x ∈ s.out, x.flags = 0
  v4 : s.countv4 = (l.filter (fun v => match checkVRP wide now v with | some (p, _) => p.ip.is4 | none => false)).length
  v6 : s.countv6 = (l.filter (fun v => match checkVRP wide now v with | some (p, _) => !p.ip.is4 | none => false)).length

theorem procInv (wide : WideFloat) (now : Int) (l : List VRPJson) : ProcInv wide now l (l.foldl (procStep wide now) ⟨[], [], 0, 0⟩) := by
  induction l using List.reverseRecOn with
  | nil => constructor <;> simp
  | append_singleton l v ih =>
    rw [List.foldl_append, List.foldl_cons, List.foldl_nil]
    generalize l.foldl (procStep wide now) ⟨[], [], 0, 0⟩ = s at ih
    have valid : ∀ x ∈ s.out, x.pfx.Valid := by
      intro x hx
      obtain ⟨w, _, hc, _⟩ := (ih.mem x.triple).mp (List.mem_map.mpr ⟨x, hx, rfl⟩)
      exact valid_of_parse ((checkVRP_iff ..).mp hc).1
    unfold procStep
    cases hc : checkVRP wide now v with
    | none =>
      simp only
      refine ⟨?_, ih.nodup, ih.seen, ih.flags, ?_, ?_⟩
      · intro r
        rw [ih.mem r]
        constructor
        · rintro ⟨w, hw, h⟩; exact ⟨w, by simp [hw], h⟩
        · rintro ⟨w, hw, h⟩
          simp only [List.mem_append, List.mem_singleton] at hw
          rcases hw with hw | rfl
          · exact ⟨w, hw, h⟩
          · rw [hc] at h; simp at h
      · simp [ih.v4, List.filter_append, hc]
      · simp [ih.v6, List.filter_append, hc]
    | some pa =>
      obtain ⟨p, asn⟩ := pa
      have hp : p.Valid := valid_of_parse ((checkVRP_iff ..).mp hc).1
      have seen_iff : dedupKey p asn v.length ∈ s.seen ↔ (p, v.length, asn) ∈ s.out.map VRP.triple := by
        rw [ih.seen, List.mem_map]
        constructor
        · rintro ⟨x, hx, he⟩
          obtain ⟨h1, h2, h3⟩ := dedupKey_inj hp (valid x hx) he
          exact ⟨x, hx, by simp [VRP.triple, h1, h2, h3]⟩
        · rintro ⟨x, hx, he⟩
          simp only [VRP.triple, Prod.mk.injEq] at he
          exact ⟨x, hx, by rw [he.1, he.2.1, he.2.2]⟩
      have mem_old : (p, v.length, asn) ∈ s.out.map VRP.triple → ∀ r : Prefix × U8 × U32, r ∈ s.out.map VRP.triple ↔ ∃ w ∈ l ++ [v], checkVRP wide now w = some (r.1, r.2.2) ∧ w.length = r.2.1 := by
        intro hin r
        constructor
        · intro h; obtain ⟨w, hw, h⟩ := (ih.mem r).mp h; exact ⟨w, by simp [hw], h⟩
        · rintro ⟨w, hw, h1, h2⟩
          simp only [List.mem_append, List.mem_singleton] at hw
          rcases hw with hw | rfl
          · exact (ih.mem r).mpr ⟨w, hw, h1, h2⟩
          · rw [hc] at h1
            simp only [Option.some.injEq, Prod.mk.injEq] at h1
            have : r = (p, w.length, asn) := by rw [h1.1, h1.2, h2]
            rw [this]; exact hin
      have mem_new : ∀ r : Prefix × U8 × U32, r ∈ (s.out ++ [(⟨p, asn, v.length, 0⟩ : VRP)]).map VRP.triple ↔ ∃ w ∈ l ++ [v], checkVRP wide now w = some (r.1, r.2.2) ∧ w.length = r.2.1 := by
        intro r
        simp only [List.map_append, List.map_cons, List.map_nil, List.mem_append, List.mem_singleton, ih.mem r]
        constructor
        · rintro (⟨w, hw, h⟩ | rfl)
          · exact ⟨w, .inl hw, h⟩
          · exact ⟨v, .inr rfl, hc, rfl⟩
        · rintro ⟨w, hw | rfl, h1, h2⟩
          · exact .inl ⟨w, hw, h1, h2⟩
          · rw [hc] at h1
            simp only [Option.some.injEq, Prod.mk.injEq] at h1
            right
            simp only [VRP.triple]
            rw [h1.1, h1.2, h2]
      have nodup_new : dedupKey p asn v.length ∉ s.seen → ((s.out ++ [(⟨p, asn, v.length, 0⟩ : VRP)]).map VRP.triple).Nodup := by
        intro hn
        rw [List.map_append, List.nodup_append]
        refine ⟨ih.nodup, by simp, ?_⟩
        intro a ha b hb
        simp only [List.map_cons, List.map_nil, List.mem_singleton] at hb
        rintro rfl
        rw [hb] at ha
        exact hn (seen_iff.mpr ha)
      have seen_new : ∀ k, k ∈ dedupKey p asn v.length :: s.seen ↔ ∃ x ∈ s.out ++ [(⟨p, asn, v.length, 0⟩ : VRP)], k = dedupKey x.pfx x.asn x.maxLen := by
        intro k
        simp only [List.mem_cons, ih.seen, List.mem_append, List.not_mem_nil, or_false]
        constructor
        · rintro (rfl | ⟨x, hx, he⟩)
          · exact ⟨_, .inr rfl, rfl⟩
          · exact ⟨x, .inl hx, he⟩
        · rintro ⟨x, hx | rfl, he⟩
          · exact .inr ⟨x, hx, he⟩
          · exact .inl he
      have flags_new : ∀ x ∈ s.out ++ [(⟨p, asn, v.length, 0⟩ : VRP)], x.flags = 0 := by
        intro x hx
        simp only [List.mem_append, List.mem_singleton] at hx
        rcases hx with hx | rfl
        · exact ih.flags x hx
        · rfl
      simp only
      cases h4 : p.ip.is4
      · simp only [Bool.false_eq_true, if_false]
        by_cases hk : dedupKey p asn v.length ∈ s.seen
        · rw [if_pos hk]
          exact ⟨mem_old (seen_iff.mp hk), ih.nodup, ih.seen, ih.flags, by simp [ih.v4, List.filter_append, hc, h4], by simp [ih.v6, List.filter_append, hc, h4]⟩
        · rw [if_neg hk]
          exact ⟨mem_new, nodup_new hk, seen_new, flags_new, by simp [ih.v4, List.filter_append, hc, h4], by simp [ih.v6, List.filter_append, hc, h4]⟩
      · simp only [if_true]
        by_cases hk : dedupKey p asn v.length ∈ s.seen
        · rw [if_pos hk]
          exact ⟨mem_old (seen_iff.mp hk), ih.nodup, ih.seen, ih.flags, by simp [ih.v4, List.filter_append, hc, h4], by simp [ih.v6, List.filter_append, hc, h4]⟩
        · rw [if_neg hk]
          exact ⟨mem_new, nodup_new hk, seen_new, flags_new, by simp [ih.v4, List.filter_append, hc, h4], by simp [ih.v6, List.filter_append, hc, h4]⟩

/-! ## ASNs -/

theorem denotes_uint32 (d : Str) (n : U32) : parseUint32 d = some n ↔ Denotes d n.toNat := by
  rw [denotes_iff]
  unfold parseUint32
  cases parseDec d with
  | none => simp
  | some m =>
    simp only [Option.some.injEq]
    split
    · rename_i hm
      simp only [Option.some.injEq]
      constructor
      · rintro rfl; simp only [BitVec.toNat_ofNat]; omega
      · rintro rfl; simp
    · have := n.isLt
      simp only [reduceCtorEq, false_iff]
      omega

theorem ofInt_toNat (n : U32) : BitVec.ofInt 32 (n.toNat : Int) = n := by
  rw [BitVec.ofInt_natCast]; simp

theorem toNat_ofInt_range {i : Int} (h : 0 ≤ i ∧ i < 2 ^ 32) : ((BitVec.ofInt 32 i).toNat : Int) = i := by
  rw [BitVec.toNat_ofInt]; omega

/-- What the code takes as ASN is what the entry says, if that is in range. -/
theorem getASN2_iff (wide : WideFloat) (v : VRPJson) (hr : AsnInRange v.asn) (n : U32) : v.getASN2 wide = some n ↔ AsnIs v.asn n := by
  unfold VRPJson.getASN2
  cases hv : v.asn with
  | other => simp [AsnIs]
  | uint32 m => simp [AsnIs]
  | int i =>
    rw [hv] at hr
    simp only [AsnIs, Option.some.injEq]
    constructor
    · rintro rfl; exact (toNat_ofInt_range hr).symm
    · rintro rfl; exact ofInt_toNat n
  | float t =>
    rw [hv] at hr
    simp only [AsnIs, Option.some.injEq]
    rw [if_pos (show 0 ≤ t ∧ t < 2 ^ 32 from hr)]
    constructor
    · rintro rfl; exact (toNat_ofInt_range hr).symm
    · rintro rfl; exact ofInt_toNat n
  | str s =>
    simp only [denotes_uint32, AsnIs]
    constructor
    · intro h
      refine ⟨s.takeWhile _, _, (List.takeWhile_append_dropWhile ..).symm, ?_, h⟩
      intro c hc
      have := List.all_eq_true.mp List.all_takeWhile c hc
      simpa [or_assoc] using this
    · rintro ⟨pre, d, rfl, hp, hd⟩
      rw [dropWhile_split]
      · exact hd
      · intro c hc
        have := hp c hc
        simpa [or_assoc] using this
      · intro c hc
        have := digit_no_letter hd c hc
        simpa [not_or, and_assoc] using this

/-- A stated ASN is in range. -/
theorem asnIs_inRange {a : AsnJson} {n : U32} (h : AsnIs a n) : AsnInRange a := by
  have := n.isLt
  cases a <;> simp only [AsnIs, AsnInRange] at h ⊢ <;> omega

/-- What the code takes as ASN, in range or not. -/
theorem asnReads_iff (wide : WideFloat) (v : VRPJson) (n : U32) : v.getASN2 wide = some n ↔ AsnReads wide v.asn n := by
  by_cases hr : AsnInRange v.asn
  · rw [getASN2_iff wide v hr]
    cases hv : v.asn with
    | float t =>
      rw [hv] at hr
      simp only [AsnIs, AsnReads]
      exact ⟨fun h => ⟨fun _ => h, fun h' => absurd hr h'⟩, fun h => h.1 hr⟩
    | int i =>
      rw [hv] at hr
      simp only [AsnIs, AsnReads, AsnInRange] at hr ⊢
      have := n.isLt
      constructor
      · intro h; exact ⟨0, by omega⟩
      · rintro ⟨k, hk⟩
        have : k = 0 := by omega
        omega
    | _ => exact Iff.rfl
  · unfold VRPJson.getASN2
    cases hv : v.asn with
    | float t =>
      rw [hv] at hr
      simp only [AsnReads, Option.some.injEq]
      rw [if_neg (show ¬ (0 ≤ t ∧ t < 2 ^ 32) from hr)]
      exact ⟨fun h => ⟨fun h' => absurd h' hr, fun _ => h.symm⟩, fun h => (h.2 hr).symm⟩
    | int i =>
      simp only [AsnReads, Option.some.injEq]
      constructor
      · rintro rfl
        refine ⟨i / 2 ^ 32, ?_⟩
        rw [BitVec.toNat_ofInt]
        omega
      · rintro ⟨k, rfl⟩
        apply BitVec.eq_of_toNat_eq
        rw [BitVec.toNat_ofInt]
        have := n.isLt
        omega
    | _ => rw [hv] at hr; exact absurd trivial hr

end StayRTR
