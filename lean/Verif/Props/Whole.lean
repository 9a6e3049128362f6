import Verif.Spec.Whole
import Verif.Props.Json
import Verif.Props.Update
import Verif.Proofs.Router
import Verif.Props.JsonExport
import Verif.Props.Slurm

/-!
# From the files to a router: C115
-/

namespace StayRTR
open Spec Slurm Pdu

/-! ## The exceptions, record by record -/

/-- A prefix assertion that becomes the VRP. -/
def Spec.Asserts (a : PrefixAssertion) (p : Prefix) (m : U8) (asn : U32) : Prop :=
  PrefixText a.pfx p ∧ a.asn = asn ∧ m = BitVec.ofInt 8 (max a.maxPrefixLength p.bits) ∧ 1 ≤ p.bits ∧ p.bits ≤ (m.toNat : Int) ∧ m.toNat ≤ p.ip.bitLen

theorem bits_of_parse {t : Str} {p : Prefix} (h : parsePrefix t = some p) : p.bits = (p.bitsPlusOne : Int) - 1 ∧ 1 ≤ p.bitsPlusOne := by
  have hv := parsePrefix_valid h
  have h0 : p.bitsPlusOne ≠ 0 := by simpa [Prefix.isValid] using hv.2
  exact ⟨rfl, by omega⟩

/-- **C115.** With local exceptions exactly the records are asked for that the file asks for and no filter matches, and those asserted. Entries that cannot be read play no part: this holds for all files and exceptions. -/
theorem C115_exceptions (wide : WideFloat) (now : Int) (x : Slurm) (l : RPKIList) (r : Rec) :
    FileWants wide now (some x) l r ↔ match r with
      | .vrp p m a => (FileWants wide now none l r ∧ ∀ f ∈ x.prefixFilters, ¬ PrefixFilterMatches f.pfx f.asn p a) ∨ ∃ s ∈ x.prefixAssertions, Asserts s p m a
      | .brk a ski key => (FileWants wide now none l r ∧ ∀ f ∈ x.bgpsecFilters, ¬ KeyFilterMatches f.asn f.ski a ski) ∨ ∃ s ∈ x.bgpsecAssertions, s.asn = a ∧ s.ski = ski ∧ s.routerPublicKey = key := by
  obtain ⟨P, Q, he, hP, hQ⟩ := C42_shape wide x (l.roas.getD []) (l.keys.getD [])
  unfold FileWants withExceptions
  simp only [he]
  cases r with
  | vrp p m a =>
    have hget : ∀ v : VRPJson, AsnReads wide v.asn a → v.getASN wide = a := by
      intro v hv
      rw [← asnReads_iff] at hv
      simp [VRPJson.getASN, hv]
    simp only [Wanted, List.mem_append, List.mem_filter]
    constructor
    · rintro ⟨v, ⟨hv, hp⟩ | hv, h1, h2, h3⟩
      · exact .inl ⟨⟨v, hv, h1, h2, h3⟩, by rw [hP v p h1, hget v h2] at hp; exact hp⟩
      · obtain ⟨s, hs, hsv⟩ := List.mem_filterMap.1 hv
        refine .inr ⟨s, hs, ?_⟩
        unfold assertVRP at hsv
        split at hsv
        · cases hsv
        · rename_i size hsz
          cases hsv
          have h1' := h1
          rw [← prefixText_iff] at h1'
          have hb := bits_of_parse h1'
          have hc := parsePrefix_parseCIDR h1'
          simp only at hc
          rw [hsz] at hc
          cases hc
          obtain ⟨h3, h4, h5, h6, -⟩ := h3
          refine ⟨h1, h2, ?_, h4, h5, h6⟩
          rw [← h3]
          simp only
          congr 1
          split <;> omega
    · rintro (⟨⟨v, hv, h1, h2, h3⟩, hf⟩ | ⟨s, hs, h1, h2, h3, h4, h5, h6⟩)
      · exact ⟨v, .inl ⟨hv, by rw [hP v p h1, hget v h2]; exact hf⟩, h1, h2, h3⟩
      · have h1' := h1
        rw [← prefixText_iff] at h1'
        have hb := bits_of_parse h1'
        have hc := parsePrefix_parseCIDR h1'
        refine ⟨⟨s.pfx, m, .uint32 s.asn, s.comment, none⟩, .inr (List.mem_filterMap.2 ⟨s, hs, ?_⟩), h1, h2, rfl, h4, h5, h6, by simp⟩
        unfold assertVRP
        rw [hc, h3]
        simp only [Option.some.injEq, VRPJson.mk.injEq, and_true, true_and]
        congr 1
        split <;> omega
  | brk a ski key =>
    simp only [Wanted, List.mem_append, List.mem_filter]
    constructor
    · rintro ⟨k, ⟨hk, hq⟩ | hk, h⟩
      · refine .inl ⟨⟨k, hk, h⟩, ?_⟩
        rw [hQ k ski h.2.1, h.1] at hq
        exact hq
      · obtain ⟨s, hs, rfl⟩ := List.mem_map.1 hk
        obtain ⟨h1, h2, h3, -⟩ := h
        refine .inr ⟨s, hs, h1, ?_, h3⟩
        rw [← hexText_iff] at h2
        have := hexDecode_hexBytes s.ski
        simp only at h2
        rw [this] at h2
        exact (Prod.mk.inj h2).1
    · rintro (⟨⟨k, hk, h⟩, hf⟩ | ⟨s, hs, rfl, rfl, rfl⟩)
      · exact ⟨k, .inl ⟨hk, by rw [hQ k ski h.2.1, h.1]; exact hf⟩, h⟩
      · exact ⟨_, .inr (List.mem_map.2 ⟨s, hs, rfl⟩), rfl, (hexText_iff ..).1 (hexDecode_hexBytes s.ski), rfl, by simp⟩

/-! ## The texts -/

/-- The entries of a list of a SLURM file. -/
theorem slurmEntries_iff {α β : Type} {s : Str} {o : List (Str × Json)} {outer inner : String} {S : Json → β → Prop} {zero' : β} {y : β} {R : Json → α → Prop} {zero : α} {x : Option (List α)} (hf : FirstValue s (.obj o)) (hr : NoRepeats (.obj o))
    (h : FieldIs o outer S zero' y) (hz : y = zero' → x = none) (hS : ∀ j, S j y → ∃ o', j = .obj o' ∧ FieldIs o' inner (ListIs R zero) none x) :
    (∀ v ∈ x.getD [], ∃ e, SlurmEntry s outer inner e ∧ NoRepeats e ∧ OrNull R zero e v) ∧ ∀ e, SlurmEntry s outer inner e → NoRepeats e ∧ ∃ v ∈ x.getD [], OrNull R zero e v := by
  constructor
  · intro v hv
    obtain ⟨j, hm, hj⟩ := field_given h (by intro h0; rw [hz h0] at hv; simp at hv)
    obtain ⟨o', rfl, hi⟩ := hS j hj
    obtain ⟨j', hm', es, xs, rfl, rfl, hall⟩ := field_given hi (by rintro rfl; simp at hv)
    obtain ⟨e, he, hev⟩ := forall2_right hall hv
    exact ⟨e, ⟨o, o', es, hf, hm, hm', he⟩, noRepeats_elem (noRepeats_member (noRepeats_member hr hm) hm') he, hev⟩
  · rintro e ⟨o1, o', es, hf', hm, hm', he⟩
    have := C103_unambiguous s _ _ (by simp) (by simp) hf hf'
    cases this
    have hro' := noRepeats_member hr hm
    refine ⟨noRepeats_elem (noRepeats_member hro' hm') he, ?_⟩
    rcases field_member hr h hm with ⟨h0, -⟩ | ⟨-, hj⟩
    · cases h0
    · obtain ⟨o2, h2, hi⟩ := hS _ hj
      cases h2
      rcases field_member hro' hi hm' with ⟨h0, -⟩ | ⟨-, es', xs, h2, rfl, hall⟩
      · cases h0
      · cases h2
        exact forall2_left hall he

theorem bytesIs_unique {j : Json} {b b' : Bytes} (h : BytesIs j b) (h' : BytesIs j b') : b = b' := by
  have hne : j ≠ .null := by
    rintro rfl
    rcases h with ⟨s, h, -⟩ | ⟨l, h, -⟩ <;> cases h
  have d1 := (decBytes_iff j _).2 (.inr ⟨hne, h⟩)
  rw [(decBytes_iff j _).2 (.inr ⟨hne, h'⟩)] at d1
  exact (Option.some.inj d1).symm

theorem denotes_inj {w : Nat} {lit : Str} {x y : BitVec w} (h : Denotes lit x.toNat) (h' : Denotes lit y.toNat) : x = y := by
  rw [denotes_iff] at h h'
  rw [h] at h'
  exact BitVec.eq_of_toNat_eq (Option.some.inj h')

theorem filterDrops_iff {e : Json} {f : PrefixFilter} (hr : NoRepeats e) (h : PrefixFilterIs e f)
    (hg : ∃ o, e = .obj o ∧ ((∃ t, Member o "prefix" (.str t)) ∨ ∃ lit, Member o "asn" (.num lit)) ∧ ∀ t, Member o "prefix" (.str t) → ∃ x, PrefixText t x) (p : Prefix) (a : U32) :
    FilterDrops e p a ↔ PrefixFilterMatches f.pfx f.asn p a := by
  obtain ⟨o, rfl, h1, h2, -⟩ := h
  obtain ⟨o', ho, hsome, hpre⟩ := hg
  cases ho
  have hpfx : ∀ t, Member o "prefix" (.str t) → f.pfx = t := by
    intro t ht
    rcases field_member hr h1 ht with ⟨h, -⟩ | ⟨-, h⟩
    · cases h
    · cases h; rfl
  have hasn : ∀ lit, Member o "asn" (.num lit) → ∃ n, f.asn = some n ∧ Denotes lit n.toNat := by
    intro lit hl
    rcases field_member hr h2 hl with ⟨h, -⟩ | ⟨-, n, hn, l, h, hd⟩
    · cases h
    · cases h; exact ⟨n, hn, hd⟩
  constructor
  · rintro ⟨o', ho, -, hp, ha⟩
    cases ho
    refine ⟨fun x hx => ?_, fun b hb => ?_⟩
    · obtain ⟨j, hm, hj⟩ := field_given h1 (by intro h0; rw [h0] at hx; exact not_prefixText_nil _ hx)
      cases hj
      obtain ⟨y, hy, hc⟩ := hp _ hm
      rw [← prefixText_iff] at hx hy
      rw [hx] at hy
      cases hy
      exact hc
    · obtain ⟨j, hm, n, hn, lit, rfl, hd⟩ := field_given h2 (by rw [hb]; simp)
      rw [hb] at hn
      cases hn
      exact denotes_inj (ha lit hm) hd
  · rintro ⟨hp, ha⟩
    refine ⟨o, rfl, hsome, fun t ht => ?_, fun lit hl => ?_⟩
    · obtain ⟨x, hx⟩ := hpre t ht
      exact ⟨x, hx, hp x (by rw [hpfx t ht]; exact hx)⟩
    · obtain ⟨n, hn, hd⟩ := hasn lit hl
      rw [ha n hn]
      exact hd

theorem keyFilterDrops_iff {e : Json} {f : BgpsecFilter} (hr : NoRepeats e) (h : BgpsecFilterIs e f) (hg : ∀ o j, e = .obj o → Member o "SKI" j → ¬ BytesIs j []) (a : U32) (ski : Bytes) :
    KeyFilterDrops e a ski ↔ KeyFilterMatches f.asn f.ski a ski := by
  obtain ⟨o, rfl, h1, h2, -⟩ := h
  have hasn : ∀ lit, Member o "asn" (.num lit) → ∃ n, f.asn = some n ∧ Denotes lit n.toNat := by
    intro lit hl
    rcases field_member hr h1 hl with ⟨h, -⟩ | ⟨-, n, hn, l, h, hd⟩
    · cases h
    · cases h; exact ⟨n, hn, hd⟩
  have hski : ∀ j b, Member o "SKI" j → BytesIs j b → f.ski = b ∧ f.ski ≠ [] := by
    intro j b hm hb
    rcases field_member hr h2 hm with ⟨rfl, -⟩ | ⟨-, h⟩
    · rcases hb with ⟨s, h, -⟩ | ⟨l, h, -⟩ <;> cases h
    · refine ⟨bytesIs_unique h hb, fun h0 => hg o j rfl hm ?_⟩
      rw [h0] at h
      exact h
  constructor
  · rintro ⟨o', ho, hsome, ha, hk⟩
    cases ho
    refine ⟨?_, fun b hb => ?_, fun hne => ?_⟩
    · rcases hsome with ⟨lit, hl⟩ | ⟨j, b, hm, hb⟩
      · obtain ⟨n, hn, -⟩ := hasn lit hl
        exact .inl (by rw [hn]; simp)
      · exact .inr (hski j b hm hb).2
    · obtain ⟨j, hm, n, hn, lit, rfl, hd⟩ := field_given h1 (by rw [hb]; simp)
      rw [hb] at hn
      cases hn
      exact denotes_inj (ha lit hm) hd
    · obtain ⟨j, hm, hj⟩ := field_given h2 hne
      exact (hk j _ hm hj).symm
  · rintro ⟨hsome, ha, hk⟩
    refine ⟨o, rfl, ?_, fun lit hl => ?_, fun j b hm hb => ?_⟩
    · rcases hsome with hn | hn
      · obtain ⟨j, hm, n, -, lit, rfl, -⟩ := field_given h1 hn
        exact .inl ⟨lit, hm⟩
      · obtain ⟨j, hm, hj⟩ := field_given h2 hn
        exact .inr ⟨j, _, hm, hj⟩
    · obtain ⟨n, hn, hd⟩ := hasn lit hl
      rw [ha n hn]
      exact hd
    · obtain ⟨h1, h2⟩ := hski j b hm hb
      rw [hk h2, h1]

theorem assertsVrp_iff {e : Json} {s : PrefixAssertion} (hr : NoRepeats e) (h : PrefixAssertionIs e s)
    (hg : ∃ o, e = .obj o ∧ (∃ lit, Member o "asn" (.num lit)) ∧ ∀ t p lit x, Member o "prefix" (.str t) → PrefixText t p → Member o "maxPrefixLength" (.num lit) → IntText lit x → p.bits ≤ x ∧ x ≤ p.ip.bitLen)
    (p : Prefix) (m : U8) (a : U32) : AssertsVrp e p m a ↔ Asserts s p m a := by
  obtain ⟨o, rfl, h1, h2, h3, -⟩ := h
  obtain ⟨o', ho, ⟨lita, hla⟩, hmax⟩ := hg
  cases ho
  have hpfx : ∀ t, Member o "prefix" (.str t) → s.pfx = t := by
    intro t ht
    rcases field_member hr h1 ht with ⟨h, -⟩ | ⟨-, h⟩
    · cases h
    · cases h; rfl
  have hasn : ∀ lit, Member o "asn" (.num lit) → Denotes lit s.asn.toNat := by
    intro lit hl
    rcases field_member hr h2 hl with ⟨h, -⟩ | ⟨-, l, h, hd⟩
    · cases h
    · cases h; exact hd
  have hml : ∀ lit, Member o "maxPrefixLength" (.num lit) → IntText lit s.maxPrefixLength := by
    intro lit hl
    rcases field_member hr h3 hl with ⟨h, -⟩ | ⟨-, l, h, -, -, hd⟩
    · cases h
    · cases h; exact hd
  have hno : (∀ lit, ¬ Member o "maxPrefixLength" (.num lit)) → s.maxPrefixLength = 0 := by
    intro hn
    by_contra hne
    obtain ⟨j, hm, lit, rfl, -⟩ := field_given h3 hne
    exact hn lit hm
  have hbits : PrefixText s.pfx p → 0 ≤ p.bits ∧ p.bits ≤ p.ip.bitLen ∧ p.ip.bitLen ≤ 128 := by
    intro hp
    rw [← prefixText_iff] at hp
    have hv := (parsePrefix_valid hp).1
    have hb := bits_of_parse hp
    refine ⟨by omega, ?_, ?_⟩
    · rcases hv with h | ⟨-, h⟩ <;> omega
    · cases p.ip <;> simp [Addr.bitLen]
  have hint : ∀ x : Int, 0 ≤ x → x ≤ 128 → ((BitVec.ofInt 8 x).toNat : Int) = x := by
    intro x h0 h1
    simp only [BitVec.toNat_ofInt]
    omega
  have hdenote : ∀ lit (x : Int), IntText lit x → 1 ≤ x → Denotes lit x.toNat := by
    rintro lit x (⟨n, hd, rfl⟩ | ⟨ds, n, -, -, rfl⟩) h
    · simpa using hd
    · omega
  constructor
  · rintro ⟨o', ho, ⟨t, ht, hp⟩, ⟨lit, hl, hd⟩, hm, hb⟩
    cases ho
    have ep := hpfx t ht
    rw [← ep] at hp
    have hbb := hbits hp
    have key : (m.toNat : Int) = max s.maxPrefixLength p.bits ∧ m.toNat ≤ p.ip.bitLen := by
      rcases hm with ⟨litm, hlm, hdm⟩ | ⟨hn, hm⟩
      · have := hmax t p litm s.maxPrefixLength ht (by rw [← ep]; exact hp) hlm (hml litm hlm)
        have hd2 := hdenote litm _ (hml litm hlm) (by omega)
        rw [denotes_iff] at hdm hd2
        rw [hdm] at hd2
        have := Option.some.inj hd2
        omega
      · have := hno hn
        omega
    refine ⟨hp, denotes_inj (hasn lit hl) hd, ?_, hb, by omega, key.2⟩
    apply BitVec.eq_of_toNat_eq
    have := hint (max s.maxPrefixLength p.bits) (by omega) (by omega)
    omega
  · rintro ⟨hp, rfl, rfl, hb, h5, h6⟩
    have hbb := hbits hp
    obtain ⟨j, ht, hj⟩ := field_given h1 (by intro h0; rw [h0] at hp; exact not_prefixText_nil _ hp)
    cases hj
    refine ⟨o, rfl, ⟨_, ht, hp⟩, ⟨lita, hla, hasn lita hla⟩, ?_, hb⟩
    by_cases hn : ∃ lit, Member o "maxPrefixLength" (.num lit)
    · obtain ⟨lit, hl⟩ := hn
      have := hmax _ p lit s.maxPrefixLength ht hp hl (hml lit hl)
      have e : max s.maxPrefixLength p.bits = s.maxPrefixLength := by omega
      have hi := hint s.maxPrefixLength (by omega) (by omega)
      have hd := hdenote lit _ (hml lit hl) (by omega)
      refine .inl ⟨lit, hl, ?_⟩
      rw [e]
      have : (BitVec.ofInt 8 s.maxPrefixLength).toNat = s.maxPrefixLength.toNat := by omega
      rw [this]; exact hd
    · have hn' := not_exists.1 hn
      have h0 := hno hn'
      refine .inr ⟨hn', ?_⟩
      rw [h0, show max 0 p.bits = p.bits by omega]
      exact hint _ (by omega) (by omega)

theorem assertsKey_iff {e : Json} {s : BgpsecAssertion} (hr : NoRepeats e) (h : BgpsecAssertionIs e s)
    (hg : ∃ o, e = .obj o ∧ ∀ name ∈ ["asn", "SKI", "routerPublicKey"], ∃ j, Member o name j ∧ j ≠ .null) (a : U32) (ski key : Bytes) :
    AssertsKey e a ski key ↔ s.asn = a ∧ s.ski = ski ∧ s.routerPublicKey = key := by
  obtain ⟨o, rfl, h1, h2, h3, -⟩ := h
  obtain ⟨o', ho, hg⟩ := hg
  cases ho
  have hb : ∀ {name : String} {x : Bytes}, FieldIs o name BytesIs [] x → ∀ j b, Member o name j → BytesIs j b → x = b := by
    intro name x hx j b hm hb
    rcases field_member hr hx hm with ⟨rfl, -⟩ | ⟨-, h⟩
    · rcases hb with ⟨s, h, -⟩ | ⟨l, h, -⟩ <;> cases h
    · exact bytesIs_unique h hb
  have hb' : ∀ {name : String} {x : Bytes}, FieldIs o name BytesIs [] x → (∃ j, Member o name j ∧ j ≠ .null) → ∃ j, Member o name j ∧ BytesIs j x := by
    rintro name x hx ⟨j, hm, hne⟩
    rcases field_member hr hx hm with ⟨rfl, -⟩ | ⟨-, h⟩
    · exact (hne rfl).elim
    · exact ⟨j, hm, h⟩
  constructor
  · rintro ⟨o', ho, ⟨lit, hl, hd⟩, ⟨j, hj, hs⟩, ⟨k, hk, hp⟩⟩
    cases ho
    refine ⟨?_, hb h1 j ski hj hs, hb h3 k key hk hp⟩
    rcases field_member hr h2 hl with ⟨h, -⟩ | ⟨-, l, h, hd'⟩
    · cases h
    · cases h; exact denotes_inj hd' hd
  · rintro ⟨rfl, rfl, rfl⟩
    refine ⟨o, rfl, ?_, hb' h1 (hg "SKI" (by simp)), hb' h3 (hg "routerPublicKey" (by simp))⟩
    obtain ⟨j, hm, hne⟩ := hg "asn" (by simp)
    rcases field_member hr h2 hm with ⟨h, -⟩ | ⟨-, l, rfl, hd⟩
    · exact (hne h).elim
    · exact ⟨l, hm, hd⟩

/-- The exceptions of a SLURM file. -/
theorem slurm_texts {s : Str} (h : GoodSlurm s) {j : Json} {x : Slurm} (hf : FirstValue s j) (hx : SlurmIs j x) (r : Rec) :
    (Dropped s r ↔ match r with
      | .vrp p _ a => ∃ f ∈ x.prefixFilters, PrefixFilterMatches f.pfx f.asn p a
      | .brk a ski _ => ∃ f ∈ x.bgpsecFilters, KeyFilterMatches f.asn f.ski a ski) ∧
    (Asserted s r ↔ match r with
      | .vrp p m a => ∃ y ∈ x.prefixAssertions, Asserts y p m a
      | .brk a ski key => ∃ y ∈ x.bgpsecAssertions, y.asn = a ∧ y.ski = ski ∧ y.routerPublicKey = key) := by
  have hr := h.plain j hf
  obtain ⟨o, f, a, rfl, -, h1, h2, rfl⟩ := hx
  have e1 := slurmEntries_iff (inner := "prefixFilters") (R := PrefixFilterIs) (zero := ⟨[], none⟩) (x := f.1) hf hr h1 (by rintro rfl; rfl) (by rintro _ ⟨o', rfl, h, -⟩; exact ⟨o', rfl, h⟩)
  have e2 := slurmEntries_iff (inner := "bgpsecFilters") (R := BgpsecFilterIs) (zero := ⟨none, []⟩) (x := f.2) hf hr h1 (by rintro rfl; rfl) (by rintro _ ⟨o', rfl, -, h⟩; exact ⟨o', rfl, h⟩)
  have e3 := slurmEntries_iff (inner := "prefixAssertions") (R := PrefixAssertionIs) (zero := ⟨[], 0, 0, []⟩) (x := a.1) hf hr h2 (by rintro rfl; rfl) (by rintro _ ⟨o', rfl, h, -⟩; exact ⟨o', rfl, h⟩)
  have e4 := slurmEntries_iff (inner := "bgpsecAssertions") (R := BgpsecAssertionIs) (zero := ⟨[], 0, []⟩) (x := a.2) hf hr h2 (by rintro rfl; rfl) (by rintro _ ⟨o', rfl, -, h⟩; exact ⟨o', rfl, h⟩)
  cases r with
  | vrp p m asn =>
    constructor
    · constructor
      · rintro ⟨e, he, hd⟩
        obtain ⟨hre, v, hv, hor⟩ := e1.2 e he
        refine ⟨v, hv, ?_⟩
        rcases hor with ⟨rfl, -⟩ | ⟨-, hi⟩
        · obtain ⟨o, h0, -⟩ := hd; cases h0
        · exact (filterDrops_iff hre hi (h.filters e he) p asn).1 hd
      · rintro ⟨v, hv, hm⟩
        obtain ⟨e, he, hre, hor⟩ := e1.1 v hv
        refine ⟨e, he, ?_⟩
        rcases hor with ⟨rfl, -⟩ | ⟨-, hi⟩
        · obtain ⟨o, h0, -⟩ := h.filters _ he; cases h0
        · exact (filterDrops_iff hre hi (h.filters e he) p asn).2 hm
    · constructor
      · rintro ⟨e, he, hd⟩
        obtain ⟨hre, v, hv, hor⟩ := e3.2 e he
        refine ⟨v, hv, ?_⟩
        rcases hor with ⟨rfl, -⟩ | ⟨-, hi⟩
        · obtain ⟨o, h0, -⟩ := hd; cases h0
        · exact (assertsVrp_iff hre hi (h.assertions e he) p m asn).1 hd
      · rintro ⟨v, hv, hm⟩
        obtain ⟨e, he, hre, hor⟩ := e3.1 v hv
        refine ⟨e, he, ?_⟩
        rcases hor with ⟨rfl, -⟩ | ⟨-, hi⟩
        · obtain ⟨o, h0, -⟩ := h.assertions _ he; cases h0
        · exact (assertsVrp_iff hre hi (h.assertions e he) p m asn).2 hm
  | brk asn ski key =>
    constructor
    · constructor
      · rintro ⟨e, he, hd⟩
        obtain ⟨hre, v, hv, hor⟩ := e2.2 e he
        refine ⟨v, hv, ?_⟩
        rcases hor with ⟨rfl, -⟩ | ⟨-, hi⟩
        · obtain ⟨o, h0, -⟩ := hd; cases h0
        · exact (keyFilterDrops_iff hre hi (h.keyFilters e he) asn ski).1 hd
      · rintro ⟨v, hv, hm⟩
        obtain ⟨e, he, hre, hor⟩ := e2.1 v hv
        refine ⟨e, he, ?_⟩
        rcases hor with ⟨rfl, rfl⟩ | ⟨-, hi⟩
        · simp [KeyFilterMatches] at hm
        · exact (keyFilterDrops_iff hre hi (h.keyFilters e he) asn ski).2 hm
    · constructor
      · rintro ⟨e, he, hd⟩
        obtain ⟨hre, v, hv, hor⟩ := e4.2 e he
        refine ⟨v, hv, ?_⟩
        rcases hor with ⟨rfl, -⟩ | ⟨-, hi⟩
        · obtain ⟨o, h0, -⟩ := hd; cases h0
        · exact (assertsKey_iff hre hi (h.keyAssertions e he) asn ski key).1 hd
      · rintro ⟨v, hv, hm⟩
        obtain ⟨e, he, hre, hor⟩ := e4.1 v hv
        refine ⟨e, he, ?_⟩
        rcases hor with ⟨rfl, -⟩ | ⟨-, hi⟩
        · obtain ⟨o, h0, -⟩ := h.keyAssertions _ he; cases h0
        · exact (assertsKey_iff hre hi (h.keyAssertions e he) asn ski key).2 hm

theorem cache_texts (wide : WideFloat) {sort : Sorter} (hs : sort.Ok) (now : Int) {b : Bytes} {s : Str} (hb : Repaired b s) {l : RPKIList} (h : GoodCache s l) (hl : decodeFile b = some l) (r : Rec) :
    FileWants wide now none l r ↔ FileStates now s r := by
  unfold FileWants withExceptions
  simp only
  rw [← records_sds wide hs]
  unfold records Processed.sds
  rw [List.map_append, List.mem_append, List.map_map, List.map_map, List.mem_map, List.mem_map]
  cases r with
  | vrp p m a =>
    show _ ↔ ∃ e, Entry s "roas" e ∧ StatesVrp now e (p, m, a)
    rw [← C106_vrps_partial wide hs now b s hb h.plain h.range l hl (l.keys.getD []), List.mem_map]
    simp [SD.record]
  | brk a ski key =>
    show _ ↔ ∃ e, Entry s "bgpsec_keys" e ∧ StatesKey now e (a, ski, key)
    rw [← C106_keys_partial wide sort now b s hb h.plain h.keys l hl (l.roas.getD []), List.mem_map]
    simp [SD.record]

theorem cache_loads {b : Bytes} {s : Str} (hb : Repaired b s) {l : RPKIList} (h : GoodCache s l) : decodeFile b = some l ∧ l.roas ≠ none := by
  obtain ⟨j, hf, hj⟩ := h.first
  obtain ⟨o, rfl, h1, h2, h3⟩ := hj
  refine ⟨(C105_exact_partial b s hb h.plain l).2 ⟨_, hf, .inr ⟨by simp, o, rfl, h1, h2, h3⟩⟩, ?_⟩
  obtain ⟨o', es, hf', hm⟩ := h.roas
  have := C103_unambiguous s _ _ (by simp) (by simp) hf hf'
  cases this
  rcases field_member (h.plain _ hf).1 h2 hm with ⟨h0, -⟩ | ⟨-, es', xs, -, h0, -⟩
  · cases h0
  · rw [h0]; simp

/-- The texts of the files. -/
def Spec.Texts (b : Bytes) (x : Option Bytes) (s : Str) (y : Option Str) (l : RPKIList) : Prop :=
  Repaired b s ∧ GoodCache s l ∧ match x, y with
    | none, none => True
    | some x, some y => Repaired x y ∧ GoodSlurm y
    | _, _ => False

/-- What the SLURM file, if there is one, becomes. -/
def slurmLoads (dec : Bytes → Option Slurm) (x : Option Bytes) (sl : Option Slurm) : Prop :=
  match x with
  | none => sl = none
  | some x => sl ≠ none ∧ dec x = sl

theorem texts_want {wide : WideFloat} {sort : Sorter} (hs : sort.Ok) (now : Int) {b : Bytes} {x : Option Bytes} {s : Str} {y : Option Str} {l : RPKIList} (h : Texts b x s y l) :
    decodeFile b = some l ∧ l.roas ≠ none ∧ ∃ sl, slurmLoads decodeSlurmFile x sl ∧ ∀ r, FileWants wide now sl l r ↔ TextWants now s y r := by
  obtain ⟨hb, hg, hxy⟩ := h
  obtain ⟨hl, hro⟩ := cache_loads hb hg
  refine ⟨hl, hro, ?_⟩
  rcases x with - | x <;> rcases y with - | y
  · exact ⟨none, rfl, cache_texts wide hs now hb hg hl⟩
  · cases hxy
  · cases hxy
  · obtain ⟨hx, hy⟩ := hxy
    obtain ⟨j, sl, hf, hj⟩ := hy.first
    have hne : j ≠ .null := by
      rintro rfl
      obtain ⟨o, f, a, h0, -⟩ := hj
      cases h0
    have hd : decodeSlurmFile x = some sl := (C107_exact_partial x y hx hy.plain sl).2 ⟨j, hf, .inr ⟨hne, hj⟩⟩
    refine ⟨some sl, ⟨by simp, hd⟩, fun r => ?_⟩
    obtain ⟨h1, h2⟩ := slurm_texts hy hf hj r
    rw [C115_exceptions]
    have h0 := cache_texts wide hs now hb hg hl r
    unfold TextWants
    simp only
    rw [← h0, h1, h2]
    cases r with
    | vrp p m a => simp
    | brk a ski key => simp

theorem newFiles_load {e : Env} {s : UState} {f : Fetched} {b : Bytes} {x : Option Bytes} (h : NewFiles e s f b x) {l : RPKIList} (hl : e.decode b = some l) {sl : Option Slurm}
    (hsl : slurmLoads e.decodeSlurm x sl) (t : Times) :
    (fetchBoth e t f s).2 = true ∧ (fetchBoth e t f s).1.lastdata = l ∧ (fetchBoth e t f s).1.slurm = sl := by
  obtain ⟨hc, hn, hno, hs⟩ := h
  unfold slurmLoads at hsl
  cases x with
  | none =>
    simp only at hsl
    obtain ⟨h1, h2⟩ := hno rfl
    unfold afterSlurm at hc
    unfold fetchBoth
    rw [h1] at hc ⊢
    simp only at hc ⊢
    rw [updateFile_eq]
    simp [hc, hn, hl, h2, hsl]
  | some x =>
    simp only at hsl
    obtain ⟨hne, hd⟩ := hsl
    obtain ⟨file, o, h1, h2, h3⟩ := hs x rfl
    unfold afterSlurm at hc
    unfold fetchBoth
    rw [h1] at hc ⊢
    simp only at hc ⊢
    rw [updateFile_eq, updateSlurm_eq]
    cases sl with
    | none => exact absurd rfl hne
    | some sl => simp [h2, h3, hd, hc, hn, hl]

/-- **C115** (partial: of files without repeated names, with ordinary numbers (`OrdinaryNumbers`) and AS numbers that are integers in range; filters and assertions that give their fields and prefixes that can be read; and files that are new). After the first load, and after
every refresh, exactly what the texts of the two files ask for is served. -/
theorem C115_served_partial (e : Env) (hs : e.sort.Ok) (hd : e.decode = decodeFile) (hd' : e.decodeSlurm = decodeSlurmFile) (t : Times) (f : Fetched) {s s' : UState} (h : Reached e s) (hs' : s' = startup e t f s ∨ s' = refresh e t f s)
    {b : Bytes} {x : Option Bytes} (hn : NewFiles e s f b x) {tb : Str} {tx : Option Str} {l : RPKIList} (ht : Texts b x tb tx l) (hfresh : e.checktime = true → Fresh e l t.check) (r : Rec) :
    Served s' r ↔ TextWants (seconds t.proc) tb tx r := by
  obtain ⟨hl, hro, sl, hsl, hw⟩ := texts_want (wide := e.wide) hs (seconds t.proc) ht
  obtain ⟨h1, h2, h3⟩ := newFiles_load hn (by rw [hd]; exact hl) (sl := sl) (by rw [hd']; exact hsl) t
  rw [← hw]
  have k1 : (startup e t f s).lastdata = l ∧ (startup e t f s).slurm = sl := by
    unfold startup
    simp only
    rw [(startup_keeps ..).1, (startup_keeps ..).2.1]
    exact ⟨h2, h3⟩
  have k2 : (refresh e t f s).lastdata = l ∧ (refresh e t f s).slurm = sl := by
    unfold refresh
    simp only
    rw [(afterFetch_keeps ..).1, (afterFetch_keeps ..).2.1]
    exact ⟨h2, h3⟩
  rcases hs' with rfl | rfl
  · rw [C53_start_partial e hs t f h (by rw [k1.1]; exact hro) (by rw [k1.1]; exact hfresh) r, k1.1, k1.2]
  · rw [C53_served_partial e hs t f h h1 (by rw [k2.1]; exact hro) (by rw [k2.1]; exact hfresh) r, k2.1, k2.2]

/-! ## Checking the hypotheses of concrete files -/

/-- The members of that name, up to case. -/
def given (o : List (Str × Json)) (name : String) : List Json := o.filterMap fun m => if foldName m.1 = foldName name.toList then some m.2 else none

theorem mem_given {o : List (Str × Json)} {name : String} {j : Json} (h : Member o name j) : j ∈ given o name := by
  obtain ⟨n, hn, hs⟩ := h
  exact List.mem_filterMap.2 ⟨_, hn, by simp [spells_fold hs]⟩

/-- Is there a member of exactly that name? -/
def has (o : List (Str × Json)) (name : String) (p : Json → Bool) : Bool := o.any fun m => decide (m.1 = name.toList) && p m.2

theorem member_of_has {o : List (Str × Json)} {name : String} {p : Json → Bool} (h : has o name p = true) : ∃ j, Member o name j ∧ p j = true := by
  obtain ⟨m, hm, h⟩ := List.any_eq_true.1 h
  simp only [Bool.and_eq_true, decide_eq_true_eq] at h
  exact ⟨m.2, ⟨m.1, hm, by rw [h.1]; exact spells_self name⟩, h.2⟩

/-- The elements of an array. -/
def elems : Json → List Json
  | .arr es => es
  | _ => []

/-- The members of an object. -/
def members : Json → List (Str × Json)
  | .obj o => o
  | _ => []

/-- Is it a string? -/
def isStr : Json → Bool
  | .str _ => true
  | _ => false

/-- Is it a number? -/
def isNum : Json → Bool
  | .num _ => true
  | _ => false

/-- Is it an object that satisfies `p`? -/
def isObj (p : List (Str × Json) → Bool) : Json → Bool
  | .obj o => p o
  | _ => false

theorem isObj_of {p : List (Str × Json) → Bool} {e : Json} (h : isObj p e = true) : ∃ o, e = .obj o ∧ p o = true := by
  cases e with
  | obj o => exact ⟨o, rfl, h⟩
  | _ => cases h

/-- Are all three fields given? -/
def fieldsGiven (names : List String) (o : List (Str × Json)) : Bool := names.all fun n => has o n fun | .null => false | _ => true

theorem fieldsGiven_ok {names : List String} {o : List (Str × Json)} (h : fieldsGiven names o = true) : ∀ name ∈ names, ∃ j, Member o name j ∧ j ≠ .null := by
  intro name hn
  obtain ⟨j, hm, hj⟩ := member_of_has (List.all_eq_true.1 h name hn)
  refine ⟨j, hm, ?_⟩
  rintro rfl
  cases hj

/-- A text that meets the hypotheses for cache files, but for being one. -/
def goodCache (s : Str) : Bool :=
  match readJson s with
  | some (.obj o) => plainJson (.obj o) && has o "roas" (fun | .arr _ => true | _ => false) &&
      ((given o "roas").flatMap elems).all (fun e => (given (members e) "asn").all fun | .num lit => (match litInt lit with | some x => decide (0 ≤ x) && decide (x < 2 ^ 32) | none => false) | _ => true) &&
      ((given o "bgpsec_keys").flatMap elems).all (isObj (fieldsGiven ["asn", "ski", "pubkey"]))
  | _ => false

theorem goodCache_ok {s : Str} {l : RPKIList} (h : goodCache s = true) (hl : decodeFile (utf8Str s) = some l) : GoodCache s l := by
  unfold goodCache at h
  split at h
  · rename_i o ho
    simp only [Bool.and_eq_true] at h
    obtain ⟨⟨⟨h1, h2⟩, h3⟩, h4⟩ := h
    have hf := readJson_first ho
    have hplain : ∀ j, FirstValue s j → NoRepeats j ∧ OrdinaryNumbers j := fun j hj => by rw [firstValue_obj hf hj]; exact plainJson_ok h1
    have hentry : ∀ name e, Entry s name e → e ∈ (given o name).flatMap elems := by
      rintro name e ⟨o', es, hf', hm, he⟩
      have := firstValue_obj hf hf'
      cases this
      exact List.mem_flatMap.2 ⟨_, mem_given hm, he⟩
    refine ⟨?_, hplain, ?_, ?_, ?_⟩
    · obtain ⟨j, hj, hor⟩ := (C105_exact_partial _ s (utf8_str s).repaired hplain l).1 hl
      refine ⟨j, hj, ?_⟩
      rcases hor with ⟨rfl, -⟩ | ⟨-, hor⟩
      · have := firstValue_obj hf hj
        cases this
      · exact hor
    · obtain ⟨j, hm, hj⟩ := member_of_has h2
      cases j with
      | arr es => exact ⟨o, es, hf, hm⟩
      | _ => cases hj
    · intro o' lit he hm
      have := List.all_eq_true.1 (List.all_eq_true.1 h3 _ (hentry _ _ he)) _ (mem_given hm)
      simp only at this
      split at this
      · rename_i x hx
        simp only [Bool.and_eq_true, decide_eq_true_eq] at this
        exact ⟨x, (litInt_iff lit x).1 hx, this.1, this.2⟩
      · cases this
    · intro e he
      obtain ⟨o', rfl, h⟩ := isObj_of (List.all_eq_true.1 h4 _ (hentry _ _ he))
      exact ⟨o', rfl, fieldsGiven_ok h⟩
  · cases h

/-- A text that meets the hypotheses for SLURM files, but for being one. -/
def goodSlurm (s : Str) : Bool :=
  match readJson s with
  | some (.obj o) =>
    let entries (outer inner : String) := (((given o outer).map members).flatMap fun o' => given o' inner).flatMap elems
    plainJson (.obj o) &&
    (entries "validationOutputFilters" "prefixFilters").all (isObj fun o' => (has o' "prefix" isStr || has o' "asn" isNum) && (given o' "prefix").all fun | .str t => (parsePrefix t).isSome | _ => true) &&
    (entries "validationOutputFilters" "bgpsecFilters").all (fun e => (given (members e) "SKI").all fun j => decide ((decBytes ([], []) j).map Prod.fst ≠ some [])) &&
    (entries "locallyAddedAssertions" "prefixAssertions").all (isObj fun o' => has o' "asn" isNum && (given o' "prefix").all fun | .str t => (match parsePrefix t with
      | none => true
      | some p => (given o' "maxPrefixLength").all fun | .num lit => (match litInt lit with | some x => decide (p.bits ≤ x) && decide (x ≤ p.ip.bitLen) | none => true) | _ => true) | _ => true) &&
    (entries "locallyAddedAssertions" "bgpsecAssertions").all (isObj (fieldsGiven ["asn", "SKI", "routerPublicKey"]))
  | _ => false

theorem goodSlurm_ok {s : Str} (h : goodSlurm s = true) (hl : (decodeSlurmFile (utf8Str s)).isSome = true) : GoodSlurm s := by
  unfold goodSlurm at h
  split at h
  · rename_i o ho
    simp only [Bool.and_eq_true] at h
    obtain ⟨⟨⟨⟨h1, h2⟩, h3⟩, h4⟩, h5⟩ := h
    have hf := readJson_first ho
    have hplain : ∀ j, FirstValue s j → NoRepeats j := fun j hj => by rw [firstValue_obj hf hj]; exact (plainJson_ok h1).1
    have hentry : ∀ outer inner e, SlurmEntry s outer inner e → e ∈ (((given o outer).map members).flatMap fun o' => given o' inner).flatMap elems := by
      rintro outer inner e ⟨o1, o', es, hf', hm, hm', he⟩
      have := firstValue_obj hf hf'
      cases this
      exact List.mem_flatMap.2 ⟨_, List.mem_flatMap.2 ⟨_, List.mem_map.2 ⟨_, mem_given hm, rfl⟩, mem_given hm'⟩, he⟩
    have hnum : ∀ {o' : List (Str × Json)} {name : String}, has o' name isNum = true → ∃ lit, Member o' name (.num lit) := by
      intro o' name h
      obtain ⟨j, hm, hj⟩ := member_of_has h
      cases j with
      | num lit => exact ⟨lit, hm⟩
      | _ => cases hj
    refine ⟨?_, hplain, ?_, ?_, ?_, ?_⟩
    · obtain ⟨x, hx⟩ := Option.isSome_iff_exists.1 hl
      obtain ⟨j, hj, hor⟩ := (C107_exact_partial _ s (utf8_str s).repaired hplain x).1 hx
      refine ⟨j, x, hj, ?_⟩
      rcases hor with ⟨rfl, -⟩ | ⟨-, hor⟩
      · have := firstValue_obj hf hj
        cases this
      · exact hor
    · intro e he
      obtain ⟨o', rfl, h⟩ := isObj_of (List.all_eq_true.1 h2 _ (hentry _ _ _ he))
      simp only [Bool.and_eq_true, Bool.or_eq_true] at h
      refine ⟨o', rfl, ?_, fun t ht => ?_⟩
      · rcases h.1 with h | h
        · obtain ⟨j, hm, hj⟩ := member_of_has h
          cases j with
          | str t => exact .inl ⟨t, hm⟩
          | _ => cases hj
        · exact .inr (hnum h)
      · have := List.all_eq_true.1 h.2 _ (mem_given ht)
        obtain ⟨p, hp⟩ := Option.isSome_iff_exists.1 this
        exact ⟨p, (prefixText_iff ..).1 hp⟩
    · rintro e he o' j rfl hm hb
      have := List.all_eq_true.1 (List.all_eq_true.1 h3 _ (hentry _ _ _ he)) _ (mem_given hm)
      refine absurd ((decBytes_iff j []).2 (.inr ⟨?_, hb⟩)) (of_decide_eq_true this)
      rintro rfl
      rcases hb with ⟨s, h, -⟩ | ⟨l, h, -⟩ <;> cases h
    · intro e he
      obtain ⟨o', rfl, h⟩ := isObj_of (List.all_eq_true.1 h4 _ (hentry _ _ _ he))
      simp only [Bool.and_eq_true] at h
      refine ⟨o', rfl, hnum h.1, fun t p lit x ht hp hl hi => ?_⟩
      have := List.all_eq_true.1 h.2 _ (mem_given ht)
      simp only [(prefixText_iff ..).2 hp] at this
      have := List.all_eq_true.1 this _ (mem_given hl)
      simp only [(litInt_iff ..).2 hi, Bool.and_eq_true, decide_eq_true_eq] at this
      exact this
    · intro e he
      obtain ⟨o', rfl, h⟩ := isObj_of (List.all_eq_true.1 h5 _ (hentry _ _ _ he))
      exact ⟨o', rfl, fieldsGiven_ok h⟩
  · cases h

/-- A cache file with three VRPs and a router key. -/
def exWholeCache : Str :=
  (["{\"metadata\":{\"buildtime\":\"1970-01-01T00:", "00:00Z\"},\"roas\":[{\"prefix\":\"10.0.0.0/8\",", "\"maxLength\":9,\"asn\":\"AS1\"},{\"prefix\":\"10", ".1.0.0/16\",\"maxLength\":16,\"asn\":2},{\"pre", "fix\":\"192.0.2.0/24\",\"maxLength\":24,\"asn\"", ":2}],", "\"bgpsec_keys\":[{\"asn\":1,\"ski\":\"000102030", "405060708090a0b0c0d0e0f10111213\",\"pubkey", "\":\"AAECAw==\"}]}"].flatMap String.toList)

/-- A SLURM file that takes out what is in 10.0.0.0/8, and adds a VRP. -/
def exWholeSlurm : Str :=
  (["{\"slurmVersion\":1,\"validationOutputFilte", "rs\":{\"prefixFilters\":[{\"prefix\":\"10.0.0.", "0/8\"}],\"bgpsecFilters\":[{\"asn\":7}]},", "\"locallyAddedAssertions\":{\"prefixAsserti", "ons\":[{\"asn\":3,\"prefix\":\"198.51.100.0/24", "\"}],\"bgpsecAssertions\":[]}}"].flatMap String.toList)

/-- Both are fetched. -/
def exWholeFetch : Fetched := ⟨exFile, .file (some (utf8Str exWholeCache)), some ("slurm.json".toList, .file (some (utf8Str exWholeSlurm)))⟩

/-- An environment that reads both. -/
def exWholeEnv : Env := { exJson true with decodeSlurm := decodeSlurmFile }

theorem exWhole_texts : ∃ l, Texts (utf8Str exWholeCache) (some (utf8Str exWholeSlurm)) exWholeCache (some exWholeSlurm) l ∧ l.metadata = ⟨0, exEpoch, none⟩ := by
  have h1 : (decodeFile (utf8Str exWholeCache)).map RPKIList.metadata = some ⟨0, exEpoch, none⟩ := by decide +kernel
  obtain ⟨l, hl, hm⟩ := Option.map_eq_some_iff.1 h1
  exact ⟨l, ⟨(utf8_str _).repaired, goodCache_ok (by decide +kernel) hl, (utf8_str _).repaired, goodSlurm_ok (by decide +kernel) (by decide +kernel)⟩, hm⟩

theorem exWhole_new : NewFiles exWholeEnv exInit exWholeFetch (utf8Str exWholeCache) (some (utf8Str exWholeSlurm)) :=
  ⟨by decide +kernel, by simp [exInit, UState.init], fun h => absurd h (Option.some_ne_none _), fun y h => ⟨_, _, rfl, by rw [← Option.some.inj h]; decide +kernel, by simp [exInit, UState.init]⟩⟩

/-- What is then served. -/
def exWholeRecs : List Rec := [.vrp ⟨.v4 0xc0000200, 25⟩ 24 2, .vrp ⟨.v4 0xc6336400, 25⟩ 24 3, .brk 1 [0, 1, 2, 3, 4, 5, 6, 7, 8, 9, 10, 11, 12, 13, 14, 15, 16, 17, 18, 19] [0, 1, 2, 3]]

theorem exWhole_recs : records (startup exWholeEnv (exAt 0) exWholeFetch exInit).store.current = exWholeRecs := by decide +kernel

/-- The hypotheses hold of these files and a starting server; this is served. -/
example : (∃ l, Texts (utf8Str exWholeCache) (some (utf8Str exWholeSlurm)) exWholeCache (some exWholeSlurm) l ∧ Fresh exWholeEnv l (exAt 0).check) ∧ exWholeEnv.sort.Ok ∧ exWholeEnv.decode = decodeFile ∧ exWholeEnv.decodeSlurm = decodeSlurmFile ∧
    Reached exWholeEnv exInit ∧ NewFiles exWholeEnv exInit exWholeFetch (utf8Str exWholeCache) (some (utf8Str exWholeSlurm)) ∧
    records (startup exWholeEnv (exAt 0) exWholeFetch exInit).store.current = exWholeRecs := by
  refine ⟨?_, insertionSorter_ok, rfl, rfl, .init true true, exWhole_new, exWhole_recs⟩
  obtain ⟨l, hl, hm⟩ := exWhole_texts
  exact ⟨l, hl, 0, .text 0 (by rw [hm]) (by rw [hm]; decide +kernel), by decide⟩

/-! ## The router -/

theorem receive_flagged {p : Pdu} (h : pduFlag p = some 1) (r : Router) : r.receive p = { r with coming := r.coming.map (Router.note p) } := by
  cases p <;> first | rfl | cases h

theorem mem_notes {data : List Pdu} (h : ∀ p ∈ data, pduFlag p = some 1) (l : List Rec) (x : Rec) : x ∈ data.foldl (fun l p => Router.note p l) l ↔ x ∈ l ∨ x ∈ data.filterMap pduRecord := by
  induction data generalizing l with
  | nil => simp
  | cons p data ih =>
    rw [List.foldl_cons, ih (fun q hq => h q (List.mem_cons_of_mem _ hq))]
    have hp := h p List.mem_cons_self
    cases hr : pduRecord p with
    | none => cases p <;> first | cases hp; done | cases hr
    | some y =>
      rw [List.filterMap_cons_some hr]
      unfold Router.note
      rw [hr, hp]
      simp only [if_true, List.mem_cons, List.mem_filter, decide_eq_true_eq]
      by_cases hxy : x = y
      · simp [hxy]
      · simp [hxy]

/-- **C115.** A router that starts over sends a Reset Query on any open connection, at any time of the running server: the bytes it gets are PDUs after which it holds exactly the records served (of those the version carries), under the
session and serial number of the server. Missing: nothing served (it is told so), router keys that fit no PDU, and changes in the middle of the answer (C28). -/
theorem C115_router_partial {e : Env} (hs : e.sort.Ok) {s : UState} (h : Reached e s) (hne : ∃ r, Served s r)
    (henc : ∀ a ski key, Served s (.brk a ski key) → ski.length = 20 ∧ 4 ≤ key.length ∧ 32 + key.length ≤ 262168)
    {cfg : ServerConfig} {sid : U16} {c : Client} (hc : Conn (newServer cfg sid) c) (hup : c.connected = true) {v : U8} (ha : Acceptable c v) (r : Router) (hsy : r.synced = none) :
    ∃ (c' : Client) (eff : List Effect) (bs : List Bytes) (ps : List Pdu), (newServer cfg sid).processRead s.store s.store c (Contact.packet (r.query v)) = .ok (c', eff) ∧ (sent eff).map Pdu.encode = bs.map GoRes.ok ∧ Stream bs.flatten ps ∧
      (ps.foldl Router.receive r).synced = some (sessionOf sid (lower v cfg.protocolVersion), s.store.serial) ∧ (ps.foldl Router.receive r).coming = none ∧
      ∀ x, x ∈ (ps.foldl Router.receive r).held ↔ Served s x ∧ wanted (lower v cfg.protocolVersion) (!c.dontSendBGPsecKeys) x = true := by
  have hq : r.query v = .resetQuery v := by unfold Router.query; rw [hsy]
  have hcur : s.store.current ≠ [] := by
    rintro h0
    obtain ⟨r, hr⟩ := hne
    unfold Served records at hr
    rw [h0] at hr
    cases hr
  have hE : ∀ x ∈ s.store.current, Encodable x := by
    intro x hx
    cases x with
    | vrp _ => trivial
    | brk k => exact henc k.asn k.ski k.pubkey (List.mem_map.2 ⟨_, hx, rfl⟩)
  obtain ⟨c', eff, bs, data, refresh, retry, expire, h1, h2, h3, h4, -, h6, h7⟩ := reset_stream hc hup (pkt := Contact.packet (r.query v)) (v := v) ((query_packet v r).trans (by rw [hq])) ha (h.ok hs) hcur hE
  refine ⟨c', eff, bs, _, h1, h2, h3, ?_⟩
  rw [List.cons_append, List.foldl_cons, List.foldl_append, receive_list data (fun p hp r => receive_flagged (h6 p hp) r) (r.receive (.cacheResponse c'.version (sessionOf sid c'.version))) [] (by
    show some _ = _
    rw [hsy]; rfl)]
  refine ⟨by rw [← h7]; rfl, rfl, fun x => ?_⟩
  show x ∈ data.foldl (fun l p => Router.note p l) [] ↔ _
  rw [mem_notes h6, h4, ← h7]
  simp only [List.not_mem_nil, false_or]
  unfold Served records
  rw [List.mem_map, List.mem_map]
  constructor
  · rintro ⟨y, hy, rfl⟩
    obtain ⟨hy, hcar⟩ := List.mem_filter.1 hy
    refine ⟨⟨y, hy, rfl⟩, ?_⟩
    cases y <;> exact hcar
  · rintro ⟨⟨y, hy, rfl⟩, hw⟩
    refine ⟨y, List.mem_filter.2 ⟨hy, ?_⟩, rfl⟩
    cases y <;> exact hw

/-- **C115** (partial: as above). From the files to the router: a router that asks after the files are loaded holds exactly the records that the texts of the files ask for. -/
theorem C115_files_to_router_partial (e : Env) (hs : e.sort.Ok) (hd : e.decode = decodeFile) (hd' : e.decodeSlurm = decodeSlurmFile) (t : Times) (f : Fetched) {s s' : UState} (h : Reached e s) (hs' : s' = startup e t f s ∨ s' = refresh e t f s)
    {b : Bytes} {x : Option Bytes} (hn : NewFiles e s f b x) {tb : Str} {tx : Option Str} {l : RPKIList} (ht : Texts b x tb tx l) (hfresh : e.checktime = true → Fresh e l t.check)
    (hne : ∃ r, TextWants (seconds t.proc) tb tx r) (henc : ∀ a ski key, TextWants (seconds t.proc) tb tx (.brk a ski key) → ski.length = 20 ∧ 4 ≤ key.length ∧ 32 + key.length ≤ 262168)
    {cfg : ServerConfig} {sid : U16} {c : Client} (hc : Conn (newServer cfg sid) c) (hup : c.connected = true) {v : U8} (ha : Acceptable c v) (r : Router) (hsy : r.synced = none) :
    ∃ (c' : Client) (eff : List Effect) (bs : List Bytes) (ps : List Pdu), (newServer cfg sid).processRead s'.store s'.store c (Contact.packet (r.query v)) = .ok (c', eff) ∧ (sent eff).map Pdu.encode = bs.map GoRes.ok ∧ Stream bs.flatten ps ∧
      ∀ x, x ∈ (ps.foldl Router.receive r).held ↔ TextWants (seconds t.proc) tb tx x ∧ wanted (lower v cfg.protocolVersion) (!c.dontSendBGPsecKeys) x = true := by
  have key := C115_served_partial e hs hd hd' t f h hs' hn ht hfresh
  have hr' : Reached e s' := by
    rcases hs' with rfl | rfl
    · exact .startup s t f h
    · exact .refresh s t f h
  obtain ⟨c', eff, bs, ps, h1, h2, h3, -, -, h4⟩ := C115_router_partial hs hr' (by obtain ⟨r, hr⟩ := hne; exact ⟨r, (key r).2 hr⟩) (fun a ski k hk => henc a ski k ((key _).1 hk)) hc hup ha r hsy
  exact ⟨c', eff, bs, ps, h1, h2, h3, fun x => by rw [h4, key]⟩

/-- The hypotheses on the records hold for the example, so a new router gets them: over version 0 without the key. -/
example : (∃ r, TextWants (seconds (exAt 0).proc) exWholeCache (some exWholeSlurm) r) ∧
    (∀ a ski key, TextWants (seconds (exAt 0).proc) exWholeCache (some exWholeSlurm) (.brk a ski key) → ski.length = 20 ∧ 4 ≤ key.length ∧ 32 + key.length ≤ 262168) ∧
    Conn (newServer exCfg 7) exFresh ∧ exFresh.connected = true ∧ Acceptable exFresh 0 ∧ Router.new.synced = none ∧
    TextWants (seconds (exAt 0).proc) exWholeCache (some exWholeSlurm) (.vrp ⟨.v4 0xc6336400, 25⟩ 24 3) ∧ ¬ TextWants (seconds (exAt 0).proc) exWholeCache (some exWholeSlurm) (.vrp ⟨.v4 0x0a000000, 9⟩ 9 1) := by
  obtain ⟨l, hl, hm⟩ := exWhole_texts
  have key := C115_served_partial exWholeEnv insertionSorter_ok rfl rfl (exAt 0) exWholeFetch (s := exInit) (.init true true) (.inl rfl) exWhole_new hl (fun _ => ⟨0, .text 0 (by rw [hm]) (by rw [hm]; decide +kernel), by decide⟩)
  have key' : ∀ r, TextWants (seconds (exAt 0).proc) exWholeCache (some exWholeSlurm) r ↔ r ∈ exWholeRecs := by
    intro r
    rw [← key, ← exWhole_recs]
    unfold Served
    exact Iff.rfl
  refine ⟨⟨_, (key' _).2 List.mem_cons_self⟩, fun a ski k h => ?_, exFresh_conn, rfl, by decide, rfl, (key' _).2 (by decide), fun h => ?_⟩
  · have := (key' _).1 h
    simp only [exWholeRecs, List.mem_cons, reduceCtorEq, Rec.brk.injEq, List.not_mem_nil, or_false, false_or] at this
    obtain ⟨rfl, rfl, rfl⟩ := this
    decide
  · have := (key' _).1 h
    revert this
    decide

end StayRTR
