import Verif.Model.Slurm
import Verif.Spec.Slurm
import Verif.Proofs.Text
import Mathlib.Tactic.ByContra
import Mathlib.Data.List.Induction

/-! Facts about the parsers and about prefixes as bit strings. -/

namespace StayRTR
open Spec

/-! ## Bits -/

theorem testBit_toNat {w : Nat} (a : BitVec w) (i : Nat) : a.toNat.testBit i = a.getLsbD i := rfl

/-- Agreement of the top `n` bits, as quotients and as bits. -/
theorem top_bits {w : Nat} (a b : BitVec w) (n : Nat) (hn : n ≤ w) :
    a.toNat / 2 ^ (w - n) = b.toNat / 2 ^ (w - n) ↔ ∀ i, i < n → a.getMsbD i = b.getMsbD i := by
  constructor
  · intro h i hi
    have := congrArg (fun x => x.testBit (n - 1 - i)) h
    simp only [Nat.testBit_div_two_pow, testBit_toNat] at this
    have he : n - 1 - i + (w - n) = w - 1 - i := by omega
    rw [he] at this
    simp only [BitVec.getMsbD, this]
  · intro h
    apply Nat.eq_of_testBit_eq
    intro j
    simp only [Nat.testBit_div_two_pow, testBit_toNat]
    by_cases hj : j < n
    · have := h (n - 1 - j) (by omega)
      simp only [BitVec.getMsbD] at this
      have h1 : n - 1 - j < w := by omega
      have h2 : w - 1 - (n - 1 - j) = j + (w - n) := by omega
      simpa [h1, h2] using this
    · rw [BitVec.getLsbD_of_ge _ _ (by omega), BitVec.getLsbD_of_ge _ _ (by omega)]

/-- `Overlaps` and the comparison of the lengths are exactly "covers", for valid prefixes. -/
theorem overlaps_covers {p q : Prefix} (hp : p.WF) (hq : q.WF) (vp : p.isValid = true) (vq : q.isValid = true) :
    (p.overlaps q && decide (p.bits ≤ q.bits)) = true ↔ Covers p q := by
  obtain ⟨pa, pn⟩ := p
  obtain ⟨qa, qn⟩ := q
  simp only [Prefix.isValid, bne_iff_ne, ne_eq] at vp vq
  have hp' : pa ≠ .zero ∧ pn ≤ pa.bitLen + 1 := by rcases hp with h | h; exacts [absurd h vp, h]
  have hq' : qa ≠ .zero ∧ qn ≤ qa.bitLen + 1 := by rcases hq with h | h; exacts [absurd h vq, h]
  have key : ∀ {w : Nat} (a b : BitVec w), pn ≤ w + 1 →
      pn ≤ qn → ((a.toNat / 2 ^ (w - min (pn - 1) (qn - 1)) = b.toNat / 2 ^ (w - min (pn - 1) (qn - 1))) ↔
        ∀ i, i + 1 < pn → a.getMsbD i = b.getMsbD i) := by
    intro w a b h1 h2
    have : min (pn - 1) (qn - 1) = pn - 1 := by omega
    rw [this, top_bits a b (pn - 1) (by omega)]
    exact ⟨fun h i hi => h i (by omega), fun h i hi => h i (by omega)⟩
  rw [Bool.and_eq_true, decide_eq_true_eq]
  simp only [Prefix.overlaps, Prefix.isValid, Prefix.bits, Prefix.sameTop, Bool.and_eq_true, bne_iff_ne, ne_eq, vp, vq, not_false_eq_true,
    true_and, Bool.or_eq_true, beq_iff_eq, Prefix.mk.injEq, decide_eq_true_eq]
  have hle : ((pn : Int) - 1 ≤ (qn : Int) - 1) ↔ pn ≤ qn := by omega
  rw [hle]
  cases pa with
  | zero => exact absurd rfl hp'.1
  | v4 a =>
    cases qa with
    | zero => exact absurd rfl hq'.1
    | v4 b =>
      simp only [Covers, Addr.bitLen, Addr.value, true_and, Addr.v4.injEq] at *
      constructor
      · rintro ⟨h | h, hl⟩
        · obtain ⟨rfl, rfl⟩ := h; exact ⟨hl, fun _ _ => rfl⟩
        · exact ⟨hl, (key a b hp'.2 hl).mp h⟩
      · rintro ⟨hl, h⟩; exact ⟨.inr ((key a b hp'.2 hl).mpr h), hl⟩
    | v6 b => simp [Covers, Addr.bitLen]
  | v6 a =>
    cases qa with
    | zero => exact absurd rfl hq'.1
    | v4 b => simp [Covers, Addr.bitLen]
    | v6 b =>
      simp only [Covers, Addr.bitLen, Addr.value, true_and, Addr.v6.injEq] at *
      constructor
      · rintro ⟨h | h, hl⟩
        · obtain ⟨rfl, rfl⟩ := h; exact ⟨hl, fun _ _ => rfl⟩
        · exact ⟨hl, (key a b hp'.2 hl).mp h⟩
      · rintro ⟨hl, h⟩; exact ⟨.inr ((key a b hp'.2 hl).mpr h), hl⟩

/-! ## Parsers -/

theorem parseAddr_ne_zero {s : Str} {a : Addr} (h : parseAddr s = some a) : a ≠ .zero := by
  unfold parseAddr at h
  split at h
  · simp only [Option.map_eq_some_iff] at h; obtain ⟨_, _, rfl⟩ := h; simp
  · simp only [Option.map_eq_some_iff] at h; obtain ⟨_, _, rfl⟩ := h; simp
  · simp at h

/-- What `ParsePrefix` returns is a valid prefix. -/
theorem parsePrefix_valid {s : Str} {p : Prefix} (h : parsePrefix s = some p) : p.WF ∧ p.isValid = true := by
  unfold parsePrefix at h
  split at h
  · simp at h
  · split at h
    · simp at h
    · rename_i ip hip
      split at h
      · simp at h
      · split at h
        · simp at h
        · split at h
          · rename_i hn
            simp only [Option.some.injEq] at h
            subst h
            have hz := parseAddr_ne_zero hip
            simp only [Prefix.from', hz, ne_eq, not_false_eq_true, hn, and_self, if_true, Prefix.WF, Prefix.isValid]
            refine ⟨.inr ⟨trivial, by omega⟩, by simp⟩
          · simp at h

theorem getPrefix2_eq (v : VRPJson) : v.getPrefix2 = parsePrefix v.pfx := by
  unfold VRPJson.getPrefix2
  cases h : parsePrefix v.pfx with
  | none => rfl
  | some p => simp [(parsePrefix_valid h).2]

/-- Digits only. -/
theorem parseDec_chars {s : Str} {n : Nat} (h : parseDec s = some n) : ∀ c ∈ s, isDec c = true := by
  unfold parseDec at h
  split at h
  · rename_i hs; simpa using hs.2
  · simp at h

theorem splitOn_chars {x : Char} {P : Char → Prop} (hx : P x) : ∀ {s : Str}, (∀ f ∈ splitOn x s, ∀ c ∈ f, P c) → ∀ c ∈ s, P c := by
  intro s
  induction s with
  | nil => simp
  | cons a l ih =>
    intro h c hc
    simp only [splitOn] at h
    by_cases ha : a = x
    · simp only [ha, if_true, List.mem_cons] at h
      rcases List.mem_cons.mp hc with rfl | hc
      · rw [ha]; exact hx
      · exact ih (fun f hf => h f (.inr hf)) c hc
    · simp only [ha, if_false] at h
      cases hs : splitOn x l with
      | nil => exact absurd hs (by cases l with
          | nil => simp [splitOn]
          | cons b l => simp only [splitOn]; split; simp; split <;> simp)
      | cons f fs =>
        rw [hs] at h ih
        simp only [List.mem_cons] at h
        rcases List.mem_cons.mp hc with rfl | hc
        · exact h (c :: f) (.inl rfl) c (by simp)
        · refine ih ?_ c hc
          intro g hg d hd
          rcases List.mem_cons.mp hg with rfl | hg
          · exact h (a :: g) (.inl rfl) d (by simp [hd])
          · exact h g (.inr hg) d hd

theorem octet_chars {s : Str} {n : Nat} (h : octet s = some n) : ∀ c ∈ s, isDec c = true := by
  unfold octet at h
  split at h
  · rename_i hd; exact parseDec_chars hd
  · simp at h

theorem parseIPv4_chars {s : Str} {n : Nat} (h : parseIPv4 s = some n) : ∀ c ∈ s, c = '.' ∨ isDec c = true := by
  unfold parseIPv4 at h
  split at h
  · rename_i a b c d hl
    refine splitOn_chars (x := '.') (P := fun c => c = '.' ∨ isDec c = true) (.inl rfl) ?_
    intro f hf c hc
    have : octet f ∈ (splitOn '.' s).map octet := List.mem_map.mpr ⟨f, hf, rfl⟩
    rw [hl] at this
    simp only [List.mem_cons, List.not_mem_nil, or_false] at this
    rcases this with h | h | h | h <;> exact .inr (octet_chars h c hc)
  · simp at h

/-- Characters of an IPv6 address. -/
def V6Char (c : Char) : Prop := c = ':' ∨ c = '.' ∨ isDec c = true ∨ (hexDigit c).isSome = true

theorem v6Loop_chars : ∀ (n : Nat) (gs : List Nat) (ell : Option Nat) (s : Str) (r : List Nat × Option Nat),
    v6Loop n gs ell s = some r → ∀ c ∈ s, V6Char c := by
  intro n
  induction n with
  | zero =>
    intro gs ell s r h
    simp only [v6Loop] at h
    split at h
    · rename_i hs; simp [hs]
    · simp at h
  | succ n ih =>
    intro gs ell s r h
    have hsplit : s = s.takeWhile (fun c => (hexDigit c).isSome) ++ s.dropWhile (fun c => (hexDigit c).isSome) := (List.takeWhile_append_dropWhile ..).symm
    have hds : ∀ c ∈ s.takeWhile (fun c => (hexDigit c).isSome), V6Char c := by
      intro c hc
      exact .inr (.inr (.inr (List.all_eq_true.mp List.all_takeWhile c hc)))
    have hrest : ∀ c ∈ s.dropWhile (fun c => (hexDigit c).isSome), V6Char c := by
      simp only [v6Loop] at h
      split at h
      · simp at h
      · split at h
        · rename_i hr; rw [hr]; simp
        · split at h
          · simp at h
          · split at h
            · rename_i h4
              intro c hc
              rcases parseIPv4_chars h4 c (by rw [hsplit]; exact List.mem_append_right _ hc) with h | h
              exacts [.inr (.inl h), .inr (.inr (.inl h))]
            · simp at h
        · simp at h
        · rename_i t hr
          rw [hr]
          split at h
          · simp at h
          · split at h
            · rename_i ht
              subst ht
              intro c hc
              simp only [List.mem_cons, List.not_mem_nil, or_false, or_self] at hc
              exact .inl hc
            · intro c hc
              simp only [List.mem_cons] at hc
              rcases hc with h' | h' | h'
              exacts [.inl h', .inl h', ih _ _ _ _ h c h']
        · rename_i t _ _ hr
          rw [hr]
          intro c hc
          simp only [List.mem_cons] at hc
          rcases hc with h' | h'
          exacts [.inl h', ih _ _ _ _ h c h']
        · simp at h
    intro c hc
    rw [hsplit] at hc
    rcases List.mem_append.mp hc with h | h
    exacts [hds c h, hrest c h]

theorem parseAddr_chars {s : Str} {a : Addr} (h : parseAddr s = some a) : ∀ c ∈ s, V6Char c := by
  unfold parseAddr at h
  split at h
  · simp only [Option.map_eq_some_iff] at h
    obtain ⟨_, h4, _⟩ := h
    intro c hc
    rcases parseIPv4_chars h4 c hc with h | h
    exacts [.inr (.inl h), .inr (.inr (.inl h))]
  · simp only [Option.map_eq_some_iff] at h
    obtain ⟨n, h6, _⟩ := h
    unfold parseIPv6 at h6
    simp only [Option.map_eq_some_iff] at h6
    obtain ⟨gs, hg, _⟩ := h6
    split at hg
    · intro c hc; simp at hc; exact .inl hc
    · rename_i t _
      simp only [Option.bind_eq_some_iff] at hg
      obtain ⟨r, hr, _⟩ := hg
      intro c hc
      simp only [List.mem_cons] at hc
      rcases hc with h' | h' | h'
      exacts [.inl h', .inl h', v6Loop_chars _ _ _ _ _ hr c h']
    · simp only [Option.bind_eq_some_iff] at hg
      obtain ⟨r, hr, _⟩ := hg
      exact v6Loop_chars _ _ _ _ _ hr
  · simp at h

theorem v6Char_slash : ¬ V6Char '/' := by unfold V6Char isDec hexDigit; decide

theorem parseAddr_no_slash {s : Str} {a : Addr} (h : parseAddr s = some a) : '/' ∉ s :=
  fun hm => v6Char_slash (parseAddr_chars h _ hm)

theorem splitLast_eq {x : Char} {s a b : Str} (h : splitLast x s = some (a, b)) : s = a ++ x :: b ∧ x ∉ b := by
  induction s generalizing a b with
  | nil => simp [splitLast] at h
  | cons c l ih =>
    simp only [splitLast] at h
    cases hl : splitLast x l with
    | some r =>
      obtain ⟨a', b'⟩ := r
      rw [hl] at h
      simp only [Option.some.injEq, Prod.mk.injEq] at h
      obtain ⟨rfl, rfl⟩ := h
      have := ih hl
      exact ⟨by rw [this.1]; rfl, this.2⟩
    | none =>
      rw [hl] at h
      simp only at h
      split at h
      · rename_i hc
        simp only [Option.some.injEq, Prod.mk.injEq] at h
        obtain ⟨rfl, rfl⟩ := h
        refine ⟨by rw [hc]; rfl, ?_⟩
        clear ih
        induction l with
        | nil => simp
        | cons d l ih' =>
          simp only [splitLast] at hl
          cases hl' : splitLast x l with
          | some r => rw [hl'] at hl; simp at hl
          | none =>
            rw [hl'] at hl
            simp only at hl
            split at hl
            · simp at hl
            · rename_i hd
              simp only [List.mem_cons, not_or]
              exact ⟨fun h => hd h.symm, ih' hl'⟩
      · simp at h

theorem splitFirst_append {x : Char} {a b : Str} (h : x ∉ a) : splitFirst x (a ++ x :: b) = some (a, b) := by
  induction a with
  | nil => simp [splitFirst]
  | cons c a ih =>
    simp only [List.mem_cons, not_or] at h
    have hc : ¬ c = x := fun hh => h.1 hh.symm
    simp [splitFirst, hc, ih h.2]

theorem splitLast_append {x : Char} {a b : Str} (h : x ∉ b) : splitLast x (a ++ x :: b) = some (a, b) := by
  have hb : splitLast x b = none := by
    clear a
    induction b with
    | nil => rfl
    | cons c b ih =>
      simp only [List.mem_cons, not_or] at h
      have hc : ¬ c = x := fun hh => h.1 hh.symm
      simp [splitLast, ih h.2, hc]
  induction a with
  | nil => simp [splitLast, hb]
  | cons c a ih => simp [splitLast, ih]

/-- A prefix that `netip.ParsePrefix` accepts is accepted by `net.ParseCIDR` with the same length. -/
theorem parsePrefix_parseCIDR {s : Str} {p : Prefix} (h : parsePrefix s = some p) : parseCIDR s = some (p.bitsPlusOne - 1) := by
  unfold parsePrefix at h
  split at h
  · simp at h
  · rename_i a b hs
    split at h
    · simp at h
    · rename_i ip hip
      split at h
      · simp at h
      · split at h
        · simp at h
        · rename_i n hn
          split at h
          · rename_i hle
            simp only [Option.some.injEq] at h
            subst h
            have hz := parseAddr_ne_zero hip
            unfold parseCIDR
            rw [(splitLast_eq hs).1, splitFirst_append (parseAddr_no_slash hip)]
            simp [hip, hn, hle, Prefix.from', hz]
          · simp at h

/-! ## Hexadecimal -/

theorem hexDigit_digitChar {d : Nat} (h : d < 16) : hexDigit (Nat.digitChar d) = some d := by
  have : ∀ d : Fin 16, hexDigit (Nat.digitChar d.val) = some d.val := by decide
  exact this ⟨d, h⟩

/-- `hex.DecodeString` inverts `hex.EncodeToString`. -/
theorem hexDecode_hexBytes (b : Bytes) : hexDecode (hexBytes b) = (b, true) := by
  induction b with
  | nil => rfl
  | cons x b ih =>
    have hx : x.toNat < 256 := x.isLt
    have h1 : x.toNat / 16 < 16 := by omega
    have h2 : x.toNat % 16 < 16 := by omega
    have : hexBytes (x :: b) = Nat.digitChar (x.toNat / 16) :: Nat.digitChar (x.toNat % 16) :: hexBytes b := rfl
    rw [this, hexDecode, hexDigit_digitChar h1, hexDigit_digitChar h2, ih]
    simp only [Prod.mk.injEq, List.cons.injEq, and_true, true_and]
    rw [show x.toNat / 16 * 16 + x.toNat % 16 = x.toNat by omega]
    simp

/-! ## Decimal numerals -/

theorem digit_eq (c : Char) : Spec.digit c = if isDec c then some (c.toNat - 48) else none := by
  by_cases h : isDec c = true
  · rw [if_pos h]
    have hc : c = Char.ofNat c.toNat := (Char.ofNat_toNat c).symm
    have hb : 48 ≤ c.toNat ∧ c.toNat ≤ 57 := by simpa [isDec] using h
    rw [hc]
    generalize c.toNat = n at *
    have key : ∀ i : Fin 10, Spec.digit (Char.ofNat (48 + i.val)) = some ((Char.ofNat (48 + i.val)).toNat - 48) := by decide
    have := key ⟨n - 48, by omega⟩
    rwa [show 48 + (n - 48) = n by omega] at this
  · rw [if_neg h]
    unfold Spec.digit
    rw [List.idxOf?_eq_none_iff]
    intro hm
    apply h
    simp only [List.mem_cons, List.not_mem_nil, or_false] at hm
    rcases hm with h | h | h | h | h | h | h | h | h | h <;> subst h <;> decide

theorem decVal_snoc (s : Str) (c : Char) : decVal (s ++ [c]) = decVal s * 10 + (c.toNat - 48) := by simp [decVal]

theorem denotes_iff (s : Str) (n : Nat) : Spec.Denotes s n ↔ parseDec s = some n := by
  constructor
  · intro h
    induction h with
    | @one c d hd =>
      rw [digit_eq] at hd
      split at hd
      · rename_i hc
        simp only [Option.some.injEq] at hd
        simp [parseDec, hc, decVal, hd]
      · simp at hd
    | @snoc s n c d h hd ih =>
      rw [digit_eq] at hd
      split at hd
      · rename_i hc
        simp only [Option.some.injEq] at hd
        unfold parseDec at ih ⊢
        split at ih
        · rename_i hs
          simp only [Option.some.injEq] at ih
          rw [if_pos ⟨by simp, by simp only [List.all_append, hs.2, List.all_cons, hc, List.all_nil, Bool.and_self]⟩, decVal_snoc, ih, hd]
          congr 1
          omega
        · simp at ih
      · simp at hd
  · intro h
    unfold parseDec at h
    split at h
    · rename_i hs
      simp only [Option.some.injEq] at h
      subst h
      obtain ⟨hne, hall⟩ := hs
      induction s using List.reverseRecOn with
      | nil => exact absurd rfl hne
      | append_singleton s c ih =>
        simp only [List.all_append, List.all_cons, List.all_nil, Bool.and_true, Bool.and_eq_true] at hall
        have hd : Spec.digit c = some (c.toNat - 48) := by rw [digit_eq, if_pos hall.2]
        cases hs : s with
        | nil => simpa [decVal] using Spec.Denotes.one hd
        | cons a l =>
          rw [decVal_snoc, ← hs, show decVal s * 10 + (c.toNat - 48) = 10 * decVal s + (c.toNat - 48) by omega]
          exact .snoc (ih (by simp [hs]) hall.1) hd
    · simp at h

theorem digit_no_letter {s : Str} {n : Nat} (h : Spec.Denotes s n) : ∀ c ∈ s, ¬ (c = 'a' ∨ c = 'A' ∨ c = 's' ∨ c = 'S') := by
  have := parseDec_chars ((denotes_iff s n).mp h)
  intro c hc hl
  have := this c hc
  rcases hl with rfl | rfl | rfl | rfl <;> simp [isDec] at this

theorem dropWhile_split {P : Char → Bool} {pre d : Str} (hp : ∀ c ∈ pre, P c = true) (hd : ∀ c ∈ d, P c = false) : (pre ++ d).dropWhile P = d := by
  induction pre with
  | nil =>
    cases d with
    | nil => rfl
    | cons c d => simp [hd c (by simp)]
  | cons a pre ih => simp [hp a (by simp), ih (fun c hc => hp c (by simp [hc]))]

end StayRTR
