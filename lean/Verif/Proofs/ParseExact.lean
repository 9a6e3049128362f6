import Verif.Spec.Text
import Verif.Proofs.ParsePrint

/-!
# The parsers accept exactly the texts of the specification
-/

namespace StayRTR

open Spec

/-! ## Digits -/

theorem hexValueOf_eq (c : Char) : hexValueOf c = hexDigit c := by
  have key : ∀ n : Fin 128, hexValueOf (Char.ofNat n.val) = hexDigit (Char.ofNat n.val) := by decide +kernel
  by_cases h : c.toNat < 128
  · have := key ⟨c.toNat, h⟩
    simpa using this
  · have h1 : hexDigit c = none := by
      unfold hexDigit
      have : 'a'.toNat = 97 ∧ 'f'.toNat = 102 ∧ '0'.toNat = 48 ∧ '9'.toNat = 57 ∧ 'A'.toNat = 65 ∧ 'F'.toNat = 70 := by decide
      rw [if_neg (by omega), if_neg (by omega), if_neg (by omega)]
    have ne : ∀ d : Char, d.toNat < 128 → d ≠ c := by rintro d hd rfl; exact h hd
    have hx : ∀ l : List Char, (∀ d ∈ l, d.toNat < 128) → l.idxOf? c = none := by
      intro l hl
      rw [List.idxOf?_eq_none_iff]
      intro hm
      exact h (hl c hm)
    rw [h1]
    unfold hexValueOf
    rw [hx _ (by decide)]
    exact hx _ (by decide)

/-- The digits read in the parser are the ones of the specification. -/
theorem group_iff (s : Str) (v : Nat) : Group s v ↔ s ≠ [] ∧ s.length ≤ 4 ∧ (∀ c ∈ s, (hexDigit c).isSome = true) ∧ v = hexVal s := by
  have fold : ∀ (s : Str) (ds : List Nat) (acc : Nat), s.map hexValueOf = ds.map some → s.foldl (fun n c => n * 16 + (hexDigit c).getD 0) acc = ds.foldl (fun n d => n * 16 + d) acc := by
    intro s
    induction s with
    | nil => intro ds acc h; cases ds with
      | nil => rfl
      | cons => simp at h
    | cons c s ih =>
      intro ds acc h
      cases ds with
      | nil => simp at h
      | cons d ds =>
        simp only [List.map_cons, List.cons.injEq] at h
        simp only [List.foldl_cons]
        rw [← hexValueOf_eq, h.1]
        exact ih ds _ h.2
  constructor
  · rintro ⟨ds, h1, h2, h3, rfl⟩
    have hlen : s.length = ds.length := by simpa using congrArg List.length h1
    refine ⟨by rintro rfl; simp at hlen; omega, by omega, ?_, (fold s ds 0 h1).symm⟩
    intro c hc
    have : hexValueOf c ∈ ds.map some := by rw [← h1]; exact List.mem_map_of_mem hc
    obtain ⟨d, -, hd⟩ := List.mem_map.mp this
    rw [← hexValueOf_eq, ← hd]
    rfl
  · rintro ⟨h1, h2, h3, rfl⟩
    refine ⟨s.map fun c => (hexDigit c).getD 0, ?_, ?_, by simpa using h2, ?_⟩
    · rw [List.map_map]
      refine List.map_congr_left fun c hc => ?_
      have := h3 c hc
      rw [hexValueOf_eq]
      cases hd : hexDigit c with
      | none => rw [hd] at this; cases this
      | some d => simp [hd]
    · rw [List.length_map]
      cases s with
      | nil => exact absurd rfl h1
      | cons => simp
    · rw [hexVal, List.foldl_map]

theorem numeral_iff (s : Str) (n : Nat) : Numeral s n ↔ parseDec s = some n ∧ ¬ (2 ≤ s.length ∧ s.head? = some '0') := by
  unfold Numeral
  rw [denotes_iff]
  refine and_congr_right fun h => ?_
  constructor
  · rintro h' ⟨h2, h0⟩
    rw [h' h0] at h2
    simp at h2
  · intro h' h0
    cases s with
    | nil => simp at h0
    | cons c s =>
      simp only [List.head?_cons, Option.some.injEq] at h0
      subst h0
      cases s with
      | nil => rfl
      | cons => exact absurd ⟨by simp, rfl⟩ h'

theorem octet_iff (s : Str) (n : Nat) : octet s = some n ↔ Numeral s n ∧ n ≤ 255 := by
  rw [numeral_iff]
  unfold octet
  cases hd : parseDec s with
  | none => simp
  | some m =>
    simp only
    split
    · rename_i h
      constructor
      · intro h'; cases h'
      · rintro ⟨⟨h1, h2⟩, h3⟩
        cases h1
        rcases h with h | h
        · exact absurd h h2
        · omega
    · rename_i h
      simp only [not_or] at h
      constructor
      · intro h'
        cases h'
        exact ⟨⟨rfl, h.1⟩, by omega⟩
      · rintro ⟨⟨h1, h2⟩, h3⟩
        exact h1

theorem splitOn_join (x : Char) (s : Str) : joinWith x (splitOn x s) = s ∧ splitOn x s ≠ [] ∧ ∀ f ∈ splitOn x s, x ∉ f := by
  induction s with
  | nil => exact ⟨rfl, by simp [splitOn], by simp [splitOn]⟩
  | cons c s ih =>
    obtain ⟨h1, h2, h3⟩ := ih
    simp only [splitOn]
    split
    · rename_i hc
      subst hc
      refine ⟨?_, by simp, ?_⟩
      · cases hs : splitOn c s with
        | nil => exact absurd hs h2
        | cons f fs => rw [hs] at h1; simp only [joinWith, List.nil_append]; rw [h1]
      · intro f hf
        rcases List.mem_cons.mp hf with rfl | hf
        · simp
        · exact h3 f hf
    · rename_i hc
      cases hs : splitOn x s with
      | nil => exact absurd hs h2
      | cons f fs =>
        rw [hs] at h1 h3
        refine ⟨?_, by simp, ?_⟩
        · cases fs with
          | nil => simp only [joinWith] at h1 ⊢; rw [h1]
          | cons f' fs => simp only [joinWith, List.cons_append] at h1 ⊢; rw [h1]
        · intro g hg
          rcases List.mem_cons.mp hg with rfl | hg
          · intro hx
            rcases List.mem_cons.mp hx with hx | hx
            · exact hc hx.symm
            · exact h3 f List.mem_cons_self hx
          · exact h3 g (List.mem_cons_of_mem _ hg)

theorem numeral_chars {s : Str} {n : Nat} (h : Numeral s n) : s ≠ [] ∧ ∀ c ∈ s, isDec c = true := by
  have := ((numeral_iff s n).mp h).1
  refine ⟨?_, parseDec_chars this⟩
  rintro rfl
  simp [parseDec] at this

theorem isDec_not {c : Char} (h : isDec c = true) : c ≠ '.' ∧ c ≠ ':' ∧ c ≠ '/' ∧ c ≠ '%' := by
  refine ⟨?_, ?_, ?_, ?_⟩ <;> (rintro rfl; exact absurd h (by decide))

theorem quad_iff (s : Str) (a : Nat) : Quad s a ↔ parseIPv4 s = some a := by
  constructor
  · rintro ⟨s1, s2, s3, s4, n1, n2, n3, n4, rfl, h1, h2, h3, h4, b1, b2, b3, b4, rfl⟩
    have nd : ∀ {s n}, Numeral s n → '.' ∉ s := fun h hm => (isDec_not ((numeral_chars h).2 _ hm)).1 rfl
    unfold parseIPv4
    rw [splitOn_append (nd h1), splitOn_append (nd h2), splitOn_append (nd h3), splitOn_none (nd h4)]
    simp only [List.map_cons, List.map_nil]
    rw [(octet_iff _ _).mpr ⟨h1, b1⟩, (octet_iff _ _).mpr ⟨h2, b2⟩, (octet_iff _ _).mpr ⟨h3, b3⟩, (octet_iff _ _).mpr ⟨h4, b4⟩]
    simp only [Option.some.injEq]
    omega
  · intro h
    unfold parseIPv4 at h
    have hj := (splitOn_join '.' s).1
    generalize hl : splitOn '.' s = l at h hj
    split at h
    · rename_i a' b c d hm
      cases h
      obtain ⟨s1, l, rfl, h1, hm⟩ := List.map_eq_cons_iff.mp hm
      obtain ⟨s2, l, rfl, h2, hm⟩ := List.map_eq_cons_iff.mp hm
      obtain ⟨s3, l, rfl, h3, hm⟩ := List.map_eq_cons_iff.mp hm
      obtain ⟨s4, l, rfl, h4, hm⟩ := List.map_eq_cons_iff.mp hm
      obtain rfl := List.map_eq_nil_iff.mp hm
      rw [octet_iff] at h1 h2 h3 h4
      refine ⟨s1, s2, s3, s4, _, _, _, _, ?_, h1.1, h2.1, h3.1, h4.1, h1.2, h2.2, h3.2, h4.2, by omega⟩
      simpa [joinWith] using hj.symm
    · cases h

/-! ## IPv6 -/

theorem isDec_hex {c : Char} (h : isDec c = true) : (hexDigit c).isSome = true := by
  have hb : 48 ≤ c.toNat ∧ c.toNat ≤ 57 := by simpa [isDec] using h
  have : '0'.toNat = 48 ∧ '9'.toNat = 57 := by decide
  unfold hexDigit
  rw [if_pos (by omega)]
  rfl

/-- A numeral without superfluous zeros up to 255 has at most three digits. -/
theorem numeral_len {s : Str} {n : Nat} (h : Numeral s n) (hn : n ≤ 255) : s.length ≤ 3 := by
  obtain ⟨h1, h2⟩ := (numeral_iff s n).mp h
  unfold parseDec at h1
  split at h1
  · rename_i hs
    cases h1
    cases s with
    | nil => simp
    | cons c s =>
      by_cases hlen : s.length ≤ 2
      · simp; omega
      exfalso
      have hc : isDec c = true := by have := hs.2; simp at this; exact this.1
      have hb : 48 ≤ c.toNat ∧ c.toNat ≤ 57 := by simpa [isDec] using hc
      have hc0 : c ≠ '0' := by rintro rfl; exact h2 ⟨by simp; omega, rfl⟩
      have h0 : '0'.toNat = 48 := by decide
      have hc1 : 49 ≤ c.toNat := by
        rcases Nat.lt_or_ge c.toNat 49 with h' | h'
        · exact absurd (Char.toNat_inj.mp (by omega)) hc0
        · exact h'
      have mono : ∀ (s : Str) (acc : Nat), acc * 10 ^ s.length ≤ s.foldl (fun n c => n * 10 + (c.toNat - '0'.toNat)) acc := by
        intro s
        induction s with
        | nil => intro acc; simp
        | cons d s ih =>
          intro acc
          simp only [List.foldl_cons, List.length_cons]
          refine Nat.le_trans ?_ (ih _)
          rw [Nat.pow_succ, Nat.mul_comm (10 ^ s.length) 10, ← Nat.mul_assoc]
          exact Nat.mul_le_mul_right _ (Nat.le_add_right _ _)
      have hm := mono s (0 * 10 + (c.toNat - '0'.toNat))
      have hp : 10 ^ 3 ≤ 10 ^ s.length := Nat.pow_le_pow_right (by omega) (by omega)
      have : 1 * 10 ^ 3 ≤ (0 * 10 + (c.toNat - '0'.toNat)) * 10 ^ s.length := Nat.mul_le_mul (by omega) hp
      simp only [decVal, List.foldl_cons] at hn
      omega
  · cases h1

/-- The leading hexadecimal digits of a text. -/
abbrev hexHead (s : Str) : Str := s.takeWhile (fun c => (hexDigit c).isSome)

/-- What follows the leading hexadecimal digits of a text. -/
abbrev hexRest (s : Str) : Str := s.dropWhile (fun c => (hexDigit c).isSome)

theorem head_rest {t rest : Str} (ht : ∀ c ∈ t, (hexDigit c).isSome = true) (hr : ∀ c, rest.head? = some c → (hexDigit c).isSome = false) :
    hexHead (t ++ rest) = t ∧ hexRest (t ++ rest) = rest := by
  have h0 : rest.takeWhile (fun c => (hexDigit c).isSome) = [] ∧ rest.dropWhile (fun c => (hexDigit c).isSome) = rest := by
    cases rest with
    | nil => exact ⟨rfl, rfl⟩
    | cons c r =>
      have := hr c rfl
      exact ⟨by rw [List.takeWhile_cons_of_neg (by simp [this])], by rw [List.dropWhile_cons_of_neg (by simp [this])]⟩
  unfold hexHead hexRest
  rw [List.takeWhile_append_of_pos (by simpa using ht), List.dropWhile_append_of_pos (by simpa using ht), h0.1, h0.2]
  simp

theorem group_head (s : Str) : Group (hexHead s) (hexVal (hexHead s)) ↔ ¬ (hexHead s = [] ∨ 4 < (hexHead s).length) := by
  rw [group_iff, not_or]
  constructor
  · rintro ⟨h1, h2, -, -⟩; exact ⟨h1, by omega⟩
  · rintro ⟨h1, h2⟩; exact ⟨h1, by omega, fun c hc => List.all_eq_true.mp List.all_takeWhile c hc, rfl⟩

theorem head_append_rest (s : Str) : s = hexHead s ++ hexRest s := (List.takeWhile_append_dropWhile ..).symm

/-- A text that starts with groups, seen from its first group. -/
theorem tail_iff (s : Str) (ts : List Nat) : Tail s ts ↔
    Group (hexHead s) (hexVal (hexHead s)) ∧
      ((hexRest s = [] ∧ ts = [hexVal (hexHead s)]) ∨
       (∃ t a, hexRest s = '.' :: t ∧ parseIPv4 s = some a ∧ ts = [a / 65536, a % 65536]) ∨
       (∃ t ts', hexRest s = ':' :: t ∧ Tail t ts' ∧ ts = hexVal (hexHead s) :: ts')) := by
  constructor
  · intro h
    cases h with
    | one h =>
      rename_i v
      obtain ⟨h1, h2, h3, rfl⟩ := (group_iff s v).mp h
      obtain ⟨e1, e2⟩ := head_rest (rest := []) h3 (by simp)
      rw [List.append_nil] at e1 e2
      rw [e1, e2]
      exact ⟨h, .inl ⟨rfl, rfl⟩⟩
    | quad h =>
      have h4 := (quad_iff _ _).mp h
      obtain ⟨s1, s2, s3, s4, n1, n2, n3, n4, rfl, h1, h2, h3, h4', b1, b2, b3, b4, rfl⟩ := h
      obtain ⟨hne, hd⟩ := numeral_chars h1
      obtain ⟨e1, e2⟩ := head_rest (t := s1) (rest := '.' :: (s2 ++ '.' :: (s3 ++ '.' :: s4))) (fun c hc => isDec_hex (hd c hc)) (by
        intro c hc; simp only [List.head?_cons, Option.some.injEq] at hc; subst hc; exact hex_seps.2)
      refine ⟨?_, .inr (.inl ⟨_, _, e2, h4, rfl⟩)⟩
      rw [e1, group_iff]
      have := numeral_len h1 b1
      exact ⟨hne, by omega, fun c hc => isDec_hex (hd c hc), rfl⟩
    | cons h ht =>
      rename_i u t v vs
      obtain ⟨h1, h2, h3, rfl⟩ := (group_iff u v).mp h
      obtain ⟨e1, e2⟩ := head_rest (t := u) (rest := ':' :: t) h3 (by
        intro c hc; simp only [List.head?_cons, Option.some.injEq] at hc; subst hc; exact hex_seps.1)
      rw [e1]
      exact ⟨h, .inr (.inr ⟨_, _, e2, ht, rfl⟩)⟩
  · rintro ⟨hg, h | h | h⟩
    · have := head_append_rest s
      rw [h.1, List.append_nil] at this
      rw [h.2]
      rw [← this] at hg ⊢
      exact .one hg
    · obtain ⟨t, a, -, h4, rfl⟩ := h
      exact .quad ((quad_iff _ _).mpr h4)
    · obtain ⟨t, ts', hr, ht, rfl⟩ := h
      have hs := head_append_rest s
      rw [hr] at hs
      have : Tail (hexHead s ++ ':' :: t) (hexVal (hexHead s) :: ts') := .cons hg ht
      rwa [← hs] at this

/-- Groups, then `::`, then possibly further groups. -/
def Elided (s : Str) (hs ts : List Nat) : Prop := ∃ l r, s = l ++ ':' :: ':' :: r ∧ Groups l hs ∧ ((r = [] ∧ ts = []) ∨ Tail r ts)

theorem elided_iff (s : Str) (hs ts : List Nat) : Elided s hs ts ↔
    Group (hexHead s) (hexVal (hexHead s)) ∧ ∃ t, hexRest s = ':' :: t ∧
      ((∃ r, t = ':' :: r ∧ hs = [hexVal (hexHead s)] ∧ ((r = [] ∧ ts = []) ∨ Tail r ts)) ∨
       (∃ hs', Elided t hs' ts ∧ hs = hexVal (hexHead s) :: hs')) := by
  constructor
  · rintro ⟨l, r, rfl, hg, hr⟩
    cases hg with
    | one h =>
      rename_i v
      obtain ⟨h1, h2, h3, rfl⟩ := (group_iff l v).mp h
      obtain ⟨e1, e2⟩ := head_rest (t := l) (rest := ':' :: ':' :: r) h3 (by
        intro c hc; simp only [List.head?_cons, Option.some.injEq] at hc; subst hc; exact hex_seps.1)
      rw [e1]
      exact ⟨h, _, e2, .inl ⟨r, rfl, rfl, hr⟩⟩
    | cons h ht =>
      rename_i u t v vs
      obtain ⟨h1, h2, h3, rfl⟩ := (group_iff u v).mp h
      obtain ⟨e1, e2⟩ := head_rest (t := u) (rest := ':' :: (t ++ ':' :: ':' :: r)) h3 (by
        intro c hc; simp only [List.head?_cons, Option.some.injEq] at hc; subst hc; exact hex_seps.1)
      rw [List.append_assoc, List.cons_append, e1]
      exact ⟨h, _, e2, .inr ⟨_, ⟨t, r, rfl, ht, hr⟩, rfl⟩⟩
  · rintro ⟨hg, t, hr, ⟨r, rfl, rfl, h⟩ | ⟨hs', ⟨l, r, rfl, hl, h⟩, rfl⟩⟩
    · have hs := head_append_rest s
      rw [hr] at hs
      exact ⟨_, r, hs, .one hg, h⟩
    · have hs := head_append_rest s
      rw [hr] at hs
      exact ⟨hexHead s ++ ':' :: l, r, by rw [List.append_assoc]; exact hs, .cons hg hl, h⟩

theorem not_tail_colon (t : Str) (ts : List Nat) : ¬ Tail (':' :: t) ts := by
  rw [tail_iff, group_head]
  rintro ⟨h, -⟩
  exact h (.inl (by simp [hexHead, hex_seps.1]))

theorem not_tail_nil (ts : List Nat) : ¬ Tail [] ts := by
  rw [tail_iff, group_head]
  rintro ⟨h, -⟩
  exact h (.inl rfl)

theorem not_elided_colon (t : Str) (hs ts : List Nat) : ¬ Elided (':' :: t) hs ts := by
  rw [elided_iff, group_head]
  rintro ⟨h, -⟩
  exact h (.inl (by simp [hexHead, hex_seps.1]))

theorem not_elided_nil (hs ts : List Nat) : ¬ Elided [] hs ts := by
  rw [elided_iff, group_head]
  rintro ⟨h, -⟩
  exact h (.inl rfl)

theorem tail_pos {s : Str} {ts : List Nat} (h : Tail s ts) : 1 ≤ ts.length := by cases h <;> simp

theorem groups_pos {s : Str} {ts : List Nat} (h : Groups s ts) : 1 ≤ ts.length := by cases h <;> simp

theorem expand_some {gs : List Nat} {e : Nat} (he : e ≤ gs.length) (ts out : List Nat) : v6Expand (gs ++ ts, some e) = some out ↔
    gs.length + ts.length < 8 ∧ out = gs.take e ++ List.replicate (8 - (gs.length + ts.length)) 0 ++ (gs.drop e ++ ts) := by
  simp only [v6Expand, List.length_append]
  rw [List.take_append_of_le_length he, List.drop_append_of_le_length he]
  split
  · rename_i h
    simp only [Option.some.injEq, h, true_and]
    exact eq_comm
  · rename_i h
    simp [h]

theorem expand_none (gs out : List Nat) : v6Expand (gs, none) = some out ↔ gs.length = 8 ∧ out = gs := by
  simp only [v6Expand]
  split
  · rename_i h
    simp only [Option.some.injEq, h, true_and]
    exact eq_comm
  · rename_i h
    simp [h]

/-- The groups after `::`. -/
theorem v6Loop_after (n : Nat) (gs : List Nat) (e : Nat) (s : Str) (out : List Nat) (hn : n + gs.length = 8) (he : e ≤ gs.length) (hs : s ≠ []) :
    (v6Loop n gs (some e) s).bind v6Expand = some out ↔
      ∃ ts, Tail s ts ∧ gs.length + ts.length < 8 ∧ out = gs.take e ++ List.replicate (8 - (gs.length + ts.length)) 0 ++ (gs.drop e ++ ts) := by
  induction n generalizing gs s with
  | zero =>
    simp only [v6Loop, if_neg hs, Option.bind_none]
    constructor
    · intro h; cases h
    · rintro ⟨ts, -, h, -⟩; omega
  | succ n ih =>
    simp only [v6Loop]
    split
    · rename_i h
      constructor
      · intro h'; cases h'
      · rintro ⟨ts, ht, -⟩
        exact absurd h ((group_head s).mp ((tail_iff s ts).mp ht).1)
    · rename_i hg
      have hg := (group_head s).mpr hg
      split
      · rename_i hr
        simp only [Option.bind_some]
        rw [expand_some he]
        constructor
        · rintro h
          exact ⟨_, (tail_iff s _).mpr ⟨hg, .inl ⟨hr, rfl⟩⟩, h⟩
        · rintro ⟨ts, ht, h⟩
          rcases ((tail_iff s ts).mp ht).2 with ⟨-, rfl⟩ | ⟨t, a, hr', -⟩ | ⟨t, ts', hr', -⟩
          · exact h
          · rw [show hexRest s = [] from hr] at hr'; cases hr'
          · rw [show hexRest s = [] from hr] at hr'; cases hr'
      · rename_i t hr
        have key : ∀ ts, Tail s ts ↔ ∃ a, parseIPv4 s = some a ∧ ts = [a / 65536, a % 65536] := by
          intro ts
          rw [tail_iff]
          constructor
          · rintro ⟨-, ⟨hr', -⟩ | ⟨t', a, -, h4, rfl⟩ | ⟨t', ts', hr', -⟩⟩
            · rw [show hexRest s = _ from hr] at hr'; cases hr'
            · exact ⟨a, h4, rfl⟩
            · rw [show hexRest s = _ from hr] at hr'; simp at hr'
          · rintro ⟨a, h4, rfl⟩
            exact ⟨hg, .inr (.inl ⟨t, a, hr, h4, rfl⟩)⟩
        split
        · rename_i h
          constructor
          · intro h'; cases h'
          · rintro ⟨ts, ht, hl, -⟩
            obtain ⟨a, -, rfl⟩ := (key ts).mp ht
            simp at h hl
            omega
        · split
          · rename_i a h4
            simp only [Option.bind_some]
            rw [expand_some he]
            constructor
            · intro h; exact ⟨_, (key _).mpr ⟨a, h4, rfl⟩, h⟩
            · rintro ⟨ts, ht, h⟩
              obtain ⟨a', h4', rfl⟩ := (key ts).mp ht
              rw [h4] at h4'
              cases h4'
              exact h
          · rename_i h4
            constructor
            · intro h'; cases h'
            · rintro ⟨ts, ht, -⟩
              obtain ⟨a', h4', -⟩ := (key ts).mp ht
              rw [h4] at h4'; cases h4'
      · rename_i hr
        constructor
        · intro h'; cases h'
        · rintro ⟨ts, ht, -⟩
          rcases ((tail_iff s ts).mp ht).2 with ⟨hr', -⟩ | ⟨t, a, hr', -⟩ | ⟨t, ts', hr', ht', -⟩ <;> rw [show hexRest s = _ from hr] at hr' <;> simp at hr'
          subst hr'
          exact (not_tail_nil _ ht').elim
      · rename_i t hr
        simp only [Option.isSome_some, if_true, Option.bind_none]
        constructor
        · intro h'; cases h'
        · rintro ⟨ts, ht, -⟩
          rcases ((tail_iff s ts).mp ht).2 with ⟨hr', -⟩ | ⟨t, a, hr', -⟩ | ⟨t, ts', hr', ht', -⟩ <;> rw [show hexRest s = _ from hr] at hr' <;> simp at hr'
          subst hr'
          exact (not_tail_colon _ _ ht').elim
      · rename_i t hn1 hn2 hr
        have hne : t ≠ [] := by rintro rfl; exact hn1 rfl
        rw [ih (gs ++ [hexVal (hexHead s)]) t (by simp; omega) (by simp; omega) hne]
        constructor
        · rintro ⟨ts, ht, hl, rfl⟩
          refine ⟨hexVal (hexHead s) :: ts, (tail_iff s _).mpr ⟨hg, .inr (.inr ⟨t, ts, hr, ht, rfl⟩)⟩, ?_, ?_⟩
          · simp at hl ⊢; omega
          · rw [List.take_append_of_le_length he, List.drop_append_of_le_length he]
            simp only [List.length_append, List.length_cons, List.length_nil, List.append_assoc, List.singleton_append]
            congr 3
            omega
        · rintro ⟨ts, ht, hl, rfl⟩
          rcases ((tail_iff s ts).mp ht).2 with ⟨hr', -⟩ | ⟨t', a, hr', -⟩ | ⟨t', ts', hr', ht', rfl⟩ <;> rw [show hexRest s = _ from hr] at hr' <;> simp at hr'
          subst hr'
          refine ⟨ts', ht', ?_, ?_⟩
          · simp at hl ⊢; omega
          · rw [List.take_append_of_le_length he, List.drop_append_of_le_length he]
            simp only [List.length_append, List.length_cons, List.length_nil, List.append_assoc, List.singleton_append]
            congr 3
            omega
      · rename_i h1 h2 h3 h4 h5
        constructor
        · intro h'; cases h'
        · rintro ⟨ts, ht, -⟩
          rcases ((tail_iff s ts).mp ht).2 with ⟨hr', -⟩ | ⟨t, a, hr', -⟩ | ⟨t, ts', hr', ht', -⟩
          · exact (h1 hr').elim
          · exact (h2 _ hr').elim
          · exact (h5 _ hr').elim

/-- The groups before `::`, or all of them. -/
theorem v6Loop_before (n : Nat) (gs : List Nat) (s : Str) (out : List Nat) (hn : n + gs.length = 8) (hs : s ≠ []) :
    (v6Loop n gs none s).bind v6Expand = some out ↔
      (∃ ts, Tail s ts ∧ gs.length + ts.length = 8 ∧ out = gs ++ ts) ∨
      (∃ hs ts, Elided s hs ts ∧ gs.length + hs.length + ts.length < 8 ∧ out = gs ++ hs ++ List.replicate (8 - (gs.length + hs.length + ts.length)) 0 ++ ts) := by
  have pos : ∀ {s hs ts}, Elided s hs ts → 1 ≤ hs.length := by rintro s hs ts ⟨l, r, -, h, -⟩; exact groups_pos h
  induction n generalizing gs s with
  | zero =>
    simp only [v6Loop, if_neg hs, Option.bind_none]
    constructor
    · intro h; cases h
    · rintro (⟨ts, ht, h, -⟩ | ⟨_, ts, he, h, -⟩)
      · have := tail_pos ht; omega
      · have := pos he; omega
  | succ n ih =>
    simp only [v6Loop]
    split
    · rename_i h
      constructor
      · intro h'; cases h'
      · rintro (⟨ts, ht, -⟩ | ⟨_, ts, he, -⟩)
        · exact absurd h ((group_head s).mp ((tail_iff s ts).mp ht).1)
        · exact absurd h ((group_head s).mp ((elided_iff s _ ts).mp he).1)
    · rename_i hg
      have hg := (group_head s).mpr hg
      split
      · rename_i hr
        simp only [Option.bind_some]
        rw [expand_none]
        constructor
        · rintro h
          exact .inl ⟨_, (tail_iff s _).mpr ⟨hg, .inl ⟨hr, rfl⟩⟩, by simpa using h⟩
        · rintro (⟨ts, ht, h⟩ | ⟨_, ts, he, -⟩)
          · rcases ((tail_iff s ts).mp ht).2 with ⟨-, rfl⟩ | ⟨t, a, hr', -⟩ | ⟨t, ts', hr', -⟩
            · simpa using h
            · rw [show hexRest s = [] from hr] at hr'; cases hr'
            · rw [show hexRest s = [] from hr] at hr'; cases hr'
          · obtain ⟨t, hr', -⟩ := ((elided_iff s _ ts).mp he).2
            rw [show hexRest s = [] from hr] at hr'; cases hr'
      · rename_i t hr
        have key : ∀ ts, Tail s ts ↔ ∃ a, parseIPv4 s = some a ∧ ts = [a / 65536, a % 65536] := by
          intro ts
          rw [tail_iff]
          constructor
          · rintro ⟨-, ⟨hr', -⟩ | ⟨t', a, -, h4, rfl⟩ | ⟨t', ts', hr', -⟩⟩
            · rw [show hexRest s = _ from hr] at hr'; cases hr'
            · exact ⟨a, h4, rfl⟩
            · rw [show hexRest s = _ from hr] at hr'; simp at hr'
          · rintro ⟨a, h4, rfl⟩
            exact ⟨hg, .inr (.inl ⟨t, a, hr, h4, rfl⟩)⟩
        have nel : ∀ hs ts, ¬ Elided s hs ts := by
          intro hs ts he
          obtain ⟨t, hr', -⟩ := ((elided_iff s _ ts).mp he).2
          rw [show hexRest s = _ from hr] at hr'; simp at hr'
        split
        · rename_i h
          constructor
          · intro h'; cases h'
          · rintro (⟨ts, ht, hl, -⟩ | ⟨_, ts, he, -⟩)
            · obtain ⟨a, -, rfl⟩ := (key ts).mp ht
              simp at h hl
              omega
            · exact absurd he (nel _ _)
        · split
          · rename_i a h4
            simp only [Option.bind_some]
            rw [expand_none]
            constructor
            · intro h; exact .inl ⟨_, (key _).mpr ⟨a, h4, rfl⟩, by simpa using h⟩
            · rintro (⟨ts, ht, h⟩ | ⟨_, ts, he, -⟩)
              · obtain ⟨a', h4', rfl⟩ := (key ts).mp ht
                rw [h4] at h4'
                cases h4'
                simpa using h
              · exact absurd he (nel _ _)
          · rename_i h4
            constructor
            · intro h'; cases h'
            · rintro (⟨ts, ht, -⟩ | ⟨_, ts, he, -⟩)
              · obtain ⟨a', h4', -⟩ := (key ts).mp ht
                rw [h4] at h4'; cases h4'
              · exact absurd he (nel _ _)
      · rename_i hr
        constructor
        · intro h'; cases h'
        · rintro (⟨ts, ht, -⟩ | ⟨_, ts, he, -⟩)
          · rcases ((tail_iff s ts).mp ht).2 with ⟨hr', -⟩ | ⟨t, a, hr', -⟩ | ⟨t, ts', hr', ht', -⟩ <;> rw [show hexRest s = _ from hr] at hr' <;> simp at hr'
            subst hr'
            exact (not_tail_nil _ ht').elim
          · obtain ⟨t, hr', h⟩ := ((elided_iff s _ ts).mp he).2
            rw [show hexRest s = _ from hr] at hr'
            simp at hr'
            subst hr'
            rcases h with ⟨r, h, -⟩ | ⟨_, h, -⟩
            · cases h
            · exact (not_elided_nil _ _ h).elim
      · rename_i t hr
        have nt : ∀ ts, ¬ Tail s ts := by
          intro ts ht
          rcases ((tail_iff s ts).mp ht).2 with ⟨hr', -⟩ | ⟨t, a, hr', -⟩ | ⟨t, ts', hr', ht', -⟩ <;> rw [show hexRest s = _ from hr] at hr' <;> simp at hr'
          subst hr'
          exact (not_tail_colon _ _ ht').elim
        have el : ∀ hs ts, Elided s hs ts ↔ hs = [hexVal (hexHead s)] ∧ ((t = [] ∧ ts = []) ∨ Tail t ts) := by
          intro hs ts
          rw [elided_iff]
          constructor
          · rintro ⟨-, t', hr', h⟩
            rw [show hexRest s = _ from hr] at hr'
            simp only [List.cons.injEq, true_and] at hr'
            subst hr'
            rcases h with ⟨r, h, h'⟩ | ⟨_, h, -⟩
            · cases h; exact h'
            · exact (not_elided_colon _ _ _ h).elim
          · rintro ⟨rfl, h⟩
            exact ⟨hg, _, hr, .inl ⟨t, rfl, rfl, h⟩⟩
        simp only [Option.isSome_none, Bool.false_eq_true, if_false]
        split
        · rename_i ht
          subst ht
          have := expand_some (gs := gs ++ [hexVal (hexHead s)]) (e := gs.length + 1) (by simp) [] out
          rw [List.append_nil] at this
          simp only [Option.bind_some]
          rw [this]
          constructor
          · rintro ⟨h1, h2⟩
            refine .inr ⟨_, [], (el _ _).mpr ⟨rfl, .inl ⟨rfl, rfl⟩⟩, by simpa using h1, ?_⟩
            rw [h2]
            simp [List.take_of_length_le]
          · rintro (⟨ts, ht, -⟩ | ⟨_, ts, he, h1, h2⟩)
            · exact absurd ht (nt _)
            · obtain ⟨rfl, ⟨-, rfl⟩ | h⟩ := (el _ _).mp he
              · refine ⟨by simpa using h1, ?_⟩
                rw [h2]
                simp [List.take_of_length_le]
              · exact absurd h (not_tail_nil _)
        · rename_i ht
          rw [v6Loop_after n (gs ++ [hexVal (hexHead s)]) (gs.length + 1) t out (by simp; omega) (by simp) ht]
          constructor
          · rintro ⟨ts, h, h1, h2⟩
            refine .inr ⟨_, ts, (el _ _).mpr ⟨rfl, .inr h⟩, by simpa using h1, ?_⟩
            rw [h2]
            simp [List.take_of_length_le]
          · rintro (⟨ts, ht, -⟩ | ⟨_, ts, he, h1, h2⟩)
            · exact absurd ht (nt _)
            · obtain ⟨rfl, ⟨rfl, -⟩ | h⟩ := (el _ _).mp he
              · exact absurd rfl ht
              · refine ⟨ts, h, by simpa using h1, ?_⟩
                rw [h2]
                simp [List.take_of_length_le]
      · rename_i t hn1 hn2 hr
        have hne : t ≠ [] := by rintro rfl; exact hn1 rfl
        have ih' := ih (gs ++ [hexVal (hexHead s)]) t (by simp; omega) hne
        refine ih'.trans ?_
        constructor
        · rintro (⟨ts, ht, hl, rfl⟩ | ⟨hs, ts, he, hl, rfl⟩)
          · refine .inl ⟨hexVal (hexHead s) :: ts, (tail_iff s _).mpr ⟨hg, .inr (.inr ⟨t, ts, hr, ht, rfl⟩)⟩, ?_, by simp⟩
            simp at hl ⊢; omega
          · refine .inr ⟨hexVal (hexHead s) :: hs, ts, (elided_iff s _ _).mpr ⟨hg, t, hr, .inr ⟨hs, he, rfl⟩⟩, ?_, ?_⟩
            · simp at hl ⊢; omega
            · rw [show (gs ++ [hexVal (hexHead s)]).length + hs.length + ts.length = gs.length + (hexVal (hexHead s) :: hs).length + ts.length by simp; omega]
              simp
        · rintro (⟨ts, ht, hl, rfl⟩ | ⟨hs, ts, he, hl, rfl⟩)
          · rcases ((tail_iff s ts).mp ht).2 with ⟨hr', -⟩ | ⟨t', a, hr', -⟩ | ⟨t', ts', hr', ht', rfl⟩ <;> rw [show hexRest s = _ from hr] at hr' <;> simp at hr'
            subst hr'
            refine .inl ⟨ts', ht', ?_, by simp⟩
            simp at hl ⊢; omega
          · obtain ⟨t', hr', h⟩ := ((elided_iff s _ ts).mp he).2
            rw [show hexRest s = _ from hr] at hr'
            simp only [List.cons.injEq, true_and] at hr'
            subst hr'
            rcases h with ⟨r, h, -⟩ | ⟨hs', h, rfl⟩
            · exact (hn2 _ (by rw [h])).elim
            · refine .inr ⟨hs', ts, h, ?_, ?_⟩
              · simp at hl ⊢; omega
              · rw [show (gs ++ [hexVal (hexHead s)]).length + hs'.length + ts.length = gs.length + (hexVal (hexHead s) :: hs').length + ts.length by simp; omega]
                simp
      · rename_i h1 h2 h3 h4 h5
        constructor
        · intro h'; cases h'
        · rintro (⟨ts, ht, -⟩ | ⟨_, ts, he, -⟩)
          · rcases ((tail_iff s ts).mp ht).2 with ⟨hr', -⟩ | ⟨t, a, hr', -⟩ | ⟨t, ts', hr', ht', -⟩
            · exact (h1 hr').elim
            · exact (h2 _ hr').elim
            · exact (h5 _ hr').elim
          · obtain ⟨t, hr', -⟩ := ((elided_iff s _ ts).mp he).2
            exact (h5 _ hr').elim

theorem v6Text_iff (s : Str) (out : List Nat) : V6Text s out ↔
    (∃ ts, Tail s ts ∧ ts.length = 8 ∧ out = ts) ∨
    (∃ hs ts, Elided s hs ts ∧ hs.length + ts.length < 8 ∧ out = hs ++ List.replicate (8 - (hs.length + ts.length)) 0 ++ ts) ∨
    (∃ t ts, s = ':' :: ':' :: t ∧ ((t = [] ∧ ts = []) ∨ Tail t ts) ∧ ts.length < 8 ∧ out = List.replicate (8 - ts.length) 0 ++ ts) := by
  constructor
  · intro h
    cases h with
    | full h hl => exact .inl ⟨_, h, hl, rfl⟩
    | elided hl hr hn =>
      rename_i l r hs ts
      rcases hl with ⟨rfl, rfl⟩ | hl
      · exact .inr (.inr ⟨r, ts, rfl, hr, by simpa using hn, by simp⟩)
      · exact .inr (.inl ⟨hs, ts, ⟨l, r, rfl, hl, hr⟩, hn, rfl⟩)
  · rintro (⟨ts, h, hl, rfl⟩ | ⟨hs, ts, ⟨l, r, rfl, hl, hr⟩, hn, rfl⟩ | ⟨t, ts, rfl, ht, hn, rfl⟩)
    · exact .full h hl
    · exact .elided (.inr hl) hr hn
    · have := V6Text.elided (l := []) (hs := []) (.inl ⟨rfl, rfl⟩) ht (by simpa using hn)
      simpa using this

/-- The groups of an IPv6 address, as `parseIPv6` reads them. -/
theorem v6_iff (s : Str) (out : List Nat) :
    (match s with
      | [':', ':'] => some (List.replicate 8 0)
      | ':' :: ':' :: t => (v6Loop 8 [] (some 0) t).bind v6Expand
      | _ => (v6Loop 8 [] none s).bind v6Expand) = some out ↔ V6Text s out := by
  rw [v6Text_iff]
  split
  · constructor
    · intro h
      cases h
      exact .inr (.inr ⟨[], [], rfl, .inl ⟨rfl, rfl⟩, by simp, by simp⟩)
    · rintro (⟨ts, h, -⟩ | ⟨_, ts, h, -⟩ | ⟨t, ts, h, ht, -, rfl⟩)
      · exact (not_tail_colon _ _ h).elim
      · exact (not_elided_colon _ _ _ h).elim
      · simp only [List.cons.injEq, true_and] at h
        subst h
        rcases ht with ⟨-, rfl⟩ | ht
        · simp
        · exact (not_tail_nil _ ht).elim
  · rename_i t hne
    have hne' : t ≠ [] := by rintro rfl; exact hne rfl
    rw [v6Loop_after 8 [] 0 t out (by simp) (by simp) hne']
    simp only [List.length_nil, Nat.zero_add, List.take_nil, List.drop_nil, List.nil_append]
    constructor
    · rintro ⟨ts, ht, h1, h2⟩
      exact .inr (.inr ⟨t, ts, rfl, .inr ht, h1, h2⟩)
    · rintro (⟨ts, h, -⟩ | ⟨_, ts, h, -⟩ | ⟨t', ts, h, ht, h1, h2⟩)
      · exact (not_tail_colon _ _ h).elim
      · exact (not_elided_colon _ _ _ h).elim
      · simp only [List.cons.injEq, true_and] at h
        subst h
        rcases ht with ⟨rfl, -⟩ | ht
        · exact (hne' rfl).elim
        · exact ⟨ts, ht, h1, h2⟩
  · rename_i h1 h2
    by_cases hs : s = []
    · subst hs
      constructor
      · intro h
        simp [v6Loop] at h
      · rintro (⟨ts, h, -⟩ | ⟨_, ts, h, -⟩ | ⟨t', ts, h, -⟩)
        · exact (not_tail_nil _ h).elim
        · exact (not_elided_nil _ _ h).elim
        · cases h
    · rw [v6Loop_before 8 [] s out (by simp) hs]
      simp only [List.length_nil, Nat.zero_add, List.nil_append]
      constructor
      · rintro (h | h)
        · exact .inl h
        · exact .inr (.inl h)
      · rintro (h | h | ⟨t, ts, h, -⟩)
        · exact .inl h
        · exact .inr h
        · exact (h2 _ h).elim

/-! ## Addresses and prefixes -/

theorem quad_chars {s : Str} {a : Nat} (h : Quad s a) : ∃ u t, s = u ++ '.' :: t ∧ ∀ c ∈ u, isDec c = true := by
  obtain ⟨s1, s2, s3, s4, n1, n2, n3, n4, rfl, h1, -⟩ := h
  exact ⟨s1, _, rfl, (numeral_chars h1).2⟩

/-- The first separator of an IPv6 address is a colon. -/
theorem v6Text_colon {s : Str} {gs : List Nat} (h : V6Text s gs) : ∃ u t, s = u ++ ':' :: t ∧ ∀ c ∈ u, (hexDigit c).isSome = true := by
  have hg : ∀ {s v}, Group s v → ∀ c ∈ s, (hexDigit c).isSome = true := fun h => ((group_iff _ _).mp h).2.2.1
  cases h with
  | full h hl =>
    cases h with
    | one h => simp at hl
    | quad h => simp at hl
    | cons h ht => exact ⟨_, _, rfl, hg h⟩
  | elided hl _ _ =>
    rcases hl with ⟨rfl, -⟩ | hl
    · exact ⟨[], _, rfl, by simp⟩
    · cases hl with
      | one h => exact ⟨_, _, rfl, hg h⟩
      | cons h ht => exact ⟨_, _, by rw [List.append_assoc]; rfl, hg h⟩

theorem addrText_iff (s : Str) (a : Addr) : parseAddr s = some a ↔ AddrText s a := by
  have fs : ∀ {u t : Str} {x : Char}, (∀ c ∈ u, (hexDigit c).isSome = true) → (x == '.' || x == ':' || x == '%') = true →
      (u ++ x :: t).find? (fun c => c == '.' || c == ':' || c == '%') = some x := by
    intro u t x hu hx
    rw [List.find?_append, List.find?_eq_none.mpr, List.find?_cons_of_pos (by exact hx)]
    · rfl
    · intro c hc h
      have := hu c hc
      simp only [Bool.or_eq_true, beq_iff_eq] at h
      rcases h with (rfl | rfl) | rfl <;> exact absurd this (by decide)
  constructor
  · intro h
    unfold parseAddr at h
    split at h
    · simp only [Option.map_eq_some_iff] at h
      obtain ⟨n, h4, rfl⟩ := h
      exact .v4 ((quad_iff _ _).mpr h4)
    · simp only [Option.map_eq_some_iff] at h
      obtain ⟨n, h6, rfl⟩ := h
      unfold parseIPv6 at h6
      simp only [Option.map_eq_some_iff] at h6
      obtain ⟨gs, hg, rfl⟩ := h6
      exact .v6 ((v6_iff s gs).mp hg)
    · cases h
  · intro h
    cases h with
    | v4 h =>
      obtain ⟨u, t, he, hu⟩ := quad_chars h
      have hf := fs (t := t) (x := '.') (fun c hc => isDec_hex (hu c hc)) rfl
      rw [← he] at hf
      unfold parseAddr
      simp only [hf, (quad_iff _ _).mp h, Option.map_some]
    | v6 h =>
      obtain ⟨u, t, he, hu⟩ := v6Text_colon h
      have hf := fs (t := t) (x := ':') hu rfl
      rw [← he] at hf
      unfold parseAddr
      simp only [hf]
      unfold parseIPv6
      have := (v6_iff s _).mpr h
      exact congrArg (fun o => Option.map (fun a => Addr.v6 (BitVec.ofNat 128 a)) (Option.map _ o)) this

theorem addrText_ne_zero {s : Str} {a : Addr} (h : AddrText s a) : a ≠ Addr.zero := by cases h <;> exact fun h => Addr.noConfusion h

theorem prefixText_iff (s : Str) (p : Prefix) : parsePrefix s = some p ↔ PrefixText s p := by
  constructor
  · intro h
    unfold parsePrefix at h
    cases hs : splitLast '/' s with
    | none => simp only [hs] at h; cases h
    | some ab =>
      obtain ⟨a, b⟩ := ab
      simp only [hs] at h
      cases ha : parseAddr a with
      | none => simp only [ha] at h; cases h
      | some ip =>
        simp only [ha] at h
        split at h
        · cases h
        · rename_i hz
          cases hd : parseDec b with
          | none => simp only [hd] at h; cases h
          | some n =>
            simp only [hd] at h
            split at h
            · rename_i hn
              cases h
              have : (Prefix.from' ip n) = ⟨ip, n + 1⟩ := by unfold Prefix.from'; simp [hn, addrText_ne_zero ((addrText_iff _ _).mp ha)]
              rw [this]
              exact ⟨a, b, n, (splitLast_eq hs).1, (addrText_iff _ _).mp ha, (numeral_iff _ _).mpr ⟨hd, hz⟩, hn, rfl⟩
            · cases h
  · rintro ⟨t, l, n, rfl, ha, hl, hn, hp⟩
    obtain ⟨hd, hz⟩ := (numeral_iff _ _).mp hl
    have hns : '/' ∉ l := fun hm => (isDec_not ((numeral_chars hl).2 _ hm)).2.2.1 rfl
    unfold parsePrefix
    rw [splitLast_append hns]
    simp only [(addrText_iff _ _).mpr ha]
    rw [if_neg hz]
    simp only [hd]
    rw [if_pos hn]
    have : (Prefix.from' p.ip n) = ⟨p.ip, n + 1⟩ := by unfold Prefix.from'; simp [hn, addrText_ne_zero ha]
    rw [this, ← hp]

theorem no_prefixText (s : Str) : parsePrefix s = none ↔ ∀ p, ¬ PrefixText s p := by
  simp only [← prefixText_iff]
  cases parsePrefix s <;> simp

theorem splitFirst_eq {x : Char} {s a b : Str} (h : splitFirst x s = some (a, b)) : s = a ++ x :: b := by
  induction s generalizing a b with
  | nil => cases h
  | cons c s ih =>
    simp only [splitFirst] at h
    split at h
    · rename_i hc; cases h; rw [hc]; rfl
    · simp only [Option.map_eq_some_iff] at h
      obtain ⟨⟨a', b'⟩, h1, h2⟩ := h
      cases h2
      rw [ih h1]
      rfl

theorem cidrText_iff (s : Str) (n : Nat) : parseCIDR s = some n ↔ CidrText s n := by
  constructor
  · intro h
    unfold parseCIDR at h
    cases hs : splitFirst '/' s with
    | none => simp only [hs] at h; cases h
    | some ab =>
      obtain ⟨a, b⟩ := ab
      simp only [hs] at h
      cases ha : parseAddr a with
      | none => simp only [ha] at h; cases h
      | some ip =>
        simp only [ha] at h
        cases hd : parseDec b with
        | none => simp only [hd] at h; cases h
        | some m =>
          simp only [hd] at h
          split at h
          · rename_i hn
            cases h
            exact ⟨a, b, ip, splitFirst_eq hs, (addrText_iff _ _).mp ha, (denotes_iff _ _).mpr hd, hn⟩
          · cases h
  · rintro ⟨t, l, a, rfl, ha, hl, hn⟩
    rw [← addrText_iff] at ha
    rw [denotes_iff] at hl
    unfold parseCIDR
    rw [splitFirst_append (parseAddr_no_slash ha)]
    simp only [ha, hl]
    rw [if_pos hn]

theorem no_cidrText (s : Str) : parseCIDR s = none ↔ ∀ n, ¬ CidrText s n := by
  simp only [← cidrText_iff]
  cases parseCIDR s <;> simp

/-! ## Hexadecimal -/

theorem hexText_iff (s : Str) (b : Bytes) : hexDecode s = (b, true) ↔ HexText s b := by
  constructor
  · intro h
    fun_induction hexDecode s generalizing b with
    | case1 => cases h; exact .nil
    | case2 => cases h
    | case3 a c l x y hc ha r ok hr ih =>
      simp only [Prod.mk.injEq] at h
      obtain ⟨rfl, rfl⟩ := h
      rw [Nat.mul_comm]
      exact .cons (by rw [hexValueOf_eq, ha]) (by rw [hexValueOf_eq, hc]) (ih _ hr)
    | case4 => cases h
  · intro h
    induction h with
    | nil => rfl
    | cons ha hb _ ih =>
      rw [hexValueOf_eq] at ha hb
      simp only [hexDecode, ha, hb, ih, Nat.mul_comm]

end StayRTR
