import Verif.Props.Log

/-!
# C163: what an entry shows

The characters that stand in the entries of a log file.
-/

namespace StayRTR
open Spec

/-- A character that is shown: printable ASCII, or one that `isPrint` says is printable. -/
def Spec.Legible (isPrint : Char → Bool) (c : Char) : Prop := if c.toNat < 0x80 then 0x20 ≤ c.toNat ∧ c.toNat ≤ 0x7e else isPrint c = true

instance Spec.Legible.dec (isPrint : Char → Bool) (c : Char) : Decidable (Legible isPrint c) := by unfold Legible; infer_instance

/-- A text of characters that are shown. -/
def AllLegible (isPrint : Char → Bool) (s : Str) : Prop := ∀ c ∈ s, Legible isPrint c

theorem shown_ascii {isPrint : Char → Bool} {c : Char} (h : 0x20 ≤ c.toNat ∧ c.toNat ≤ 0x7e) : Legible isPrint c := by
  unfold Legible
  rw [if_pos (by omega)]
  exact h

theorem shown_digit {isPrint : Char → Bool} (n : Nat) (h : n < 16) : Legible isPrint (Nat.digitChar n) :=
  shown_ascii ((by decide : ∀ n : Fin 16, 0x20 ≤ (Nat.digitChar n).toNat ∧ (Nat.digitChar n).toNat ≤ 0x7e) ⟨n, h⟩)

theorem shown_hexFixed {isPrint : Char → Bool} : ∀ (k n : Nat), AllLegible isPrint (hexFixed k n)
  | 0, _ => fun c hc => by cases hc
  | k + 1, n => fun c hc => by
    rcases List.mem_cons.mp hc with rfl | hc
    · exact shown_digit _ (Nat.mod_lt _ (by decide))
    · exact shown_hexFixed k n c hc

theorem allShown_of {isPrint : Char → Bool} {s : Str} (h : ∀ c ∈ s, 0x20 ≤ c.toNat ∧ c.toNat ≤ 0x7e) : AllLegible isPrint s := fun c hc => shown_ascii (h c hc)

theorem shown_two {isPrint : Char → Bool} {e : Char} (he : 0x20 ≤ e.toNat ∧ e.toNat ≤ 0x7e) (k n : Nat) : AllLegible isPrint ('\\' :: e :: hexFixed k n) := fun c hc => by
  rcases List.mem_cons.mp hc with rfl | hc
  · exact shown_ascii (by decide)
  · rcases List.mem_cons.mp hc with rfl | hc
    · exact shown_ascii he
    · exact shown_hexFixed k n c hc

theorem quote_shown (isPrint : Char → Bool) (x : Char ⊕ U8) : AllLegible isPrint (quoteRune isPrint x) := by
  cases x with
  | inr b =>
    intro c hc
    have hb := b.isLt
    rcases List.mem_cons.mp hc with rfl | hc
    · exact shown_ascii (by decide)
    · rcases List.mem_cons.mp hc with rfl | hc
      · exact shown_ascii (by decide)
      · unfold hexByte at hc
        simp only [List.mem_cons, List.not_mem_nil, or_false] at hc
        rcases hc with rfl | rfl
        · exact shown_digit _ (by omega)
        · exact shown_digit _ (by omega)
  | inl c =>
    rw [quoteRune.eq_2]
    refine ite_cases (Q := AllLegible isPrint) (fun h1 => ?_) fun h1 => ?_
    · rcases h1 with rfl | rfl <;> exact allShown_of (by decide)
    refine ite_cases (Q := AllLegible isPrint) (fun h2 => ?_) fun h2 => ?_
    · intro d hd
      have := List.mem_singleton.mp hd
      subst this
      unfold Legible
      by_cases h : d.toNat < 0x80
      · rw [if_pos h] at h2 ⊢
        exact of_decide_eq_true h2
      · rw [if_neg h] at h2 ⊢
        exact h2
    refine ite_cases (Q := AllLegible isPrint) (fun _ => allShown_of (by decide)) fun _ => ?_
    refine ite_cases (Q := AllLegible isPrint) (fun _ => allShown_of (by decide)) fun _ => ?_
    refine ite_cases (Q := AllLegible isPrint) (fun _ => allShown_of (by decide)) fun _ => ?_
    refine ite_cases (Q := AllLegible isPrint) (fun _ => allShown_of (by decide)) fun _ => ?_
    refine ite_cases (Q := AllLegible isPrint) (fun _ => allShown_of (by decide)) fun _ => ?_
    refine ite_cases (Q := AllLegible isPrint) (fun _ => allShown_of (by decide)) fun _ => ?_
    refine ite_cases (Q := AllLegible isPrint) (fun _ => allShown_of (by decide)) fun _ => ?_
    refine ite_cases (Q := AllLegible isPrint) (fun _ => shown_two (by decide) 2 _) fun _ => ?_
    exact ite_cases (Q := AllLegible isPrint) (fun _ => shown_two (by decide) 4 _) fun _ => shown_two (by decide) 8 _

theorem plain_shown {isPrint : Char → Bool} {c : Char} (h : plainRune (.inl c) = true) : Legible isPrint c := by
  unfold plainRune at h
  rw [Bool.or_eq_true, decide_eq_true_iff, decide_eq_true_iff] at h
  refine shown_ascii ?_
  rcases h with h | h
  · have : 'a'.toNat = 97 ∧ 'z'.toNat = 122 ∧ 'A'.toNat = 65 ∧ 'Z'.toNat = 90 ∧ '0'.toNat = 48 ∧ '9'.toNat = 57 := by decide
    omega
  · exact (by decide : ∀ c ∈ ['-', '.', '_', '/', '@', '^', '+'], 0x20 ≤ c.toNat ∧ c.toNat ≤ 0x7e) c h

theorem plain_text {xs : List (Char ⊕ U8)} (h : xs.all plainRune = true) (isPrint : Char → Bool) : ∃ s, xs.flatMap runeBytes = utf8Str s ∧ AllLegible isPrint s := by
  induction xs with
  | nil => exact ⟨[], rfl, fun c hc => by cases hc⟩
  | cons x xs ih =>
    rw [List.all_cons, Bool.and_eq_true] at h
    obtain ⟨s, h1, h2⟩ := ih h.2
    cases x with
    | inr b => exact absurd h.1 (by simp [plainRune])
    | inl c =>
      refine ⟨c :: s, ?_, fun d hd => ?_⟩
      · rw [List.flatMap_cons, h1]; rfl
      · rcases List.mem_cons.mp hd with rfl | hd
        · exact plain_shown h.1
        · exact h2 d hd

theorem logValue_shown (isPrint : Char → Bool) (b : Bytes) : ∃ s, logValue isPrint b = utf8Str s ∧ AllLegible isPrint s := by
  unfold logValue
  by_cases h : (logRunes 0 b).all plainRune = true
  · rw [if_pos h]
    obtain ⟨s, h1, h2⟩ := plain_text h isPrint
    exact ⟨s, by rw [← h1, logRunes_back], h2⟩
  · rw [if_neg h]
    refine ⟨_, rfl, fun c hc => ?_⟩
    rcases List.mem_cons.mp hc with rfl | hc
    · exact shown_ascii (by decide)
    · rcases List.mem_append.mp hc with hc | hc
      · obtain ⟨x, -, hx⟩ := List.mem_flatMap.mp hc
        exact quote_shown isPrint x c hx
      · rw [List.mem_singleton.mp hc]
        exact shown_ascii (by decide)

/-- **C163** Whatever the message, an entry in a file is, but for the line feed at its end, a text in UTF-8 of characters that are shown: no control character, no escape sequence for the terminal of someone who reads the log,
no byte that is not UTF-8. -/
theorem C163_shown (isPrint : Char → Bool) (t : Str) (l : LogLevel) (m : Bytes) : ∃ s, logEntry isPrint t l m = utf8Str s ++ [10] ∧ ∀ c ∈ s, Legible isPrint c := by
  have a1 : asciiBytes "time=".toList = utf8Str "time=".toList ∧ asciiBytes " level=".toList = utf8Str " level=".toList ∧ asciiBytes " msg=".toList = utf8Str " msg=".toList := by decide +kernel
  have a2 : (∀ c ∈ "time=".toList, 0x20 ≤ c.toNat ∧ c.toNat ≤ 0x7e) ∧ (∀ c ∈ " level=".toList, 0x20 ≤ c.toNat ∧ c.toNat ≤ 0x7e) ∧ ∀ c ∈ " msg=".toList, 0x20 ≤ c.toNat ∧ c.toNat ≤ 0x7e := by decide +kernel
  obtain ⟨s1, h1, k1⟩ := logValue_shown isPrint (asciiBytes t)
  obtain ⟨s2, h2, k2⟩ := logValue_shown isPrint (asciiBytes l.text)
  obtain ⟨s3, h3, k3⟩ : ∃ s, (if m ≠ [] then asciiBytes " msg=".toList ++ logValue isPrint m else []) = utf8Str s ∧ AllLegible isPrint s := by
    by_cases hm : m = []
    · rw [if_neg (not_not.mpr hm)]
      exact ⟨[], rfl, fun c hc => by cases hc⟩
    · rw [if_pos hm]
      obtain ⟨s, h, k⟩ := logValue_shown isPrint m
      refine ⟨" msg=".toList ++ s, ?_, fun c hc => (List.mem_append.mp hc).elim (fun h => shown_ascii (a2.2.2 c h)) (k c)⟩
      rw [a1.2.2, h]
      exact (List.flatMap_append ..).symm
  refine ⟨"time=".toList ++ s1 ++ " level=".toList ++ s2 ++ s3, ?_, ?_⟩
  · unfold logEntry
    rw [h1, h2, h3, a1.1, a1.2.1]
    simp only [utf8Str, List.flatMap_append]
  · intro c hc
    simp only [List.mem_append] at hc
    rcases hc with (((h | h) | h) | h) | h
    · exact shown_ascii (a2.1 c h)
    · exact k1 c h
    · exact shown_ascii (a2.2.1 c h)
    · exact k2 c h
    · exact k3 c h

/-- A message that would colour the terminal and ring its bell. -/
example : logEntry (fun _ => true) "1".toList .info [27, 91, 51, 49, 109, 7] = utf8Str "time=1 level=info msg=\"\\x1b[31m\\a\"".toList ++ [10] := by decide +kernel

end StayRTR
