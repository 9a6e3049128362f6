import Verif.Proofs.Json

/-!
# C103, C104: reading the files as JSON
-/

namespace StayRTR

open Spec

/-- **C103.** Any bytes are read as exactly one text: their UTF-8, and U+FFFD for each byte at which no character of UTF-8 begins. -/
theorem C103_characters (b : Bytes) : ∃ s, Repaired b s ∧ (∀ s', Repaired b s' → s' = s) ∧ ∀ s', Utf8 b s' → s' = s :=
  ⟨goRunes 0 b, repaired_goRunes b, fun _ h => (goRunes_repaired h).symm, fun _ h => (goRunes_utf8 h).symm⟩

/-- An overlong slash, half a surrogate pair, and an e with accent cut off. -/
example : Repaired [0xC0, 0xAF, 0xED, 0xA0, 0x80, 0xC3] (List.replicate 6 '\uFFFD') :=
  (by decide +kernel : goRunes 0 [0xC0, 0xAF, 0xED, 0xA0, 0x80, 0xC3] = List.replicate 6 '\uFFFD') ▸ repaired_goRunes _

/-- **C103.** The bytes of a file are read as a value other than a bare number exactly if their text begins with a JSON text (RFC 8259) for that value, nested at most 10000 deep; white space may come before it. -/
theorem C103_read (b : Bytes) (s : Str) (hu : Repaired b s) (v : Json) (hv : ∀ l, v ≠ .num l) : readJson (goRunes 0 b) = some v ↔ FirstValue s v := by
  rw [goRunes_repaired hu]
  exact readJson_iff s hv

/-- **C103.** No text begins with JSON texts for two values, bare numbers apart. -/
theorem C103_unambiguous (s : Str) (v v' : Json) (hv : ∀ l, v ≠ .num l) (hv' : ∀ l, v' ≠ .num l) (h : FirstValue s v) (h' : FirstValue s v') : v = v' := by
  have := (readJson_iff s hv).2 h
  rw [(readJson_iff s hv').2 h'] at this
  cases this; rfl

/-- **C103.** A file that does not begin with a JSON text is refused, as a cache file and as a SLURM file. -/
theorem C103_refused (b : Bytes) (s : Str) (hu : Repaired b s) (h : ∀ v, ¬ FirstValue s v) : decodeFile b = none ∧ decodeSlurmFile b = none := by
  have : readJson (goRunes 0 b) = none := by
    cases hr : readJson (goRunes 0 b) with
    | none => rfl
    | some v => rw [goRunes_repaired hu] at hr; exact (h v (readJson_first hr)).elim
  unfold decodeFile decodeSlurmFile
  rw [this]
  exact ⟨rfl, rfl⟩

/-- A text with white space, an escape, a surrogate pair, a number with exponent, and something behind it. -/
example : FirstValue " {\"a\\u0041\" : [1e+2, \"\\ud83d\\ude00\"]} x".toList (.obj [("aA".toList, .arr [.num "1e+2".toList, .str [Char.ofNat 0x1F600]])]) ∧
    Utf8 (utf8Str "é".toList) "é".toList ∧ readJson "{\"a\": 01}".toList = none := by
  refine ⟨readJson_first (by rfl), utf8_str _, by rfl⟩

/-- The text is nothing but a JSON text, with white space around it. -/
def WholeText (s : Str) (v : Json) : Prop := ∃ a t b, s = a ++ (t ++ b) ∧ Ws a ∧ Ws b ∧ JText 10000 v t

/-- **C103.** What comes behind the JSON text is not looked at: a file that is no JSON text loads. -/
theorem C103_trailing_false : ∃ b s, Utf8 b s ∧ decodeFile b = some .empty ∧ decodeSlurmFile b ≠ none ∧ ∀ v, ¬ WholeText s v := by
  refine ⟨utf8Str "{}x".toList, "{}x".toList, utf8_str _, by decide +kernel, by decide +kernel, ?_⟩
  rintro v ⟨a, t, b, he, ha, hb, ht⟩
  have hs : "{}x".toList = ['{', '}', 'x'] := by decide +kernel
  rw [hs] at he
  have hb0 : b = [] := by
    rcases b.eq_nil_or_concat with h | ⟨b', c, rfl⟩
    · exact h
    · have hl := congrArg List.getLast? he
      simp at hl
      have := hb c (by simp)
      rw [← hl] at this
      exact absurd this (by decide)
  subst hb0
  have ha0 : a = [] := by
    cases a with
    | nil => rfl
    | cons c a =>
      simp only [List.cons_append, List.cons.injEq] at he
      have := ha c (by simp)
      rw [← he.1] at this
      exact absurd this (by decide)
  subst ha0
  simp only [List.nil_append, List.append_nil] at he
  subst he
  generalize hx : ['{', '}', 'x'] = x at ht
  cases ht with
  | null => have := congrArg List.head? hx; revert this; decide +kernel
  | true => have := congrArg List.head? hx; revert this; decide +kernel
  | false => have := congrArg List.head? hx; revert this; decide +kernel
  | num h =>
    obtain ⟨d, l, he, hd⟩ := numText_head h
    rw [← hx] at he
    cases he
    revert hd
    decide
  | str h =>
    obtain ⟨raw, rfl, -⟩ := h
    cases hx
  | noElems => cases hx
  | elems => cases hx
  | noMembers =>
    have := congrArg List.getLast? hx
    revert this
    rw [← List.cons_append, List.getLast?_concat]
    decide
  | members =>
    have := congrArg List.getLast? hx
    revert this
    rw [← List.cons_append, List.getLast?_concat]
    decide

theorem utf8_small {b : Bytes} {s : Str} (h : Utf8 b s) : ∀ x ∈ b, x.toNat < 0xF8 := by
  induction h with
  | nil => simp
  | cons hc _ ih =>
    intro x hx
    rcases List.mem_append.1 hx with hx | hx
    · cases hc <;> simp only [List.mem_cons, List.not_mem_nil, or_false] at hx <;> rcases hx with rfl | rfl | rfl | rfl | hx <;> omega
    · exact ih x hx

/-- **C103.** A file that is not UTF-8 loads, if the bytes that are wrong stand inside strings. -/
theorem C103_utf8_false : ∃ b l, decodeFile b = some l ∧ ∀ s, ¬ Utf8 b s := by
  refine ⟨utf8Str "{\"".toList ++ 0xFF :: utf8Str "\":0}".toList, .empty, by decide +kernel, fun s h => ?_⟩
  have := utf8_small h 0xFF (by simp)
  revert this; decide

/-- **C104.** A cache file cut off anywhere is refused, or loads exactly as the whole file does. -/
theorem C104_cut (b : Bytes) (n : Nat) : decodeFile (b.take n) = none ∨ decodeFile (b.take n) = decodeFile b := by
  cases h : decodeFile (b.take n) with
  | none => exact .inl rfl
  | some l =>
    right
    unfold decodeFile at h ⊢
    split at h
    · cases h
    · rename_i j hj
      rw [readJson_take (decStruct_num (Option.map_eq_some_iff.1 h).choose_spec.1) hj]
      exact h.symm

/-- **C104.** Likewise a SLURM file. -/
theorem C104_slurm_cut (b : Bytes) (n : Nat) : decodeSlurmFile (b.take n) = none ∨ decodeSlurmFile (b.take n) = decodeSlurmFile b := by
  cases h : decodeSlurmFile (b.take n) with
  | none => exact .inl rfl
  | some l =>
    right
    unfold decodeSlurmFile at h ⊢
    split at h
    · cases h
    · rename_i j hj
      rw [readJson_take (decStruct_num h) hj]
      exact h.symm

/-- A file with one entry loads, and loads without its line end; without its last brace, or cut inside the entry, it does not. -/
example :
    let b := utf8Str "{\"roas\":[{\"prefix\":\"10.0.0.0/8\",\"maxLength\":8,\"asn\":1}]}\n".toList
    decodeFile b = some ⟨⟨0, [], none⟩, some [⟨"10.0.0.0/8".toList, 8, .float 1, [], none⟩], none⟩ ∧ decodeFile (b.take 56) = decodeFile b ∧ decodeFile (b.take 55) = none ∧ decodeFile (b.take 30) = none := by
  decide +kernel

end StayRTR
