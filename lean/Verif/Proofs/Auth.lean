import Verif.Spec.Auth

/-!
# Lemmas on base64, lines and key fields
-/

namespace StayRTR

open Spec

theorem bits_length {w : Nat} (b : BitVec w) : (bits b).length = w := by simp [bits]

theorem bits_inj {w : Nat} {a b : BitVec w} (h : bits a = bits b) : a = b := by
  apply BitVec.eq_of_getLsbD_eq
  intro i hi
  have := congrArg (fun l => l[w - 1 - i]?) h
  simp only [bits, List.getElem?_map] at this
  rw [List.getElem?_range (by omega)] at this
  simpa [show w - 1 - (w - 1 - i) = i by omega] using this

theorem bitsOf_cons (a : U8) (l : Bytes) : bitsOf (a :: l) = bits a ++ bitsOf l := by simp [bitsOf]

theorem bitsOf_length (l : Bytes) : (bitsOf l).length = 8 * l.length := by
  induction l with
  | nil => rfl
  | cons a l ih => rw [bitsOf_cons, List.length_append, bits_length, ih, List.length_cons]; omega

theorem bitsOf_prefix {a b : Bytes} {u v : List Bool} (hv : v.length < 8) (h : bitsOf a ++ u = bitsOf b ++ v) : a <+: b := by
  induction a generalizing b with
  | nil => exact List.nil_prefix
  | cons x a ih =>
    cases b with
    | nil =>
      have := congrArg List.length h
      rw [bitsOf_cons] at this
      simp only [List.length_append, bits_length, bitsOf_length, List.length_nil] at this
      omega
    | cons y b =>
      rw [bitsOf_cons, bitsOf_cons, List.append_assoc, List.append_assoc] at h
      obtain ⟨h1, h2⟩ := List.append_inj h (by rw [bits_length, bits_length])
      rw [bits_inj h1, List.prefix_cons_inj]
      exact ih h2

theorem sextet_b64Char : ∀ s : BitVec 6, sextet (b64Char s) = some s := by decide

theorem sextet_inj {a b : U8} {s : BitVec 6} (ha : sextet a = some s) (hb : sextet b = some s) : a = b := by
  have key : ∀ a : U8, sextet a = none ∨ ∃ s, sextet a = some s ∧ b64Char s = a := by decide +kernel
  rcases key a with h | ⟨x, hx, rfl⟩
  · rw [ha] at h; cases h
  · rcases key b with h | ⟨y, hy, rfl⟩
    · rw [hb] at h; cases h
    · rw [ha] at hx; rw [hb] at hy
      cases hx; cases hy; rfl

theorem textBits_char (s : BitVec 6) (l : Bytes) : textBits (b64Char s :: l) = bits s ++ textBits l := by
  rw [textBits, sextet_b64Char]

theorem bits_group (a b c : U8) :
    bits (b64Six (b64Val a b c) 18) ++ (bits (b64Six (b64Val a b c) 12) ++ (bits (b64Six (b64Val a b c) 6) ++ bits (b64Six (b64Val a b c) 0))) = bits a ++ (bits b ++ bits c) := by
  simp [bits, List.range, List.range.loop, b64Six, b64Val]

theorem bits_two (a b : U8) :
    bits (b64Six (b64Val a b 0) 18) ++ (bits (b64Six (b64Val a b 0) 12) ++ bits (b64Six (b64Val a b 0) 6)) = bits a ++ (bits b ++ [false, false]) := by
  simp [bits, List.range, List.range.loop, b64Six, b64Val]

theorem bits_one (a : U8) : bits (b64Six (b64Val a 0 0) 18) ++ bits (b64Six (b64Val a 0 0) 12) = bits a ++ [false, false, false, false] := by
  simp [bits, List.range, List.range.loop, b64Six, b64Val]

/-- The bits of an encoding followed by anything. -/
theorem textBits_raw (blob rest : Bytes) : ∃ n < 6, textBits (rawBase64 blob ++ rest) = bitsOf blob ++ (List.replicate n false ++ textBits rest) := by
  fun_induction rawBase64 blob with
  | case1 a b c l ih =>
    obtain ⟨n, hn, h⟩ := ih
    refine ⟨n, hn, ?_⟩
    simp only [List.cons_append, textBits_char, h, bitsOf_cons]
    have := congrArg (· ++ (bitsOf l ++ (List.replicate n false ++ textBits rest))) (bits_group a b c)
    simpa [List.append_assoc] using this
  | case2 a b =>
    refine ⟨2, by omega, ?_⟩
    simp only [List.cons_append, List.nil_append, textBits_char, bitsOf_cons]
    have := congrArg (· ++ textBits rest) (bits_two a b)
    simpa [List.append_assoc, bitsOf, List.replicate] using this
  | case3 a =>
    refine ⟨4, by omega, ?_⟩
    simp only [List.cons_append, List.nil_append, textBits_char, bitsOf_cons]
    have := congrArg (· ++ textBits rest) (bits_one a)
    simpa [List.append_assoc, bitsOf, List.replicate] using this
  | case4 => exact ⟨0, by omega, by simp [bitsOf]⟩

theorem textBits_length (t : Bytes) : (textBits t).length % 6 = 0 := by
  induction t with
  | nil => rfl
  | cons c t ih =>
    rw [textBits]
    split
    · rw [List.length_append, bits_length]; omega
    · rfl

theorem raw_chars (blob : Bytes) : ∀ c ∈ rawBase64 blob, ∃ s, sextet c = some s := by
  fun_induction rawBase64 blob with
  | case1 a b c l ih =>
    intro x hx
    simp only [List.mem_cons] at hx
    rcases hx with rfl | rfl | rfl | rfl | hx
    · exact ⟨_, sextet_b64Char _⟩
    · exact ⟨_, sextet_b64Char _⟩
    · exact ⟨_, sextet_b64Char _⟩
    · exact ⟨_, sextet_b64Char _⟩
    · exact ih x hx
  | case2 a b =>
    intro x hx
    simp only [List.mem_cons, List.not_mem_nil, or_false] at hx
    rcases hx with rfl | rfl | rfl <;> exact ⟨_, sextet_b64Char _⟩
  | case3 a =>
    intro x hx
    simp only [List.mem_cons, List.not_mem_nil, or_false] at hx
    rcases hx with rfl | rfl <;> exact ⟨_, sextet_b64Char _⟩
  | case4 => intro x hx; cases hx

theorem textBits_prefix {t1 t2 : Bytes} (hc : ∀ c ∈ t1, ∃ s, sextet c = some s) (h : textBits t1 <+: textBits t2) : t1 <+: t2 := by
  induction t1 generalizing t2 with
  | nil => exact List.nil_prefix
  | cons c t1 ih =>
    obtain ⟨s, hs⟩ := hc c List.mem_cons_self
    rw [textBits, hs] at h
    obtain ⟨r, hr⟩ := h
    cases t2 with
    | nil =>
      have := congrArg List.length hr
      simp [textBits, bits_length] at this
    | cons d t2 =>
      rw [textBits] at hr
      cases hd : sextet d with
      | none =>
        rw [hd] at hr
        have := congrArg List.length hr
        simp [bits_length] at this
      | some s' =>
        rw [hd] at hr
        simp only [List.append_assoc] at hr
        obtain ⟨h1, h2⟩ := List.append_inj hr (by rw [bits_length, bits_length])
        have := bits_inj h1
        subst this
        rw [sextet_inj hs hd, List.prefix_cons_inj]
        exact ih (fun c h => hc c (List.mem_cons_of_mem _ h)) ⟨r, h2⟩

/-- Every proper encoding of the bytes starts with the one computed. -/
theorem raw_prefix {text blob : Bytes} (h : EncodesExactly text blob) : rawBase64 blob <+: text := by
  obtain ⟨n, hn, ht⟩ := h
  obtain ⟨m, hm, hr⟩ := textBits_raw blob []
  simp only [textBits, List.append_nil] at hr
  apply textBits_prefix (raw_chars blob)
  rw [hr, ht, List.prefix_append_right_inj]
  have h1 := textBits_length text
  have h2 := textBits_length (rawBase64 blob)
  rw [ht, List.length_append, bitsOf_length, List.length_replicate] at h1
  rw [hr, List.length_append, bitsOf_length, List.length_replicate] at h2
  exact ⟨List.replicate (n - m) false, by rw [List.replicate_append_replicate]; congr 1; omega⟩

theorem splitLines_ne (text : Bytes) : splitLines text ≠ [] := by
  cases text with
  | nil => simp [splitLines]
  | cons c l =>
    rw [splitLines]
    split
    · simp
    · split <;> simp

/-- `splitLines` gives the lines. -/
theorem splitLines_lines {text : Bytes} {ls : List Bytes} (h : Lines text ls) : splitLines text = ls := by
  obtain ⟨hne, hno, rfl⟩ := h
  induction ls with
  | nil => exact absurd rfl hne
  | cons x ls ih =>
    have hx : (10 : U8) ∉ x := hno x List.mem_cons_self
    have single : ∀ (x : Bytes) (rest : Bytes) (out : List Bytes), (10 : U8) ∉ x → splitLines rest = [] :: out → splitLines (x ++ rest) = x :: out := by
      intro x
      induction x with
      | nil => intro rest out _ h; exact h
      | cons c x ihx =>
        intro rest out hn h
        simp only [List.mem_cons, not_or] at hn
        rw [List.cons_append, splitLines, if_neg (fun h => hn.1 h.symm), ihx rest out hn.2 h]
    cases ls with
    | nil =>
      have := single x [] [] hx rfl
      simpa [List.intercalate] using this
    | cons y ls =>
      have i := ih (by simp) (fun l h => hno l (List.mem_cons_of_mem _ h))
      have := single x (10 :: [(10 : U8)].intercalate (y :: ls)) (y :: ls) hx (by rw [splitLines, if_pos rfl, i])
      refine Eq.trans (congrArg splitLines ?_) this
      simp [List.intercalate]

theorem fields_delimit {fs : List KeyField} {a b u v : Bytes} (ha : Fields fs a) (hb : Fields fs b) (h : a ++ u = b ++ v) : a = b ∧ u = v := by
  induction fs generalizing a b with
  | nil =>
    rw [Fields] at ha hb
    subst ha; subst hb
    exact ⟨rfl, h⟩
  | cons f fs ih =>
    cases f with
    | fixed n =>
      rw [Fields] at ha hb
      obtain ⟨x, y, hx, rfl, hy⟩ := ha
      obtain ⟨x', y', hx', rfl, hy'⟩ := hb
      rw [List.append_assoc, List.append_assoc] at h
      obtain ⟨h1, h2⟩ := List.append_inj h (by rw [hx, hx'])
      obtain ⟨h3, h4⟩ := ih hy hy' h2
      exact ⟨by rw [h1, h3], h4⟩
    | string =>
      rw [Fields] at ha hb
      obtain ⟨x, y, hx, rfl, hy⟩ := ha
      obtain ⟨x', y', hx', rfl, hy'⟩ := hb
      simp only [List.append_assoc] at h
      obtain ⟨h1, h2⟩ := List.append_inj h (by simp [beBytes])
      have hl : x.length = x'.length := by
        have e : ∀ n : Nat, n < 2 ^ 32 → beNat (beBytes 4 n) = n := by
          intro n hn
          simp [beBytes, beNat]
          omega
        rw [← e x.length hx, h1, e x'.length hx']
      obtain ⟨h3, h4⟩ := List.append_inj h2 hl
      obtain ⟨h5, h6⟩ := ih hy hy' h4
      exact ⟨by rw [h3, h5], h6⟩

theorem space_split {a b u v : Bytes} (ha : (32 : U8) ∉ a) (hb : (32 : U8) ∉ b) (h : a ++ 32 :: u = b ++ 32 :: v) : a = b ∧ u = v := by
  induction a generalizing b with
  | nil =>
    cases b with
    | nil => simpa using h
    | cons y b =>
      simp only [List.nil_append, List.cons_append, List.cons.injEq] at h
      exact absurd (by rw [← h.1]; exact List.mem_cons_self) hb
  | cons x a ih =>
    cases b with
    | nil =>
      simp only [List.nil_append, List.cons_append, List.cons.injEq] at h
      exact absurd (by rw [h.1]; exact List.mem_cons_self) ha
    | cons y b =>
      simp only [List.cons_append, List.cons.injEq] at h
      simp only [List.mem_cons, not_or] at ha hb
      obtain ⟨h1, h2⟩ := ih ha.2 hb.2 h.2
      exact ⟨by rw [h.1, h1], h2⟩

/-- A line that lists one key matches no other. -/
theorem keyLine_sound {layout : Bytes → List KeyField} {k k' : SshKey} {line : Bytes} (hk : ProperKey layout k) (hk' : ProperKey layout k') (hl : LineLists line k') (h : keyLine k <+: line) : k = k' := by
  obtain ⟨text, rfl, rest, hr, ht⟩ := hl
  obtain ⟨r, hr'⟩ := h
  rw [keyLine, List.append_assoc, List.cons_append] at hr'
  obtain ⟨h1, h2⟩ := space_split hk.1 hk'.1 hr'
  obtain ⟨n, _, hb⟩ := textBits_raw k.blob r
  rw [h2, ht] at hb
  obtain ⟨w, hw⟩ := bitsOf_prefix hr hb.symm
  have hf := hk'.2
  rw [← h1] at hf
  have := (fields_delimit (u := w) (v := []) hk.2 hf (by rw [hw, List.append_nil])).1
  cases k; cases k'
  simp_all

end StayRTR
