import Verif.Model.Parse
import Verif.Proofs.Text
import Verif.Proofs.Parse

/-!
# Reading back what was printed
-/

namespace StayRTR

/-! ## Decimal numbers -/

theorem isDec_digitChar {d : Nat} (h : d < 10) : isDec (Nat.digitChar d) = true := by
  have : ∀ d : Fin 10, isDec (Nat.digitChar d.val) = true := by decide
  exact this ⟨d, h⟩

theorem digitChar_val {d : Nat} (h : d < 10) : (Nat.digitChar d).toNat - '0'.toNat = d := by
  have : ∀ d : Fin 10, (Nat.digitChar d.val).toNat - '0'.toNat = d.val := by decide
  exact this ⟨d, h⟩

theorem radixAux_dec (fuel n : Nat) (h : n ≤ fuel) : (∀ c ∈ radixAux 10 fuel n, isDec c = true) ∧ decVal (radixAux 10 fuel n) = n := by
  induction fuel generalizing n with
  | zero =>
    have : n = 0 := by omega
    subst this
    exact ⟨by decide, by decide⟩
  | succ f ih =>
    simp only [radixAux]
    split
    · refine ⟨?_, ?_⟩
      · intro c hc
        rw [List.mem_singleton.mp hc]
        exact isDec_digitChar (by omega)
      · simp only [decVal, List.foldl_cons, List.foldl_nil]
        rw [digitChar_val (by omega)]
        omega
    · obtain ⟨h1, h2⟩ := ih (n / 10) (by omega)
      refine ⟨?_, ?_⟩
      · intro c hc
        rcases List.mem_append.mp hc with hc | hc
        · exact h1 c hc
        · rw [List.mem_singleton.mp hc]
          exact isDec_digitChar (by omega)
      · unfold decVal at h2 ⊢
        rw [List.foldl_append, h2, List.foldl_cons, List.foldl_nil, digitChar_val (by omega)]
        omega

/-- Reading a printed number. -/
theorem parseDec_decStr (n : Nat) : parseDec (decStr n) = some n := by
  obtain ⟨h1, h2⟩ := radixAux_dec n n (Nat.le_refl _)
  unfold parseDec
  rw [if_pos ⟨decStr_ne_nil n, by rw [List.all_eq_true]; exact h1⟩]
  exact congrArg some h2

theorem radixAux_head {b fuel n : Nat} (hb : 2 ≤ b) (hb' : b ≤ 16) (h : n ≤ fuel) (hn : 0 < n) : (radixAux b fuel n).head? ≠ some '0' := by
  have hd : ∀ d : Fin 16, 0 < d.val → Nat.digitChar d.val ≠ '0' := by decide
  induction fuel generalizing n with
  | zero => omega
  | succ f ih =>
    simp only [radixAux]
    split
    · simp only [List.head?_cons, ne_eq, Option.some.injEq]
      exact hd ⟨n, by omega⟩ hn
    · rename_i hnb
      have hlt : n / b < n := Nat.div_lt_self (by omega) (by omega)
      have hpos : 0 < n / b := Nat.div_pos (by omega) (by omega)
      have hne := radixAux_ne_nil b f (n / b)
      have := ih (n := n / b) (by omega) hpos
      revert hne this
      cases radixAux b f (n / b) with
      | nil => intro h; exact absurd rfl h
      | cons c t => intro _ h; exact h

/-- Printed numbers have no leading zero. -/
theorem decStr_no_zero (n : Nat) : ¬ (2 ≤ (decStr n).length ∧ (decStr n).head? = some '0') := by
  rintro ⟨h1, h2⟩
  by_cases hn : 0 < n
  · exact radixAux_head (by omega) (by omega) (Nat.le_refl n) hn h2
  · have : n = 0 := by omega
    subst this
    revert h1
    decide

theorem octet_decStr {n : Nat} (h : n ≤ 255) : octet (decStr n) = some n := by
  unfold octet
  rw [parseDec_decStr]
  simp only
  rw [if_neg]
  rintro (h' | h')
  · exact decStr_no_zero n h'
  · omega

/-! ## Splitting -/

theorem splitOn_none {x : Char} {s : Str} (h : x ∉ s) : splitOn x s = [s] := by
  induction s with
  | nil => rfl
  | cons c s ih =>
    simp only [List.mem_cons, not_or] at h
    simp only [splitOn, if_neg (Ne.symm h.1), ih h.2]

theorem splitOn_append {x : Char} {s : Str} (h : x ∉ s) (t : Str) : splitOn x (s ++ x :: t) = s :: splitOn x t := by
  induction s with
  | nil => simp [splitOn]
  | cons c s ih =>
    simp only [List.mem_cons, not_or] at h
    simp only [List.cons_append, splitOn, if_neg (Ne.symm h.1), ih h.2]

theorem splitOn_joinWith {x : Char} {l : List Str} (hne : l ≠ []) (h : ∀ s ∈ l, x ∉ s) : splitOn x (joinWith x l) = l := by
  induction l with
  | nil => exact absurd rfl hne
  | cons s l ih =>
    cases l with
    | nil => exact splitOn_none (h s List.mem_cons_self)
    | cons s' l =>
      simp only [joinWith]
      rw [splitOn_append (h s List.mem_cons_self), ih (by simp) (fun t ht => h t (List.mem_cons_of_mem _ ht))]

/-! ## IPv4 addresses -/

theorem dot_not_dec (n : Nat) : '.' ∉ decStr n := not_mem_of_digits (decStr_digits n) (by unfold IsDigit; decide)

theorem parseIPv4_string4 (a : BitVec 32) : parseIPv4 (Addr.string4 a) = some a.toNat := by
  have ha := a.isLt
  unfold parseIPv4 Addr.string4
  rw [splitOn_joinWith (by simp) (by
    intro s hs
    simp only [List.mem_cons, List.not_mem_nil, or_false] at hs
    rcases hs with rfl | rfl | rfl | rfl <;> exact dot_not_dec _)]
  simp only [List.map_cons, List.map_nil]
  rw [octet_decStr (by omega), octet_decStr (by omega), octet_decStr (by omega), octet_decStr (by omega)]
  simp only [Option.some.injEq]
  omega

/-! ## IPv6 addresses -/

theorem hexDigit_isSome_digit {c : Char} (h : IsDigit c) : (hexDigit c).isSome = true := by
  have : ∀ c ∈ ['0', '1', '2', '3', '4', '5', '6', '7', '8', '9', 'a', 'b', 'c', 'd', 'e', 'f'], (hexDigit c).isSome = true := by decide
  exact this c h

theorem radixAux_hex (fuel n : Nat) (h : n ≤ fuel) : hexVal (radixAux 16 fuel n) = n := by
  induction fuel generalizing n with
  | zero =>
    have : n = 0 := by omega
    subst this
    decide
  | succ f ih =>
    simp only [radixAux]
    split
    · simp only [hexVal, List.foldl_cons, List.foldl_nil]
      rw [hexDigit_digitChar (by omega)]
      simp
    · have h2 := ih (n / 16) (by omega)
      unfold hexVal at h2 ⊢
      rw [List.foldl_append, h2, List.foldl_cons, List.foldl_nil, hexDigit_digitChar (by omega)]
      simp only [Option.getD_some]
      omega

theorem hexVal_hexStr (n : Nat) : hexVal (hexStr n) = n := radixAux_hex n n (Nat.le_refl _)

theorem radixAux_len {fuel n k : Nat} (h : n ≤ fuel) (hk : n < 16 ^ (k + 1)) : (radixAux 16 fuel n).length ≤ k + 1 := by
  induction fuel generalizing n k with
  | zero => simp [radixAux]
  | succ f ih =>
    simp only [radixAux]
    split
    · simp
    · rename_i hn
      cases k with
      | zero => simp at hk; omega
      | succ k =>
        have : n / 16 < 16 ^ (k + 1) := by
          rw [Nat.div_lt_iff_lt_mul (by omega)]
          rwa [← Nat.pow_succ]
        have := ih (n := n / 16) (k := k) (by omega) this
        simp only [List.length_append, List.length_singleton]
        omega

theorem hexStr_len {n : Nat} (h : n < 65536) : (hexStr n).length ≤ 4 := radixAux_len (k := 3) (Nat.le_refl _) (by simpa using h)

/-- The hexadecimal digits at the start. -/
theorem take_hex {t rest : Str} (ht : ∀ c ∈ t, IsDigit c) (hr : ∀ c, rest.head? = some c → (hexDigit c).isSome = false) :
    (t ++ rest).takeWhile (fun c => (hexDigit c).isSome) = t ∧ (t ++ rest).dropWhile (fun c => (hexDigit c).isSome) = rest := by
  have h0 : rest.takeWhile (fun c => (hexDigit c).isSome) = [] ∧ rest.dropWhile (fun c => (hexDigit c).isSome) = rest := by
    cases rest with
    | nil => exact ⟨rfl, rfl⟩
    | cons c r =>
      have := hr c rfl
      exact ⟨by rw [List.takeWhile_cons_of_neg (by simp [this])], by rw [List.dropWhile_cons_of_neg (by simp [this])]⟩
  induction t with
  | nil => exact h0
  | cons c t ih =>
    have hc := hexDigit_isSome_digit (ht c List.mem_cons_self)
    obtain ⟨i1, i2⟩ := ih (fun d hd => ht d (List.mem_cons_of_mem _ hd))
    rw [List.cons_append, List.takeWhile_cons_of_pos (p := fun c => (hexDigit c).isSome) hc, List.dropWhile_cons_of_pos (p := fun c => (hexDigit c).isSome) hc, i1, i2]
    exact ⟨rfl, rfl⟩

theorem hex_seps : (hexDigit ':').isSome = false ∧ (hexDigit '.').isSome = false := by decide

/-- The tokens after an optional `::`, to the end. -/
theorem v6Loop_tail (l : List Nat) (hne : l ≠ []) (hl : ∀ g ∈ l, g < 65536) (n : Nat) (hn : l.length ≤ n) (gs : List Nat) (ell : Option Nat) :
    v6Loop n gs ell (joinWith ':' (l.map hexStr)) = some (gs ++ l, ell) := by
  induction l generalizing n gs with
  | nil => exact absurd rfl hne
  | cons g l ih =>
    cases n with
    | zero => simp at hn
    | succ n =>
      have hg := hl g List.mem_cons_self
      have hlen := hexStr_len hg
      have hnn := hexStr_ne_nil g
      cases l with
      | nil =>
        simp only [List.map_cons, List.map_nil, joinWith]
        obtain ⟨h1, h2⟩ := take_hex (rest := []) (hexStr_digits g) (by simp)
        rw [List.append_nil] at h1 h2
        simp only [v6Loop, h1, h2, hexVal_hexStr]
        rw [if_neg (by rintro (h | h); exact hnn h; omega)]
      | cons g' l =>
        simp only [List.map_cons, joinWith]
        obtain ⟨h1, h2⟩ := take_hex (rest := ':' :: joinWith ':' (hexStr g' :: l.map hexStr)) (hexStr_digits g) (by
          intro c hc; simp only [List.head?_cons, Option.some.injEq] at hc; subst hc; exact hex_seps.1)
        have ih' := ih (by simp) (fun x hx => hl x (List.mem_cons_of_mem _ hx)) n (by simp at hn ⊢; omega) (gs ++ [g])
        simp only [List.map_cons] at ih'
        -- the next token starts with a digit
        obtain ⟨c, t, hct⟩ : ∃ c t, joinWith ':' (hexStr g' :: l.map hexStr) = c :: t ∧ c ≠ ':' := by
          cases hx : hexStr g' with
          | nil => exact absurd hx (hexStr_ne_nil g')
          | cons c t =>
            have hc : IsDigit c := hexStr_digits g' c (by rw [hx]; exact List.mem_cons_self)
            have hc' : c ≠ ':' := by rintro rfl; exact absurd hc (by unfold IsDigit; decide)
            cases l with
            | nil => exact ⟨c, t, by simp [joinWith], hc'⟩
            | cons g'' l => exact ⟨c, _, by simp only [List.map_cons, joinWith, List.cons_append]; rfl, hc'⟩
        rw [hct.1] at h1 h2 ih' ⊢
        simp only [v6Loop, h1, h2, hexVal_hexStr]
        rw [if_neg (by rintro (h | h); exact hnn h; omega)]
        split
        · rename_i h; simp at h
        · rename_i h; simp at h
        · rename_i h; simp at h
        · rename_i h; simp only [List.cons.injEq, true_and] at h; exact absurd h.1 hct.2
        · rename_i h
          simp only [List.cons.injEq, true_and] at h
          rw [← h, ih']
          simp
        · rename_i h
          exact (h _ rfl).elim

/-- The tokens before `::`. -/
theorem v6Loop_head (l : List Nat) (hne : l ≠ []) (hl : ∀ g ∈ l, g < 65536) (n : Nat) (gs : List Nat) (t : Str) :
    v6Loop (l.length + n) gs none (joinWith ':' (l.map hexStr) ++ ':' :: ':' :: t) =
      if t = [] then some (gs ++ l, some (gs.length + l.length)) else v6Loop n (gs ++ l) (some (gs.length + l.length)) t := by
  induction l generalizing gs with
  | nil => exact absurd rfl hne
  | cons g l ih =>
    have hg := hl g List.mem_cons_self
    have hlen := hexStr_len hg
    have hnn := hexStr_ne_nil g
    cases l with
    | nil =>
      simp only [List.map_cons, List.map_nil, joinWith, List.length_cons, List.length_nil]
      rw [show 0 + 1 + n = n + 1 from by omega]
      obtain ⟨h1, h2⟩ := take_hex (rest := ':' :: ':' :: t) (hexStr_digits g) (by
        intro c hc; simp only [List.head?_cons, Option.some.injEq] at hc; subst hc; exact hex_seps.1)
      simp only [v6Loop, h1, h2, hexVal_hexStr]
      rw [if_neg (by rintro (h | h); exact hnn h; omega)]
      simp
    | cons g' l =>
      rw [show (g :: g' :: l).length + n = ((g' :: l).length + n) + 1 from by simp; omega]
      have ih' := ih (by simp) (fun x hx => hl x (List.mem_cons_of_mem _ hx)) (gs ++ [g])
      simp only [List.map_cons, joinWith, List.append_assoc, List.cons_append] at ih' ⊢
      obtain ⟨h1, h2⟩ := take_hex (rest := ':' :: (joinWith ':' (hexStr g' :: l.map hexStr) ++ ':' :: ':' :: t)) (hexStr_digits g) (by
        intro c hc; simp only [List.head?_cons, Option.some.injEq] at hc; subst hc; exact hex_seps.1)
      obtain ⟨c, u, hcu⟩ : ∃ c u, joinWith ':' (hexStr g' :: l.map hexStr) ++ ':' :: ':' :: t = c :: u ∧ c ≠ ':' := by
        cases hx : hexStr g' with
        | nil => exact absurd hx (hexStr_ne_nil g')
        | cons c u =>
          have hc : IsDigit c := hexStr_digits g' c (by rw [hx]; exact List.mem_cons_self)
          have hc' : c ≠ ':' := by rintro rfl; exact absurd hc (by unfold IsDigit; decide)
          cases l with
          | nil => exact ⟨c, _, by simp only [List.map_nil, joinWith, List.cons_append]; rfl, hc'⟩
          | cons g'' l => exact ⟨c, _, by simp only [List.map_cons, joinWith, List.cons_append, List.append_assoc]; rfl, hc'⟩
      rw [hcu.1] at h1 h2 ih' ⊢
      simp only [v6Loop, h1, h2, hexVal_hexStr]
      rw [if_neg (by rintro (h | h); exact hnn h; omega)]
      split
      · rename_i h; simp at h
      · rename_i h; simp at h
      · rename_i h; simp at h
      · rename_i h; simp only [List.cons.injEq, true_and] at h; exact absurd h.1 hcu.2
      · rename_i h
        simp only [List.cons.injEq, true_and] at h
        rw [← h, ih']
        simp [Nat.add_assoc, Nat.add_comm 1]
      · rename_i h
        exact (h _ rfl).elim

theorem groups_lt (a : BitVec 128) : ∀ g ∈ Addr.groups a, g < 65536 := by
  have ha := a.isLt
  intro g hg
  simp only [Addr.groups, List.mem_cons, List.not_mem_nil, or_false] at hg
  rcases hg with rfl | rfl | rfl | rfl | rfl | rfl | rfl | rfl <;> omega

theorem groups_value (a : BitVec 128) : (Addr.groups a).foldl (fun n g => n * 65536 + g) 0 = a.toNat := by
  have ha := a.isLt
  simp only [Addr.groups, List.foldl_cons, List.foldl_nil]
  omega

/-- The chosen run has at least two groups. -/
theorem bestRun_two {gs : List Nat} {s e : Nat} (h : Addr.bestRun gs = some (s, e)) : s + 2 ≤ e := by
  suffices H : ∀ (l : List Nat) (best : Option (Nat × Nat)), (∀ s e, best = some (s, e) → s + 2 ≤ e) →
      ∀ s e, l.foldl (fun best i =>
        let l := Addr.zeroRun (gs.drop i)
        let cur := match best with
          | some (s, e) => e - s
          | none => 0
        if 2 ≤ l ∧ cur < l then some (i, i + l) else best) best = some (s, e) → s + 2 ≤ e by
    exact H _ none (by simp) s e h
  intro l
  induction l with
  | nil => intro best hb s e h; exact hb s e h
  | cons i l ih =>
    intro best hb s e h
    rw [List.foldl_cons] at h
    refine ih _ ?_ s e h
    intro s e h
    dsimp only at h
    generalize (match best with
          | some (s, e) => e - s
          | none => 0) = cur at h
    by_cases hc : 2 ≤ Addr.zeroRun (gs.drop i) ∧ cur < Addr.zeroRun (gs.drop i)
    · rw [if_pos hc] at h
      simp only [Option.some.injEq, Prod.mk.injEq] at h
      omega
    · rw [if_neg hc] at h
      exact hb s e h

/-- A text that starts with a digit does not start with a colon. -/
theorem join_start {l : List Nat} (hne : l ≠ []) : ∃ c t, joinWith ':' (l.map hexStr) = c :: t ∧ IsDigit c := by
  cases l with
  | nil => exact absurd rfl hne
  | cons g l =>
    cases hx : hexStr g with
    | nil => exact absurd hx (hexStr_ne_nil g)
    | cons c t =>
      have hc : IsDigit c := hexStr_digits g c (by rw [hx]; exact List.mem_cons_self)
      cases l with
      | nil => exact ⟨c, t, by simp [joinWith, hx], hc⟩
      | cons g' l => exact ⟨c, _, by simp only [List.map_cons, joinWith, hx, List.cons_append]; rfl, hc⟩

theorem digit_ne_colon {c : Char} (h : IsDigit c) : c ≠ ':' := by rintro rfl; exact absurd h (by unfold IsDigit; decide)

theorem parseIPv6_digit {c : Char} {t : Str} (hc : IsDigit c) : parseIPv6 (c :: t) = ((v6Loop 8 [] none (c :: t)).bind v6Expand).map (fun gs => gs.foldl (fun n g => n * 65536 + g) 0) := by
  have := digit_ne_colon hc
  unfold parseIPv6
  split
  · rename_i h; simp only [List.cons.injEq] at h; exact absurd h.1 this
  · rename_i h; simp only [List.cons.injEq] at h; exact absurd h.1 this
  · rfl

theorem parseIPv6_string6 (a : BitVec 128) : parseIPv6 (Addr.string6 a) = some a.toNat := by
  have hlt := groups_lt a
  have hval := groups_value a
  unfold Addr.string6
  cases hb : Addr.bestRun (Addr.groups a) with
  | none =>
    simp only [hb]
    obtain ⟨c, t, h1, h2⟩ := join_start (l := Addr.groups a) (by simp [Addr.groups])
    have hloop := v6Loop_tail (Addr.groups a) (by simp [Addr.groups]) hlt 8 (Nat.le_refl _) [] none
    rw [h1] at hloop ⊢
    rw [parseIPv6_digit h2, hloop]
    simp only [List.nil_append, Option.bind_some, v6Expand, groups_length, if_true, Option.map_some, hval]
  | some se =>
    obtain ⟨s, e⟩ := se
    obtain ⟨b1, b2, b3⟩ := bestRun_spec hb
    have b4 := bestRun_two hb
    rw [groups_length] at b2
    have hdec := list_decomp (Addr.groups a) b1 (by rw [groups_length]; exact b2) b3
    simp only [hb]
    have hle : ∀ g ∈ (Addr.groups a).drop e, g < 65536 := fun g hg => hlt g (List.mem_of_mem_drop hg)
    have hls : ∀ g ∈ (Addr.groups a).take s, g < 65536 := fun g hg => hlt g (List.mem_of_mem_take hg)
    have lent : ((Addr.groups a).take s).length = s := by rw [List.length_take, groups_length]; omega
    have lend : ((Addr.groups a).drop e).length = 8 - e := by rw [List.length_drop, groups_length]
    -- the groups read, the position of `::`
    have hexp : v6Expand ((Addr.groups a).take s ++ (Addr.groups a).drop e, some s) = some (Addr.groups a) := by
      simp only [v6Expand]
      have hlen : ((Addr.groups a).take s ++ (Addr.groups a).drop e).length = s + (8 - e) := by rw [List.length_append, lent, lend]
      rw [if_pos (by omega), hlen]
      have h8 : 8 - (s + (8 - e)) = e - s := by omega
      rw [h8, List.take_append_of_le_length (by omega), List.drop_append_of_le_length (by omega), List.take_of_length_le (by omega), List.drop_of_length_le (by omega)]
      rw [List.nil_append, List.append_assoc, ← hdec]
    by_cases hs : s = 0
    · subst hs
      simp only [List.take_zero, List.map_nil, joinWith, List.nil_append] at hexp ⊢
      by_cases he : (Addr.groups a).drop e = []
      · rw [he] at hexp ⊢
        have hz : Addr.groups a = List.replicate 8 0 := by simpa [v6Expand] using hexp.symm
        rw [hz] at hval
        simp only [List.map_nil, joinWith, parseIPv6, Option.map_some, hval]
      · obtain ⟨c, t, h1, h2⟩ := join_start he
        have hloop := v6Loop_tail _ he hle 8 (by omega) [] (some 0)
        rw [h1] at hloop ⊢
        unfold parseIPv6
        split
        · rename_i h; simp at h
        · rename_i h
          simp only [List.cons.injEq, true_and] at h
          rw [← h, hloop]
          simp only [List.nil_append, Option.bind_some, hexp, Option.map_some, hval]
        · rename_i h
          exact (h _ rfl).elim
    · have hne : (Addr.groups a).take s ≠ [] := by
        intro h
        rw [h] at lent
        simp at lent
        omega
      obtain ⟨c, t, h1, h2⟩ := join_start hne
      have hloop := v6Loop_head _ hne hls (8 - s) [] (joinWith ':' (((Addr.groups a).drop e).map hexStr))
      rw [lent, show s + (8 - s) = 8 from by omega] at hloop
      rw [h1] at hloop ⊢
      rw [List.cons_append] at hloop ⊢
      rw [parseIPv6_digit h2, hloop]
      by_cases he : (Addr.groups a).drop e = []
      · rw [he] at hexp ⊢
        simp only [List.map_nil, joinWith, if_true, List.nil_append, List.length_nil, Nat.zero_add, Option.bind_some]
        rw [List.append_nil] at hexp
        rw [hexp]
        simp only [Option.map_some, hval]
      · obtain ⟨c', t', h1', h2'⟩ := join_start he
        have hl2 := v6Loop_tail _ he hle (8 - s) (by omega) ((Addr.groups a).take s) (some s)
        rw [if_neg (by rw [h1']; simp)]
        simp only [List.nil_append, List.length_nil, Nat.zero_add]
        rw [hl2]
        simp only [Option.bind_some, hexp, Option.map_some, hval]

/-- The dotted form after `::ffff:`. -/
theorem parseIPv6_mapped (a : BitVec 128) (h : a.toNat / 2 ^ 32 = 0xffff) : parseIPv6 ([':', ':', 'f', 'f', 'f', 'f', ':'] ++ Addr.string4 (a.setWidth 32)) = some a.toNat := by
  have ha := a.isLt
  have hp := parseIPv4_string4 (a.setWidth 32)
  have hw : (a.setWidth 32).toNat = a.toNat % 2 ^ 32 := BitVec.toNat_setWidth ..
  -- the first octet and the dot
  obtain ⟨n, rest, hs⟩ : ∃ n rest, Addr.string4 (a.setWidth 32) = decStr n ++ '.' :: rest ∧ n ≤ 255 := by
    refine ⟨(a.setWidth 32).toNat / 2 ^ 24, _, rfl, ?_⟩
    have := (a.setWidth 32).isLt
    omega
  have hlen : (decStr n).length ≤ 4 := by
    have : ∀ n : Fin 256, (decStr n.val).length ≤ 4 := by decide +kernel
    exact this ⟨n, by omega⟩
  obtain ⟨c, t, hct⟩ : ∃ c t, decStr n = c :: t := by
    cases hx : decStr n with
    | nil => exact absurd hx (decStr_ne_nil n)
    | cons c t => exact ⟨c, t, rfl⟩
  have hc : IsDigit c := decStr_digits n c (by rw [hct]; exact List.mem_cons_self)
  obtain ⟨h1, h2⟩ := take_hex (t := decStr n) (rest := '.' :: rest) (decStr_digits n) (by
    intro c hc; simp only [List.head?_cons, Option.some.injEq] at hc; subst hc; exact hex_seps.2)
  have hloop : v6Loop 7 [0xffff] (some 0) (Addr.string4 (a.setWidth 32)) = some ([0xffff, a.toNat % 2 ^ 32 / 65536, a.toNat % 2 ^ 32 % 65536], some 0) := by
    rw [hs.1] at hp ⊢
    simp only [v6Loop, h1, h2]
    rw [if_neg (by rintro (h | h); exact decStr_ne_nil n h; omega), if_neg (by simp), hp, hw]
    rfl
  have hfirst : v6Loop 8 [] (some 0) (['f', 'f', 'f', 'f', ':'] ++ Addr.string4 (a.setWidth 32)) = v6Loop 7 [0xffff] (some 0) (Addr.string4 (a.setWidth 32)) := by
    have hstart : ∃ u, Addr.string4 (a.setWidth 32) = c :: u := ⟨t ++ '.' :: rest, by rw [hs.1, hct]; rfl⟩
    obtain ⟨u, hu⟩ := hstart
    have hcn := digit_ne_colon hc
    obtain ⟨g1, g2⟩ := take_hex (t := ['f', 'f', 'f', 'f']) (rest := ':' :: c :: u) (by unfold IsDigit; decide) (by
      intro c hc; simp only [List.head?_cons, Option.some.injEq] at hc; subst hc; exact hex_seps.1)
    rw [hu]
    have he : ['f', 'f', 'f', 'f', ':'] ++ c :: u = ['f', 'f', 'f', 'f'] ++ ':' :: c :: u := rfl
    rw [he]
    conv => lhs; unfold v6Loop
    simp only [g1, g2]
    rw [if_neg (by simp)]
    split
    · rename_i h; simp at h
    · rename_i h; simp at h
    · rename_i h; simp at h
    · rename_i h; simp only [List.cons.injEq, true_and] at h; exact absurd h.1 hcn
    · rename_i h
      simp only [List.cons.injEq, true_and] at h
      rw [← h]
      rfl
    · rename_i h
      exact (h _ rfl).elim
  have hmatch : parseIPv6 ([':', ':', 'f', 'f', 'f', 'f', ':'] ++ Addr.string4 (a.setWidth 32)) =
      ((v6Loop 8 [] (some 0) (['f', 'f', 'f', 'f', ':'] ++ Addr.string4 (a.setWidth 32))).bind v6Expand).map (fun gs => gs.foldl (fun n g => n * 65536 + g) 0) := rfl
  rw [hmatch, hfirst, hloop]
  simp only [Option.bind_some, v6Expand, List.length_cons, List.length_nil]
  rw [if_pos (by omega)]
  simp [List.replicate]
  omega

/-! ## Addresses and prefixes -/

theorem find_sep_digits {s : Str} (h : ∀ c ∈ s, IsDigit c) (x : Char) (hx : (x == '.' || x == ':' || x == '%') = true) (t : Str) :
    (s ++ x :: t).find? (fun c => c == '.' || c == ':' || c == '%') = some x := by
  induction s with
  | nil => rw [List.nil_append, List.find?_cons_of_pos (p := fun c => c == '.' || c == ':' || c == '%') hx]
  | cons c s ih =>
    have hc := h c List.mem_cons_self
    have : ∀ c ∈ ['0', '1', '2', '3', '4', '5', '6', '7', '8', '9', 'a', 'b', 'c', 'd', 'e', 'f'], ¬ (c == '.' || c == ':' || c == '%') = true := by decide
    rw [List.cons_append, List.find?_cons_of_neg (p := fun c => c == '.' || c == ':' || c == '%') (this c hc)]
    exact ih (fun d hd => h d (List.mem_cons_of_mem _ hd))

theorem string6_sep (a : BitVec 128) : (Addr.string6 a).find? (fun c => c == '.' || c == ':' || c == '%') = some ':' := by
  have hj : ∀ l : List Nat, 2 ≤ l.length → ∃ s t, joinWith ':' (l.map hexStr) = s ++ ':' :: t ∧ ∀ c ∈ s, IsDigit c := by
    intro l hl
    match l, hl with
    | g :: g' :: l, _ => exact ⟨hexStr g, joinWith ':' ((g' :: l).map hexStr), rfl, hexStr_digits g⟩
  unfold Addr.string6
  cases hb : Addr.bestRun (Addr.groups a) with
  | none =>
    obtain ⟨s, t, h1, h2⟩ := hj (Addr.groups a) (by rw [groups_length]; omega)
    simp only [hb]
    rw [h1]
    exact find_sep_digits h2 ':' rfl t
  | some se =>
    obtain ⟨s, e⟩ := se
    simp only [hb]
    by_cases h2 : 2 ≤ ((Addr.groups a).take s).length
    · obtain ⟨x, t, h1, h3⟩ := hj _ h2
      rw [h1, List.append_assoc]
      exact find_sep_digits h3 ':' rfl _
    · match hl : (Addr.groups a).take s, h2 with
      | [], _ => rfl
      | [g], _ => exact find_sep_digits (hexStr_digits g) ':' rfl _
      | g :: g' :: l, h2 => simp at h2

/-- Reading a printed address. -/
theorem parseAddr_toStr {a : Addr} (h : a ≠ .zero) : parseAddr a.toStr = some a := by
  cases a with
  | zero => exact absurd rfl h
  | v4 a =>
    unfold parseAddr
    have : (Addr.toStr (.v4 a)).find? (fun c => c == '.' || c == ':' || c == '%') = some '.' := find_sep_digits (decStr_digits _) '.' rfl _
    rw [this]
    simp only [Addr.toStr, parseIPv4_string4, Option.map_some, BitVec.ofNat_toNat, BitVec.setWidth_eq]
  | v6 a =>
    unfold parseAddr
    by_cases h4 : Addr.is4In6 (.v6 a) = true
    · have h4' : a.toNat / 2 ^ 32 = 0xffff := by simpa [Addr.is4In6] using h4
      have hs : Addr.toStr (.v6 a) = [':', ':', 'f', 'f', 'f', 'f', ':'] ++ Addr.string4 (a.setWidth 32) := by simp only [Addr.toStr, h4, if_true]
      have : (Addr.toStr (.v6 a)).find? (fun c => c == '.' || c == ':' || c == '%') = some ':' := by rw [hs]; rfl
      rw [this]
      simp only
      rw [hs, parseIPv6_mapped a h4']
      simp
    · have hs : Addr.toStr (.v6 a) = Addr.string6 a := by simp only [Addr.toStr, h4, Bool.false_eq_true, if_false]
      rw [hs, string6_sep]
      simp only
      rw [parseIPv6_string6]
      simp

/-- Reading a printed prefix. -/
theorem parsePrefix_toStr {p : Prefix} (h : p.Valid) : parsePrefix p.toStr = some p := by
  have hip := h.ip_ne
  obtain ⟨hwf, hne⟩ := h
  have hbits : p.bitsPlusOne ≤ p.ip.bitLen + 1 := by
    rcases hwf with h | h
    · exact absurd h hne
    · exact h.2
  unfold Prefix.toStr parsePrefix
  rw [if_pos (by simpa [Prefix.isValid] using hne), splitLast_append (not_mem_of_digits (decStr_digits _) (by unfold IsDigit; decide))]
  simp only
  rw [parseAddr_toStr hip]
  simp only
  rw [if_neg (decStr_no_zero _), parseDec_decStr]
  simp only
  rw [if_pos (by omega)]
  unfold Prefix.from'
  rw [if_pos ⟨hip, by omega⟩]
  congr 1
  obtain ⟨ip, b⟩ := p
  simp only [Prefix.mk.injEq, true_and] at *
  omega

end StayRTR
