import Verif.Model.Flags
import Verif.Proofs.ParseExact

/-!
# C157-C161: command lines

The grammar of a command line is stated here without the model: how the arguments of a program are cut into settings of flags, and what the flags are in the end.
-/

namespace StayRTR

namespace Spec

/-- A name that a flag can be given by: not empty, no dash in front, no equals sign. -/
def FlagName (n : Str) : Prop := n ≠ [] ∧ n.head? ≠ some '-' ∧ '=' ∉ n

/-- One dash or two. -/
def Dashes (d : Str) : Prop := d = ['-'] ∨ d = ['-', '-']

/-- The arguments read as settings of flags, in their order: `flag` says which names are flags, `switch` which of them stand without a value. Two dashes may end the line. -/
inductive Reads (flag switch : Str → Prop) : List Str → List (Str × Str) → Prop
  | done : Reads flag switch [] []
  | dashes : Reads flag switch [['-', '-']] []
  | joined {d n v rest items} : Dashes d → FlagName n → flag n → Reads flag switch rest items → Reads flag switch ((d ++ n ++ '=' :: v) :: rest) ((n, v) :: items)
  | switched {d n rest items} : Dashes d → FlagName n → switch n → Reads flag switch rest items → Reads flag switch ((d ++ n) :: rest) ((n, "true".toList) :: items)
  | separate {d n v rest items} : Dashes d → FlagName n → flag n → ¬ switch n → Reads flag switch rest items → Reads flag switch ((d ++ n) :: v :: rest) ((n, v) :: items)

/-- The last text given for a flag. -/
def lastGiven (n : Str) (items : List (Str × Str)) : Option Str := ((items.filter fun x => x.1 = n).getLast?).map (·.2)

/-- The flags `after` are the flags `before` with the settings `items`: every text can be read for its flag, and a flag has the value of the last text given for it, or else the one it had. -/
def Settled (read : Str → FlagValue → Option FlagValue) (before : Str → Option FlagValue) (items : List (Str × Str)) (after : Str → Option FlagValue) : Prop :=
  (∀ x ∈ items, ∃ v w, before x.1 = some v ∧ read x.2 v = some w) ∧
  ∀ n, match lastGiven n items with
    | none => after n = before n
    | some t => ∃ v w, before n = some v ∧ read t v = some w ∧ after n = some w

/-- The argument asks for help: -h, --h, -help, --help, with or without a value. -/
def AsksForHelp (a : Str) : Prop := ∃ d n, Dashes d ∧ (n = "h".toList ∨ n = "help".toList) ∧ (a = d ++ n ∨ ∃ v, a = d ++ n ++ '=' :: v)

/-- A flag that stands without a value. -/
def IsSwitch (flags : Str → Option FlagValue) (n : Str) : Prop := ∃ b, flags n = some (.bool b)

end Spec

open Spec

/-! ## One argument -/

theorem splitFirst_none {x : Char} {s : Str} (h : splitFirst x s = none) : x ∉ s := by
  induction s with
  | nil => simp
  | cons c s ih =>
    unfold splitFirst at h
    split at h
    · cases h
    · rename_i hc
      rw [Option.map_eq_none_iff] at h
      simp only [List.mem_cons, not_or]
      exact ⟨fun h' => hc h'.symm, ih h⟩

theorem splitFirst_notin {x : Char} {s : Str} (h : x ∉ s) : splitFirst x s = none := by
  induction s with
  | nil => rfl
  | cons c s ih =>
    simp only [List.mem_cons, not_or] at h
    unfold splitFirst
    rw [if_neg (fun h' => h.1 h'.symm), ih h.2]
    rfl

theorem splitFirst_before {x : Char} {s a b : Str} (h : splitFirst x s = some (a, b)) : x ∉ a := by
  induction s generalizing a b with
  | nil => cases h
  | cons c s ih =>
    unfold splitFirst at h
    split at h
    · cases h; simp
    · rename_i hc
      simp only [Option.map_eq_some_iff, Prod.mk.injEq, Prod.exists] at h
      obtain ⟨a', b', h1, rfl, rfl⟩ := h
      simp only [List.mem_cons, not_or]
      exact ⟨fun h' => hc h'.symm, ih h1⟩

theorem nameAndValue_plain {n : Str} (h : FlagName n) : nameAndValue n = .flag n none := by
  obtain ⟨h1, h2, h3⟩ := h
  unfold nameAndValue
  split
  · exact absurd rfl h1
  · exact absurd rfl h2
  · simp at h3
  · rw [splitFirst_notin h3]

theorem nameAndValue_joined {n : Str} (h : FlagName n) (v : Str) : nameAndValue (n ++ '=' :: v) = .flag n (some v) := by
  obtain ⟨h1, h2, h3⟩ := h
  cases n with
  | nil => exact absurd rfl h1
  | cons c n =>
    unfold nameAndValue
    split
    · rename_i h; cases h
    · rename_i h; cases h; exact absurd rfl h2
    · rename_i h; cases h; simp at h3
    · rw [splitFirst_append h3]

/-- What follows the name in an argument. -/
def joinedText : Option Str → Str
  | none => []
  | some v => '=' :: v

theorem nameAndValue_inv {s n : Str} {v : Option Str} (h : nameAndValue s = .flag n v) : FlagName n ∧ s = n ++ joinedText v := by
  unfold nameAndValue at h
  split at h
  · cases h
  · cases h
  · cases h
  · rename_i name h1 h2 h3
    split at h
    · rename_i a b hs
      cases h
      have he := splitFirst_eq hs
      refine ⟨⟨?_, ?_, splitFirst_before hs⟩, he⟩
      · rintro rfl; exact h3 _ he
      · intro hh
        cases n with
        | nil => cases hh
        | cons c n => simp only [List.head?_cons, Option.some.injEq] at hh; subst hh; exact h2 _ he
    · rename_i hs
      cases h
      refine ⟨⟨fun h => h1 h, fun hh => ?_, splitFirst_none hs⟩, by simp [joinedText]⟩
      cases s with
      | nil => cases hh
      | cons c n => simp only [List.head?_cons, Option.some.injEq] at hh; subst hh; exact h2 _ rfl

theorem argKind_dashes {d n : Str} (hd : Dashes d) (hn : n ≠ []) (hh : n.head? ≠ some '-') : argKind (d ++ n) = nameAndValue n := by
  cases n with
  | nil => exact absurd rfl hn
  | cons c n =>
    have hc : c ≠ '-' := fun h => hh (by rw [h]; rfl)
    rcases hd with rfl | rfl
    · show argKind ('-' :: c :: n) = _
      unfold argKind
      split
      · rename_i h; cases h; exact absurd rfl hc
      · rename_i h; cases h; exact absurd rfl hc
      · rename_i h; cases h; rfl
      · rename_i h; exact absurd rfl (h _ _)
    · show argKind ('-' :: '-' :: c :: n) = _
      unfold argKind
      rfl

theorem argKind_plain {d n : Str} (hd : Dashes d) (hn : FlagName n) : argKind (d ++ n) = .flag n none := by
  rw [argKind_dashes hd hn.1 hn.2.1, nameAndValue_plain hn]

theorem argKind_joined {d n : Str} (hd : Dashes d) (hn : FlagName n) (v : Str) : argKind (d ++ n ++ '=' :: v) = .flag n (some v) := by
  rw [List.append_assoc, argKind_dashes hd, nameAndValue_joined hn]
  · simp
  · obtain ⟨h1, h2, -⟩ := hn
    cases n with
    | nil => exact absurd rfl h1
    | cons c n => simpa using h2

theorem argKind_inv {s n : Str} {v : Option Str} (h : argKind s = .flag n v) : FlagName n ∧ ∃ d, Dashes d ∧ s = d ++ (n ++ joinedText v) := by
  unfold argKind at h
  split at h
  · cases h
  · obtain ⟨h1, h2⟩ := nameAndValue_inv h
    exact ⟨h1, ['-', '-'], .inr rfl, by rw [← h2]; rfl⟩
  · obtain ⟨h1, h2⟩ := nameAndValue_inv h
    exact ⟨h1, ['-'], .inl rfl, by rw [← h2]; rfl⟩
  · cases h

theorem argKind_stop {s : Str} (h : argKind s = .stop) : s = ['-', '-'] := by
  unfold argKind at h
  split at h
  · rfl
  · unfold nameAndValue at h
    split at h <;> try cases h
    split at h <;> cases h
  · unfold nameAndValue at h
    split at h <;> try cases h
    split at h <;> cases h
  · cases h

/-! ## The flags -/

theorem get_put (fs : FlagSet) (n m : Str) (v : FlagValue) : (fs.put n v).get m = if m = n ∧ fs.get n ≠ none then some v else fs.get m := by
  induction fs with
  | nil => simp [FlagSet.put, FlagSet.get]
  | cons x fs ih =>
    obtain ⟨k, w⟩ := x
    simp only [FlagSet.put, FlagSet.get, List.map_cons, List.find?_cons] at ih ⊢
    by_cases hkn : k = n
    · subst hkn
      by_cases hm : k = m
      · subst hm; simp
      · have : m ≠ k := fun h => hm h.symm
        have hb : (k == m) = false := by simpa using hm
        simp only [beq_self_eq_true, if_true, hb, this, false_and, if_false] at ih ⊢
        exact ih
    · have hb : (k == n) = false := by simpa using hkn
      simp only [hb, Bool.false_eq_true, if_false]
      by_cases hm : k = m
      · subst hm
        simp [hkn]
      · have hb' : (k == m) = false := by simpa using hm
        simp only [hb']
        exact ih

theorem set_isBool {frac : Nat → Nat → Nat → Nat} {t : Str} {v w : FlagValue} (h : v.set frac t = some w) : w.isBool = v.isBool := by
  cases v <;> simp only [FlagValue.set, Option.map_eq_some_iff, Option.some.injEq] at h
  case str => subst h; rfl
  all_goals obtain ⟨_, _, rfl⟩ := h; rfl

/-- How a text is read depends on the kind of the flag only. -/
theorem set_again {frac : Nat → Nat → Nat → Nat} {t : Str} {v w : FlagValue} (h : v.set frac t = some w) (u : Str) : w.set frac u = v.set frac u := by
  cases v <;> simp only [FlagValue.set, Option.map_eq_some_iff, Option.some.injEq] at h
  case str => subst h; rfl
  all_goals obtain ⟨_, _, rfl⟩ := h; rfl

theorem isSwitch_iff {fs : FlagSet} {n : Str} {v : FlagValue} (h : fs.get n = some v) : IsSwitch fs.get n ↔ v.isBool = true := by
  unfold IsSwitch
  rw [h]
  cases v <;> simp [FlagValue.isBool]

theorem put_flags {fs : FlagSet} {n : Str} {v w : FlagValue} (hv : fs.get n = some v) (hb : w.isBool = v.isBool) :
    (fun m => (fs.put n w).get m ≠ none) = (fun m => fs.get m ≠ none) ∧ IsSwitch (fs.put n w).get = IsSwitch fs.get := by
  constructor
  · funext m
    rw [get_put]
    by_cases hm : m = n
    · subst hm; simp [hv]
    · simp [hm]
  · funext m
    by_cases hm : m = n
    · subst hm
      have h' : (fs.put m w).get m = some w := by rw [get_put, if_pos ⟨rfl, by rw [hv]; simp⟩]
      exact propext (by rw [isSwitch_iff h', isSwitch_iff hv, hb])
    · have h' : (fs.put n w).get m = fs.get m := by rw [get_put, if_neg (fun h => hm h.1)]
      unfold IsSwitch
      rw [h']

/-- The settings one after another. -/
def settle (frac : Nat → Nat → Nat → Nat) : FlagSet → List (Str × Str) → Option FlagSet
  | fs, [] => some fs
  | fs, (n, t) :: items =>
    match fs.get n with
    | none => none
    | some v => match v.set frac t with
      | none => none
      | some w => settle frac (fs.put n w) items

theorem lastGiven_cons (n m : Str) (t : Str) (items : List (Str × Str)) : lastGiven n ((m, t) :: items) = (lastGiven n items).or (if m = n then some t else none) := by
  unfold lastGiven
  by_cases h : m = n
  · simp only [List.filter_cons, h, decide_true, if_true, List.getLast?_cons]
    cases (items.filter fun x => x.1 = n).getLast? <;> simp
  · simp [h]

theorem settle_settled {frac : Nat → Nat → Nat → Nat} {items : List (Str × Str)} {fs fs' : FlagSet} (h : settle frac fs items = some fs') :
    Settled (FlagValue.set frac) fs.get items fs'.get := by
  induction items generalizing fs with
  | nil => cases h; exact ⟨by simp, fun n => rfl⟩
  | cons x items ih =>
    obtain ⟨m, t⟩ := x
    unfold settle at h
    split at h
    · cases h
    · rename_i v hv
      split at h
      · cases h
      · rename_i w hw
        obtain ⟨h1, h2⟩ := ih h
        have key : ∀ n v', (fs.put m w).get n = some v' → ∃ v, fs.get n = some v ∧ ∀ u, v'.set frac u = v.set frac u := by
          intro n v' hn
          rw [get_put] at hn
          split at hn
          · rename_i hc
            cases hn
            rw [hc.1]
            exact ⟨v, hv, set_again hw⟩
          · exact ⟨v', hn, fun _ => rfl⟩
        refine ⟨fun x hx => ?_, fun n => ?_⟩
        · rcases List.mem_cons.mp hx with rfl | hx
          · exact ⟨v, w, hv, hw⟩
          · obtain ⟨v', w', hv', hw'⟩ := h1 x hx
            obtain ⟨v0, hv0, he⟩ := key _ _ hv'
            exact ⟨v0, w', hv0, by rw [← he]; exact hw'⟩
        · have hn := h2 n
          rw [lastGiven_cons]
          cases hl : lastGiven n items with
          | some u =>
            rw [hl] at hn
            obtain ⟨v', w', hv', hw', hf⟩ := hn
            obtain ⟨v0, hv0, he⟩ := key _ _ hv'
            exact ⟨v0, w', hv0, by rw [← he]; exact hw', hf⟩
          | none =>
            rw [hl] at hn
            simp only [Option.none_or]
            by_cases hm : m = n
            · subst hm
              rw [if_pos rfl]
              refine ⟨v, w, hv, hw, ?_⟩
              rw [hn, get_put, if_pos ⟨rfl, by rw [hv]; simp⟩]
            · rw [if_neg hm]
              show fs'.get n = fs.get n
              rw [hn, get_put, if_neg (fun h => hm h.1.symm)]

theorem settled_settle {frac : Nat → Nat → Nat → Nat} {items : List (Str × Str)} {fs : FlagSet} (h : ∀ x ∈ items, ∃ v w, fs.get x.1 = some v ∧ v.set frac x.2 = some w) :
    ∃ fs', settle frac fs items = some fs' := by
  induction items generalizing fs with
  | nil => exact ⟨fs, rfl⟩
  | cons x items ih =>
    obtain ⟨m, t⟩ := x
    obtain ⟨v, w, hv, hw⟩ := h _ (List.mem_cons_self ..)
    simp only at hv hw
    unfold settle
    simp only [hv, hw]
    refine ih fun x hx => ?_
    obtain ⟨v', w', hv', hw'⟩ := h x (List.mem_cons_of_mem _ hx)
    rw [get_put]
    by_cases hm : x.1 = m ∧ fs.get m ≠ none
    · rw [if_pos hm]
      rw [hm.1, hv] at hv'
      cases hv'
      exact ⟨w, w', rfl, by rw [set_again hw]; exact hw'⟩
    · rw [if_neg hm]
      exact ⟨v', w', hv', hw'⟩

/-! ## The whole line -/

theorem set_switch {frac : Nat → Nat → Nat → Nat} {v : FlagValue} (h : v.isBool = true) : v.set frac "true".toList = some (.bool true) := by
  cases v with
  | bool b => show (parseBool "true".toList).map FlagValue.bool = _; rw [show parseBool "true".toList = some true from by decide +kernel]; rfl
  | _ => cases h

/-- The flag package accepts exactly the lines that can be read. -/
theorem parse_iff (frac : Nat → Nat → Nat → Nat) (args : List Str) (fs fs' : FlagSet) :
    parseFlags frac fs args = .ok fs' [] ↔ ∃ items, Reads (fun n => fs.get n ≠ none) (IsSwitch fs.get) args items ∧ settle frac fs items = some fs' := by
  match args with
  | [] =>
    unfold parseFlags
    constructor
    · intro h; cases h; exact ⟨[], .done, rfl⟩
    · rintro ⟨items, hr, hs⟩; cases hr; cases hs; rfl
  | s :: rest =>
    have step : ∀ {n t v w rest'}, rest'.length < (s :: rest).length → fs.get n = some v → v.set frac t = some w →
        (parseFlags frac (fs.put n w) rest' = .ok fs' [] ↔ ∃ items, Reads (fun n => fs.get n ≠ none) (IsSwitch fs.get) rest' items ∧ settle frac fs ((n, t) :: items) = some fs') := by
      intro n t v w rest' hlt hv hw
      rw [parse_iff frac rest' (fs.put n w) fs', (put_flags hv (set_isBool hw)).1, (put_flags hv (set_isBool hw)).2]
      have : ∀ items, settle frac fs ((n, t) :: items) = settle frac (fs.put n w) items := by
        intro items
        rw [settle]
        simp only [hv, hw]
      simp only [this]
    constructor
    · intro h
      unfold parseFlags at h
      split at h
      · cases h
      · rename_i hk
        cases h
        exact ⟨[], by rw [argKind_stop hk]; exact .dashes, rfl⟩
      · cases h
      · rename_i n t hk
        obtain ⟨hn, d, hd, rfl⟩ := argKind_inv hk
        split at h
        · unfold undefinedFlag at h; split at h <;> cases h
        · rename_i v hv
          split at h
          · cases h
          · rename_i w hw
            obtain ⟨items, hr, hs⟩ := (step (by simp) hv hw).mp h
            refine ⟨_, ?_, hs⟩
            rw [joinedText, ← List.append_assoc]
            exact .joined hd hn (by rw [hv]; simp) hr
      · rename_i n hk
        obtain ⟨hn, d, hd, rfl⟩ := argKind_inv hk
        simp only [joinedText, List.append_nil]
        split at h
        · unfold undefinedFlag at h; split at h <;> cases h
        · rename_i v hv
          split at h
          · rename_i hb
            rw [set_switch hb] at h
            obtain ⟨items, hr, hs⟩ := (step (by simp) hv (set_switch hb)).mp h
            exact ⟨_, .switched hd hn ((isSwitch_iff hv).mpr hb) hr, hs⟩
          · rename_i hb
            split at h
            · cases h
            · rename_i t rest'
              split at h
              · cases h
              · rename_i w hw
                obtain ⟨items, hr, hs⟩ := (step (by simp; omega) hv hw).mp h
                exact ⟨_, .separate hd hn (by rw [hv]; simp) (fun h => hb ((isSwitch_iff hv).mp h)) hr, hs⟩
    · rintro ⟨items, hr, hs⟩
      cases hr with
      | dashes => cases hs; rfl
      | joined hd hn hf hr =>
        rename_i d n t items
        unfold parseFlags
        rw [argKind_joined hd hn]
        have hs' := hs
        unfold settle at hs
        split at hs
        · cases hs
        · rename_i v hv
          split at hs
          · cases hs
          · rename_i w hw
            simp only [hv, hw]
            exact (step (by simp) hv hw).mpr ⟨_, hr, hs'⟩
      | switched hd hn hf hr =>
        rename_i d n items
        unfold parseFlags
        rw [argKind_plain hd hn]
        have hs' := hs
        unfold settle at hs
        split at hs
        · cases hs
        · rename_i v hv
          split at hs
          · cases hs
          · rename_i w hw
            simp only [hv, hw, (isSwitch_iff hv).mp hf, if_true]
            exact (step (by simp) hv hw).mpr ⟨_, hr, hs'⟩
      | separate hd hn hf hns hr =>
        rename_i d n t rest items
        unfold parseFlags
        rw [argKind_plain hd hn]
        have hs' := hs
        unfold settle at hs
        split at hs
        · cases hs
        · rename_i v hv
          split at hs
          · cases hs
          · rename_i w hw
            have hb : ¬ v.isBool = true := fun h => hns ((isSwitch_iff hv).mpr h)
            simp only [hv, hw, hb, if_false, Bool.false_eq_true]
            exact (step (by simp; omega) hv hw).mpr ⟨_, hr, hs'⟩
termination_by args.length

/-- **C157** A program that goes on has read every argument as a setting of one of its flags (but for two dashes at the end), and each flag has the value last given for it, or its default. -/
theorem C157_read {frac : Nat → Nat → Nat → Nat} {fs fs' : FlagSet} {args : List Str} (h : launch frac fs args = .runs fs') :
    ∃ items, Reads (fun n => fs.get n ≠ none) (IsSwitch fs.get) args items ∧ Settled (FlagValue.set frac) fs.get items fs'.get ∧ fs'.get "version".toList ≠ some (.bool true) := by
  unfold launch at h
  split at h
  · cases h
  · cases h
  · rename_i fs1 rest hp
    split at h
    · cases h
    · rename_i hr
      split at h
      · cases h
      · rename_i hver
        cases h
        have : rest = [] := by simpa using hr
        subst this
        obtain ⟨items, h1, h2⟩ := (parse_iff ..).mp hp
        exact ⟨items, h1, settle_settled h2, hver⟩

/-- **C157** Every line that can be read, with texts that can be read for their flags, is accepted; if it asks for the version, the program ends with status 0. -/
theorem C157_accepted {frac : Nat → Nat → Nat → Nat} {fs : FlagSet} {args : List Str} {items : List (Str × Str)} (h : Reads (fun n => fs.get n ≠ none) (IsSwitch fs.get) args items)
    (hv : ∀ x ∈ items, ∃ v w, fs.get x.1 = some v ∧ v.set frac x.2 = some w) :
    ∃ fs', Settled (FlagValue.set frac) fs.get items fs'.get ∧ launch frac fs args = if fs'.get "version".toList = some (.bool true) then .exits 0 else .runs fs' := by
  obtain ⟨fs', hs⟩ := settled_settle hv
  have hp := (parse_iff frac args fs fs').mpr ⟨items, h, hs⟩
  refine ⟨fs', settle_settled hs, ?_⟩
  unfold launch
  rw [hp]
  simp

/-- **C157** There is only one way to read a line. -/
theorem C157_unique {flag switch : Str → Prop} {args : List Str} {items items' : List (Str × Str)} (h : Reads flag switch args items) (h' : Reads flag switch args items') : items = items' := by
  induction h generalizing items' with
  | done => cases h'; rfl
  | dashes =>
    have hk : argKind ['-', '-'] = .stop := rfl
    generalize ha : [['-', '-']] = args at h'
    cases h' with
    | done => rfl
    | dashes => rfl
    | joined hd hn _ _ => injection ha with h1 h2; rw [h1, argKind_joined hd hn] at hk; cases hk
    | switched hd hn _ _ => injection ha with h1 h2; rw [h1, argKind_plain hd hn] at hk; cases hk
    | separate hd hn _ _ _ => injection ha with h1 h2; rw [h1, argKind_plain hd hn] at hk; cases hk
  | joined hd hn hf _ ih =>
    rename_i d n v rest items _
    have hk := argKind_joined hd hn v
    generalize ha : (d ++ n ++ '=' :: v) :: rest = args at h'
    cases h' with
    | done => cases ha
    | dashes => injection ha with h1 h2; rw [h1] at hk; cases hk
    | joined hd' hn' _ hr =>
      injection ha with h1 h2
      rw [h1, argKind_joined hd' hn'] at hk
      cases hk
      subst h2
      rw [ih hr]
    | switched hd' hn' _ _ => injection ha with h1 h2; rw [h1, argKind_plain hd' hn'] at hk; cases hk
    | separate hd' hn' _ _ _ => injection ha with h1 h2; rw [h1, argKind_plain hd' hn'] at hk; cases hk
  | switched hd hn hf _ ih =>
    rename_i d n rest items _
    have hk := argKind_plain hd hn
    generalize ha : (d ++ n) :: rest = args at h'
    cases h' with
    | done => cases ha
    | dashes => injection ha with h1 h2; rw [h1] at hk; cases hk
    | joined hd' hn' _ hr => injection ha with h1 h2; rw [h1, argKind_joined hd' hn'] at hk; cases hk
    | switched hd' hn' _ hr =>
      injection ha with h1 h2
      rw [h1, argKind_plain hd' hn'] at hk
      cases hk
      subst h2
      rw [ih hr]
    | separate hd' hn' _ hns _ =>
      injection ha with h1 h2
      rw [h1, argKind_plain hd' hn'] at hk
      cases hk
      exact absurd hf hns
  | separate hd hn hf hns _ ih =>
    rename_i d n v rest items _
    have hk := argKind_plain hd hn
    generalize ha : (d ++ n) :: v :: rest = args at h'
    cases h' with
    | done => cases ha
    | dashes => injection ha with h1 h2; rw [h1] at hk; cases hk
    | joined hd' hn' _ hr => injection ha with h1 h2; rw [h1, argKind_joined hd' hn'] at hk; cases hk
    | switched hd' hn' hf' hr =>
      injection ha with h1 h2
      rw [h1, argKind_plain hd' hn'] at hk
      cases hk
      exact absurd hf' hns
    | separate hd' hn' _ _ hr =>
      injection ha with h1 h2
      rw [h1, argKind_plain hd' hn'] at hk
      cases hk
      injection h2 with h2 h3
      subst h2
      subst h3
      rw [ih hr]

theorem undefined_help {n : Str} (h : undefinedFlag n = .help) : n = "h".toList ∨ n = "help".toList := by
  unfold undefinedFlag at h
  split at h
  · rename_i hh; exact hh.symm
  · cases h

theorem parse_help {frac : Nat → Nat → Nat → Nat} {args : List Str} {fs : FlagSet} (h : parseFlags frac fs args = .help) : ∃ a ∈ args, AsksForHelp a := by
  match args with
  | [] => cases h
  | s :: rest =>
    have up : ∀ {rest' : List Str} {fs' : FlagSet}, rest'.length < (s :: rest).length → (∀ a ∈ rest', a ∈ s :: rest) → parseFlags frac fs' rest' = .help → ∃ a ∈ s :: rest, AsksForHelp a := by
      intro rest' fs' hlt hsub hh
      obtain ⟨a, ha, hx⟩ := parse_help hh
      exact ⟨a, hsub a ha, hx⟩
    unfold parseFlags at h
    split at h
    · cases h
    · cases h
    · cases h
    · rename_i n t hk
      obtain ⟨hn, d, hd, hs⟩ := argKind_inv hk
      split at h
      · exact ⟨s, List.mem_cons_self .., d, n, hd, undefined_help h, .inr ⟨t, by rw [hs, joinedText, List.append_assoc]⟩⟩
      · split at h
        · cases h
        · exact up (by simp) (fun a ha => List.mem_cons_of_mem _ ha) h
    · rename_i n hk
      obtain ⟨hn, d, hd, hs⟩ := argKind_inv hk
      split at h
      · exact ⟨s, List.mem_cons_self .., d, n, hd, undefined_help h, .inl (by rw [hs, joinedText, List.append_nil])⟩
      · split at h
        · split at h
          · cases h
          · exact up (by simp) (fun a ha => List.mem_cons_of_mem _ ha) h
        · split at h
          · cases h
          · split at h
            · cases h
            · exact up (by simp; omega) (fun a ha => List.mem_cons_of_mem _ (List.mem_cons_of_mem _ ha)) h
termination_by args.length

/-- **C157** Every other line is refused: the program ends with status 2, unless the line asks for help. -/
theorem C157_refused {frac : Nat → Nat → Nat → Nat} {fs : FlagSet} {args : List Str}
    (h : ¬ ∃ items, Reads (fun n => fs.get n ≠ none) (IsSwitch fs.get) args items ∧ ∀ x ∈ items, ∃ v w, fs.get x.1 = some v ∧ v.set frac x.2 = some w) (hh : ∀ a ∈ args, ¬ AsksForHelp a) :
    launch frac fs args = .exits 2 := by
  unfold launch
  split
  · rfl
  · rename_i hp
    obtain ⟨a, ha, hx⟩ := parse_help hp
    exact absurd hx (hh a ha)
  · rename_i fs' rest hp
    by_cases hr : rest = []
    · subst hr
      obtain ⟨items, h1, h2⟩ := (parse_iff ..).mp hp
      exact absurd ⟨items, h1, (settle_settled h2).1⟩ h
    · rw [if_pos hr]

/-- The programs have no two flags of the same name. -/
theorem C157_names (userAgent : Str) : ((stayrtrFlags userAgent).map (·.1)).Nodup ∧ ((rtrmonFlags userAgent).map (·.1)).Nodup ∧ (rtrdumpFlags.map (·.1)).Nodup := by
  refine ⟨?_, ?_, ?_⟩
  · exact (by decide +kernel : ((stayrtrFlags []).map (·.1)).Nodup)
  · exact (by decide +kernel : ((rtrmonFlags []).map (·.1)).Nodup)
  · decide +kernel

/-- No fractions of units. -/
def noFrac : Nat → Nat → Nat → Nat := fun _ _ _ => 0

example : launch noFrac rtrdumpFlags ["-serial".toList, "--serial.value=5".toList, "-file".toList, "-serial".toList, "-serial.value".toList, "7".toList, "--".toList] =
    .runs ((rtrdumpFlags.put "serial".toList (.bool true)).put "file".toList (.str "-serial".toList) |>.put "serial.value".toList (.int 7)) := by decide +kernel

example : launch noFrac rtrdumpFlags ["-serial".toList, "5".toList] = .exits 2 ∧ launch noFrac rtrdumpFlags ["-serial.value".toList] = .exits 2 ∧ launch noFrac rtrdumpFlags ["-Serial".toList] = .exits 2 ∧
    launch noFrac rtrdumpFlags ["-serial=maybe".toList] = .exits 2 ∧ launch noFrac rtrdumpFlags ["--".toList, "-serial".toList] = .exits 2 ∧ launch noFrac rtrdumpFlags ["---serial".toList] = .exits 2 ∧
    launch noFrac rtrdumpFlags ["-".toList] = .exits 2 ∧ launch noFrac rtrdumpFlags ["-help".toList] = .exits 0 ∧ launch noFrac rtrdumpFlags ["-version".toList] = .exits 0 ∧
    launch noFrac rtrdumpFlags ["-version".toList, "-version=false".toList] ≠ .exits 0 := by decide +kernel

example : ∃ fs', launch noFrac (rtrmonFlags []) ["-grace.period=1h30m".toList, "-visibility.thresholds".toList, "5,3".toList] = .runs fs' ∧ fs'.get "grace.period".toList = some (.duration 5400000000000) ∧
    fs'.get "visibility.thresholds".toList = some (.thresholds [3, 5]) ∧ fs'.get "oneoff".toList = some (.bool false) := by
  refine ⟨((rtrmonFlags []).put "grace.period".toList (.duration 5400000000000)).put "visibility.thresholds".toList (.thresholds [3, 5]), ?_⟩
  decide +kernel

/-! ## Numbers -/

/-- The value of digits after those for `n`, in a base. -/
def valueFrom (base : Nat) (n : Nat) (s : Str) : Nat := s.foldl (fun n c => n * base + (c.toNat - '0'.toNat)) n

theorem valueFrom_le (base : Nat) (hb : 0 < base) (n : Nat) (s : Str) : n ≤ valueFrom base n s := by
  induction s generalizing n with
  | nil => exact Nat.le_refl _
  | cons c s ih => exact Nat.le_trans (Nat.le_trans (Nat.le_mul_of_pos_right n hb) (Nat.le_add_right _ _)) (ih _)

theorem isDec_digit {c : Char} (h : isDec c = true) : c.toNat - '0'.toNat < 10 := by
  simp only [isDec, Bool.and_eq_true, decide_eq_true_eq] at h
  have : '9'.toNat = 57 := rfl
  have : '0'.toNat = 48 := rfl
  omega

theorem isDec_underscore {c : Char} (h : isDec c = true) : c ≠ '_' := by
  rintro rfl
  exact absurd h (by decide)

theorem uintLoop_digits {base : Nat} {s : Str} {n : Nat} (hs : ∀ c ∈ s, isDec c = true) (hb : 0 < base) (hd : ∀ c ∈ s, c.toNat - '0'.toNat < base) (hn : n < 2 ^ 64) :
    uintLoop base n s = if valueFrom base n s < 2 ^ 64 then some (valueFrom base n s) else none := by
  induction s generalizing n with
  | nil => simp [uintLoop, valueFrom, hn]
  | cons c s ih =>
    have hc := hs c (List.mem_cons_self ..)
    unfold uintLoop
    rw [if_neg (isDec_underscore hc)]
    simp only [anyDigit, hc, if_true]
    have hdc := hd c (List.mem_cons_self ..)
    rw [if_neg (by omega)]
    split
    · rename_i hlt
      rw [ih (fun c h => hs c (List.mem_cons_of_mem _ h)) (fun c h => hd c (List.mem_cons_of_mem _ h)) hlt]
      rfl
    · rename_i hlt
      have : ¬ valueFrom base n (c :: s) < 2 ^ 64 := by
        have := valueFrom_le base hb (n * base + (c.toNat - '0'.toNat)) s
        have he : valueFrom base n (c :: s) = valueFrom base (n * base + (c.toNat - '0'.toNat)) s := rfl
        omega
      rw [if_neg this]

theorem parseUint0_numeral {s : Str} {n : Nat} (h : Numeral s n) : parseUint0 s = if n < 2 ^ 64 then some n else none := by
  rw [numeral_iff] at h
  obtain ⟨hp, h0⟩ := h
  have hc := parseDec_chars hp
  have hv : s ≠ [] ∧ decVal s = n := by
    unfold parseDec at hp
    split at hp
    · rename_i hh; cases hp; exact ⟨hh.1, rfl⟩
    · cases hp
  have hu : '_' ∉ s := fun hm => isDec_underscore (hc _ hm) rfl
  unfold parseUint0
  rw [if_neg hv.1]
  have hb : (baseOf s = (10, s) ∨ s = ['0']) := by
    unfold baseOf
    split
    · exact absurd ⟨by simp, rfl⟩ h0
    · rename_i t _
      cases t with
      | nil => exact .inr rfl
      | cons c t => exact absurd ⟨by simp, rfl⟩ h0
    · exact .inl rfl
  rcases hb with hb | rfl
  · rw [hb]
    simp only
    rw [uintLoop_digits hc (by decide) (fun c h => isDec_digit (hc c h)) (by decide)]
    have he : valueFrom 10 0 s = n := hv.2
    rw [he]
    split
    · rename_i hh
      split at hh
      · cases hh
      · rename_i hlt; rw [if_neg hlt]
    · rename_i m hh
      split at hh
      · rename_i hlt
        cases hh
        rw [if_pos hlt, if_neg (fun h => hu h.1)]
      · cases hh
  · have : n = 0 := hv.2.symm
    subst this
    decide

theorem numeral_head {s : Str} {n : Nat} (h : Numeral s n) : ∀ t, s ≠ '-' :: t ∧ s ≠ '+' :: t := by
  intro t
  have hc := parseDec_chars ((numeral_iff s n).mp h).1
  constructor
  · rintro rfl; exact absurd (hc '-' (List.mem_cons_self ..)) (by decide)
  · rintro rfl; exact absurd (hc '+' (List.mem_cons_self ..)) (by decide)

/-- **C158 (the part that holds)** Numerals without superfluous zeros, with or without a sign, are read as decimal numbers; those that do not fit 64 bits are refused. -/
theorem C158_decimal_partial {s : Str} {n : Nat} (h : Numeral s n) :
    parseInt0 s = (if n < 2 ^ 63 then some (n : Int) else none) ∧ parseInt0 ('+' :: s) = (if n < 2 ^ 63 then some (n : Int) else none) ∧
      parseInt0 ('-' :: s) = (if n ≤ 2 ^ 63 then some (-(n : Int)) else none) := by
  have hp := parseUint0_numeral h
  have key : ∀ {k : Nat} {f : Nat → Int}, k ≤ 2 ^ 63 + 1 → (match parseUint0 s with | some n => if n < k then some (f n) else none | none => none) = if n < k then some (f n) else none := by
    intro k f hk
    rw [hp]
    by_cases hn : n < 2 ^ 64
    · rw [if_pos hn]
    · rw [if_neg hn, if_neg (by omega)]
  refine ⟨?_, ?_, ?_⟩
  · unfold parseInt0
    split
    · exact absurd rfl (numeral_head h _).1
    · exact absurd rfl (numeral_head h _).2
    · exact key (by omega)
  · exact key (by omega)
  · have := @key (2 ^ 63 + 1) (fun n => -(n : Int)) (by omega)
    simp only [Nat.lt_succ_iff] at this
    exact this

example : Numeral "3600".toList 3600 ∧ parseInt0 "3600".toList = some 3600 ∧ parseInt0 "-1".toList = some (-1) ∧ parseInt0 "9223372036854775808".toList = none := by
  refine ⟨(numeral_iff _ _).mpr ?_, ?_⟩ <;> decide +kernel

theorem valueFrom_lt {a b : Nat} (h : a < b) (s : Str) : valueFrom 8 a s < valueFrom 10 b s := by
  induction s generalizing a b with
  | nil => exact h
  | cons c s ih => exact @ih (a * 8 + (c.toNat - '0'.toNat)) (b * 10 + (c.toNat - '0'.toNat)) (by omega)

theorem valueFrom_eq {a : Nat} {s : Str} (hs : ∀ c ∈ s, isDec c = true) (h : valueFrom 8 a s = valueFrom 10 a s) : s = [] ∨ valueFrom 10 a s < 10 := by
  induction s generalizing a with
  | nil => exact .inl rfl
  | cons c s ih =>
    refine .inr ?_
    have h1 : valueFrom 8 a (c :: s) = valueFrom 8 (a * 8 + (c.toNat - '0'.toNat)) s := rfl
    have h2 : valueFrom 10 a (c :: s) = valueFrom 10 (a * 10 + (c.toNat - '0'.toNat)) s := rfl
    rw [h1, h2] at h
    rw [h2]
    have hd := isDec_digit (hs c (List.mem_cons_self ..))
    by_cases ha : a = 0
    · subst ha
      simp only [Nat.zero_mul, Nat.zero_add] at h ⊢
      rcases ih (fun c h => hs c (List.mem_cons_of_mem _ h)) h with rfl | h
      · exact hd
      · exact h
    · have := @valueFrom_lt (a * 8 + (c.toNat - '0'.toNat)) (a * 10 + (c.toNat - '0'.toNat)) (by omega) s
      omega

theorem uintLoop_value {base : Nat} {s : Str} {n m : Nat} (hs : ∀ c ∈ s, isDec c = true) (h : uintLoop base n s = some m) : m = valueFrom base n s := by
  induction s generalizing n with
  | nil => cases h; rfl
  | cons c s ih =>
    have hc := hs c (List.mem_cons_self ..)
    unfold uintLoop at h
    rw [if_neg (isDec_underscore hc)] at h
    simp only [anyDigit, hc, if_true] at h
    split at h
    · cases h
    · split at h
      · exact ih (fun c h => hs c (List.mem_cons_of_mem _ h)) h
      · cases h

theorem isDec_lower {c : Char} (h : isDec c = true) : lowerChar c = c := by
  simp only [isDec, Bool.and_eq_true, decide_eq_true_eq] at h
  unfold lowerChar
  have : '9'.toNat = 57 := rfl
  have : 'A'.toNat = 65 := rfl
  rw [if_neg (by omega)]

/-- **C158 (fails)** No number of two digits or more that is written with a zero in front is read as it is written: it is refused, or read as octal. -/
theorem C158_zero_false {s : Str} {n : Nat} (h : Denotes ('0' :: s) n) (hn : 10 ≤ n) : parseInt0 ('0' :: s) ≠ some (n : Int) ∧ parseInt0 ('-' :: '0' :: s) ≠ some (-(n : Int)) := by
  rw [denotes_iff] at h
  have hc := parseDec_chars h
  have hv : decVal ('0' :: s) = n := by
    unfold parseDec at h
    split at h
    · cases h; rfl
    · cases h
  have key : parseUint0 ('0' :: s) ≠ some n := by
    intro hp
    unfold parseUint0 at hp
    rw [if_neg (by simp)] at hp
    have hb : baseOf ('0' :: s) = (8, s) := by
      cases s with
      | nil => rfl
      | cons c s =>
        cases s with
        | nil => rfl
        | cons d s =>
          have hcc := hc c (by simp)
          show (if lowerChar c = 'b' then _ else if lowerChar c = 'o' then _ else if lowerChar c = 'x' then _ else _) = _
          rw [isDec_lower hcc]
          rw [if_neg (by rintro rfl; exact absurd hcc (by decide)), if_neg (by rintro rfl; exact absurd hcc (by decide)), if_neg (by rintro rfl; exact absurd hcc (by decide))]
    rw [hb] at hp
    simp only at hp
    split at hp
    · cases hp
    · rename_i m hm
      split at hp
      · cases hp
      · cases hp
        have h1 := uintLoop_value (fun c h => hc c (List.mem_cons_of_mem _ h)) hm
        have h2 : valueFrom 10 0 s = n := by rw [← hv]; rfl
        rcases valueFrom_eq (a := 0) (fun c h => hc c (List.mem_cons_of_mem _ h)) (by rw [← h1, h2]) with rfl | h3
        · have : n = 0 := h2.symm
          omega
        · omega
  constructor
  · intro hp
    have he : parseInt0 ('0' :: s) = (match parseUint0 ('0' :: s) with | some n => if n < 2 ^ 63 then some (n : Int) else none | none => none) := rfl
    rw [he] at hp
    split at hp
    · rename_i m hm
      split at hp
      · have hmn : m = n := by injection hp with hp; omega
        exact key (hmn ▸ hm)
      · cases hp
    · cases hp
  · intro hp
    have he : parseInt0 ('-' :: '0' :: s) = (match parseUint0 ('0' :: s) with | some n => if n ≤ 2 ^ 63 then some (-(n : Int)) else none | none => none) := rfl
    rw [he] at hp
    split at hp
    · rename_i m hm
      split at hp
      · have hmn : m = n := by injection hp with hp; omega
        exact key (hmn ▸ hm)
      · cases hp
    · cases hp

/-- **C158 (fails)** With `-rtr.expire 07200` the routers are told 3712 seconds. -/
theorem C158_timer_false : ∃ fs', launch noFrac (stayrtrFlags []) ["-rtr.expire".toList, "07200".toList] = .runs fs' ∧ fs'.server.serverConfiguration.expire = 3712 ∧ Denotes "07200".toList 7200 := by
  refine ⟨(stayrtrFlags []).put "rtr.expire".toList (.int 3712), ?_, ?_, (denotes_iff _ _).mpr ?_⟩ <;> decide +kernel

example : parseInt0 "08".toList = none ∧ parseInt0 "0x10".toList = some 16 ∧ parseInt0 "0b11".toList = some 3 ∧ parseInt0 "1_000".toList = some 1000 ∧ parseInt0 "1__0".toList = none ∧ parseInt0 "_1".toList = none ∧
    parseInt0 "0_10".toList = some 8 ∧ parseInt0 "0x".toList = none ∧ parseInt0 "".toList = none ∧ parseInt0 "1e3".toList = none ∧ parseInt0 " 1".toList = none := by decide +kernel

/-! ## Durations -/

theorem leadingInt_digits {s u : Str} {x : Nat} (hs : ∀ c ∈ s, isDec c = true) (hu : ∀ c t, u = c :: t → isDec c = false) (hx : x ≤ 2 ^ 63) :
    leadingInt x (s ++ u) = if valueFrom 10 x s ≤ 2 ^ 63 then some (valueFrom 10 x s, u) else none := by
  induction s generalizing x with
  | nil =>
    cases u with
    | nil => simp [leadingInt, valueFrom, hx]
    | cons c u => simp [leadingInt, valueFrom, hx, hu c u rfl]
  | cons c s ih =>
    have hc := hs c (List.mem_cons_self ..)
    have he : valueFrom 10 x (c :: s) = valueFrom 10 (x * 10 + (c.toNat - '0'.toNat)) s := rfl
    have hle := valueFrom_le 10 (by decide) (x * 10 + (c.toNat - '0'.toNat)) s
    rw [List.cons_append]
    unfold leadingInt
    rw [if_pos hc, he]
    split
    · rw [if_neg (by omega)]
    · split
      · rw [if_neg (by omega)]
      · exact ih (fun c h => hs c (List.mem_cons_of_mem _ h)) (by omega)

/-- The units of a duration, in nanoseconds. -/
def Spec.units : List (Str × Nat) :=
  [("ns".toList, 1), ("us".toList, 10 ^ 3), (['µ', 's'], 10 ^ 3), (['μ', 's'], 10 ^ 3), ("ms".toList, 10 ^ 6), ("s".toList, 10 ^ 9), ("m".toList, 60 * 10 ^ 9), ("h".toList, 3600 * 10 ^ 9)]

theorem units_ok : ∀ x ∈ Spec.units, durationUnit x.1 = some x.2 ∧ 0 < x.2 ∧ (2 ^ 63 / x.2) * x.2 ≤ 2 ^ 63 ∧ (x.2 = 1 ∨ (2 ^ 63 / x.2) * x.2 < 2 ^ 63) ∧ (x.1.takeWhile fun c => !(c == '.' || isDec c)) = x.1 ∧
    (x.1.dropWhile fun c => !(c == '.' || isDec c)) = [] ∧ x.1 ≠ [] ∧ x.1.head? ≠ some '.' ∧ (x.1.head?.map isDec = some false) := by decide +kernel

/-- **C158** A number with a unit is read as that many units; what does not fit 64 bits is refused. -/
theorem C158_duration {frac : Nat → Nat → Nat → Nat} {s : Str} {n : Nat} (h : Denotes s n) {x : Str × Nat} (hx : x ∈ Spec.units) :
    parseDuration frac (s ++ x.1) = if n * x.2 < 2 ^ 63 then some ((n * x.2 : Nat) : Int) else none := by
  rw [denotes_iff] at h
  have hc := parseDec_chars h
  have hv : s ≠ [] ∧ valueFrom 10 0 s = n := by
    unfold parseDec at h
    split at h
    · rename_i hh; cases h; exact ⟨hh.1, rfl⟩
    · cases h
  obtain ⟨u1, u2, u3, u4, u5, u6, u7, u8, u9⟩ := units_ok x hx
  obtain ⟨u, k⟩ := x
  simp only at u1 u2 u3 u4 u5 u6 u7 u8 u9 ⊢
  cases s with
  | nil => exact absurd rfl hv.1
  | cons c s =>
    have hcc := hc c (List.mem_cons_self ..)
    cases u with
    | nil => exact absurd rfl u7
    | cons a u =>
      simp only [List.head?_cons, Option.map_some, Option.some.injEq, ne_eq] at u8 u9
      have hl := @leadingInt_digits (c :: s) (a :: u) 0 hc (by rintro c' t h; cases h; exact u9) (by decide)
      rw [hv.2] at hl
      have hlen : ((a :: u).length != (c :: (s ++ a :: u)).length) = true := by simp; omega
      have hloop : parseUnsignedDuration frac (c :: s ++ a :: u) = if n ≤ 2 ^ 63 / k then some (n * k) else none := by
        unfold parseUnsignedDuration
        rw [if_neg (by simp), if_neg (by simp)]
        rw [show (c :: s ++ a :: u).length = (s ++ a :: u).length + 1 from rfl]
        rw [List.cons_append] at hl ⊢
        unfold durationLoop
        rw [if_neg (by simp [hcc]), hl]
        by_cases hn : n ≤ 2 ^ 63
        · rw [if_pos hn]
          have hf : fractionOf (a :: u) = (0, 0, false, a :: u) := by
            unfold fractionOf
            split
            · rename_i h; cases h; exact absurd rfl u8
            · rfl
          simp only [hf, hlen, Bool.true_eq_false, false_and, if_false, u5, u1]
          by_cases hk : n ≤ 2 ^ 63 / k
          · have hnk : n * k ≤ 2 ^ 63 := Nat.le_trans (Nat.mul_le_mul_right k hk) u3
            rw [if_neg (by omega), if_neg (by simpa using hnk), if_neg (by simpa using hnk), if_pos hk, u6]
            simp [durationLoop]
          · rw [if_pos (by omega), if_neg hk]
        · rw [if_neg hn, if_neg]
          have : 2 ^ 63 / k ≤ 2 ^ 63 := Nat.div_le_self ..
          omega
      have hlt : n * k < 2 ^ 63 ↔ n ≤ 2 ^ 63 / k ∧ n * k ≠ 2 ^ 63 := by
        rw [Nat.le_div_iff_mul_le u2]
        omega
      have hd : parseDuration frac (c :: s ++ a :: u) = (match parseUnsignedDuration frac (c :: s ++ a :: u) with | some d => if d > 2 ^ 63 - 1 then none else some (d : Int) | none => none) := by
        unfold parseDuration
        split
        · rename_i h; cases h; exact absurd hcc (by decide)
        · rename_i h; cases h; exact absurd hcc (by decide)
        · rfl
      rw [hd, hloop]
      by_cases hk : n ≤ 2 ^ 63 / k
      · rw [if_pos hk]
        simp only
        by_cases he : n * k < 2 ^ 63
        · rw [if_pos he, if_neg (by omega)]
        · rw [if_neg he, if_pos (by omega)]
      · rw [if_neg hk, if_neg (fun h => hk (hlt.mp h).1)]

example : Denotes "90".toList 90 ∧ parseDuration noFrac "90m".toList = some (90 * 60 * 10 ^ 9) ∧ parseDuration noFrac "2562048h".toList = none ∧ parseDuration noFrac "3600".toList = none ∧
    parseDuration noFrac "-1h".toList = some (-3600 * 10 ^ 9) ∧ parseDuration noFrac "1h5m".toList = some (65 * 60 * 10 ^ 9) ∧ parseDuration noFrac "1 h".toList = none ∧ parseDuration noFrac "0".toList = some 0 ∧
    parseDuration noFrac "1d".toList = none := by
  refine ⟨(denotes_iff _ _).mpr ?_, ?_⟩ <;> decide +kernel

/-! ## The log level -/

/-- The names of the levels, in small letters. -/
def Spec.levelNames : List (Str × LogLevel) :=
  [("panic".toList, .panic), ("fatal".toList, .fatal), ("error".toList, .error), ("warn".toList, .warn), ("warning".toList, .warn), ("info".toList, .info), ("debug".toList, .debug), ("trace".toList, .trace)]

/-- Letters of ASCII, whatever their case. -/
def Spec.SameLetters (a b : Str) : Prop := a.map Char.toLower = b.map Char.toLower

/-- The levels `-loglevel` can have, by their names; nothing for other names. -/
def Spec.LevelOf (s : Str) (l : LogLevel) : Prop := ∃ x ∈ Spec.levelNames, Spec.SameLetters s x.1 ∧ x.2 = l

theorem lowerChar_toLower (c : Char) : lowerChar c = c.toLower := by
  unfold lowerChar
  by_cases h : 'A'.toNat ≤ c.toNat ∧ c.toNat ≤ 'Z'.toNat
  · rw [if_pos h]
    have key : ∀ n : Fin 128, 65 ≤ n.val → n.val ≤ 90 → Char.ofNat ((Char.ofNat n.val).toNat + 32) = (Char.ofNat n.val).toLower := by decide +kernel
    have h1 : 65 ≤ c.toNat := h.1
    have h2 : c.toNat ≤ 90 := h.2
    have := key ⟨c.toNat, by omega⟩ h1 h2
    rwa [Char.ofNat_toNat] at this
  · rw [if_neg h]
    unfold Char.toLower
    rw [dif_neg]
    rintro ⟨h1, h2⟩
    apply h
    exact ⟨UInt32.le_iff_toNat_le.mp h1, UInt32.le_iff_toNat_le.mp h2⟩

/-- **C159 (the part that holds)** The eight names, in any case, stand for their levels. -/
theorem C159_known_partial {s : Str} {l : LogLevel} (h : Spec.LevelOf s l) : parseLevel s = l := by
  obtain ⟨x, hx, hs, rfl⟩ := h
  have hi : 'İ' ∉ s := by
    intro hm
    have h1 : Char.toLower 'İ' ∈ s.map Char.toLower := List.mem_map_of_mem hm
    rw [hs] at h1
    have key : ∀ x ∈ Spec.levelNames, Char.toLower 'İ' ∉ x.1.map Char.toLower := by decide +kernel
    exact key x hx h1
  have he : s.map toLowerChar = x.1 := by
    have h1 : s.map toLowerChar = s.map Char.toLower := by
      refine List.map_congr_left fun c hc => ?_
      unfold toLowerChar
      rw [if_neg (by rintro rfl; exact hi hc), lowerChar_toLower]
    have key : ∀ x ∈ Spec.levelNames, x.1.map Char.toLower = x.1 := by decide +kernel
    rw [h1, hs, key x hx]
  unfold parseLevel
  rw [he]
  have key : ∀ x ∈ Spec.levelNames, (if x.1 = "panic".toList then .panic
      else if x.1 = "fatal".toList then .fatal
      else if x.1 = "error".toList then .error
      else if x.1 = "warn".toList ∨ x.1 = "warning".toList then .warn
      else if x.1 = "info".toList then .info
      else if x.1 = "debug".toList then .debug
      else if x.1 = "trace".toList then .trace
      else LogLevel.panic) = x.2 := by decide +kernel
  exact key x hx

/-- What no name of a level is equal to. -/
def Spec.NoLevel (s : Str) : Prop := 'İ' ∉ s ∧ ∀ l, ¬ Spec.LevelOf s l

theorem level_launch (frac : Nat → Nat → Nat → Nat) (userAgent s : Str) :
    launch frac (stayrtrFlags userAgent) ["-loglevel".toList, s] = .runs ((stayrtrFlags userAgent).put "loglevel".toList (.str s)) ∧
    ((stayrtrFlags userAgent).put "loglevel".toList (.str s)).str "loglevel".toList = s := by
  have hk : argKind "-loglevel".toList = .flag "loglevel".toList none := by decide +kernel
  have hg : (stayrtrFlags userAgent).get "loglevel".toList = some (.str "info".toList) := by simp [stayrtrFlags, FlagSet.get]
  have hv : (stayrtrFlags userAgent).get "version".toList = some (.bool false) := by simp [stayrtrFlags, FlagSet.get]
  constructor
  · have hp : parseFlags frac (stayrtrFlags userAgent) ["-loglevel".toList, s] = .ok ((stayrtrFlags userAgent).put "loglevel".toList (.str s)) [] := by
      unfold parseFlags
      rw [hk]
      simp only [hg, FlagValue.isBool, Bool.false_eq_true, if_false, FlagValue.set]
      unfold parseFlags
      rfl
    unfold launch
    rw [hp]
    simp only [ne_eq, not_true_eq_false, if_false]
    have hg' : ((stayrtrFlags userAgent).put "loglevel".toList (.str s)).get "version".toList = some (.bool false) := by
      rw [get_put, hv]
      exact if_neg (fun h => absurd h.1 (by decide +kernel))
    rw [hg']
    exact if_neg (by simp)
  · unfold FlagSet.str
    rw [get_put, if_pos ⟨rfl, by rw [hg]; simp⟩]

/-- **C159 (fails)** Every other name is accepted, and means the level at which nothing is logged but a panic. -/
theorem C159_unknown_false (frac : Nat → Nat → Nat → Nat) (userAgent : Str) {s : Str} (h : Spec.NoLevel s) :
    ∃ fs', launch frac (stayrtrFlags userAgent) ["-loglevel".toList, s] = .runs fs' ∧ parseLevel (fs'.str "loglevel".toList) = .panic := by
  refine ⟨_, (level_launch frac userAgent s).1, ?_⟩
  rw [(level_launch frac userAgent s).2]
  obtain ⟨hi, hl⟩ := h
  have he : s.map toLowerChar = s.map Char.toLower := by
    refine List.map_congr_left fun c hc => ?_
    unfold toLowerChar
    rw [if_neg (by rintro rfl; exact hi hc), lowerChar_toLower]
  have hne : ∀ x ∈ Spec.levelNames, s.map toLowerChar ≠ x.1 := by
    intro x hx hh
    have key : ∀ x ∈ Spec.levelNames, x.1.map Char.toLower = x.1 := by decide +kernel
    exact hl x.2 ⟨x, hx, by rw [Spec.SameLetters, ← he, hh, key x hx], rfl⟩
  unfold parseLevel
  simp only [Spec.levelNames, List.mem_cons, List.not_mem_nil, or_false, forall_eq_or_imp, forall_eq] at hne
  obtain ⟨h1, h2, h3, h4, h5, h6, h7, h8⟩ := hne
  simp only [h1, h2, h3, h4, h5, h6, h7, h8, or_self, if_false]

example : Spec.NoLevel "verbose".toList ∧ parseLevel "verbose".toList = .panic := by
  refine ⟨⟨by decide +kernel, ?_⟩, by decide +kernel⟩
  rintro l ⟨x, hx, hs, -⟩
  have key : ∀ x ∈ Spec.levelNames, "verbose".toList.map Char.toLower ≠ x.1.map Char.toLower := by decide +kernel
  exact key x hx hs

example : Spec.LevelOf "WARNING".toList .warn ∧ parseLevel "WARNING".toList = .warn := by
  refine ⟨⟨("warning".toList, .warn), ?_, ?_, rfl⟩, ?_⟩
  · decide +kernel
  · exact (by decide +kernel : "WARNING".toList.map Char.toLower = "warning".toList.map Char.toLower)
  · decide +kernel

/-! ## What rtrdump asks for -/

/-- The query that a command line asks for: with the version, the session and the serial as they were given. -/
def Spec.QueryOf (version session serial : Int) (initSerial : Bool) (p : Pdu) : Prop :=
  if initSerial = true then ∃ v s n, p = .serialQuery v s n ∧ (v.toNat : Int) = version ∧ (s.toNat : Int) = session ∧ (n.toNat : Int) = serial
  else ∃ v, p = .resetQuery v ∧ (v.toNat : Int) = version

/-- **C160 (the part that holds)** With the version 0 or 1, and a session and a serial that fit, rtrdump asks for what is on the command line. -/
theorem C160_query_partial {fs : FlagSet} {input : Bytes} (hv : fs.dump.version = 0 ∨ fs.dump.version = 1) (hs : 0 ≤ fs.dump.session ∧ fs.dump.session < 2 ^ 16) (hn : 0 ≤ fs.dump.serial ∧ fs.dump.serial < 2 ^ 32) :
    ∃ p, (dumpMain fs.dump input).2.head? = some p ∧ Spec.QueryOf fs.dump.version fs.dump.session fs.dump.serial fs.dump.initSerial p := by
  generalize fs.dump = f at hv hs hn ⊢
  unfold dumpMain dumpVersion
  rw [if_neg (by omega)]
  simp only
  have hver : (((if f.version = 1 then 1 else 0 : U8).toNat : Nat) : Int) = f.version := by
    rcases hv with h | h <;> rw [h] <;> rfl
  generalize (if f.version = 1 then (1 : U8) else 0) = v at hver
  unfold CSession.startRW dumpHello Spec.QueryOf
  cases f.initSerial with
  | false =>
    refine ⟨.resetQuery v, rfl, ?_⟩
    simp only [Bool.false_eq_true, if_false]
    exact ⟨v, rfl, hver⟩
  | true =>
    refine ⟨.serialQuery v (BitVec.ofInt 16 f.session) (BitVec.ofInt 32 f.serial), rfl, ?_⟩
    simp only [if_true]
    refine ⟨v, _, _, rfl, hver, ?_, ?_⟩
    · rw [BitVec.toNat_ofInt]
      omega
    · rw [BitVec.toNat_ofInt]
      omega

example : ∃ fs', launch noFrac rtrdumpFlags ["-serial".toList, "-serial.value=4294967295".toList, "-session.id".toList, "7".toList] = .runs fs' ∧
    (dumpMain fs'.dump []).2 = [.serialQuery 1 7 4294967295] := by
  refine ⟨((rtrdumpFlags.put "serial".toList (.bool true)).put "serial.value".toList (.int 4294967295)).put "session.id".toList (.int 7), ?_⟩
  decide +kernel

/-- **C160 (fails)** A serial and a session that do not fit are cut off, and any negative version means version 0: rtrdump asks for something that is not on the command line. -/
theorem C160_query_false : (dumpProgram noFrac ["-serial".toList, "-serial.value=4294967297".toList, "-session.id=65538".toList] []).map (·.2) = some [.serialQuery 1 2 1] ∧
    (dumpProgram noFrac ["-serial".toList, "-serial.value=-1".toList] []).map (·.2) = some [.serialQuery 1 0 4294967295] ∧
    (dumpProgram noFrac ["-rtr.version=-5".toList] []).map (·.2) = some [.resetQuery 0] := by decide +kernel

/-- **C160** A version above 1 is refused, whatever else is on the command line. -/
theorem C160_version {fs : FlagSet} (input : Bytes) (h : 1 < fs.dump.version) : dumpMain fs.dump input = (.fatal, []) := by
  unfold dumpMain dumpVersion
  rw [if_pos (by omega)]

example : dumpProgram noFrac ["-rtr.version".toList, "2".toList] [] = some (.fatal, []) := by decide +kernel

/-! ## A flag without effect -/

/-- The same flags but for the value of `-refresh`. -/
def ButRefresh (a b : FlagSet) : Prop :=
  (∀ n, n ≠ "refresh".toList → a.get n = b.get n) ∧ (∃ x, a.get "refresh".toList = some (.int x)) ∧ ∃ x, b.get "refresh".toList = some (.int x)

theorem ButRefresh.put {a b : FlagSet} (h : ButRefresh a b) {n : Str} {v : FlagValue} (hn : n ≠ "refresh".toList) : ButRefresh (a.put n v) (b.put n v) := by
  obtain ⟨h1, ⟨x, hx⟩, ⟨y, hy⟩⟩ := h
  refine ⟨fun m hm => ?_, ⟨x, ?_⟩, ⟨y, ?_⟩⟩
  · rw [get_put, get_put, h1 m hm, h1 n hn]
  · rw [get_put, if_neg (fun h => hn h.1.symm), hx]
  · rw [get_put, if_neg (fun h => hn h.1.symm), hy]

theorem ButRefresh.both {a b : FlagSet} (h : ButRefresh a b) (k l : Int) : ButRefresh (a.put "refresh".toList (.int k)) (b.put "refresh".toList (.int l)) := by
  obtain ⟨h1, ⟨x, hx⟩, ⟨y, hy⟩⟩ := h
  refine ⟨fun m hm => ?_, ⟨k, ?_⟩, ⟨l, ?_⟩⟩
  · rw [get_put, get_put, if_neg (fun h => hm h.1), if_neg (fun h => hm h.1), h1 m hm]
  · rw [get_put, if_pos ⟨rfl, by rw [hx]; simp⟩]
  · rw [get_put, if_pos ⟨rfl, by rw [hy]; simp⟩]

/-- The same outcome, but for the value of `-refresh`. -/
def ButRefreshResult : FlagsResult → FlagsResult → Prop
  | .ok a l, .ok b m => ButRefresh a b ∧ l = m
  | .help, .help => True
  | .bad, .bad => True
  | _, _ => False

theorem parse_butRefresh (frac : Nat → Nat → Nat → Nat) (args : List Str) {a b : FlagSet} (h : ButRefresh a b) : ButRefreshResult (parseFlags frac a args) (parseFlags frac b args) := by
  match args with
  | [] => exact ⟨h, rfl⟩
  | s :: rest =>
    have undef : ∀ n, ButRefreshResult (undefinedFlag n) (undefinedFlag n) := by
      intro n
      unfold undefinedFlag
      split <;> exact True.intro
    have one : ∀ n t (rest' : List Str), rest'.length < (s :: rest).length → ∀ v w, a.get n = some v → b.get n = some w → ButRefreshResult
        (match v.set frac t with | none => .bad | some v' => parseFlags frac (a.put n v') rest') (match w.set frac t with | none => .bad | some v' => parseFlags frac (b.put n v') rest') := by
      intro n t rest' hlt v w hv hw
      by_cases hn : n = "refresh".toList
      · subst hn
        obtain ⟨h1, ⟨x, hx⟩, ⟨y, hy⟩⟩ := h
        rw [hx] at hv; cases hv
        rw [hy] at hw; cases hw
        simp only [FlagValue.set]
        cases parseInt0 t with
        | none => exact True.intro
        | some k => exact parse_butRefresh frac rest' (ButRefresh.both ⟨h1, ⟨x, hx⟩, ⟨y, hy⟩⟩ k k)
      · rw [h.1 n hn, hw] at hv
        cases hv
        cases v.set frac t with
        | none => exact True.intro
        | some v' => exact parse_butRefresh frac rest' (h.put hn)
    have same : ∀ n, (a.get n = none ∧ b.get n = none) ∨ ∃ v w, a.get n = some v ∧ b.get n = some w ∧ v.isBool = w.isBool := by
      intro n
      by_cases hn : n = "refresh".toList
      · subst hn
        obtain ⟨h1, ⟨x, hx⟩, ⟨y, hy⟩⟩ := h
        exact .inr ⟨_, _, hx, hy, rfl⟩
      · rw [h.1 n hn]
        cases hb : b.get n with
        | none => exact .inl ⟨rfl, rfl⟩
        | some w => exact .inr ⟨w, w, rfl, rfl, rfl⟩
    unfold parseFlags
    cases argKind s with
    | positional => exact ⟨h, rfl⟩
    | stop => exact ⟨h, rfl⟩
    | bad => exact True.intro
    | flag n t =>
      rcases same n with ⟨h1, h2⟩ | ⟨v, w, h1, h2, h3⟩
      · cases t with
        | some t => simp only [h1, h2]; exact undef n
        | none => simp only [h1, h2]; exact undef n
      · cases t with
        | some t => simp only [h1, h2]; exact one n t rest (by simp) v w h1 h2
        | none =>
          simp only [h1, h2, h3]
          split
          · exact one n _ rest (by simp) v w h1 h2
          · split
            · exact True.intro
            · rename_i t rest'
              exact one n t rest' (by simp; omega) v w h1 h2
termination_by args.length

/-- **C161 (fails)** The flag `-refresh` of rtrdump is accepted and changes nothing: not what is sent, and not the file. -/
theorem C161_refresh_false (frac : Nat → Nat → Nat → Nat) {t : Str} {k : Int} (ht : parseInt0 t = some k) (args : List Str) (input : Bytes) :
    dumpProgram frac ("-refresh".toList :: t :: args) input = dumpProgram frac args input := by
  have hk : argKind "-refresh".toList = .flag "refresh".toList none := by decide +kernel
  have hg : rtrdumpFlags.get "refresh".toList = some (.int 600) := by decide +kernel
  have hp : parseFlags frac rtrdumpFlags ("-refresh".toList :: t :: args) = parseFlags frac (rtrdumpFlags.put "refresh".toList (.int k)) args := by
    rw [parseFlags, hk]
    simp only [hg, FlagValue.isBool, Bool.false_eq_true, if_false, FlagValue.set, ht, Option.map_some]
  have hb : ButRefresh (rtrdumpFlags.put "refresh".toList (.int k)) rtrdumpFlags := by
    refine ⟨fun m hm => ?_, ⟨k, ?_⟩, ⟨600, hg⟩⟩
    · rw [get_put, if_neg (fun h => hm h.1)]
    · rw [get_put, if_pos ⟨rfl, by rw [hg]; simp⟩]
  have hr := parse_butRefresh frac args hb
  unfold dumpProgram launch
  rw [hp]
  revert hr
  cases parseFlags frac (rtrdumpFlags.put "refresh".toList (.int k)) args <;> cases parseFlags frac rtrdumpFlags args <;> simp only [ButRefreshResult, false_imp_iff, true_imp_iff]
  rename_i a l b m
  rintro ⟨h1, rfl⟩
  have hd : a.dump = b.dump := by
    unfold FlagSet.dump FlagSet.int FlagSet.bool FlagSet.str
    rw [h1.1 _ (by decide +kernel : "rtr.version".toList ≠ "refresh".toList), h1.1 _ (by decide +kernel : "serial".toList ≠ "refresh".toList), h1.1 _ (by decide +kernel : "serial.value".toList ≠ "refresh".toList),
      h1.1 _ (by decide +kernel : "session.id".toList ≠ "refresh".toList), h1.1 _ (by decide +kernel : "tls.validate".toList ≠ "refresh".toList),
      h1.1 _ (by decide +kernel : "ssh.validate".toList ≠ "refresh".toList), h1.1 _ (by decide +kernel : "ssh.validate.key".toList ≠ "refresh".toList)]
  rw [h1.1 _ (by decide +kernel : "version".toList ≠ "refresh".toList)]
  by_cases hl : l = []
  · by_cases hv : b.get "version".toList = some (.bool true)
    · simp only [hl, hv, ne_eq, not_true_eq_false, if_true, if_false]
    · simp only [hl, hv, hd, ne_eq, not_true_eq_false, if_false]
  · simp only [hl, ne_eq, not_false_eq_true, if_true]

example : parseInt0 "10".toList = some 10 ∧ dumpProgram noFrac ["-refresh".toList, "10".toList, "-rtr.version=0".toList] [] = some (.fatal, [.resetQuery 0]) := by decide +kernel

end StayRTR
