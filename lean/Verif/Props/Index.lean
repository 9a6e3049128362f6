import Verif.Model.Index
import Verif.Props.ServeMux
import Verif.Proofs.Json
import Verif.Proofs.ParsePrint
import Verif.Proofs.ParseExact

/-!
C170: the links of rtrmon's index page lead to the difference and to the metrics.
-/

namespace StayRTR
open Spec

namespace Spec

/-- The named and numbered characters that matter (HTML, character references). -/
def references : List (Str × Char) :=
  [("&#34;".toList, '"'), ("&amp;".toList, '&'), ("&#39;".toList, '\''), ("&#43;".toList, '+'), ("&lt;".toList, '<'), ("&gt;".toList, '>')]

/-- An attribute as a browser reads it; the number counts the characters that belong to the reference before. -/
def attrValue : Nat → Str → Str
  | _, [] => []
  | skip + 1, _ :: l => attrValue skip l
  | 0, c :: l => match references.find? (fun e => e.1.isPrefixOf (c :: l)) with
    | some e => e.2 :: attrValue (e.1.length - 1) l
    | none => c :: attrValue 0 l

/-- RFC 3986, 5.2.4: the segments of a path without `.` and `..`; `done` are those before, the last first. -/
def withoutDots (done : List Str) : List Str → List Str
  | [] => done.reverse
  | s :: l => if s = ['.'] then (if l = [] then ([] :: done).reverse else withoutDots done l)
    else if s = ['.', '.'] then (if l = [] then ([] :: done.tail).reverse else withoutDots done.tail l)
    else withoutDots (s :: done) l

/-- The segments of the path of the page up to its last slash. -/
def directory (page : Str) : List Str := (splitOn '/' page.tail).dropLast

/-- RFC 3986, 5.2: the path that a reference on a page with this path leads to, with its escapes; `none` if it leads to another site. -/
def leadsTo (page ref : Str) : Option Str :=
  let r := ref.takeWhile fun c => c ≠ '?' ∧ c ≠ '#'
  if ':' ∈ r.takeWhile (· ≠ '/') then none
  else match r with
    | [] => some page
    | '/' :: '/' :: _ => none
    | '/' :: p => some ('/' :: joinWith '/' (withoutDots [] (splitOn '/' p)))
    | p => some ('/' :: joinWith '/' (withoutDots [] (directory page ++ splitOn '/' p)))

/-- The value of a hexadecimal digit. -/
def escapeValue (c : Char) : Option Nat :=
  if '0' ≤ c ∧ c ≤ '9' then some (c.toNat - '0'.toNat) else if 'a' ≤ c ∧ c ≤ 'f' then some (c.toNat - 'a'.toNat + 10) else if 'A' ≤ c ∧ c ≤ 'F' then some (c.toNat - 'A'.toNat + 10) else none

/-- RFC 3986, 2.1: the bytes of a path with escapes; the number counts the characters that belong to the escape before. -/
def unescaped : Nat → Str → Bytes
  | _, [] => []
  | skip + 1, _ :: l => unescaped skip l
  | 0, c :: l => match if c = '%' then l else [] with
    | a :: b :: _ => match escapeValue a, escapeValue b with
      | some x, some y => BitVec.ofNat 8 (16 * x + y) :: unescaped 2 l
      | _, _ => BitVec.ofNat 8 c.toNat :: unescaped 0 l
    | _ => BitVec.ofNat 8 c.toNat :: unescaped 0 l

/-- Whoever follows the link `href` on the page `page` asks for `t`, with its escapes. -/
def Follow (page href t : Str) : Prop := leadsTo page (attrValue 0 href) = some t

/-- A path as the flags mean it (C138) that is no query: its segments are none of the special ones, and only the last may be empty. -/
structure OrdinaryPath (p : Str) : Prop where
  chars : ∀ c ∈ p, c ∉ [' ', '\t', '{', '%', '?', '#']
  dots : ∀ s ∈ splitOn '/' p, s ≠ ['.'] ∧ s ≠ ['.', '.']
  inner : ∀ s ∈ (splitOn '/' p).dropLast, s ≠ []
  some : p ≠ []

end Spec

/-! ## Escapes -/

theorem urlByte_read (b : U8) (l : Str) : unescaped 0 (urlByte b ++ l) = b :: unescaped 0 l := by
  have key : ∀ b : U8, if urlKeeps b then Char.ofNat b.toNat ≠ '%' ∧ BitVec.ofNat 8 (Char.ofNat b.toNat).toNat = b
      else escapeValue (escapeDigit (b.toNat / 16)) = some (b.toNat / 16) ∧ escapeValue (escapeDigit (b.toNat % 16)) = some (b.toNat % 16) := by decide +kernel
  have := key b
  unfold urlByte
  split
  · rename_i hk
    rw [if_pos hk] at this
    rw [List.singleton_append, unescaped, if_neg this.1]
    simp only [this.2]
  · rename_i hk
    rw [if_neg hk] at this
    simp only [List.cons_append, List.nil_append, unescaped, if_true, this.1, this.2, List.cons.injEq, and_true]
    have : 16 * (b.toNat / 16) + b.toNat % 16 = b.toNat := by omega
    rw [this]
    exact BitVec.ofNat_toNat ..

theorem flatMap_read (bs : Bytes) (l : Str) : unescaped 0 (bs.flatMap urlByte ++ l) = bs ++ unescaped 0 l := by
  induction bs with
  | nil => rfl
  | cons b bs ih => rw [List.flatMap_cons, List.append_assoc, urlByte_read, ih, List.cons_append]

theorem urlNormalize_plain {bs : Bytes} (h : ∀ b ∈ bs, b ≠ 0x25) : urlNormalize bs = bs.flatMap urlByte := by
  induction bs with
  | nil => rfl
  | cons b bs ih =>
    rw [urlNormalize, if_neg (fun hb => h b List.mem_cons_self hb.1), ih (fun b hb => h b (List.mem_cons_of_mem _ hb)), List.flatMap_cons]

theorem attrValue_skip (a l : Str) : attrValue a.length (a ++ l) = attrValue 0 l := by
  induction a with
  | nil => rfl
  | cons x a ih => exact ih

theorem attrValue_char (c : Char) (l : Str) : attrValue 0 (attrChar c ++ l) = c :: attrValue 0 l := by
  have ref : ∀ (n : Str) (d x : Char), references.find? (fun e => e.1.isPrefixOf ('&' :: (n ++ l))) = some ('&' :: n, d) → attrValue 0 ('&' :: (n ++ l)) = d :: attrValue 0 l := by
    intro n d x h
    rw [attrValue, h]
    simp only [List.length_cons, Nat.add_sub_cancel]
    rw [attrValue_skip]
  unfold attrChar
  split
  · rename_i h; rw [h]; exact ref ['#', '3', '4', ';'] _ 'x' rfl
  split
  · rename_i h; rw [h]; exact ref ['a', 'm', 'p', ';'] _ 'x' rfl
  split
  · rename_i h; rw [h]; exact ref ['#', '3', '9', ';'] _ 'x' rfl
  split
  · rename_i h; rw [h]; exact ref ['#', '4', '3', ';'] _ 'x' rfl
  split
  · rename_i h; rw [h]; exact ref ['l', 't', ';'] _ 'x' rfl
  split
  · rename_i h; rw [h]; exact ref ['g', 't', ';'] _ 'x' rfl
  · rename_i h _ _ _ _
    rw [List.singleton_append, attrValue]
    have : references.find? (fun e => e.1.isPrefixOf (c :: l)) = none := by
      rw [List.find?_eq_none]
      intro e he hp
      have hx : e.1.head? = some '&' := (by decide +kernel : ∀ e ∈ references, e.1.head? = some '&') e he
      cases hn : e.1 with
      | nil => rw [hn] at hx; cases hx
      | cons x r =>
        rw [hn] at hx hp
        simp only [List.head?_cons, Option.some.injEq] at hx
        subst hx
        simp only [List.isPrefixOf, Bool.and_eq_true, beq_iff_eq] at hp
        exact absurd hp.1.symm ‹¬ c = '&'›
    rw [this]

theorem attrValue_read (s : Str) : attrValue 0 (s.flatMap attrChar) = s := by
  induction s with
  | nil => rfl
  | cons c s ih => rw [List.flatMap_cons, attrValue_char, ih]

/-- A text in a URL, without escapes of its own. -/
def urlText (p : Str) : Str := (utf8Str p).flatMap urlByte

theorem urlText_append (p q : Str) : urlText (p ++ q) = urlText p ++ urlText q := by
  simp [urlText, utf8Str]

theorem urlText_read (p : Str) : unescaped 0 (urlText p) = utf8Str p := by
  have := flatMap_read (utf8Str p) []
  rw [List.append_nil] at this
  rw [urlText, this, unescaped, List.append_nil]

theorem mem_of_urlText {x : Char} (hx : x ∈ ['/', '?', '#', ':']) {p : Str} (h : x ∈ urlText p) : x ∈ p := by
  obtain ⟨b, hb, hm⟩ := List.mem_flatMap.1 h
  have : b = BitVec.ofNat 8 x.toNat := (by decide +kernel : ∀ x ∈ ['/', '?', '#', ':'], ∀ b : U8, x ∈ urlByte b → b = BitVec.ofNat 8 x.toNat) x hx b hm
  exact mem_of_utf8 ((by decide +kernel : ∀ x ∈ ['/', '?', '#', ':'], x.toNat < 0x80) x hx) (this ▸ hb)

theorem urlText_slash : urlText ['/'] = ['/'] := by decide +kernel

theorem urlText_cons_slash (p : Str) : urlText ('/' :: p) = '/' :: urlText p := by
  rw [show '/' :: p = ['/'] ++ p from rfl, urlText_append, urlText_slash]; rfl

theorem urlText_join (l : List Str) : urlText (joinWith '/' l) = joinWith '/' (l.map urlText) := by
  induction l with
  | nil => rfl
  | cons a l ih =>
    cases l with
    | nil => rfl
    | cons b l =>
      rw [joinWith, urlText_append, urlText_cons_slash, ih]
      rfl

theorem urlText_split (p : Str) : splitOn '/' (urlText p) = (splitOn '/' p).map urlText := by
  obtain ⟨h1, h2, h3⟩ := splitOn_join '/' p
  conv_lhs => rw [← h1, urlText_join]
  refine splitOn_joinWith (by simpa using h2) ?_
  intro s hs hm
  obtain ⟨f, hf, rfl⟩ := List.mem_map.1 hs
  exact h3 f hf (mem_of_urlText (by decide) hm)

theorem urlText_inj {p q : Str} (h : urlText p = urlText q) : p = q := by
  apply utf8Str_inj
  rw [← urlText_read, h, urlText_read]

theorem withoutDots_plain {l : List Str} (h : ∀ s ∈ l, s ≠ ['.'] ∧ s ≠ ['.', '.']) (done : List Str) : withoutDots done l = done.reverse ++ l := by
  induction l generalizing done with
  | nil => simp [withoutDots]
  | cons s l ih =>
    have hs := h s List.mem_cons_self
    rw [withoutDots, if_neg hs.1, if_neg hs.2, ih (fun s hs => h s (List.mem_cons_of_mem _ hs))]
    simp

theorem urlText_dots {p : Str} (h : ∀ s ∈ splitOn '/' p, s ≠ ['.'] ∧ s ≠ ['.', '.']) : ∀ s ∈ splitOn '/' (urlText p), s ≠ ['.'] ∧ s ≠ ['.', '.'] := by
  intro s hs
  rw [urlText_split] at hs
  obtain ⟨f, hf, rfl⟩ := List.mem_map.1 hs
  have h1 : urlText ['.'] = ['.'] := by decide +kernel
  have h2 : urlText ['.', '.'] = ['.', '.'] := by decide +kernel
  exact ⟨fun he => (h f hf).1 (urlText_inj (he.trans h1.symm)), fun he => (h f hf).2 (urlText_inj (he.trans h2.symm))⟩

theorem ordinary_noSlash {p : Str} (h : OrdinaryPath p) : p.head? ≠ some '/' := by
  cases p with
  | nil => simp
  | cons c p =>
    intro he
    simp only [List.head?_cons, Option.some.injEq] at he
    subst he
    have := h.inner
    simp only [splitOn, if_true] at this
    have hne := (splitOn_join '/' p).2.1
    cases hs : splitOn '/' p with
    | nil => exact hne hs
    | cons f fs => rw [hs] at this; exact this [] (by simp) rfl

theorem urlText_head {p : Str} (h : p.head? ≠ some '/') : (urlText p).head? ≠ some '/' := by
  cases p with
  | nil => simp [urlText, utf8Str]
  | cons c p =>
    intro he
    rw [show c :: p = [c] ++ p from rfl, urlText_append] at he
    cases hu : urlText [c] with
    | nil =>
      have := urlText_read [c]
      rw [hu] at this
      have h' : utf8Str [c] = utf8Str [] := this.symm
      exact absurd (utf8Str_inj h') (by simp)
    | cons x l =>
      rw [hu] at he
      simp only [List.cons_append, List.head?_cons, Option.some.injEq] at he
      subst he
      have : '/' ∈ [c] := mem_of_urlText (by decide) (by rw [hu]; exact List.mem_cons_self)
      rw [List.mem_singleton] at this
      rw [← this] at h
      exact h rfl

theorem urlText_whole {p : Str} (h : ∀ c ∈ p, c ∉ [' ', '\t', '{', '%', '?', '#']) : (urlText p).takeWhile (fun c => c ≠ '?' ∧ c ≠ '#') = urlText p := by
  rw [List.takeWhile_eq_self_iff]
  intro c hc
  simp only [ne_eq, decide_eq_true_eq]
  refine ⟨fun he => ?_, fun he => ?_⟩
  · subst he; exact h _ (mem_of_urlText (by decide) hc) (by decide)
  · subst he; exact h _ (mem_of_urlText (by decide) hc) (by decide)

theorem urlText_ne {p : Str} (h : p ≠ []) : urlText p ≠ [] := fun he => h (urlText_inj (he.trans rfl))

theorem hrefText_read {p : Str} (hs : isSafeURL p = true) (h : '%' ∉ p) : attrValue 0 (hrefText p) = urlText p := by
  unfold hrefText urlFilter
  rw [if_pos hs, attrValue_read, urlNormalize_plain]
  · rfl
  · rintro b hb rfl
    exact h (mem_of_utf8 (x := '%') (by decide) hb)

theorem isSafeURL_slash (p : Str) : isSafeURL ('/' :: p) = true := by
  unfold isSafeURL
  have : (('/' :: p).takeWhile (· ≠ ':')).contains '/' = true := by simp
  simp only [this, Bool.not_true, Bool.and_false, Bool.not_false, Bool.true_or]

theorem takeWhile_slash (p : Str) : p.takeWhile (· ≠ '/') = p ∧ '/' ∉ p ∨ ∃ r, p = p.takeWhile (· ≠ '/') ++ '/' :: r := by
  induction p with
  | nil => left; simp
  | cons c p ih =>
    by_cases hc : c = '/'
    · right; exact ⟨p, by subst hc; simp⟩
    · rw [List.takeWhile_cons_of_pos (by simpa using hc)]
      rcases ih with ⟨h1, h2⟩ | ⟨r, h⟩
      · left
        refine ⟨by rw [h1], ?_⟩
        simp only [List.mem_cons, not_or]
        exact ⟨fun he => hc he.symm, h2⟩
      · right; exact ⟨r, by rw [List.cons_append, ← h]⟩

theorem isSafeURL_first {p : Str} (h : ':' ∉ p.takeWhile (· ≠ '/')) : isSafeURL p = true := by
  unfold isSafeURL
  rcases takeWhile_slash p with ⟨h1, _⟩ | ⟨r, h1⟩
  · rw [h1] at h
    have : p.contains ':' = false := by simpa using h
    simp only [this, Bool.false_and, Bool.not_false, Bool.true_or]
  · generalize p.takeWhile (· ≠ '/') = s at h h1
    subst h1
    have : ((s ++ '/' :: r).takeWhile (· ≠ ':')).contains '/' = true := by
      rw [List.takeWhile_append_of_pos (by intro a ha; simp only [ne_eq, decide_not, Bool.not_eq_eq_eq_not, Bool.not_true, decide_eq_false_iff_not]; rintro rfl; exact h ha)]
      simp
    simp only [this, Bool.not_true, Bool.and_false, Bool.not_false, Bool.true_or]

theorem urlText_first {p : Str} (h : ':' ∉ p.takeWhile (· ≠ '/')) : ':' ∉ (urlText p).takeWhile (· ≠ '/') := by
  rcases takeWhile_slash p with ⟨h1, _⟩ | ⟨r, h1⟩
  · rw [h1] at h
    intro hm
    exact h (mem_of_urlText (by decide) (List.takeWhile_subset _ hm))
  · have hs : '/' ∉ p.takeWhile (· ≠ '/') := fun hm => by
      have := List.mem_takeWhile_imp hm
      simp at this
    generalize p.takeWhile (· ≠ '/') = s at h h1 hs
    subst h1
    rw [urlText_append, urlText_cons_slash, List.takeWhile_append_of_pos]
    · simp only [ne_eq, not_true_eq_false, decide_false, Bool.false_eq_true, not_false_eq_true, List.takeWhile_cons_of_neg, List.append_nil]
      exact fun hm => h (mem_of_urlText (by decide) hm)
    · intro a ha
      simp only [ne_eq, decide_not, Bool.not_eq_eq_eq_not, Bool.not_true, decide_eq_false_iff_not]
      rintro rfl
      exact hs (mem_of_urlText (by decide) ha)

theorem leadsTo_relative {page p : Str} (hp : '/' ∉ page) (h : OrdinaryPath p) (hc : ':' ∉ p.takeWhile (· ≠ '/')) : leadsTo ('/' :: page) (urlText p) = some ('/' :: urlText p) := by
  unfold leadsTo
  simp only [urlText_whole h.chars]
  rw [if_neg (urlText_first hc)]
  have hd : directory ('/' :: page) = [] := by
    unfold directory
    rw [List.tail_cons, splitOn_none hp]; rfl
  have hn := urlText_ne h.some
  have hh := urlText_head (ordinary_noSlash h)
  have hj : joinWith '/' (withoutDots [] (splitOn '/' (urlText p))) = urlText p := by
    rw [withoutDots_plain (urlText_dots h.dots)]
    exact (splitOn_join '/' _).1
  generalize urlText p = u at *
  split
  · exact absurd rfl hn
  · exact absurd rfl hh
  · exact absurd rfl hh
  · rw [hd, List.nil_append, hj]

theorem leadsTo_absolute (page : Str) {p : Str} (h : OrdinaryPath p) : leadsTo page (urlText ('/' :: p)) = some (urlText ('/' :: p)) := by
  have hw : (urlText ('/' :: p)).takeWhile (fun c => c ≠ '?' ∧ c ≠ '#') = urlText ('/' :: p) := by
    apply urlText_whole
    intro c hc
    rcases List.mem_cons.1 hc with rfl | hc
    · decide
    · exact h.chars c hc
  unfold leadsTo
  simp only [hw]
  rw [urlText_cons_slash, if_neg (by simp)]
  have hh := urlText_head (ordinary_noSlash h)
  have hj : joinWith '/' (withoutDots [] (splitOn '/' (urlText p))) = urlText p := by
    rw [withoutDots_plain (urlText_dots h.dots)]
    exact (splitOn_join '/' _).1
  generalize urlText p = u at *
  split
  · rename_i he; cases he
  · rename_i he
    injection he with _ he
    subst he
    exact absurd rfl hh
  · rename_i he
    injection he with _ he
    subst he
    rw [hj]
  · rename_i h1 _ h2
    exact absurd rfl (h2 u)

/-! ## The requests -/

/-- A path in a URL, as bytes. -/
def urlBytes (l : Bytes) : Bytes := l.flatMap fun b => utf8Str (urlByte b)

theorem urlBytes_text (p : Str) : utf8Str (urlText p) = urlBytes (utf8Str p) := by
  unfold urlText urlBytes
  induction utf8Str p with
  | nil => rfl
  | cons b l ih =>
    rw [List.flatMap_cons, List.flatMap_cons, ← ih]
    simp [utf8Str]

/-- The two digits of a byte. -/
def digitByte (n : Nat) : U8 := BitVec.ofNat 8 (escapeDigit n).toNat

theorem urlByte_bytes (b : U8) : (utf8Str (urlByte b) = [b] ∧ b ≠ 0x25) ∨ (utf8Str (urlByte b) = [0x25, digitByte (b.toNat / 16), digitByte (b.toNat % 16)] ∧
    unhexByte (digitByte (b.toNat / 16)) = some (b.toNat / 16) ∧ unhexByte (digitByte (b.toNat % 16)) = some (b.toNat % 16) ∧ BitVec.ofNat 8 (16 * (b.toNat / 16) + b.toNat % 16) = b ∧ b ≠ 0x2f) := by
  revert b
  decide +kernel

theorem urlBytes_decodes (l : Bytes) : Decodes (urlBytes l) l := by
  induction l with
  | nil => exact .nil
  | cons b l ih =>
    unfold urlBytes at ih ⊢
    rw [List.flatMap_cons]
    rcases urlByte_bytes b with ⟨h1, h2⟩ | ⟨h1, h2, h3, h4, _⟩
    · rw [h1]; exact .plain h2 ih
    · rw [h1]
      have := Decodes.escape ((unhexByte_iff _ _).1 h2) ((unhexByte_iff _ _).1 h3) ih
      rw [h4] at this
      exact this

theorem urlBytes_slash {l : Bytes} (h : 0x2f ∉ l) : 0x2f ∉ urlBytes l := by
  intro hm
  obtain ⟨b, hb, hx⟩ := List.mem_flatMap.1 hm
  have := (by decide +kernel : ∀ b : U8, 0x2f ∈ utf8Str (urlByte b) → b = 0x2f) b hx
  exact h (this ▸ hb)

theorem urlBytes_append (l k : Bytes) : urlBytes (l ++ k) = urlBytes l ++ urlBytes k := by simp [urlBytes]

theorem urlBytes_join (l : List Bytes) : urlBytes (joinBytes 0x2f l) = joinBytes 0x2f (l.map urlBytes) := by
  induction l with
  | nil => rfl
  | cons a l ih =>
    cases l with
    | nil => rfl
    | cons b l =>
      rw [joinBytes, urlBytes_append, show ∀ l, urlBytes (0x2f :: l) = urlBytes [0x2f] ++ urlBytes l from fun l => urlBytes_append [0x2f] l, show urlBytes [0x2f] = [0x2f] by decide +kernel, ih]
      rfl

theorem urlBytes_split (l : Bytes) : splitBytes 0x2f (urlBytes l) = (splitBytes 0x2f l).map urlBytes := by
  conv_lhs => rw [← splitBytes_join 0x2f l, urlBytes_join]
  refine splitBytes_joinBytes (by simpa using splitBytes_ne 0x2f l) ?_
  intro s hs
  obtain ⟨f, hf, rfl⟩ := List.mem_map.1 hs
  exact urlBytes_slash (splitBytes_mem hf).1

theorem utf8_join (l : List Str) : utf8Str (joinWith '/' l) = joinBytes 0x2f (l.map utf8Str) := by
  induction l with
  | nil => rfl
  | cons a l ih =>
    cases l with
    | nil => rfl
    | cons b l =>
      have h1 : utf8Str ('/' :: joinWith '/' (b :: l)) = 0x2f :: utf8Str (joinWith '/' (b :: l)) := rfl
      have h2 : ∀ a c, utf8Str (a ++ c) = utf8Str a ++ utf8Str c := fun a c => by simp [utf8Str]
      rw [joinWith, h2, h1, ih]
      rfl

theorem utf8_split (p : Str) : splitBytes 0x2f (utf8Str p) = (splitOn '/' p).map utf8Str := by
  obtain ⟨h1, h2, h3⟩ := splitOn_join '/' p
  conv_lhs => rw [← h1, utf8_join]
  refine splitBytes_joinBytes (by simpa using h2) ?_
  intro s hs
  obtain ⟨f, hf, rfl⟩ := List.mem_map.1 hs
  exact fun h => h3 f hf (utf8_slash.1 h)

theorem request_ordinary {p : Str} (h : OrdinaryPath p) : CleanPath (utf8Str ('/' :: urlText p)) ∧ Requests (utf8Str ('/' :: urlText p)) (utf8Str ('/' :: p)) := by
  have h1 : utf8Str ('/' :: urlText p) = 0x2f :: urlBytes (utf8Str p) := by rw [← urlBytes_text]; rfl
  have h2 : utf8Str ('/' :: p) = 0x2f :: utf8Str p := rfl
  have hd : ∀ {s : Bytes} {t : Str}, urlBytes (utf8Str t) = s → 0x25 ∉ s → utf8Str t = s := by
    intro s t he hs
    have := decodes_unescape (urlBytes_decodes (utf8Str t))
    rw [he, urlUnescape_plain hs] at this
    exact (Option.some.inj this).symm
  rw [h1, h2]
  refine ⟨⟨rfl, ?_, ?_⟩, ?_⟩
  · rw [List.tail_cons, urlBytes_split, utf8_split, List.map_map, ← List.map_dropLast]
    intro s hs he
    obtain ⟨t, ht, rfl⟩ := List.mem_map.1 hs
    exact h.inner t ht (utf8Str_inj (hd (s := []) he (by simp)))
  · rw [List.tail_cons, urlBytes_split, utf8_split, List.map_map]
    intro s hs
    obtain ⟨t, ht, rfl⟩ := List.mem_map.1 hs
    have hdots := h.dots t ht
    exact ⟨fun he => hdots.1 (utf8Str_inj (hd he (by decide))), fun he => hdots.2 (utf8Str_inj (hd he (by decide)))⟩
  · unfold Requests
    rw [List.tail_cons, List.tail_cons, urlBytes_split]
    generalize splitBytes 0x2f (utf8Str p) = l
    induction l with
    | nil => exact .nil
    | cons a l ih => exact .cons (urlBytes_decodes a) ih

/-! ## C170 -/

/-- C170: on a page at the top level, in particular `/`, both links of the index lead to what they name; the one to the metrics does so on every page. -/
theorem C170_links_partial (isName : Bytes → Bool) {outFile q : Str} (ho : OrdinaryPath outFile) (hc : ':' ∉ outFile.takeWhile (· ≠ '/')) (hq : OrdinaryPath q) (hne : q ≠ outFile) :
    ∃ m, monServeMux isName (utf8Str outFile) (utf8Str ('/' :: q)) = .ok m ∧ ∀ host, m.find host methodGET (utf8Str ['/']) = .handler .index ∧
      (∀ page, ∃ t, Follow page (indexLinks outFile ('/' :: q)).1 t ∧ m.find host methodGET (utf8Str t) = .handler .metrics) ∧
      ∀ page, '/' ∉ page → ∃ t, Follow ('/' :: page) (indexLinks outFile ('/' :: q)).2 t ∧ m.find host methodGET (utf8Str t) = .handler .diff := by
  have plain : ∀ {p : Str}, OrdinaryPath p → PlainPath p := fun h c hm hx => h.chars c hm (by
    revert hx; simp only [List.mem_cons, List.not_mem_nil, or_false]; tauto)
  have hq' : PlainPath ('/' :: q) ∧ ('/' :: q).head? = some '/' := by
    refine ⟨fun c hm => ?_, rfl⟩
    rcases List.mem_cons.1 hm with rfl | hm
    · decide
    · exact plain hq c hm
  have hm := C138_monitor_partial isName (plain ho) hq'
  rw [if_pos ⟨by simpa using hq.some, ho.some, by simpa using hne⟩] at hm
  obtain ⟨m, hm, ha⟩ := hm
  refine ⟨m, hm, fun host => ⟨?_, fun page => ?_, fun page hp => ?_⟩⟩
  · have h0 : Requests (utf8Str ['/']) (utf8Str ['/']) := List.Forall₂.cons Decodes.nil List.Forall₂.nil
    exact ha (['/'], .index) (by simp) _ ⟨by decide, by decide, by decide⟩ h0 host methodGET
  · have hp : '%' ∉ '/' :: q := fun h => by
      rcases List.mem_cons.1 h with h | h
      · exact absurd h (by decide)
      · exact hq.chars _ h (by decide)
    refine ⟨_, ?_, ha ('/' :: q, .metrics) (by simp) _ (request_ordinary hq).1 (request_ordinary hq).2 host methodGET⟩
    rw [Follow, indexLinks, hrefText_read (isSafeURL_slash q) hp, leadsTo_absolute page hq, urlText_cons_slash]
  · have hp' : '%' ∉ outFile := fun h => ho.chars _ h (by decide)
    refine ⟨_, ?_, ha ('/' :: outFile, .diff) (by simp) _ (request_ordinary ho).1 (request_ordinary ho).2 host methodGET⟩
    rw [Follow, indexLinks, hrefText_read (isSafeURL_first hc) hp', leadsTo_relative hp ho hc]

/-- C170 is false in general: the index answers for every path that nothing else answers for, and in a directory its relative link to the difference leads back to the index. -/
theorem C170_directory_false : ∃ m, monServeMux (fun _ => true) (Example.b "diff.json") (Example.b "/metrics") = .ok m ∧
    m.find [] methodGET (Example.b "/x/y") = .handler .index ∧ Follow "/x/y".toList (indexLinks "diff.json".toList "/metrics".toList).2 "/x/diff.json".toList ∧
    m.find [] methodGET (Example.b "/x/diff.json") = .handler .index :=
  ⟨_, rfl, by decide +kernel, by unfold Follow; decide +kernel, by decide +kernel⟩

/-- C170 is false in general: names that are no paths for a browser. A colon in the first segment is taken for a protocol, and the link stays on the page; a question mark begins a query; and with a slash before the name both the link
and the path lead elsewhere (C138_slash_false). -/
theorem C170_names_false :
    (∃ m, monServeMux (fun _ => true) (Example.b "diff:1.json") (Example.b "/metrics") = .ok m ∧ m.find [] methodGET (Example.b "/diff:1.json") = .handler .diff ∧
      (indexLinks "diff:1.json".toList "/metrics".toList).2 = "#ZgotmplZ".toList ∧ Follow "/".toList (indexLinks "diff:1.json".toList "/metrics".toList).2 "/".toList) ∧
    (∃ m, monServeMux (fun _ => true) (Example.b "diff?1") (Example.b "/metrics") = .ok m ∧ m.find [] methodGET (Example.b "/diff%3f1") = .handler .diff ∧
      Follow "/".toList (indexLinks "diff?1".toList "/metrics".toList).2 "/diff".toList ∧ m.find [] methodGET (Example.b "/diff") = .handler .index) ∧
    ∃ m, monServeMux (fun _ => true) (Example.b "/diff.json") (Example.b "/metrics") = .ok m ∧
      Follow "/".toList (indexLinks "/diff.json".toList "/metrics".toList).2 "/diff.json".toList ∧ m.find [] methodGET (Example.b "/diff.json") = .handler .index :=
  ⟨⟨_, rfl, by decide +kernel, by decide +kernel, by unfold Follow; decide +kernel⟩, ⟨_, rfl, by decide +kernel, by unfold Follow; decide +kernel, by decide +kernel⟩,
    ⟨_, rfl, by unfold Follow; decide +kernel, by decide +kernel⟩⟩

/-- The defaults, and a name that needs escapes of both kinds. -/
example : OrdinaryPath "diff.json".toList ∧ OrdinaryPath "metrics".toList ∧ OrdinaryPath "a/b+\"é&".toList ∧
    (indexLinks "a/b+\"é&".toList "/metrics".toList).2 = "a/b&#43;%22%c3%a9&amp;".toList :=
  ⟨⟨by decide +kernel, by decide +kernel, by decide +kernel, by decide⟩, ⟨by decide +kernel, by decide +kernel, by decide +kernel, by decide⟩,
    ⟨by decide +kernel, by decide +kernel, by decide +kernel, by decide⟩, by decide +kernel⟩

end StayRTR
