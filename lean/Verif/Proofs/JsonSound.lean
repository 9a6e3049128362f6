import Verif.Proofs.JsonText

/-! # What the JSON scanner accepts belongs to the grammar -/

namespace StayRTR

open Spec

theorem ws_nil : Ws [] := by simp [Ws]

theorem ws_snoc {w : Str} {c : Char} (h : Ws w) (hc : jsonSpace c = true) : Ws (w ++ [c]) := by
  unfold Ws
  simp only [List.mem_append, List.mem_singleton]
  rintro x (hx | rfl)
  · exact h x hx
  · exact space_ws hc

/-- Elements read so far, each with its comma, and white space. -/
inductive PElems (n : Nat) : List Json → Str → Prop
  | nil {w : Str} (h : Ws w) : PElems n [] w
  | snoc {d : List Json} {v : Json} {e t b c : Str} (he : PElems n d e) (h : JText n v t) (hb : Ws b) (hc : Ws c) : PElems n (d ++ [v]) (e ++ (t ++ (b ++ ',' :: c)))

/-- Members read so far. -/
inductive PMembers (n : Nat) : List (Str × Json) → Str → Prop
  | nil {w : Str} (h : Ws w) : PMembers n [] w
  | snoc {d : List (Str × Json)} {k : Str} {v : Json} {e q b c t x y : Str} (he : PMembers n d e) (hq : Quoted q k) (hb : Ws b) (hc : Ws c) (h : JText n v t) (hx : Ws x) (hy : Ws y) :
      PMembers n (d ++ [(k, v)]) (e ++ (q ++ (b ++ ':' :: (c ++ (t ++ (x ++ ',' :: y))))))

theorem pElems_ws {n : Nat} {d : List Json} {e : Str} {c : Char} (h : PElems n d e) (hc : jsonSpace c = true) : PElems n d (e ++ [c]) := by
  cases h with
  | nil h => exact .nil (ws_snoc h hc)
  | snoc he h hb hw => simpa using PElems.snoc he h hb (ws_snoc hw hc)

theorem pMembers_ws {n : Nat} {d : List (Str × Json)} {e : Str} {c : Char} (h : PMembers n d e) (hc : jsonSpace c = true) : PMembers n d (e ++ [c]) := by
  cases h with
  | nil h => exact .nil (ws_snoc h hc)
  | snoc he hq hb hw h hx hy => simpa using PMembers.snoc he hq hb hw h hx (ws_snoc hy hc)

theorem pElems_append {n : Nat} {d : List Json} {e : Str} (h : PElems n d e) : ∀ {l : List Json} {r : Str}, (∀ w, Ws w → JElems n l (w ++ r)) → JElems n (d ++ l) (e ++ r) := by
  induction h with
  | nil hw => intro l r hl; exact hl _ hw
  | @snoc d v e t b c he h hb hc ih =>
    intro l r hl
    have := ih (l := v :: l) (r := t ++ (b ++ ',' :: (c ++ r))) fun w hw => .cons hw h hb (hl c hc)
    simpa using this

theorem pMembers_append {n : Nat} {d : List (Str × Json)} {e : Str} (h : PMembers n d e) : ∀ {l : List (Str × Json)} {r : Str}, (∀ w, Ws w → JMembers n l (w ++ r)) → JMembers n (d ++ l) (e ++ r) := by
  induction h with
  | nil hw => intro l r hl; exact hl _ hw
  | @snoc d k v e q b c t x y he hq hb hc h hx hy ih =>
    intro l r hl
    have := ih (l := (k, v) :: l) (r := q ++ (b ++ ':' :: (c ++ (t ++ (x ++ ',' :: (y ++ r)))))) fun w hw => .cons hw hq hb hc h hx (hl y hy)
    simpa using this

/-- The text read up to where a value may begin. -/
inductive Ctx : List JFrame → Str → Prop
  | top {w : Str} (h : Ws w) : Ctx [] w
  | arr {fs : List JFrame} {d : List Json} {y e : Str} (h : Ctx fs y) (hl : fs.length < JScan.maxDepth) (he : PElems (JScan.maxDepth - (fs.length + 1)) d e) :
      Ctx (.arr d :: fs) (y ++ '[' :: e)
  | val {fs : List JFrame} {d : List (Str × Json)} {k y e q b c : Str} (h : Ctx fs y) (hl : fs.length < JScan.maxDepth) (he : PMembers (JScan.maxDepth - (fs.length + 1)) d e)
      (hq : Quoted q k) (hb : Ws b) (hc : Ws c) : Ctx (.val d k :: fs) (y ++ '{' :: (e ++ (q ++ (b ++ ':' :: c))))

/-- The text read up to where a key may begin. -/
def KCtx (stk : List JFrame) (x : Str) : Prop :=
  ∃ fs d y e, stk = .key d :: fs ∧ x = y ++ '{' :: e ∧ Ctx fs y ∧ fs.length < JScan.maxDepth ∧ PMembers (JScan.maxDepth - (fs.length + 1)) d e

theorem ctx_ws {stk : List JFrame} {x : Str} {c : Char} (h : Ctx stk x) (hc : jsonSpace c = true) : Ctx stk (x ++ [c]) := by
  cases h with
  | top h => exact .top (ws_snoc h hc)
  | arr h hl he => simpa using Ctx.arr h hl (pElems_ws he hc)
  | val h hl he hq hb hw => simpa using Ctx.val h hl he hq hb (ws_snoc hw hc)

theorem kctx_ws {stk : List JFrame} {x : Str} {c : Char} (h : KCtx stk x) (hc : jsonSpace c = true) : KCtx stk (x ++ [c]) := by
  obtain ⟨fs, d, y, e, rfl, rfl, h1, h2, h3⟩ := h
  exact ⟨fs, d, y, e ++ [c], rfl, by simp, h1, h2, pMembers_ws h3 hc⟩

/-- A value has been read, and white space after it. -/
def Valued (stk : List JFrame) (v : Json) (x : Str) : Prop := ∃ y t w, x = y ++ (t ++ w) ∧ Ctx stk y ∧ JText (JScan.maxDepth - stk.length) v t ∧ Ws w

/-- A key has been read. -/
def Keyed (stk : List JFrame) (v : Json) (x : Str) : Prop := ∃ y q w k, x = y ++ (q ++ w) ∧ KCtx stk y ∧ v = .str k ∧ Quoted q k ∧ Ws w

/-- The literals. -/
def LitText : Json → Str → Prop
  | .null, t => t = ['n', 'u', 'l', 'l']
  | .bool true, t => t = ['t', 'r', 'u', 'e']
  | .bool false, t => t = ['f', 'a', 'l', 's', 'e']
  | _, _ => False

theorem litText_jText {n : Nat} {v : Json} {t : Str} (h : LitText v t) : JText n v t := by
  cases v with
  | null => cases h; exact .null
  | bool b =>
    cases b with
    | true => cases h; exact .true
    | false => cases h; exact .false
  | num => cases h
  | str => cases h
  | arr => cases h
  | obj => cases h

/-- What has been read in each state. -/
def Inv (s : JScan) (x : Str) : Prop :=
  match s.lex with
  | .beginValue => Ctx s.stack x
  | .beginValueOrEmpty => Ctx s.stack x ∧ ∃ fs, s.stack = .arr [] :: fs
  | .beginString => KCtx s.stack x
  | .beginStringOrEmpty => KCtx s.stack x ∧ ∃ fs, s.stack = .key [] :: fs
  | .inStr raw => ∃ y, x = y ++ '"' :: raw ∧ (Ctx s.stack y ∨ KCtx s.stack y) ∧ RawLex raw
  | .inEsc raw => ∃ y, x = y ++ '"' :: (raw ++ ['\\']) ∧ (Ctx s.stack y ∨ KCtx s.stack y) ∧ RawLex raw
  | .inEscU n raw => ∃ y r hs, x = y ++ '"' :: raw ∧ raw = r ++ '\\' :: 'u' :: hs ∧ (Ctx s.stack y ∨ KCtx s.stack y) ∧ RawLex r ∧ hs.length = n ∧ n ≤ 3 ∧ ∀ c ∈ hs, (hexDigit c).isSome = true
  | .num st raw => ∃ y, x = y ++ raw ∧ Ctx s.stack y ∧ NumAt st raw
  | .lit rest v => ∃ y p, x = y ++ p ∧ Ctx s.stack y ∧ LitText v (p ++ rest)
  | .endValue v => Valued s.stack v x ∨ Keyed s.stack v x
  | .done v => FirstValue x v
  | .bad => True

theorem inv_fail (x : Str) : Inv JScan.fail x := trivial

/-- A bracket closes. -/
theorem inv_close {fs : List JFrame} {v : Json} {y t : Str} (h : Ctx fs y) (ht : JText (JScan.maxDepth - fs.length) v t) : Inv (JScan.close fs v) (y ++ t) := by
  cases fs with
  | nil =>
    cases h with
    | top hw => exact ⟨_, t, [], by simp, hw, ht⟩
  | cons f fs => exact .inl ⟨y, t, [], by simp, h, ht, ws_nil⟩

theorem inv_endValue {stk : List JFrame} {v : Json} {x : Str} (c : Char) (h : Valued stk v x ∨ Keyed stk v x) : Inv (JScan.endValue stk v c) (x ++ [c]) := by
  cases stk with
  | nil =>
    rcases h with ⟨y, t, w, rfl, hy, ht, hw⟩ | ⟨y, q, w, k, rfl, ⟨fs, d, _, _, h, _⟩, _⟩
    · cases hy with
      | top hw' => exact ⟨y, t, w ++ [c], by simp, hw', ht⟩
    · cases h
  | cons f fs =>
    unfold JScan.endValue
    simp only
    split
    · rename_i hs
      rcases h with ⟨y, t, w, rfl, hy, ht, hw⟩ | ⟨y, q, w, k, rfl, hy, hk, hq, hw⟩
      · exact .inl ⟨y, t, w ++ [c], by simp, hy, ht, ws_snoc hw hs⟩
      · exact .inr ⟨y, q, w ++ [c], k, by simp, hy, hk, hq, ws_snoc hw hs⟩
    · rcases h with ⟨y, t, w, rfl, hy, ht, hw⟩ | ⟨y, q, w, k, rfl, ⟨fs', d, y', e, hstk, rfl, hy, hl, he⟩, rfl, hq, hw⟩
      · cases hy with
        | @arr _ d y e hy hl he =>
          simp only
          have hd : JScan.maxDepth - fs.length = (JScan.maxDepth - (fs.length + 1)) + 1 := by omega
          split
          · rename_i hc; subst hc
            have := Ctx.arr hy hl (PElems.snoc he ht hw ws_nil)
            show Ctx _ _
            simpa using this
          · split
            · rename_i hc; subst hc
              have hj : JElems (JScan.maxDepth - (fs.length + 1)) (d ++ [v]) (e ++ (t ++ w)) := pElems_append he fun a ha => .one ha ht hw
              have := inv_close hy (v := .arr (d ++ [v])) (t := '[' :: ((e ++ (t ++ w)) ++ [']'])) (by rw [hd]; exact .elems hj)
              simpa using this
            · exact inv_fail _
        | @val _ d k y e q b c' hy hl he hq hb hcw =>
          simp only
          have hd : JScan.maxDepth - fs.length = (JScan.maxDepth - (fs.length + 1)) + 1 := by omega
          split
          · rename_i hc; subst hc
            refine ⟨fs, _, y, _, rfl, ?_, hy, hl, PMembers.snoc he hq hb hcw ht hw ws_nil⟩
            simp
          · split
            · rename_i hc; subst hc
              have hj : JMembers (JScan.maxDepth - (fs.length + 1)) (d ++ [(k, v)]) (e ++ (q ++ (b ++ ':' :: (c' ++ (t ++ w))))) := pMembers_append he fun a ha => .one ha hq hb hcw ht hw
              have := inv_close hy (v := .obj (d ++ [(k, v)])) (t := '{' :: ((e ++ (q ++ (b ++ ':' :: (c' ++ (t ++ w))))) ++ ['}'])) (by rw [hd]; exact .members hj)
              simpa using this
            · exact inv_fail _
      · simp only [List.cons.injEq] at hstk
        obtain ⟨rfl, rfl⟩ := hstk
        simp only
        split
        · rename_i hc; subst hc
          have := Ctx.val hy hl he hq hw ws_nil
          show Ctx _ _
          simpa using this
        · exact inv_fail _

theorem inv_push {stk : List JFrame} {f : JFrame} {l : JLex} {x : Str} (h : stk.length < JScan.maxDepth → Inv ⟨f :: stk, l⟩ x) : Inv (JScan.push stk f l) x := by
  unfold JScan.push
  split
  · exact h (by omega)
  · exact inv_fail _

theorem inv_beginValue {stk : List JFrame} {x : Str} (c : Char) (h : Ctx stk x) : Inv (JScan.beginValue stk c) (x ++ [c]) := by
  unfold JScan.beginValue
  split
  · rename_i hs; exact ctx_ws h hs
  split
  · rename_i hc; subst hc
    exact inv_push fun hl => ⟨⟨stk, [], x, [], rfl, rfl, h, hl, .nil ws_nil⟩, stk, rfl⟩
  split
  · rename_i hc; subst hc
    exact inv_push fun hl => ⟨Ctx.arr h hl (.nil ws_nil), stk, rfl⟩
  split
  · rename_i hc; subst hc
    exact ⟨x, rfl, .inl h, .nil⟩
  split
  · rename_i hc; subst hc
    exact ⟨x, rfl, h, rfl⟩
  split
  · rename_i hc; subst hc
    exact ⟨x, rfl, h, [], rfl, .inl rfl⟩
  split
  · rename_i h0 hd
    refine ⟨x, rfl, h, [], [c], rfl, .inl rfl, digits_single hd, ?_⟩
    simpa using h0
  split
  · rename_i hc; subst hc
    exact ⟨x, ['t'], rfl, h, rfl⟩
  split
  · rename_i hc; subst hc
    exact ⟨x, ['f'], rfl, h, rfl⟩
  split
  · rename_i hc; subst hc
    exact ⟨x, ['n'], rfl, h, rfl⟩
  · exact inv_fail _

theorem inv_beginString {stk : List JFrame} {x : Str} (c : Char) (h : KCtx stk x) : Inv (JScan.beginString stk c) (x ++ [c]) := by
  unfold JScan.beginString
  split
  · rename_i hs; exact kctx_ws h hs
  split
  · rename_i hc; subst hc; exact ⟨x, rfl, .inr h, .nil⟩
  · exact inv_fail _

theorem inv_step {s : JScan} {x : Str} (c : Char) (h : Inv s x) : Inv (s.step c) (x ++ [c]) := by
  obtain ⟨stk, lx⟩ := s
  cases lx with
  | beginValue => exact inv_beginValue c h
  | beginString => exact inv_beginString c h
  | beginValueOrEmpty =>
    obtain ⟨h, fs, hfs⟩ := h
    simp only at h hfs
    subst hfs
    simp only [JScan.step]
    split
    · rename_i hs; exact ⟨ctx_ws h hs, fs, rfl⟩
    split
    · rename_i hc; subst hc
      cases h with
      | @arr _ _ y e hy hl he =>
        have hw : Ws e := by
          generalize hd : ([] : List Json) = d at he
          cases he with
          | nil hw => exact hw
          | snoc => simp at hd
        have := inv_close hy (v := .arr []) (t := '[' :: (e ++ [']'])) (by
          have hd : JScan.maxDepth - fs.length = (JScan.maxDepth - (fs.length + 1)) + 1 := by omega
          rw [hd]; exact .noElems hw)
        simpa using this
    · exact inv_beginValue c h
  | beginStringOrEmpty =>
    obtain ⟨h, fs, hfs⟩ := h
    simp only at h hfs
    subst hfs
    simp only [JScan.step]
    split
    · rename_i hs; exact ⟨kctx_ws h hs, fs, rfl⟩
    split
    · rename_i hc; subst hc
      obtain ⟨fs', d, y, e, heq, rfl, hy, hl, he⟩ := h
      simp only [List.cons.injEq, JFrame.key.injEq] at heq
      obtain ⟨hd, rfl⟩ := heq
      have hw : Ws e := by
        cases he with
        | nil hw => exact hw
        | snoc => simp at hd
      have := inv_close hy (v := .obj []) (t := '{' :: (e ++ ['}'])) (by
        have hd : JScan.maxDepth - fs.length = (JScan.maxDepth - (fs.length + 1)) + 1 := by omega
        rw [hd]; exact .noMembers hw)
      simpa using this
    · exact inv_beginString c h
  | inStr raw =>
    obtain ⟨y, rfl, hy, hr⟩ := h
    simp only [JScan.step]
    split
    · rename_i hc; subst hc
      have hq : Quoted ('"' :: (raw ++ ['"'])) (jsonUnquote 0 raw) := ⟨raw, rfl, rawLex_text hr⟩
      rcases hy with hy | hy
      · exact .inl ⟨y, '"' :: (raw ++ ['"']), [], by simp, hy, .str hq, ws_nil⟩
      · exact .inr ⟨y, '"' :: (raw ++ ['"']), [], _, by simp, hy, rfl, hq, ws_nil⟩
    · rename_i hq
      split
      · rename_i hc; subst hc
        exact ⟨y, by simp, hy, hr⟩
      · rename_i hb
        split
        · exact inv_fail _
        · rename_i hc
          exact ⟨y, by simp, hy, hr.snoc (.plain (by omega) hq hb)⟩
  | inEsc raw =>
    obtain ⟨y, rfl, hy, hr⟩ := h
    simp only [JScan.step]
    split
    · rename_i hc; subst hc
      exact ⟨y, raw, [], by simp, by simp, hy, hr, rfl, by omega, by simp⟩
    · split
      · rename_i he
        exact ⟨y, by simp, hy, hr.snoc (.escape he)⟩
      · exact inv_fail _
  | inEscU n raw =>
    obtain ⟨y, r, hs, rfl, rfl, hy, hr, hlen, hn, hh⟩ := h
    simp only [JScan.step]
    split
    · rename_i hc
      have hc' : (hexDigit c).isSome = true := hc
      have hh' : ∀ x ∈ hs ++ [c], (hexDigit x).isSome = true := by
        simp only [List.mem_append, List.mem_singleton]
        rintro x (hx | rfl)
        · exact hh x hx
        · exact hc'
      split
      · rename_i h3
        subst h3
        refine ⟨y, by simp, hy, ?_⟩
        match hs, hlen with
        | [a, b, d], _ =>
          simp only [List.cons_append, List.nil_append, List.mem_cons, List.not_mem_nil, or_false] at hh'
          have := hr.snoc (.code (hh' a (by simp)) (hh' b (by simp)) (hh' d (by simp)) (hh' c (by simp)))
          simpa using this
      · rename_i h3
        exact ⟨y, r, hs ++ [c], by simp, by simp, hy, hr, by simp [hlen], by omega, hh'⟩
    · exact inv_fail _
  | num st raw =>
    obtain ⟨y, rfl, hy, hr⟩ := h
    simp only [JScan.step]
    cases hn : st.next c with
    | some st' => exact ⟨y, by simp, hy, numAt_next hr hn⟩
    | none =>
      simp only
      split
      · rename_i he
        exact inv_endValue c (.inl ⟨y, raw, [], by simp, hy, .num (numAt_ends hr he), ws_nil⟩)
      · exact inv_fail _
  | lit rest v =>
    obtain ⟨y, p, rfl, hy, hr⟩ := h
    cases rest with
    | nil => exact inv_fail _
    | cons a r =>
      cases r with
      | nil =>
        simp only [JScan.step]
        split
        · rename_i hc; subst hc
          exact .inl ⟨y, p ++ [c], [], by simp, hy, litText_jText hr, ws_nil⟩
        · exact inv_fail _
      | cons b r =>
        simp only [JScan.step]
        split
        · rename_i hc; subst hc
          exact ⟨y, p ++ [c], by simp, hy, by simpa using hr⟩
        · exact inv_fail _
  | endValue v => exact inv_endValue c h
  | done v =>
    obtain ⟨w, t, r, rfl, hw, ht⟩ := h
    exact ⟨w, t, r ++ [c], by simp, hw, ht⟩
  | bad => trivial

theorem inv_feed {s : JScan} {x : Str} (h : Inv s x) (l : Str) : Inv (s.feed l) (x ++ l) := by
  induction l generalizing s x with
  | nil => simpa [JScan.feed] using h
  | cons c l ih =>
    rw [JScan.feed_cons]
    simpa using ih (inv_step c h)

theorem run_eq (s : JScan) (l : Str) : s.run l = (s.feed l).run [] := by
  have := JScan.run_append s l []
  simpa using this

/-- Whatever is read belongs to the grammar. -/
theorem readJson_sound {s : Str} {v : Json} (h : readJson s = some v) : ∃ r, FirstValue (s ++ r) v ∧ (r = [] ∨ r = [' ']) := by
  unfold readJson at h
  rw [run_eq] at h
  have hinv := inv_feed (s := JScan.start) (x := []) (.top ws_nil) s
  have h2 := inv_step ' ' hinv
  rw [JScan.run] at h
  refine ⟨[' '], ?_, .inr rfl⟩
  simp only [List.nil_append] at h2
  split at h
  · rename_i v' hv
    cases h
    unfold Inv at h2
    rw [hv] at h2
    exact h2
  · cases h

/-! ## The first value of a text -/

theorem digit_not_special {c : Char} (h : jsonDigit c = true) : jsonSpace c = false ∧ c ≠ runeError := by
  have hd := (jsonDigit_iff c).mp h
  refine ⟨?_, ?_⟩
  · cases hs : jsonSpace c with
    | false => rfl
    | true =>
      simp only [jsonSpace, Bool.or_eq_true, beq_iff_eq] at hs
      rcases hs with ((rfl | rfl) | rfl) | rfl <;> (revert hd; decide)
  · rintro rfl; revert hd; decide

theorem numText_chars {t : Str} (h : NumText t) : ∀ c ∈ t, jsonSpace c = false ∧ c ≠ runeError := by
  obtain ⟨m, i, f, e, rfl, hm, hi, hf, he⟩ := h
  have hd : ∀ {ds : Str}, Digits ds → ∀ c ∈ ds, jsonSpace c = false ∧ c ≠ runeError := fun h c hc => digit_not_special (by rw [← digit_isSome]; exact h.2 c hc)
  intro c hc
  simp only [List.mem_append] at hc
  rcases hc with hc | hc | hc | hc
  · rcases hm with rfl | rfl
    · cases hc
    · simp only [List.mem_singleton] at hc; subst hc; decide
  · exact hd hi.1 c hc
  · rcases hf with rfl | ⟨ds, rfl, hds⟩
    · cases hc
    · simp only [List.mem_cons] at hc
      rcases hc with rfl | hc
      · decide
      · exact hd hds c hc
  · rcases he with rfl | ⟨x, g, ds, rfl, hx, hg, hds⟩
    · cases hc
    · simp only [List.mem_cons, List.mem_append] at hc
      rcases hc with rfl | hc | hc
      · rcases hx with rfl | rfl <;> decide
      · rcases hg with rfl | rfl | rfl
        · cases hc
        · simp only [List.mem_singleton] at hc; subst hc; decide
        · simp only [List.mem_singleton] at hc; subst hc; decide
      · exact hd hds c hc

/-- The last character of a JSON text is no space, and not the replacement character. -/
theorem jText_last {n : Nat} {v : Json} {t : Str} (h : JText n v t) : ∃ l c, t = l ++ [c] ∧ jsonSpace c = false ∧ c ≠ runeError := by
  cases h with
  | null => exact ⟨['n', 'u', 'l'], 'l', rfl, by decide, by decide⟩
  | true => exact ⟨['t', 'r', 'u'], 'e', rfl, by decide, by decide⟩
  | false => exact ⟨['f', 'a', 'l', 's'], 'e', rfl, by decide, by decide⟩
  | num h =>
    obtain ⟨c, l, rfl, -⟩ := numText_head h
    obtain ⟨l', c', h'⟩ : ∃ l' c', c :: l = l' ++ [c'] := ⟨(c :: l).dropLast, (c :: l).getLast (by simp), (List.dropLast_concat_getLast _).symm⟩
    rw [h'] at h ⊢
    exact ⟨l', c', rfl, numText_chars h c' (by simp)⟩
  | str h =>
    obtain ⟨raw, rfl, -⟩ := h
    exact ⟨'"' :: raw, '"', rfl, by decide, by decide⟩
  | @noElems n w h => exact ⟨'[' :: w, ']', rfl, by decide, by decide⟩
  | @elems n l t h => exact ⟨'[' :: t, ']', rfl, by decide, by decide⟩
  | @noMembers n w h => exact ⟨'{' :: w, '}', rfl, by decide, by decide⟩
  | @members n l t h => exact ⟨'{' :: t, '}', rfl, by decide, by decide⟩

theorem firstValue_append {s r : Str} {v : Json} (h : FirstValue s v) : FirstValue (s ++ r) v := by
  obtain ⟨w, t, x, rfl, hw, ht⟩ := h
  exact ⟨w, t, x ++ r, by simp, hw, ht⟩

/-- Characters after a text that cannot end a value do not matter. -/
theorem firstValue_cut {s r : Str} {v : Json} (hr : ∀ c ∈ r, jsonSpace c = true ∨ c = runeError) (h : FirstValue (s ++ r) v) : FirstValue s v := by
  obtain ⟨w, t, x, he, hw, ht⟩ := h
  obtain ⟨l, c, rfl, hc1, hc2⟩ := jText_last ht
  have he' : s ++ r = (w ++ (l ++ [c])) ++ x := by simpa using he
  rcases List.append_eq_append_iff.mp he' with ⟨a, h1, h2⟩ | ⟨a, h1, h2⟩
  · -- the value reaches beyond s
    cases ha : a.reverse with
    | nil =>
      have : a = [] := by simpa using ha
      subst this
      refine ⟨w, l ++ [c], [], ?_, hw, ht⟩
      simpa using h1.symm
    | cons z zs =>
      have hz : a = zs.reverse ++ [z] := by simpa using congrArg List.reverse ha
      subst hz
      have hcz : c = z := by
        have := congrArg List.getLast? h1
        simpa [← List.append_assoc] using this
      have hm := hr z (by rw [h2]; simp)
      subst hcz
      rcases hm with hm | hm
      · rw [hm] at hc1; cases hc1
      · exact absurd hm hc2
  · exact ⟨w, l ++ [c], a, by rw [h1]; simp, hw, ht⟩

theorem readJson_first {s : Str} {v : Json} (h : readJson s = some v) : FirstValue s v := by
  obtain ⟨r, h1, rfl | rfl⟩ := readJson_sound h
  · simpa using h1
  · exact firstValue_cut (by simp [jsonSpace]) h1

theorem readJson_iff (s : Str) {v : Json} (hv : ∀ l, v ≠ .num l) : readJson s = some v ↔ FirstValue s v := ⟨readJson_first, fun h => readJson_complete h hv⟩

end StayRTR
