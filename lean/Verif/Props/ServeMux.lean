import Verif.Model.ServeMux
import Verif.Proofs.Json
import Verif.Props.Startup

/-!
C138 for the multiplexer of Go 1.23 as a whole: methods, wildcards, escapes, redirections.
-/

namespace StayRTR
open Spec

namespace Spec

/-- A hexadecimal digit of either case. -/
def UrlDigit (b : U8) (n : Nat) : Prop := n < 10 ∧ b.toNat = 48 + n ∨ 10 ≤ n ∧ n < 16 ∧ (b.toNat = 87 + n ∨ b.toNat = 55 + n)

/-- Escapes of URLs, RFC 3986, 2.1: what a part of a path means. -/
inductive Decodes : Bytes → Bytes → Prop where
  | nil : Decodes [] []
  | plain {b : U8} {r s : Bytes} : b ≠ 0x25 → Decodes r s → Decodes (b :: r) (b :: s)
  | escape {x y : U8} {m n : Nat} {r s : Bytes} : UrlDigit x m → UrlDigit y n → Decodes r s → Decodes (0x25 :: x :: y :: r) (BitVec.ofNat 8 (16 * m + n) :: s)

/-- A path of a request that browsers send and the server does not redirect: no empty segment but at the end, no dots. -/
structure CleanPath (e : Bytes) : Prop where
  slash : e.head? = some 0x2f
  inner : ∀ s ∈ (splitBytes 0x2f e.tail).dropLast, s ≠ []
  dots : ∀ s ∈ splitBytes 0x2f e.tail, s ≠ [0x2e] ∧ s ≠ [0x2e, 0x2e]

/-- The path `e` of a request, with escapes, stands for the path `p`. -/
def Requests (e p : Bytes) : Prop := List.Forall₂ Decodes (splitBytes 0x2f e.tail) (splitBytes 0x2f p.tail)

/-- A path as the flags mean it: nothing that has a meaning of its own for the multiplexer. -/
def PlainPattern (p : Bytes) : Prop := ∀ b ∈ p, b ∉ [(0x20 : U8), 0x09, 0x7b, 0x25]

end Spec

/-! ## Segments -/

theorem splitBytes_ne (x : U8) (s : Bytes) : splitBytes x s ≠ [] := by
  cases s with
  | nil => simp [splitBytes]
  | cons c l =>
    unfold splitBytes
    split
    · simp
    · split <;> simp

theorem splitBytes_join (x : U8) (s : Bytes) : joinBytes x (splitBytes x s) = s := by
  induction s with
  | nil => rfl
  | cons c l ih =>
    have hne := splitBytes_ne x l
    unfold splitBytes
    split
    · rename_i hc
      cases hs : splitBytes x l with
      | nil => exact absurd hs hne
      | cons f fs => rw [joinBytes, ← hs, ih, hc]; rfl
    · cases hs : splitBytes x l with
      | nil => exact absurd hs hne
      | cons f fs =>
        rw [hs] at ih
        cases fs with
        | nil => simp only [joinBytes] at ih ⊢; rw [ih]
        | cons g gs => simp only [joinBytes] at ih ⊢; rw [List.cons_append, ih]

theorem splitBytes_inj {x : U8} {s t : Bytes} (h : splitBytes x s = splitBytes x t) : s = t := by
  rw [← splitBytes_join x s, h, splitBytes_join]

theorem splitBytes_mem {x : U8} {s f : Bytes} (hf : f ∈ splitBytes x s) : x ∉ f ∧ ∀ b ∈ f, b ∈ s := by
  induction s generalizing f with
  | nil => simp only [splitBytes, List.mem_singleton] at hf; subst hf; simp
  | cons c l ih =>
    unfold splitBytes at hf
    split at hf
    · rcases List.mem_cons.1 hf with rfl | hf
      · simp
      · exact ⟨(ih hf).1, fun b hb => List.mem_cons_of_mem _ ((ih hf).2 b hb)⟩
    · rename_i hc
      have hne := splitBytes_ne x l
      cases hs : splitBytes x l with
      | nil => exact absurd hs hne
      | cons g gs =>
        rw [hs] at hf ih
        rcases List.mem_cons.1 hf with rfl | hf
        · have := ih List.mem_cons_self
          refine ⟨?_, fun b hb => ?_⟩
          · simp only [List.mem_cons, not_or]; exact ⟨fun h => hc h.symm, this.1⟩
          · rcases List.mem_cons.1 hb with rfl | hb
            · exact List.mem_cons_self
            · exact List.mem_cons_of_mem _ (this.2 b hb)
        · have := ih (List.mem_cons_of_mem _ hf)
          exact ⟨this.1, fun b hb => List.mem_cons_of_mem _ (this.2 b hb)⟩

theorem splitBytes_none {x : U8} {s : Bytes} (h : x ∉ s) : splitBytes x s = [s] := by
  induction s with
  | nil => rfl
  | cons c l ih =>
    simp only [List.mem_cons, not_or] at h
    rw [splitBytes, if_neg (fun hc => h.1 hc.symm), ih h.2]

theorem splitBytes_append {x : U8} {s : Bytes} (h : x ∉ s) (t : Bytes) : splitBytes x (s ++ x :: t) = s :: splitBytes x t := by
  induction s with
  | nil => simp [splitBytes]
  | cons c l ih =>
    simp only [List.mem_cons, not_or] at h
    rw [List.cons_append, splitBytes, if_neg (fun hc => h.1 hc.symm), ih h.2]

theorem splitBytes_joinBytes {x : U8} {l : List Bytes} (hne : l ≠ []) (h : ∀ s ∈ l, x ∉ s) : splitBytes x (joinBytes x l) = l := by
  induction l with
  | nil => exact absurd rfl hne
  | cons a l ih =>
    cases l with
    | nil => exact splitBytes_none (h a List.mem_cons_self)
    | cons b l => rw [joinBytes, splitBytes_append (h a List.mem_cons_self), ih (by simp) (fun s hs => h s (List.mem_cons_of_mem _ hs))]

theorem splitBytes_length (x : U8) (s : Bytes) : (splitBytes x s).length = s.count x + 1 := by
  induction s with
  | nil => rfl
  | cons c l ih =>
    unfold splitBytes
    split
    · rename_i hc; subst hc; rw [List.length_cons, ih, List.count_cons_self]
    · rename_i hc
      have hne := splitBytes_ne x l
      cases hs : splitBytes x l with
      | nil => exact absurd hs hne
      | cons f fs => rw [hs] at ih; rw [List.count_cons_of_ne hc, ← ih]; rfl

/-! ## Patterns -/

/-- What `parsePattern` makes of the segments of a plain pattern. -/
def plainSegments : List Bytes → List PathSegment
  | [] => []
  | seg :: more => if seg = [] ∧ more = [] then [⟨[], true, true⟩] else ⟨seg, false, false⟩ :: plainSegments more

/-- What `parsePattern` makes of a plain pattern. -/
def plainPattern (p : Bytes) : MuxPattern := ⟨[], p.takeWhile (· ≠ 0x2f), plainSegments (splitBytes 0x2f (p.dropWhile (· ≠ 0x2f)).tail)⟩

theorem urlUnescape_plain {s : Bytes} (h : 0x25 ∉ s) : urlUnescape 0 s = some s := by
  induction s with
  | nil => rfl
  | cons b l ih =>
    simp only [List.mem_cons, not_or] at h
    unfold urlUnescape
    rw [if_neg (fun hb => h.1 hb.symm), ih h.2]; rfl

theorem parseSegments_plain (isName : Bytes → Bool) {l : List Bytes} (h : ∀ s ∈ l, 0x7b ∉ s ∧ 0x25 ∉ s) (seen : List Bytes) : parseSegments isName seen l = some (plainSegments l) := by
  induction l with
  | nil => rfl
  | cons s l ih =>
    unfold parseSegments plainSegments
    have hs := h s List.mem_cons_self
    split
    · rfl
    · rw [if_pos hs.1, ih (fun s hs => h s (List.mem_cons_of_mem _ hs)), pathUnescape, urlUnescape_plain hs.2]; rfl

theorem parsePattern_plain (isName : Bytes → Bool) {p : Bytes} (h : PlainPattern p) : parsePattern isName p = if 0x2f ∈ p then some (plainPattern p) else none := by
  have hb : p.any isBlankByte = false := by
    rw [List.any_eq_false]
    intro b hb
    have := h b hb
    simp only [List.mem_cons, List.not_mem_nil, or_false, not_or] at this
    simpa [isBlankByte] using And.intro this.1 this.2.1
  unfold parsePattern
  simp only [hb, Bool.false_eq_true, if_false, ne_eq, not_true_eq_false, false_and]
  by_cases hs : 0x2f ∈ p
  · rw [if_neg (not_not.2 hs), if_pos hs, if_neg]
    · rw [parseSegments_plain]
      · rfl
      · intro s hm
        have := (splitBytes_mem hm).2
        refine ⟨fun hx => ?_, fun hx => ?_⟩
        · exact h _ ((List.dropWhile_sublist _).subset (List.mem_of_mem_tail (this _ hx))) (by decide)
        · exact h _ ((List.dropWhile_sublist _).subset (List.mem_of_mem_tail (this _ hx))) (by decide)
    · intro hx
      exact h _ ((List.takeWhile_sublist _).subset hx) (by decide)
  · rw [if_pos hs, if_neg hs]

theorem plainSegments_inj {l k : List Bytes} (h : plainSegments l = plainSegments k) : l = k := by
  induction l generalizing k with
  | nil =>
    cases k with
    | nil => rfl
    | cons s k => unfold plainSegments at h; split at h <;> cases h
  | cons a l ih =>
    cases k with
    | nil => unfold plainSegments at h; split at h <;> cases h
    | cons b k =>
      simp only [plainSegments] at h
      split at h <;> split at h
      · rename_i h1 h2; rw [h1.1, h1.2, h2.1, h2.2]
      · injection h with h; cases h
      · injection h with h; cases h
      · injection h with h1 h2
        injection h1 with h1
        rw [h1, ih h2]

theorem plainPattern_inj {p q : Bytes} (hp : 0x2f ∈ p) (hq : 0x2f ∈ q) (h1 : (plainPattern p).host = (plainPattern q).host) (h2 : (plainPattern p).segments = (plainPattern q).segments) : p = q := by
  have h3 := splitBytes_inj (plainSegments_inj h2)
  have hd : ∀ {p : Bytes}, 0x2f ∈ p → p.dropWhile (· ≠ 0x2f) = 0x2f :: (p.dropWhile (· ≠ 0x2f)).tail := by
    intro p hp
    induction p with
    | nil => simp at hp
    | cons c p ih =>
      by_cases hc : c = 0x2f
      · subst hc; simp
      · rw [List.dropWhile_cons_of_pos (by simpa using hc)]
        refine ih ?_
        rcases List.mem_cons.1 hp with h | h
        · exact absurd h.symm hc
        · exact h
  have h1' : p.takeWhile (· ≠ 0x2f) = q.takeWhile (· ≠ 0x2f) := h1
  rw [← List.takeWhile_append_dropWhile (p := (· ≠ (0x2f : U8))) (l := p), hd hp, h3, ← hd hq, h1', List.takeWhile_append_dropWhile]

/-- Texts, and perhaps everything below. -/
inductive PlainSegs : List PathSegment → Prop where
  | nil : PlainSegs []
  | rest : PlainSegs [⟨[], true, true⟩]
  | text (s : Bytes) {l : List PathSegment} : PlainSegs l → PlainSegs (⟨s, false, false⟩ :: l)

theorem plainSegments_plain (l : List Bytes) : PlainSegs (plainSegments l) := by
  induction l with
  | nil => exact .nil
  | cons s l ih =>
    unfold plainSegments
    split
    · exact .rest
    · exact .text s ih

theorem compareLoop_plain (b c : Bool) {l k : List PathSegment} (hl : PlainSegs l) (hk : PlainSegs k) :
    comparePathsLoop b c .equivalent l k ≠ .overlaps ∧ (comparePathsLoop b c .equivalent l k = .equivalent ↔ l = k) := by
  induction hl generalizing k with
  | nil =>
    cases hk with
    | nil => exact ⟨by simp [comparePathsLoop], by simp [comparePathsLoop]⟩
    | rest => cases b <;> simp [comparePathsLoop, combineRelationships]
    | text => cases b <;> simp [comparePathsLoop, combineRelationships]
  | rest =>
    cases hk with
    | nil => cases c <;> simp [comparePathsLoop, combineRelationships]
    | rest => simp [comparePathsLoop, combineRelationships, compareSegments]
    | text s h =>
      rename_i k
      cases k with
      | nil => simp [comparePathsLoop, combineRelationships, compareSegments]
      | cons => cases b <;> simp [comparePathsLoop, combineRelationships, compareSegments]
  | text s h ih =>
    rename_i l
    cases hk with
    | nil => cases c <;> simp [comparePathsLoop, combineRelationships]
    | rest =>
      cases l with
      | nil => simp [comparePathsLoop, combineRelationships, compareSegments]
      | cons => cases c <;> simp [comparePathsLoop, combineRelationships, compareSegments]
    | text t hk =>
      by_cases hst : s = t
      · subst hst
        have := ih hk
        simp only [comparePathsLoop, combineRelationships, compareSegments]
        simpa using this
      · simp [comparePathsLoop, combineRelationships, compareSegments, hst]

theorem conflicts_plain {p q : Bytes} (hp : 0x2f ∈ p) (hq : 0x2f ∈ q) : conflictsWith (plainPattern p) (plainPattern q) = true ↔ p = q := by
  have hm : compareMethods (plainPattern p) (plainPattern q) = .equivalent := by simp [compareMethods, plainPattern]
  have hl := compareLoop_plain (plainPattern p).open (plainPattern q).open (plainSegments_plain (splitBytes 0x2f (p.dropWhile (· ≠ 0x2f)).tail)) (plainSegments_plain (splitBytes 0x2f (q.dropWhile (· ≠ 0x2f)).tail))
  have hc : comparePatterns (plainPattern p) (plainPattern q) = comparePaths (plainPattern p) (plainPattern q) := by
    unfold comparePatterns; rw [hm]; rfl
  unfold conflictsWith
  rw [hc]
  constructor
  · intro h
    simp only [Bool.and_eq_true, decide_eq_true_eq, Bool.or_eq_true] at h
    refine plainPattern_inj hp hq h.1 ?_
    unfold comparePaths at h
    split at h
    · rcases h.2 with h | h <;> cases h
    · rcases h.2 with h | h
      · exact hl.2.1 h
      · exact absurd h hl.1
  · rintro rfl
    have : comparePaths (plainPattern p) (plainPattern p) = .equivalent := by
      unfold comparePaths
      rw [if_neg (by simp)]
      exact hl.2.2 rfl
    simp [this]

theorem key_text (s : Bytes) : (⟨s, false, false⟩ : PathSegment).key ≠ .rest := by
  simp only [PathSegment.key, textKey, Bool.false_eq_true, if_false]
  split <;> simp

theorem key_rest : (⟨[], true, true⟩ : PathSegment).key = .rest := rfl

theorem keys_plain {l k : List PathSegment} (hl : PlainSegs l) (hk : PlainSegs k) (h : l.map PathSegment.key = k.map PathSegment.key) : l = k := by
  induction hl generalizing k with
  | nil => exact (List.map_eq_nil_iff.1 h.symm).symm
  | rest =>
    cases hk with
    | nil => simp at h
    | rest => rfl
    | text s => simp only [List.map_cons, List.cons.injEq, key_rest] at h; exact absurd h.1.symm (key_text s)
  | text s _ ih =>
    cases hk with
    | nil => simp at h
    | rest => simp only [List.map_cons, List.cons.injEq, key_rest] at h; exact absurd h.1 (key_text s)
    | text t hk =>
      simp only [List.map_cons, List.cons.injEq] at h
      rw [ih hk h.2]
      have h1 := h.1
      simp only [PathSegment.key, textKey, Bool.false_eq_true, if_false] at h1
      split at h1 <;> split at h1
      · rename_i a b; rw [a, b]
      · cases h1
      · cases h1
      · injection h1 with h1; rw [h1]

/-- The patterns of a multiplexer that has only plain ones. -/
def muxOf (l : List (Bytes × HttpHandler)) : ServeMux := (l.map fun x => (plainPattern x.1, x.2)).reverse

theorem register_plain (isName : Bytes → Bool) {l : List (Bytes × HttpHandler)} (hl : ∀ x ∈ l, 0x2f ∈ x.1) {p : Bytes} (hp : PlainPattern p) (h : HttpHandler) :
    ServeMux.register isName (muxOf l) p h = if 0x2f ∈ p ∧ ∀ x ∈ l, x.1 ≠ p then .ok (muxOf (l ++ [(p, h)])) else .panic := by
  unfold ServeMux.register
  rw [parsePattern_plain isName hp]
  by_cases hs : 0x2f ∈ p
  · rw [if_pos hs]
    dsimp only
    by_cases hn : ∀ x ∈ l, x.1 ≠ p
    · rw [if_neg ?_, if_neg ?_, if_pos ⟨hs, hn⟩]
      · simp [muxOf]
      · rintro ⟨_, ha⟩
        obtain ⟨x, hx, he⟩ := List.any_eq_true.1 ha
        simp only [muxOf, List.mem_reverse, List.mem_map] at hx
        obtain ⟨y, hy, rfl⟩ := hx
        simp only [decide_eq_true_eq] at he
        exact hn y hy (plainPattern_inj (hl y hy) hs he.1 (keys_plain (plainSegments_plain _) (plainSegments_plain _) he.2.2))
      · intro ha
        obtain ⟨x, hx, he⟩ := List.any_eq_true.1 ha
        simp only [muxOf, List.mem_reverse, List.mem_map] at hx
        obtain ⟨y, hy, rfl⟩ := hx
        exact hn y hy ((conflicts_plain hs (hl y hy)).1 he).symm
    · rw [if_pos ?_, if_neg (fun h => hn h.2)]
      push Not at hn
      obtain ⟨x, hx, rfl⟩ := hn
      refine List.any_eq_true.2 ⟨(plainPattern x.1, x.2), ?_, (conflicts_plain hs hs).2 rfl⟩
      simp only [muxOf, List.mem_reverse, List.mem_map]
      exact ⟨x, hx, rfl⟩
  · rw [if_neg hs, if_neg (fun h => hs h.1)]

/-! ## Registration -/

/-- `register` for one pattern after the other. -/
def registerAll (isName : Bytes → Bool) (m : ServeMux) : List (Bytes × HttpHandler) → GoRes ServeMux
  | [] => .ok m
  | x :: l => (m.register isName x.1 x.2).bind fun m => registerAll isName m l

theorem registerAll_plain (isName : Bytes → Bool) {l k : List (Bytes × HttpHandler)} (hl : ∀ x ∈ l, 0x2f ∈ x.1) (hn : (l.map (·.1)).Nodup) (hk : ∀ x ∈ k, PlainPattern x.1) :
    registerAll isName (muxOf l) k = if (∀ x ∈ k, 0x2f ∈ x.1) ∧ ((l ++ k).map (·.1)).Nodup then .ok (muxOf (l ++ k)) else .panic := by
  induction k generalizing l with
  | nil => rw [List.append_nil, if_pos ⟨by simp, hn⟩]; rfl
  | cons y k ih =>
    rw [registerAll, register_plain isName hl (hk y List.mem_cons_self)]
    by_cases h : 0x2f ∈ y.1 ∧ ∀ x ∈ l, x.1 ≠ y.1
    · rw [if_pos h]
      have hl' : ∀ x ∈ l ++ [(y.1, y.2)], 0x2f ∈ x.1 := by
        intro x hx
        rcases List.mem_append.1 hx with hx | hx
        · exact hl x hx
        · rw [List.mem_singleton] at hx; subst hx; exact h.1
      have hn' : ((l ++ [(y.1, y.2)]).map (·.1)).Nodup := by
        rw [List.map_append, List.nodup_append]
        refine ⟨hn, by simp, ?_⟩
        intro a ha b hb he
        obtain ⟨x, hx, rfl⟩ := List.mem_map.1 ha
        simp only [List.map_cons, List.map_nil, List.mem_singleton] at hb
        exact h.2 x hx (he.trans hb)
      have := ih hl' hn' (fun x hx => hk x (List.mem_cons_of_mem _ hx))
      rw [List.append_assoc] at this
      simp only [GoRes.bind]
      rw [this]
      by_cases h2 : ∀ x ∈ k, 0x2f ∈ x.1
      · have h3 : ∀ x ∈ y :: k, 0x2f ∈ x.1 := fun x hx => by
          rcases List.mem_cons.1 hx with rfl | hx
          · exact h.1
          · exact h2 x hx
        simp only [List.singleton_append, Prod.mk.eta]
        exact if_congr ⟨fun h => ⟨h3, h.2⟩, fun h => ⟨h2, h.2⟩⟩ rfl rfl
      · rw [if_neg (fun h => h2 h.1), if_neg (fun h => h2 (fun x hx => h.1 x (List.mem_cons_of_mem _ hx)))]
    · rw [if_neg h, if_neg]
      · rfl
      · rintro ⟨h1, h2⟩
        refine h ⟨h1 y List.mem_cons_self, fun x hx he => ?_⟩
        rw [List.map_append, List.nodup_append] at h2
        exact h2.2.2 x.1 (List.mem_map_of_mem hx) y.1 (by simp) he

/-! ## Texts as bytes -/

theorem utf8Bytes_low {c : Char} {b : U8} (h : b ∈ utf8Bytes c) (hb : b.toNat < 0x80) : c.toNat = b.toNat := by
  have hv := char_not_surrogate c
  have low : ∀ n, n < 256 → 0x80 ≤ n → b = BitVec.ofNat 8 n → False := by
    intro n h1 h2 he
    rw [he, toNat_ofNat8 h1] at hb
    omega
  unfold utf8Bytes at h
  simp only at h
  split at h
  · rw [List.mem_singleton.1 h, toNat_ofNat8 (by omega)]
  split at h
  · exfalso
    simp only [List.mem_cons, List.not_mem_nil, or_false] at h
    rcases h with h | h
    · exact low _ (by omega) (by omega) h
    · exact low _ (by omega) (by omega) h
  split at h
  · exfalso
    simp only [List.mem_cons, List.not_mem_nil, or_false] at h
    rcases h with h | h | h
    · exact low _ (by omega) (by omega) h
    · exact low _ (by omega) (by omega) h
    · exact low _ (by omega) (by omega) h
  · exfalso
    simp only [List.mem_cons, List.not_mem_nil, or_false] at h
    rcases h with h | h | h | h
    · exact low _ (by omega) (by omega) h
    · exact low _ (by omega) (by omega) h
    · exact low _ (by omega) (by omega) h
    · exact low _ (by omega) (by omega) h

theorem mem_of_utf8 {x : Char} (hx : x.toNat < 0x80) {p : Str} (h : BitVec.ofNat 8 x.toNat ∈ utf8Str p) : x ∈ p := by
  obtain ⟨c, hc, hb⟩ := List.mem_flatMap.1 h
  have := utf8Bytes_low hb (by rw [toNat_ofNat8 (by omega)]; exact hx)
  rw [toNat_ofNat8 (by omega)] at this
  have : c = x := Char.ext (UInt32.toNat_inj.1 this)
  rw [← this]; exact hc

theorem utf8_slash {p : Str} : 0x2f ∈ utf8Str p ↔ '/' ∈ p := by
  refine ⟨fun h => mem_of_utf8 (x := '/') (by decide) h, fun h => List.mem_flatMap.2 ⟨'/', h, by decide⟩⟩

theorem utf8Str_inj {p q : Str} (h : utf8Str p = utf8Str q) : p = q := by
  have h1 := goRunes_utf8 (utf8_str p)
  rw [h, goRunes_utf8 (utf8_str q)] at h1
  exact h1.symm

/-- A path of the flags as the flags mean it. -/
def Spec.PlainPath (p : Str) : Prop := ∀ c ∈ p, c ∉ [' ', '\t', '{', '%']

theorem plainPath_bytes {p : Str} (h : PlainPath p) : PlainPattern (utf8Str p) := by
  intro b hb hm
  obtain ⟨x, hx, rfl⟩ := (by decide +kernel : ∀ b ∈ [(0x20 : U8), 0x09, 0x7b, 0x25], ∃ x ∈ [' ', '\t', '{', '%'], b = BitVec.ofNat 8 x.toNat) b hm
  exact h x (mem_of_utf8 ((by decide : ∀ x ∈ [' ', '\t', '{', '%'], x.toNat < 0x80) x hx) hb) hx

/-- The paths as bytes. -/
def bytePaths (l : List (Str × HttpHandler)) : List (Bytes × HttpHandler) := l.map fun x => (utf8Str x.1, x.2)

theorem registerAll_paths (isName : Bytes → Bool) {l : List (Str × HttpHandler)} (hp : ∀ x ∈ l, PlainPath x.1) :
    registerAll isName [] (bytePaths l) = if (∀ x ∈ l, '/' ∈ x.1) ∧ (l.map (·.1)).Nodup then .ok (muxOf (bytePaths l)) else .panic := by
  have hk : ∀ x ∈ bytePaths l, PlainPattern x.1 := by
    intro x hx
    obtain ⟨y, hy, rfl⟩ := List.mem_map.1 hx
    exact plainPath_bytes (hp y hy)
  rw [show ([] : ServeMux) = muxOf [] from rfl, registerAll_plain isName (by simp) (by simp) hk, List.nil_append]
  have h1 : (∀ x ∈ bytePaths l, 0x2f ∈ x.1) ↔ ∀ x ∈ l, '/' ∈ x.1 := by
    simp only [bytePaths, List.mem_map, forall_exists_index, and_imp, forall_apply_eq_imp_iff₂, utf8_slash]
  have h2 : ((bytePaths l).map (·.1)).Nodup ↔ (l.map (·.1)).Nodup := by
    have : (bytePaths l).map (·.1) = (l.map (·.1)).map utf8Str := by simp [bytePaths]
    rw [this, List.nodup_map_iff (fun _ _ => utf8Str_inj)]
  simp only [h1, h2]

theorem bindOk {α : Type} (x : GoRes α) : (x.bind fun m => .ok m) = x := by cases x <;> rfl

theorem okBind {α β : Type} (a : α) (f : α → GoRes β) : (GoRes.ok a).bind f = f a := rfl

theorem runServeMux_all (isName : Bytes → Bool) (f : StartFlags) : runServeMux isName f = registerAll isName [] (bytePaths (Spec.paths f)) := by
  unfold runServeMux Spec.paths bytePaths
  generalize "/api/update".toList = u
  by_cases he : f.exportPath = [] <;> cases hb : f.updateEndpoint <;> simp [he, registerAll, bindOk, okBind]

/-! ## The search -/

theorem matchPath_nil (ts : List Bytes) : matchPath [] ts = none := by
  induction ts with
  | nil => rfl
  | cons t ts ih =>
    have : ∀ k, nodeChild k [] = [] := fun _ => rfl
    simp only [matchPath, this, ih]
    split
    · rename_i h; split at h <;> cases h
    · rfl

/-- The segments that a request for the pattern itself has. -/
def ownSegments : List PathSegment → List Bytes
  | [] => []
  | s :: l => (if s.multi then [0x2f] else s.s) :: ownSegments l

theorem mem_nodeChild {k : ChildKey} {ns : List (List PathSegment × MuxPattern × HttpHandler)} {y : List PathSegment × MuxPattern × HttpHandler} :
    y ∈ nodeChild k ns ↔ ∃ s, s.key = k ∧ (s :: y.1, y.2) ∈ ns := by
  unfold nodeChild
  rw [List.mem_filterMap]
  constructor
  · rintro ⟨x, hx, h⟩
    obtain ⟨x1, x2⟩ := x
    cases x1 with
    | nil => cases h
    | cons s l =>
      simp only at h
      split at h
      · rename_i hk
        cases h
        exact ⟨s, hk, hx⟩
      · cases h
  · rintro ⟨s, hk, hm⟩
    exact ⟨_, hm, by simp [hk]⟩

theorem key_plain {s : PathSegment} {l : List PathSegment} (h : PlainSegs (s :: l)) : (s = ⟨[], true, true⟩ ∧ l = [] ∧ s.key = .rest) ∨ (∃ t, s = ⟨t, false, false⟩ ∧ s.key = textKey t ∧ PlainSegs l) := by
  cases h with
  | rest => exact .inl ⟨rfl, rfl, rfl⟩
  | text t h => exact .inr ⟨t, rfl, rfl, h⟩

theorem textKey_inj {s t : Bytes} (h : textKey s = textKey t) : s = t := by
  unfold textKey at h
  split at h <;> split at h
  · rename_i a b; rw [a, b]
  · cases h
  · cases h
  · injection h

theorem matchPath_own {segs : List PathSegment} (hp : PlainSegs segs) (he : ∀ s ∈ segs, s.multi = false → s.s ≠ []) {r : MuxPattern × HttpHandler} {ns : List (List PathSegment × MuxPattern × HttpHandler)}
    (hn : ∀ y ∈ ns, PlainSegs y.1 ∧ ∀ s ∈ y.1, s.s ≠ [0x2f]) (hm : (segs, r) ∈ ns) (hu : ∀ y ∈ ns, y.1 = segs → y.2 = r) : matchPath ns (ownSegments segs) = some r := by
  induction hp generalizing ns with
  | nil =>
    have hf : ns.find? (fun x => decide (x.1 = [])) ≠ none := by
      rw [ne_eq, List.find?_eq_none]
      push Not
      exact ⟨_, hm, by simp⟩
    cases hq : ns.find? (fun x => decide (x.1 = [])) with
    | none => exact absurd hq hf
    | some y =>
      have h1 := List.find?_some hq
      have h2 := List.mem_of_find?_eq_some hq
      simp only [ownSegments, matchPath, hq, Option.map_some]
      rw [hu y h2 (by simpa using h1)]
  | rest =>
    have h1 : nodeChild (textKey [0x2f]) ns = [] := by
      rw [List.eq_nil_iff_forall_not_mem]
      intro y hy
      obtain ⟨s, hk, hs⟩ := mem_nodeChild.1 hy
      rcases key_plain (hn _ hs).1 with ⟨_, _, h⟩ | ⟨t, rfl, h, _⟩
      · rw [hk] at h; exact absurd h (by decide)
      · rw [hk] at h
        exact (hn _ hs).2 _ List.mem_cons_self (textKey_inj h).symm
    have h2 : (nodeChild .rest ns).head?.map (·.2) = some r := by
      have hmem : (([], r) : List PathSegment × MuxPattern × HttpHandler) ∈ nodeChild .rest ns := mem_nodeChild.2 ⟨_, rfl, hm⟩
      cases hc : nodeChild .rest ns with
      | nil => rw [hc] at hmem; cases hmem
      | cons y l =>
        have hy : y ∈ nodeChild .rest ns := by rw [hc]; exact List.mem_cons_self
        obtain ⟨s, hk, hs⟩ := mem_nodeChild.1 hy
        rcases key_plain (hn _ hs).1 with ⟨h, h', _⟩ | ⟨t, rfl, _, _⟩
        · have := hu _ hs (by rw [h, h'])
          simp only [List.head?_cons, Option.map_some]
          rw [← this]
        · exact absurd hk (key_text t)
    simp only [ownSegments, if_true, matchPath, h1, List.find?_nil, Option.map_none, ne_eq, not_true_eq_false, if_false]
    exact h2
  | text t h ih =>
    have ht : t ≠ [] := he _ List.mem_cons_self rfl
    have := ih (ns := nodeChild (textKey t) ns) (fun s hs => he s (List.mem_cons_of_mem _ hs)) ?_ ?_ ?_
    · simp only [ownSegments, Bool.false_eq_true, if_false, matchPath, this]
    · intro y hy
      obtain ⟨s, hk, hs⟩ := mem_nodeChild.1 hy
      refine ⟨?_, fun x hx => (hn _ hs).2 x (List.mem_cons_of_mem _ hx)⟩
      rcases key_plain (hn _ hs).1 with ⟨_, h', _⟩ | ⟨t, rfl, _, h⟩
      · rw [h']; exact .nil
      · exact h
    · exact mem_nodeChild.2 ⟨_, rfl, hm⟩
    · intro y hy hye
      obtain ⟨s, hk, hs⟩ := mem_nodeChild.1 hy
      refine hu (s :: y.1, y.2) hs ?_
      rcases key_plain (hn _ hs).1 with ⟨_, _, h'⟩ | ⟨t', rfl, h', _⟩
      · rw [hk] at h'
        unfold textKey at h'
        rw [if_neg ht] at h'
        cases h'
      · rw [hk] at h'
        rw [textKey_inj h', hye]

theorem unhexByte_iff (b : U8) (n : Nat) : unhexByte b = some n ↔ UrlDigit b n := by
  unfold unhexByte UrlDigit
  split
  · rw [Option.some.injEq]; omega
  · split
    · rw [Option.some.injEq]; omega
    · split
      · rw [Option.some.injEq]; omega
      · constructor
        · intro h; cases h
        · intro h; omega

theorem decodes_unescape {r s : Bytes} (h : Decodes r s) : urlUnescape 0 r = some s := by
  induction h with
  | nil => rfl
  | plain hb _ ih =>
    unfold urlUnescape
    rw [if_neg hb, ih]; rfl
  | escape hx hy _ ih =>
    unfold urlUnescape
    rw [if_pos rfl]
    simp only [(unhexByte_iff _ _).2 hx, (unhexByte_iff _ _).2 hy]
    rw [show ∀ (x y : U8) (r : Bytes), urlUnescape 2 (x :: y :: r) = urlUnescape 0 r from fun _ _ r => by simp [urlUnescape], ih]; rfl

theorem unescape_decodes : ∀ (n : Nat) {r s : Bytes}, r.length ≤ n → urlUnescape 0 r = some s → Decodes r s := by
  intro n
  induction n with
  | zero =>
    intro r s hn h
    cases r with
    | nil => cases h; exact .nil
    | cons => simp at hn
  | succ n ih =>
    intro r s hn h
    cases r with
    | nil => cases h; exact .nil
    | cons b l =>
      unfold urlUnescape at h
      split at h
      · rename_i hb
        subst hb
        split at h
        · rename_i x y l
          split at h
          · rename_i m k hx hy
            rw [show urlUnescape 2 (x :: y :: l) = urlUnescape 0 l by simp [urlUnescape]] at h
            obtain ⟨s', hs, rfl⟩ := Option.map_eq_some_iff.1 h
            exact .escape ((unhexByte_iff _ _).1 hx) ((unhexByte_iff _ _).1 hy) (ih (by simp at hn; omega) hs)
          · cases h
        · cases h
      · rename_i hb
        obtain ⟨s', hs, rfl⟩ := Option.map_eq_some_iff.1 h
        exact .plain hb (ih (by simp at hn; omega) hs)

theorem pathUnescape_decodes {r s : Bytes} (hs : 0x25 ∉ s) : pathUnescape r = s ↔ Decodes r s := by
  constructor
  · intro h
    unfold pathUnescape at h
    cases hu : urlUnescape 0 r with
    | none =>
      rw [hu] at h
      have hr : r = s := h
      rw [← hr] at hs
      rw [urlUnescape_plain hs] at hu
      cases hu
    | some t =>
      rw [hu] at h
      have ht : t = s := h
      subst ht
      exact unescape_decodes _ (le_refl _) hu
  · intro h
    rw [pathUnescape, decodes_unescape h]; rfl

theorem decodes_nil {r s : Bytes} (h : Decodes r s) : r = [] ↔ s = [] := by
  cases h <;> simp

theorem requestSegments_own {R S : List Bytes} (h : List.Forall₂ Decodes R S) : requestSegments R = ownSegments (plainSegments S) := by
  induction h with
  | nil => rfl
  | cons hd hl ih =>
    rename_i r s R S
    cases hl with
    | nil =>
      by_cases hr : r = []
      · have hs := (decodes_nil hd).1 hr
        subst hr hs
        rfl
      · have hs : s ≠ [] := fun hs => hr ((decodes_nil hd).2 hs)
        simp only [requestSegments, hr, if_false, plainSegments, hs, false_and, ownSegments, Bool.false_eq_true]
        rw [pathUnescape, decodes_unescape hd]; rfl
    | cons hd' hl' =>
      rename_i r' s' R S
      rw [plainSegments, if_neg (by simp), ownSegments, ← ih, requestSegments]
      · rw [pathUnescape, decodes_unescape hd]; rfl
      · simp

/-! ## Clean paths -/

theorem cleanSegments_plain {l : List Bytes} (h : ∀ s ∈ l, s ≠ [] ∧ s ≠ [0x2e] ∧ s ≠ [0x2e, 0x2e]) (k : List Bytes) (done : List Bytes) :
    cleanSegments done (l ++ k) = cleanSegments (l.reverse ++ done) k := by
  induction l generalizing done with
  | nil => rfl
  | cons s l ih =>
    have hs := h s List.mem_cons_self
    rw [List.cons_append, cleanSegments, if_neg (not_or.2 ⟨hs.1, hs.2.1⟩), if_neg hs.2.2, ih (fun s hs => h s (List.mem_cons_of_mem _ hs))]
    simp

theorem joinBytes_end {l : List Bytes} (h : l ≠ []) : joinBytes 0x2f (l ++ [[]]) = joinBytes 0x2f l ++ [0x2f] := by
  induction l with
  | nil => exact absurd rfl h
  | cons a l ih =>
    cases l with
    | nil => rfl
    | cons b l => rw [List.cons_append, List.cons_append, joinBytes, ← List.cons_append, ih (by simp), joinBytes]; simp

theorem joinBytes_last {l : List Bytes} {s : Bytes} (h : s ≠ []) : (joinBytes 0x2f (l ++ [s])).getLast? = s.getLast? := by
  induction l with
  | nil => rfl
  | cons a l ih =>
    cases l with
    | nil => simp only [List.cons_append, List.nil_append, joinBytes]; rw [List.getLast?_append, List.getLast?_cons]; cases hs : s.getLast? <;> simp_all
    | cons b l =>
      rw [List.cons_append, List.cons_append, joinBytes, ← List.cons_append, List.getLast?_append, List.getLast?_cons, ih]
      cases hs : s.getLast? with
      | none => simp at hs; exact absurd hs h
      | some x => simp

theorem cleanPath_clean {e : Bytes} (h : CleanPath e) : cleanPath e = e := by
  obtain ⟨hs, hi, hd⟩ := h
  cases e with
  | nil => cases hs
  | cons c t =>
    cases hs
    rw [List.tail_cons] at hi hd
    have hj := splitBytes_join 0x2f t
    have hm : ∀ s ∈ splitBytes 0x2f t, 0x2f ∉ s := fun s hs => (splitBytes_mem hs).1
    unfold cleanPath
    simp only [List.head?_cons, if_true, List.tail_cons]
    have hne := splitBytes_ne 0x2f t
    obtain ⟨L, s, hL⟩ : ∃ L s, splitBytes 0x2f t = L ++ [s] := ⟨_, _, (List.dropLast_append_getLast hne).symm⟩
    rw [hL] at hi hd hj hm ⊢
    rw [List.dropLast_concat] at hi
    rw [cleanSegments_plain (fun s hs => ⟨hi s hs, hd s (List.mem_append_left _ hs)⟩)]
    by_cases hse : s = []
    · subst hse
      simp only [cleanSegments, true_or, if_true, List.append_nil, List.reverse_reverse]
      by_cases hL0 : L = []
      · subst hL0
        simp only [List.nil_append, joinBytes] at hj
        subst hj
        rfl
      · rw [joinBytes_end hL0] at hj
        rw [if_pos ⟨by rw [← hj]; simp [List.getLast?_cons], hL0⟩, ← hj]
        rfl
    · have hds := hd s (by simp)
      rw [cleanSegments, if_neg (not_or.2 ⟨hse, hds.1⟩), if_neg hds.2]
      simp only [cleanSegments, List.append_nil, List.reverse_cons, List.reverse_reverse]
      rw [hj, if_neg]
      rintro ⟨h1, _⟩
      rw [List.getLast?_cons, ← hj, joinBytes_last hse] at h1
      cases hg : s.getLast? with
      | none => simp at hg; exact hse hg
      | some x =>
        rw [hg] at h1
        simp only [Option.getD_some, Option.some.injEq] at h1
        subst h1
        exact hm s (by simp) (List.mem_of_getLast? hg)

/-! ## Answers -/

/-- Patterns without a host that have nothing special. -/
def PlainTable (l : List (Bytes × HttpHandler)) : Prop := (∀ x ∈ l, x.1.head? = some 0x2f ∧ PlainPattern x.1) ∧ (l.map (·.1)).Nodup

theorem plainPattern_slash {p : Bytes} (h : p.head? = some 0x2f) : plainPattern p = ⟨[], [], plainSegments (splitBytes 0x2f p.tail)⟩ := by
  cases p with
  | nil => cases h
  | cons c p => cases h; simp [plainPattern]

theorem node_plain {l : List (Bytes × HttpHandler)} (h : PlainTable l) (host method : Bytes) (ho : host ≠ [] ∨ method ≠ []) : (muxOf l).node host method = [] := by
  unfold ServeMux.node
  rw [List.map_eq_nil_iff, List.filter_eq_nil_iff]
  intro x hx
  simp only [muxOf, List.mem_reverse, List.mem_map] at hx
  obtain ⟨y, hy, rfl⟩ := hx
  rw [plainPattern_slash (h.1 y hy).1]
  simp only [decide_eq_true_eq, not_and]
  intro h1 h2
  rcases ho with ho | ho
  · exact ho h1.symm
  · exact ho h2.symm

theorem matchMethod_plain {l : List (Bytes × HttpHandler)} (h : PlainTable l) (host method : Bytes) (ts : List Bytes) :
    (muxOf l).matchMethod host method ts = if host = [] then matchPath ((muxOf l).node [] []) ts else none := by
  unfold ServeMux.matchMethod
  by_cases hh : host = []
  · subst hh
    rw [if_pos rfl]
    have hg : matchPath ((muxOf l).node [] methodGET) ts = none := by rw [node_plain h _ _ (.inr (by decide)), matchPath_nil]
    rw [hg]
    by_cases hm : method = []
    · subst hm
      cases hq : matchPath ((muxOf l).node [] []) ts with
      | some r => rfl
      | none => simp
    · rw [node_plain h [] method (.inr hm), matchPath_nil]; simp
  · simp only [node_plain h host _ (.inl hh), matchPath_nil, if_neg hh]
    simp

theorem match_plain {l : List (Bytes × HttpHandler)} (h : PlainTable l) (host method path : Bytes) :
    (muxOf l).match host method path = matchPath ((muxOf l).node [] []) (requestSegments (splitBytes 0x2f path.tail)) := by
  unfold ServeMux.match
  by_cases hh : host = []
  · subst hh; simp [matchMethod_plain h]
  · rw [if_pos hh, matchMethod_plain h host, if_neg hh, matchMethod_plain h []]; rfl

theorem mem_node {l : List (Bytes × HttpHandler)} (h : PlainTable l) {y : List PathSegment × MuxPattern × HttpHandler} :
    y ∈ (muxOf l).node [] [] ↔ ∃ x ∈ l, y = (plainSegments (splitBytes 0x2f x.1.tail), plainPattern x.1, x.2) := by
  unfold ServeMux.node
  simp only [muxOf, List.mem_map, List.mem_filter, List.mem_reverse, decide_eq_true_eq]
  constructor
  · rintro ⟨z, ⟨⟨x, hx, rfl⟩, _⟩, rfl⟩
    exact ⟨x, hx, by rw [plainPattern_slash (h.1 x hx).1]⟩
  · rintro ⟨x, hx, rfl⟩
    refine ⟨_, ⟨⟨x, hx, rfl⟩, ?_⟩, ?_⟩
    · rw [plainPattern_slash (h.1 x hx).1]; exact ⟨rfl, rfl⟩
    · rw [plainPattern_slash (h.1 x hx).1]

theorem plainSegments_texts {l : List Bytes} : ∀ s ∈ plainSegments l, s.s ∈ l := by
  induction l with
  | nil => intro s hs; cases hs
  | cons a l ih =>
    intro s hs
    unfold plainSegments at hs
    split at hs
    · rename_i h; rw [List.mem_singleton] at hs; subst hs; rw [h.1]; exact List.mem_cons_self
    · rcases List.mem_cons.1 hs with rfl | hs
      · exact List.mem_cons_self
      · exact List.mem_cons_of_mem _ (ih s hs)

theorem plainSegments_filled {l : List Bytes} (h : ∀ s ∈ l.dropLast, s ≠ []) : ∀ s ∈ plainSegments l, s.multi = false → s.s ≠ [] := by
  induction l with
  | nil => intro s hs; cases hs
  | cons a l ih =>
    intro s hs hm
    unfold plainSegments at hs
    split at hs
    · rw [List.mem_singleton] at hs; subst hs; cases hm
    · rename_i hn
      cases l with
      | nil =>
        simp only [plainSegments, List.mem_singleton] at hs
        subst hs
        exact fun ha => hn ⟨ha, rfl⟩
      | cons b l =>
        rw [List.dropLast_cons_cons] at h
        rcases List.mem_cons.1 hs with rfl | hs
        · exact h _ List.mem_cons_self
        · exact ih (fun s hs => h s (List.mem_cons_of_mem _ hs)) s hs hm

theorem plainSegments_length (l : List Bytes) : (plainSegments l).length = l.length := by
  induction l with
  | nil => rfl
  | cons a l ih =>
    unfold plainSegments
    split
    · rename_i h; rw [h.2]; rfl
    · rw [List.length_cons, ih, List.length_cons]

theorem plainSegments_open {l : List Bytes} (h : ((plainSegments l).getLast?.map PathSegment.multi).getD false = true) : l.getLast? = some [] := by
  induction l with
  | nil => cases h
  | cons a l ih =>
    unfold plainSegments at h
    split at h
    · rename_i h1; rw [h1.1, h1.2]; rfl
    · rename_i hn
      cases l with
      | nil => simp [plainSegments] at h
      | cons b l =>
        rw [List.getLast?_cons_cons]
        apply ih
        have : plainSegments (b :: l) ≠ [] := by unfold plainSegments; split <;> simp
        obtain ⟨c, k, hk⟩ := List.exists_cons_of_ne_nil this
        rw [hk] at h ⊢
        rwa [List.getLast?_cons_cons] at h

theorem forall₂_dropLast {α β : Type} {R : α → β → Prop} {l : List α} {k : List β} (h : List.Forall₂ R l k) : List.Forall₂ R l.dropLast k.dropLast := by
  induction h with
  | nil => exact .nil
  | cons h hl ih =>
    cases hl with
    | nil => exact .nil
    | cons h' hl' => exact .cons h ih

theorem forall₂_last {α β : Type} {R : α → β → Prop} {l : List α} {k : List β} (h : List.Forall₂ R l k) {b : β} (hb : k.getLast? = some b) : ∃ a, l.getLast? = some a ∧ R a b := by
  induction h with
  | nil => cases hb
  | cons h hl ih =>
    cases hl with
    | nil => cases hb; exact ⟨_, rfl, h⟩
    | cons h' hl' =>
      rw [List.getLast?_cons_cons] at hb
      obtain ⟨a, h1, h2⟩ := ih hb
      exact ⟨a, by rw [List.getLast?_cons_cons]; exact h1, h2⟩

theorem forall₂_right {α β : Type} {R : α → β → Prop} {l : List α} {k : List β} (h : List.Forall₂ R l k) {b : β} (hb : b ∈ k) : ∃ a ∈ l, R a b := by
  induction h with
  | nil => cases hb
  | cons h hl ih =>
    rcases List.mem_cons.1 hb with rfl | hb
    · exact ⟨_, List.mem_cons_self, h⟩
    · obtain ⟨a, h1, h2⟩ := ih hb
      exact ⟨a, List.mem_cons_of_mem _ h1, h2⟩

theorem split_last {t : Bytes} (h : (splitBytes 0x2f t).getLast? = some []) : ((0x2f : U8) :: t).getLast? = some 0x2f := by
  have hj := splitBytes_join 0x2f t
  obtain ⟨L, hL⟩ := List.getLast?_eq_some_iff.1 h
  rw [hL] at hj
  by_cases h0 : L = []
  · subst h0; simp only [List.nil_append, joinBytes] at hj; subst hj; rfl
  · rw [joinBytes_end h0] at hj
    rw [← hj]
    simp [List.getLast?_cons]

theorem find_own {l : List (Bytes × HttpHandler)} (h : PlainTable l) {x : Bytes × HttpHandler} (hx : x ∈ l) {e : Bytes} (hc : CleanPath e) (hr : Requests e x.1) (host method : Bytes) :
    (muxOf l).find host method e = .handler x.2 := by
  have hseg : ∀ s ∈ plainSegments (splitBytes 0x2f x.1.tail), s.multi = false → s.s ≠ [] := by
    apply plainSegments_filled
    intro s hs he
    obtain ⟨r, hr', hd⟩ := forall₂_right (forall₂_dropLast hr) hs
    exact hc.inner r hr' ((decodes_nil hd).2 he)
  have hm : (muxOf l).match host method e = some (plainPattern x.1, x.2) := by
    rw [match_plain h, requestSegments_own hr]
    refine matchPath_own (plainSegments_plain _) hseg ?_ ((mem_node h).2 ⟨x, hx, rfl⟩) ?_
    · intro y hy
      obtain ⟨z, hz, rfl⟩ := (mem_node h).1 hy
      refine ⟨plainSegments_plain _, fun s hs he => ?_⟩
      have := (splitBytes_mem (plainSegments_texts s hs)).1
      rw [he] at this
      exact this (by simp)
    · intro y hy he
      obtain ⟨z, hz, rfl⟩ := (mem_node h).1 hy
      have h1 := splitBytes_inj (plainSegments_inj he)
      have : z.1 = x.1 := by
        have a := (h.1 z hz).1
        have b := (h.1 x hx).1
        cases hz1 : z.1 with
        | nil => rw [hz1] at a; cases a
        | cons c t =>
          cases hx1 : x.1 with
          | nil => rw [hx1] at b; cases b
          | cons d u =>
            rw [hz1] at a h1; rw [hx1] at b h1
            cases a; cases b
            rw [List.tail_cons, List.tail_cons] at h1
            rw [h1]
      have hzx : z = x := List.inj_on_of_nodup_map h.2 hz hx this
      rw [hzx]
  have hex : exactMatch (some (plainPattern x.1, x.2)) e = true := by
    unfold exactMatch
    dsimp only
    split
    · rename_i ho
      rw [plainPattern_slash (h.1 x hx).1] at ho ⊢
      have hl := plainSegments_open ho
      obtain ⟨a, ha, hd⟩ := forall₂_last hr hl
      rw [(decodes_nil hd).2 rfl] at ha
      have hs := hc.slash
      cases e with
      | nil => cases hs
      | cons c t =>
        cases hs
        rw [List.tail_cons] at ha
        simp only [Bool.and_eq_true, decide_eq_true_eq, beq_iff_eq]
        refine ⟨split_last ha, ?_⟩
        rw [plainSegments_length, ← hr.length_eq, List.tail_cons, splitBytes_length, List.count_cons_self]
    · rfl
  unfold ServeMux.find
  simp only [cleanPath_clean hc, hm, hex]
  simp

/-! ## Only its own -/

/-- The path `e` lies below the directory `p`. -/
def Spec.BelowDir (e p : Bytes) : Prop :=
  p.getLast? = some 0x2f ∧ ∃ k, List.Forall₂ Decodes ((splitBytes 0x2f e.tail).take k) (splitBytes 0x2f p.tail).dropLast

/-- A path of the flags without empty parts. -/
def Spec.FilledPath (p : Bytes) : Prop := ∀ s ∈ (splitBytes 0x2f p.tail).dropLast, s ≠ []

/-- The segments of a pattern fit those of a request. -/
inductive Covers : List PathSegment → List Bytes → Prop where
  | nil : Covers [] []
  | rest (t : Bytes) (ts : List Bytes) : Covers [⟨[], true, true⟩] (t :: ts)
  | text (t : Bytes) {l : List PathSegment} {ts : List Bytes} : Covers l ts → Covers (⟨t, false, false⟩ :: l) (t :: ts)

theorem matchPath_covers {ns : List (List PathSegment × MuxPattern × HttpHandler)} (hn : ∀ y ∈ ns, PlainSegs y.1 ∧ ∀ s ∈ y.1, s.multi = false → s.s ≠ []) {ts : List Bytes} {r : MuxPattern × HttpHandler}
    (h : matchPath ns ts = some r) : ∃ segs, (segs, r) ∈ ns ∧ Covers segs ts := by
  induction ts generalizing ns with
  | nil =>
    obtain ⟨y, hy, rfl⟩ := Option.map_eq_some_iff.1 h
    have h1 := List.find?_some hy
    have h2 := List.mem_of_find?_eq_some hy
    simp only [decide_eq_true_eq] at h1
    refine ⟨[], ?_, .nil⟩
    rw [← h1]; exact h2
  | cons t ts ih =>
    have child : ∀ k, ∀ y ∈ nodeChild k ns, PlainSegs y.1 ∧ ∀ s ∈ y.1, s.multi = false → s.s ≠ [] := by
      intro k y hy
      obtain ⟨s, hk, hs⟩ := mem_nodeChild.1 hy
      refine ⟨?_, fun x hx => (hn _ hs).2 x (List.mem_cons_of_mem _ hx)⟩
      rcases key_plain (hn _ hs).1 with ⟨_, h', _⟩ | ⟨t, rfl, _, h⟩
      · rw [h']; exact .nil
      · exact h
    have hany : nodeChild .any ns = [] := by
      rw [List.eq_nil_iff_forall_not_mem]
      intro y hy
      obtain ⟨s, hk, hs⟩ := mem_nodeChild.1 hy
      rcases key_plain (hn _ hs).1 with ⟨_, _, h⟩ | ⟨t, rfl, h, _⟩
      · rw [hk] at h; cases h
      · have hne := (hn _ hs).2 _ List.mem_cons_self rfl
        rw [hk, textKey, if_neg hne] at h
        cases h
    unfold matchPath at h
    rw [hany, matchPath_nil] at h
    cases hq : matchPath (nodeChild (textKey t) ns) ts with
    | some r' =>
      rw [hq] at h
      cases h
      obtain ⟨segs, h1, h2⟩ := ih (child _) hq
      obtain ⟨s, hk, hs⟩ := mem_nodeChild.1 h1
      rcases key_plain (hn _ hs).1 with ⟨_, _, h'⟩ | ⟨t', rfl, h', _⟩
      · rw [hk] at h'
        unfold textKey at h'
        split at h' <;> cases h'
      · rw [hk] at h'
        have := textKey_inj h'
        subst this
        exact ⟨_, hs, .text t h2⟩
    | none =>
      rw [hq] at h
      simp only [ite_self] at h
      obtain ⟨y, hy, rfl⟩ := Option.map_eq_some_iff.1 h
      obtain ⟨s, hk, hs⟩ := mem_nodeChild.1 (List.mem_of_mem_head? hy)
      rcases key_plain (hn _ hs).1 with ⟨h1, h2, _⟩ | ⟨t', rfl, _, _⟩
      · refine ⟨_, hs, ?_⟩
        rw [h1, h2]
        exact .rest t ts
      · exact absurd hk (key_text t')

theorem covers_requests {R S : List Bytes} (hS : ∀ s ∈ S, 0x25 ∉ s ∧ 0x2f ∉ s) (hne : S ≠ []) (hR : R ≠ []) (h : Covers (plainSegments S) (requestSegments R)) :
    List.Forall₂ Decodes R S ∨ (S.getLast? = some [] ∧ ∃ k, List.Forall₂ Decodes (R.take k) S.dropLast) := by
  induction S generalizing R with
  | nil => exact absurd rfl hne
  | cons s S ih =>
    have hs := hS s List.mem_cons_self
    by_cases hse : s = [] ∧ S = []
    · right
      rw [hse.1, hse.2]
      exact ⟨rfl, 0, .nil⟩
    · rw [plainSegments, if_neg hse] at h
      cases R with
      | nil => exact absurd rfl hR
      | cons r R =>
        cases R with
        | nil =>
          by_cases hr : r = []
          · subst hr
            simp only [requestSegments, if_true] at h
            cases h
            exact absurd (by simp) hs.2
          · simp only [requestSegments, hr, if_false] at h
            cases hP : plainSegments S with
            | nil =>
              have hS0 : S = [] := by
                have := plainSegments_length S
                rw [hP] at this
                exact List.length_eq_zero_iff.1 this.symm
              subst hS0
              rw [hP] at h
              generalize hp : pathUnescape r = p at h
              cases h
              exact .inl (.cons ((pathUnescape_decodes hs.1).1 hp) .nil)
            | cons a b =>
              rw [hP] at h
              generalize pathUnescape r = p at h
              cases h with
              | text _ h => cases h
        | cons r' R =>
          rw [requestSegments] at h
          · generalize hp : pathUnescape r = p at h
            generalize hq : requestSegments (r' :: R) = q at h
            generalize hP : plainSegments S = P at h
            cases h with
            | text _ h =>
              have hd := (pathUnescape_decodes hs.1).1 hp
              by_cases hS0 : S = []
              · subst hS0
                cases hP
                cases h
                exfalso
                unfold requestSegments at hq
                split at hq
                · cases ‹_ :: _ = []›
                · split at hq <;> cases hq
                · cases hq
              · have := ih (fun s hs => hS s (List.mem_cons_of_mem _ hs)) hS0 (R := r' :: R) (by simp) (by rw [hP, hq]; exact h)
                rcases this with h1 | ⟨h1, k, h2⟩
                · exact .inl (.cons hd h1)
                · right
                  obtain ⟨b, S', rfl⟩ := List.exists_cons_of_ne_nil hS0
                  refine ⟨by rw [List.getLast?_cons_cons]; exact h1, k + 1, ?_⟩
                  rw [List.take_succ_cons, List.dropLast_cons_cons]
                  exact .cons hd h2
          · simp

theorem find_only {l : List (Bytes × HttpHandler)} (h : PlainTable l) (hf : ∀ x ∈ l, FilledPath x.1) {host method e : Bytes} {k : HttpHandler} (ha : (muxOf l).find host method e = .handler k) :
    ∃ x ∈ l, x.2 = k ∧ (Requests e x.1 ∨ BelowDir e x.1) := by
  unfold ServeMux.find at ha
  simp only at ha
  split at ha
  · cases ha
  split at ha
  · cases ha
  · rename_i hc
    rw [not_not] at hc
    rw [hc, match_plain h] at ha
    cases hq : matchPath ((muxOf l).node [] []) (requestSegments (splitBytes 0x2f e.tail)) with
    | none => rw [hq] at ha; cases ha
    | some r =>
      rw [hq] at ha
      obtain ⟨segs, hm, hcov⟩ := matchPath_covers (by
        intro y hy
        obtain ⟨z, hz, rfl⟩ := (mem_node h).1 hy
        exact ⟨plainSegments_plain _, plainSegments_filled (hf z hz)⟩) hq
      obtain ⟨x, hx, he⟩ := (mem_node h).1 hm
      cases he
      cases ha
      refine ⟨x, hx, rfl, ?_⟩
      have hS : ∀ s ∈ splitBytes 0x2f x.1.tail, 0x25 ∉ s ∧ 0x2f ∉ s := by
        intro s hs
        have := splitBytes_mem hs
        exact ⟨fun hb => (h.1 x hx).2 _ (List.mem_of_mem_tail (this.2 _ hb)) (by decide), this.1⟩
      rcases covers_requests hS (splitBytes_ne _ _) (splitBytes_ne _ _) hcov with h1 | ⟨h1, h2⟩
      · exact .inl h1
      · refine .inr ⟨?_, h2⟩
        have hs := (h.1 x hx).1
        cases hx1 : x.1 with
        | nil => rw [hx1] at hs; cases hs
        | cons c t =>
          rw [hx1] at hs h1
          cases hs
          exact split_last h1

/-! ## C138 -/

/-- C138: paths as the flags mean them, each beginning with its slash: they are registered exactly if no two are the same, or the program panics; then a request with any method and host for one of them, with or without escapes, is answered by its own
handler. -/
theorem C138_requests_partial (isName : Bytes → Bool) {f : StartFlags} (hp : ∀ x ∈ Spec.paths f, PlainPath x.1 ∧ x.1.head? = some '/') :
    if ((Spec.paths f).map (·.1)).Nodup then
      ∃ m, runServeMux isName f = .ok m ∧ (∀ x ∈ Spec.paths f, ∀ e, CleanPath e → Requests e (utf8Str x.1) → ∀ host method, m.find host method e = .handler x.2) ∧
        ((∀ x ∈ Spec.paths f, FilledPath (utf8Str x.1)) → ∀ host method e k, m.find host method e = .handler k → ∃ x ∈ Spec.paths f, x.2 = k ∧ (Requests e (utf8Str x.1) ∨ BelowDir e (utf8Str x.1)))
    else runServeMux isName f = .panic := by
  have hs : ∀ x ∈ Spec.paths f, '/' ∈ x.1 := fun x hx => List.mem_of_mem_head? (hp x hx).2
  rw [runServeMux_all, registerAll_paths isName (fun x hx => (hp x hx).1)]
  split
  · rename_i hn
    have ht : PlainTable (bytePaths (Spec.paths f)) := by
      refine ⟨fun x hx => ?_, ?_⟩
      · obtain ⟨y, hy, rfl⟩ := List.mem_map.1 hx
        refine ⟨?_, plainPath_bytes (hp y hy).1⟩
        have := (hp y hy).2
        cases hy1 : y.1 with
        | nil => rw [hy1] at this; cases this
        | cons c t => rw [hy1] at this; cases this; rfl
      · have : (bytePaths (Spec.paths f)).map (·.1) = ((Spec.paths f).map (·.1)).map utf8Str := by simp [bytePaths]
        rw [this, List.nodup_map_iff (fun _ _ => utf8Str_inj)]
        exact hn
    rw [if_pos ⟨hs, hn⟩]
    refine ⟨_, rfl, fun x hx e hc hr host method => find_own ht (List.mem_map.2 ⟨x, hx, rfl⟩) hc hr host method, fun hf host method e k ha => ?_⟩
    obtain ⟨x, hx, h1, h2⟩ := find_only ht (fun x hx => by
      obtain ⟨y, hy, rfl⟩ := List.mem_map.1 hx
      exact hf y hy) ha
    obtain ⟨y, hy, rfl⟩ := List.mem_map.1 hx
    exact ⟨y, hy, h1, h2⟩
  · rename_i hn
    rw [if_neg (fun h => hn h.2)]

/-- The simple multiplexer of `Model/Startup.lean` accepts the same flags. -/
theorem C138_simple (isName : Bytes → Bool) {f : StartFlags} (hp : ∀ x ∈ Spec.paths f, PlainPath x.1) :
    (∃ m, runServeMux isName f = .ok m) ↔ ∃ m, ((Prog.runPaths f).bind fun m => m.handle f.metricsPath .metrics) = .ok m := by
  rw [runServeMux_all, registerAll_paths isName hp, runPaths_metrics]
  have : (∀ x ∈ Spec.paths f, '/' ∈ x.1) ∧ ((Spec.paths f).map (·.1)).Nodup ↔ Spec.PathsFit f := Iff.rfl
  by_cases h : Spec.PathsFit f
  · rw [if_pos h, if_pos (this.2 h)]; exact ⟨fun _ => ⟨_, rfl⟩, fun _ => ⟨_, rfl⟩⟩
  · rw [if_neg h, if_neg (fun h' => h (this.1 h'))]; exact ⟨fun ⟨_, h⟩ => (by cases h), fun ⟨_, h⟩ => (by cases h)⟩

theorem slash_invalid (m : Bytes) (h : (0x2f : U8) ∈ m) : validMethod m = false := by
  unfold validMethod
  rw [Bool.and_eq_false_iff]
  right
  rw [List.all_eq_false]
  exact ⟨_, h, by decide +kernel⟩

/-- C138 is false of paths with blanks: what comes before the blank is taken for a method, and both programs panic. -/
theorem C138_blank_false (isName : Bytes → Bool) (m : ServeMux) (a b : Bytes) (k : HttpHandler) (ha : a.any isBlankByte = false) : m.register isName (0x2f :: a ++ 0x20 :: b) k = .panic := by
  have h1 : ((0x2f : U8) :: a ++ 0x20 :: b).any isBlankByte = true := by simp [isBlankByte]
  have h2 : ((0x2f : U8) :: a ++ 0x20 :: b).takeWhile (!isBlankByte ·) = 0x2f :: a := by
    rw [List.takeWhile_append_of_pos]
    · simp [isBlankByte]
    · intro x hx
      rcases List.mem_cons.1 hx with rfl | hx
      · decide
      · have := List.any_eq_false.1 ha x hx
        simpa using this
  unfold ServeMux.register parsePattern
  simp only [h1, if_true, h2, slash_invalid _ List.mem_cons_self]
  simp

/-- A text as bytes. -/
def Example.b (s : String) : Bytes := utf8Str s.toList

/-- C138 is false of rtrmon with a slash before the name of the difference: the difference is not answered on that path but the index is, and a request with both slashes is redirected; it is answered in every directory instead. -/
theorem C138_slash_false : ∃ m, monServeMux (fun _ => true) (Example.b "/diff.json") (Example.b "/metrics") = .ok m ∧
    m.find [] methodGET (Example.b "/diff.json") = .handler .index ∧ m.find [] methodGET (Example.b "//diff.json") = .redirect ∧ m.find [] methodGET (Example.b "/x/diff.json") = .handler .diff :=
  ⟨_, rfl, by decide +kernel, by decide +kernel, by decide +kernel⟩

/-- C138 is false of paths with braces, which stand for all paths: with this name every path at the top level is answered with the difference; with dots in the braces, every path at any level; and of paths with a method, which are answered for that method only. -/
theorem C138_wildcards_false :
    (∃ m, monServeMux (fun _ => true) (Example.b "{file}") (Example.b "/metrics") = .ok m ∧ m.find [] methodGET (Example.b "/robots.txt") = .handler .diff ∧ m.find [] methodGET (Example.b "/metrics") = .handler .metrics) ∧
    (∃ m, monServeMux (fun n => !n.contains 0x2e) (Example.b "{file...}") (Example.b "/metrics") = .panic ∧ monServeMux (fun n => !n.contains 0x2e) (Example.b "x/{file...}") (Example.b "/metrics") = .ok m ∧
      m.find [] methodGET (Example.b "/x/y/robots.txt") = .handler .diff) ∧
    ∃ m, monServeMux (fun _ => true) (Example.b "diff.json") (Example.b "GET /metrics") = .ok m ∧ m.find [] methodHEAD (Example.b "/metrics") = .handler .metrics ∧
      m.find [] (Example.b "POST") (Example.b "/metrics") = .handler .index :=
  ⟨⟨_, rfl, by decide +kernel, by decide +kernel⟩, ⟨_, by decide +kernel, rfl, by decide +kernel⟩, ⟨_, rfl, by decide +kernel, by decide +kernel⟩⟩

/-- C138, rtrmon. -/
theorem C138_monitor_partial (isName : Bytes → Bool) {outFile metricsPath : Str} (ho : PlainPath outFile) (hm : PlainPath metricsPath ∧ metricsPath.head? = some '/') :
    if metricsPath ≠ ['/'] ∧ outFile ≠ [] ∧ metricsPath ≠ '/' :: outFile then
      ∃ m, monServeMux isName (utf8Str outFile) (utf8Str metricsPath) = .ok m ∧
        ∀ x ∈ [('/' :: outFile, HttpHandler.diff), (metricsPath, .metrics), (['/'], .index)], ∀ e, CleanPath e → Requests e (utf8Str x.1) → ∀ host method, m.find host method e = .handler x.2
    else monServeMux isName (utf8Str outFile) (utf8Str metricsPath) = .panic := by
  set l : List (Str × HttpHandler) := [('/' :: outFile, .diff), (metricsPath, .metrics), (['/'], .index)] with hl
  have hall : monServeMux isName (utf8Str outFile) (utf8Str metricsPath) = registerAll isName [] (bytePaths l) := by
    have h1 : utf8Str ('/' :: outFile) = 0x2f :: utf8Str outFile := rfl
    have h2 : utf8Str ['/'] = [0x2f] := rfl
    simp only [hl, bytePaths, List.map_cons, List.map_nil, registerAll, h1, h2, bindOk, monServeMux]
  have hp : ∀ x ∈ l, PlainPath x.1 ∧ x.1.head? = some '/' := by
    intro x hx
    simp only [hl, List.mem_cons, List.not_mem_nil, or_false] at hx
    rcases hx with rfl | rfl | rfl
    · refine ⟨fun c hc => ?_, rfl⟩
      rcases List.mem_cons.1 hc with rfl | hc
      · decide
      · exact ho c hc
    · exact hm
    · exact ⟨fun c hc => by rw [List.mem_singleton] at hc; subst hc; decide, rfl⟩
  have hs : ∀ x ∈ l, '/' ∈ x.1 := fun x hx => List.mem_of_mem_head? (hp x hx).2
  have hn : (l.map (·.1)).Nodup ↔ metricsPath ≠ ['/'] ∧ outFile ≠ [] ∧ metricsPath ≠ '/' :: outFile := by
    simp only [hl, List.map_cons, List.map_nil, List.nodup_cons, List.mem_cons, List.not_mem_nil, or_false, not_or, List.cons.injEq, true_and, not_false_eq_true, List.nodup_nil, and_true]
    constructor
    · rintro ⟨⟨h1, h2⟩, h3⟩
      exact ⟨h3, h2, fun h => h1 h.symm⟩
    · rintro ⟨h1, h2, h3⟩
      exact ⟨⟨fun h => h3 h.symm, h2⟩, h1⟩
  rw [hall, registerAll_paths isName (fun x hx => (hp x hx).1)]
  split
  · rename_i h
    have ht : PlainTable (bytePaths l) := by
      refine ⟨fun x hx => ?_, ?_⟩
      · obtain ⟨y, hy, rfl⟩ := List.mem_map.1 hx
        refine ⟨?_, plainPath_bytes (hp y hy).1⟩
        have := (hp y hy).2
        cases hy1 : y.1 with
        | nil => rw [hy1] at this; cases this
        | cons c t => rw [hy1] at this; cases this; rfl
      · have : (bytePaths l).map (·.1) = (l.map (·.1)).map utf8Str := by simp [bytePaths]
        rw [this, List.nodup_map_iff (fun _ _ => utf8Str_inj)]
        exact hn.2 h
    rw [if_pos ⟨hs, hn.2 h⟩]
    exact ⟨_, rfl, fun x hx e hc hr host method => find_own ht (List.mem_map.2 ⟨x, hx, rfl⟩) hc hr host method⟩
  · rename_i h
    rw [if_neg (fun h' => h (hn.1 h'.2))]

/-- A request with an escape, for the export of the defaults. -/
example : CleanPath (Example.b "/rpki%2ejson") ∧ Requests (Example.b "/rpki%2ejson") (Example.b "/rpki.json") ∧ PlainPath "/rpki.json".toList ∧ FilledPath (Example.b "/rpki.json") := by
  refine ⟨⟨by decide +kernel, by decide +kernel, by decide +kernel⟩, ?_, by unfold PlainPath; decide +kernel, by unfold FilledPath; decide +kernel⟩
  have h1 : splitBytes 0x2f (Example.b "/rpki%2ejson").tail = [Example.b "rpki%2ejson"] := by decide +kernel
  have h2 : splitBytes 0x2f (Example.b "/rpki.json").tail = [Example.b "rpki.json"] := by decide +kernel
  unfold Requests
  rw [h1, h2]
  exact .cons (unescape_decodes _ (le_refl _) (by decide +kernel)) .nil

/-- The defaults of stayrtr: a path below the export is not found, one with dots is redirected. -/
example : ∃ m, runServeMux (fun _ => true) { Example.flags with exportPath := "/rpki.json".toList, metricsPath := "/metrics".toList } = .ok m ∧ m.find [] methodGET (Example.b "/rpki.json/") = .notFound ∧
    m.find [] methodGET (Example.b "/x/../metrics") = .redirect ∧ m.find [] methodHEAD (Example.b "/metrics") = .handler .metrics :=
  ⟨_, rfl, by decide +kernel, by decide +kernel, by decide +kernel⟩

end StayRTR
