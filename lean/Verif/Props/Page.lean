import Verif.Model.Page
import Verif.Model.Registry
import Verif.Props.Index
import Verif.Props.MonSys

/-!
C173: rtrmon's index page as a browser reads it: no setting adds markup, the settings are shown as they are, and what the page says of the difference and the metrics is so.
-/

namespace StayRTR
open Spec

namespace Spec

/-- What an HTML text consists of: texts and tags, without the brackets. -/
inductive HtmlToken where
  | text (s : Str)
  | tag (s : Str)
  deriving DecidableEq, Repr

/-- Where a reader is: between tags, in a tag, in a quoted value in a tag. -/
inductive HtmlMode where
  | text
  | tag
  | quoted
  deriving DecidableEq, Repr

/-- What has been read: whole tokens and the beginning of the next. -/
structure HtmlReader where
  tokens : List HtmlToken := []
  mode : HtmlMode := .text
  begun : Str := []
  deriving DecidableEq, Repr

/-- One more character (HTML, tokenization). -/
def HtmlReader.step (r : HtmlReader) (c : Char) : HtmlReader :=
  match r.mode with
  | .text => if c = '<' then ⟨r.tokens ++ [.text r.begun], .tag, []⟩ else { r with begun := r.begun ++ [c] }
  | .tag => if c = '>' then ⟨r.tokens ++ [.tag r.begun], .text, []⟩ else { r with mode := if c = '"' then .quoted else .tag, begun := r.begun ++ [c] }
  | .quoted => { r with mode := if c = '"' then .tag else .quoted, begun := r.begun ++ [c] }

/-- The tokens of a text; none if it ends in a tag. -/
def readHtml (s : Str) : Option (List HtmlToken) :=
  let r := s.foldl HtmlReader.step {}
  if r.mode = .text then some (r.tokens ++ [.text r.begun]) else none

/-- The tags. -/
def tagsOf (l : List HtmlToken) : List Str := l.filterMap fun
  | .tag s => some s
  | .text _ => none

/-- The texts directly after the tags of this name, as they are seen. -/
def contentsOf (name : Str) : List HtmlToken → List Str
  | .tag n :: .text s :: l => if n = name then attrValue 0 s :: contentsOf name l else contentsOf name l
  | _ :: l => contentsOf name l
  | [] => []

/-- What a list of descriptions, one on a line, describes: the words before the colons. -/
def described (s : Str) : List Str := ((splitOn '\n' s).map fun l => (l.dropWhile (· = ' ')).takeWhile (· ≠ ':')).filter (· ≠ [])

/-- The URLs of the metrics when the program listens on `addr`: without a host in it every name `host` of the machine will do, otherwise it is that host. -/
def MetricsUrl (addr path host url : Str) : Prop :=
  ∃ h port, addr = h ++ ':' :: port ∧ ':' ∉ port ∧ url = "http://".toList ++ (if h = [] then host else h) ++ ':' :: port ++ path

/-- An instruction with the name of the machine in place of `[host]`. -/
def withHost (host : Str) : Str → Str
  | [] => []
  | c :: l => if "[host]".toList.isPrefixOf (c :: l) then host ++ l.drop 5 else c :: withHost host l

/-- The tags of the page, with these two links. -/
def PageTags (link1 link2 : Str) : List Str :=
  ["!DOCTYPE html", "html lang=\"en\"", "head", "meta charset=\"UTF-8\"", "title", "/title", "/head", "body", "h1", "a href=\"https://github.com/bgp/stayrtr\"", "/a", "/h1", "ul", "li"].map String.toList ++
  ["a href=\"".toList ++ link1 ++ ['"']] ++ ["/a", "/li", "li"].map String.toList ++ ["a href=\"".toList ++ link2 ++ ['"']] ++
  ["/a", "/li", "/ul", "h2", "/h2", "h3", "/h3", "kbd", "/kbd", "pre", "/pre", "h3", "/h3", "kbd", "/kbd", "pre", "/pre", "/body", "/html"].map String.toList

end Spec

/-! ## Reading in pieces -/

/-- A token with more before it. -/
def Spec.HtmlToken.after (s : Str) : HtmlToken → HtmlToken
  | .text t => .text (s ++ t)
  | .tag t => .tag (s ++ t)

/-- A reader that went on from these tokens and this beginning. -/
def Spec.HtmlReader.from (r : HtmlReader) (tokens : List HtmlToken) (begun : Str) : HtmlReader :=
  match r.tokens with
  | [] => ⟨tokens, r.mode, begun ++ r.begun⟩
  | t :: l => ⟨tokens ++ t.after begun :: l, r.mode, r.begun⟩

theorem html_step_from (r : HtmlReader) (c : Char) (tokens : List HtmlToken) (begun : Str) : (r.from tokens begun).step c = (r.step c).from tokens begun := by
  obtain ⟨tk, m, b⟩ := r
  cases tk <;> cases m <;> simp only [HtmlReader.from, HtmlReader.step] <;> (try split) <;> simp [HtmlToken.after]

theorem html_run_from (s : Str) (r : HtmlReader) (tokens : List HtmlToken) (begun : Str) :
    s.foldl HtmlReader.step (r.from tokens begun) = (s.foldl HtmlReader.step r).from tokens begun := by
  induction s generalizing r with
  | nil => rfl
  | cons c s ih => rw [List.foldl_cons, List.foldl_cons, html_step_from, ih]

theorem html_run (s : Str) (r : HtmlReader) : s.foldl HtmlReader.step r = (s.foldl HtmlReader.step ⟨[], r.mode, []⟩).from r.tokens r.begun := by
  rw [← html_run_from]
  congr 1
  simp [HtmlReader.from]

theorem html_plain {s : Str} {m : HtmlMode} (h : ∀ c ∈ s, (HtmlReader.step ⟨[], m, []⟩ c) = ⟨[], m, [c]⟩) : s.foldl HtmlReader.step ⟨[], m, []⟩ = ⟨[], m, s⟩ := by
  induction s with
  | nil => rfl
  | cons c s ih =>
    rw [List.foldl_cons, h c List.mem_cons_self, html_run, ih fun d hd => h d (List.mem_cons_of_mem _ hd)]
    rfl

theorem attrChar_mem {c d : Char} (h : d ∈ attrChar c) : d ≠ '<' ∧ d ≠ '"' := by
  unfold attrChar at h
  have lit : ∀ s ∈ ["&#34;".toList, "&amp;".toList, "&#39;".toList, "&#43;".toList, "&lt;".toList, "&gt;".toList], ∀ d ∈ s, d ≠ '<' ∧ d ≠ '"' := by decide +kernel
  split at h
  · exact lit _ (by simp) d h
  split at h
  · exact lit _ (by simp) d h
  split at h
  · exact lit _ (by simp) d h
  split at h
  · exact lit _ (by simp) d h
  split at h
  · exact lit _ (by simp) d h
  split at h
  · exact lit _ (by simp) d h
  · rw [List.mem_singleton.1 h]
    exact ⟨‹_›, ‹_›⟩

theorem htmlText_run (s : Str) : (htmlText s).foldl HtmlReader.step ⟨[], .text, []⟩ = ⟨[], .text, htmlText s⟩ := by
  refine html_plain fun c hc => ?_
  obtain ⟨d, _, hd⟩ := List.mem_flatMap.1 hc
  have : c ≠ '<' := by
    unfold htmlChar at hd
    split at hd
    · rw [List.mem_singleton.1 hd]; decide
    · exact (attrChar_mem hd).1
  simp [HtmlReader.step, this]

theorem hrefText_run (s : Str) : (hrefText s).foldl HtmlReader.step ⟨[], .quoted, []⟩ = ⟨[], .quoted, hrefText s⟩ := by
  refine html_plain fun c hc => ?_
  obtain ⟨d, _, hd⟩ := List.mem_flatMap.1 hc
  simp [HtmlReader.step, (attrChar_mem hd).2]

theorem htmlText_plain {s : Str} (h : Char.ofNat 0 ∉ s) : htmlText s = s.flatMap attrChar := by
  induction s with
  | nil => rfl
  | cons c s ih =>
    have := ih fun hm => h (List.mem_cons_of_mem _ hm)
    unfold htmlText at *
    rw [List.flatMap_cons, List.flatMap_cons, this, htmlChar, if_neg]
    rintro rfl
    exact h List.mem_cons_self

theorem attrValue_flat (s l : Str) : attrValue 0 (s.flatMap attrChar ++ l) = s ++ attrValue 0 l := by
  induction s with
  | nil => rfl
  | cons c s ih => rw [List.flatMap_cons, List.append_assoc, attrValue_char, ih, List.cons_append]

/-- The tokens before the first link. -/
def pageA : List HtmlToken := (indexText0.foldl HtmlReader.step ⟨[], .text, []⟩).tokens
/-- The tokens between the links. -/
def pageB : List HtmlToken := (indexText1.foldl HtmlReader.step ⟨[], .quoted, []⟩).tokens.tail
/-- The tokens between the links and the name of the difference. -/
def pageC : List HtmlToken := (indexText2.foldl HtmlReader.step ⟨[], .quoted, []⟩).tokens.tail.dropLast
/-- The tokens between the name and the URL. -/
def pageD : List HtmlToken := (indexText3.foldl HtmlReader.step ⟨[], .text, []⟩).tokens.tail.dropLast
/-- The tokens after the URL. -/
def pageE : List HtmlToken := (indexText4.foldl HtmlReader.step ⟨[], .text, []⟩).tokens.tail

theorem page_text0 : indexText0.foldl HtmlReader.step ⟨[], .text, []⟩ = ⟨pageA, .quoted, "a href=\"".toList⟩ := by decide +kernel
theorem page_text1 : indexText1.foldl HtmlReader.step ⟨[], .quoted, []⟩ = ⟨.tag ['"'] :: pageB, .quoted, "a href=\"".toList⟩ := by decide +kernel
theorem page_text2 : indexText2.foldl HtmlReader.step ⟨[], .quoted, []⟩ = ⟨.tag ['"'] :: (pageC ++ [.tag "kbd".toList]), .text, ['/']⟩ := by decide +kernel
theorem page_text3 : indexText3.foldl HtmlReader.step ⟨[], .text, []⟩ = ⟨.text [] :: (pageD ++ [.tag "kbd".toList]), .text, "http://[host]".toList⟩ := by decide +kernel
theorem page_text4 : indexText4.foldl HtmlReader.step ⟨[], .text, []⟩ = ⟨.text [] :: pageE, .text, ['\n']⟩ := by decide +kernel

/-- The tokens of the page. -/
def pageTokens (v : IndexVars) : List HtmlToken :=
  pageA ++ (.tag ("a href=\"".toList ++ hrefText v.metricsPath ++ ['"']) :: pageB) ++ (.tag ("a href=\"".toList ++ hrefText v.outFile ++ ['"']) :: pageC) ++
  [.tag "kbd".toList, .text ('/' :: htmlText v.outFile)] ++ pageD ++ [.tag "kbd".toList, .text ("http://[host]".toList ++ htmlText v.addr ++ htmlText v.metricsPath)] ++ pageE ++ [.text ['\n']]

theorem page_read (v : IndexVars) : readHtml (indexPage v) = some (pageTokens v) := by
  have hpage : indexPage v = indexText0 ++ (hrefText v.metricsPath ++ (indexText1 ++ (hrefText v.outFile ++ (indexText2 ++ (htmlText v.outFile ++ (indexText3 ++ (htmlText v.addr ++ (htmlText v.metricsPath ++ indexText4)))))))) := by
    simp only [indexPage, indexTemplate, List.flatMap_cons, List.flatMap_nil, TplItem.exec, IndexVars.field, List.append_nil]
  unfold readHtml
  rw [hpage]
  simp only [List.foldl_append]
  rw [show ({} : HtmlReader) = ⟨[], .text, []⟩ from rfl, page_text0]
  generalize hk : "kbd".toList = kbd
  generalize hh : "http://[host]".toList = host
  generalize ha : "a href=\"".toList = href
  have t1 := page_text1
  have t2 := page_text2
  have t3 := page_text3
  have t4 := page_text4
  rw [ha] at t1
  rw [hk] at t2 t3
  rw [hh] at t3
  simp only [pageTokens, hk, hh, ha]
  have s1 : ∀ T b s, (hrefText s).foldl HtmlReader.step ⟨T, .quoted, b⟩ = ⟨T, .quoted, b ++ hrefText s⟩ := fun T b s => by rw [html_run, hrefText_run]; rfl
  have s2 : ∀ T b s, (htmlText s).foldl HtmlReader.step ⟨T, .text, b⟩ = ⟨T, .text, b ++ htmlText s⟩ := fun T b s => by rw [html_run, htmlText_run]; rfl
  have s3 : ∀ T b, indexText1.foldl HtmlReader.step ⟨T, .quoted, b⟩ = ⟨T ++ .tag (b ++ ['"']) :: pageB, .quoted, href⟩ := fun T b => by rw [html_run, t1]; rfl
  have s4 : ∀ T b, indexText2.foldl HtmlReader.step ⟨T, .quoted, b⟩ = ⟨T ++ .tag (b ++ ['"']) :: (pageC ++ [.tag kbd]), .text, ['/']⟩ := fun T b => by rw [html_run, t2]; rfl
  have s5 : ∀ T b, indexText3.foldl HtmlReader.step ⟨T, .text, b⟩ = ⟨T ++ .text (b ++ []) :: (pageD ++ [.tag kbd]), .text, host⟩ := fun T b => by rw [html_run, t3]; rfl
  have s6 : ∀ T b, indexText4.foldl HtmlReader.step ⟨T, .text, b⟩ = ⟨T ++ .text (b ++ []) :: pageE, .text, ['\n']⟩ := fun T b => by rw [html_run, t4]; rfl
  simp only [s1, s2, s3, s4, s5, s6, if_true, List.append_nil, List.append_assoc, List.cons_append, List.nil_append]

theorem contents_append (name : Str) (a b : List HtmlToken) (hb : ∀ s l, b ≠ .text s :: l) : contentsOf name (a ++ b) = contentsOf name a ++ contentsOf name b := by
  induction a using contentsOf.induct name with
  | case1 s l ih => simp only [List.cons_append, contentsOf, if_true, ih]
  | case2 n s l h ih => simp only [List.cons_append, contentsOf, if_neg h, ih]
  | case3 x l h ih =>
    have hl : contentsOf name (x :: l) = contentsOf name l := by
      cases x with
      | text s => rfl
      | tag n =>
        cases l with
        | nil => rfl
        | cons y l =>
          cases y with
          | tag _ => rfl
          | text s => exact absurd rfl (h n s l rfl)
    rw [hl, ← ih]
    cases x with
    | text s => rfl
    | tag n =>
      cases l with
      | nil =>
        rw [List.nil_append]
        cases b with
        | nil => rfl
        | cons y b =>
          cases y with
          | text s => exact absurd rfl (hb s b)
          | tag _ => rfl
      | cons y l =>
        cases y with
        | tag _ => rfl
        | text s => exact absurd rfl (h n s l rfl)
  | case4 => rfl

theorem contents_page {name : Str} (hn : name.head? ≠ some 'a') (v : IndexVars) : contentsOf name (pageTokens v) =
    contentsOf name pageA ++ (contentsOf name pageB ++ (contentsOf name pageC ++
      (contentsOf name [.tag "kbd".toList, .text ('/' :: htmlText v.outFile)] ++ (contentsOf name pageD ++
        (contentsOf name [.tag "kbd".toList, .text ("http://[host]".toList ++ htmlText v.addr ++ htmlText v.metricsPath)] ++ contentsOf name (pageE ++ [.text ['\n']])))))) := by
  have tagged : ∀ n, ∀ l ∈ [pageB, pageC], contentsOf name (.tag ("a href=\"".toList ++ (n ++ ['"'])) :: l) = contentsOf name l := by
    intro n l hl
    have hd : ∃ s l', l = .text s :: l' := by
      rcases List.mem_cons.1 hl with rfl | hl
      · exact ⟨_, _, (by decide +kernel : pageB = .text "prometheus metrics".toList :: pageB.tail)⟩
      · rw [List.mem_singleton.1 hl]
        exact ⟨_, _, (by decide +kernel : pageC = .text "diff file".toList :: pageC.tail)⟩
    obtain ⟨s, l', rfl⟩ := hd
    rw [contentsOf, if_neg]
    · cases l' with
      | nil => rfl
      | cons x l' => rfl
    · intro he
      apply hn
      rw [← he, show "a href=\"".toList = 'a' :: " href=\"".toList by decide +kernel]
      rfl
  have hd : ∀ s l, pageD ≠ .text s :: l := fun s l h => by
    have := congrArg List.head? h
    rw [show pageD.head? = some (.tag "/kbd".toList) by decide +kernel] at this
    cases this
  have he : ∀ s l, pageE ≠ .text s :: l := fun s l h => by
    have := congrArg List.head? h
    rw [show pageE.head? = some (.tag "/kbd".toList) by decide +kernel] at this
    cases this
  unfold pageTokens
  simp only [List.append_assoc]
  have he' : ∀ s l, pageE ++ [.text ['\n']] ≠ .text s :: l := by
    intro s l h
    cases hE : pageE with
    | nil => exact absurd hE (by decide +kernel)
    | cons x E =>
      rw [hE, List.cons_append] at h
      injection h with h _
      exact he s E (by rw [hE, h])
  have hd' : ∀ r s l, pageD ++ r ≠ .text s :: l := by
    intro r s l h
    cases hD : pageD with
    | nil => exact absurd hD (by decide +kernel)
    | cons x D =>
      rw [hD, List.cons_append] at h
      injection h with h _
      exact hd s D (by rw [hD, h])
  rw [contents_append name pageA _ (by simp), contents_append name (_ :: pageB) _ (by simp), contents_append name (_ :: pageC) _ (by simp), tagged _ _ (by simp), tagged _ _ (by simp),
    contents_append name [_, _] _ (hd' _), contents_append name pageD _ (by simp), contents_append name [_, _] _ he']

theorem kbd_page (v : IndexVars) : contentsOf "kbd".toList (pageTokens v) = [attrValue 0 ('/' :: htmlText v.outFile), attrValue 0 ("http://[host]".toList ++ htmlText v.addr ++ htmlText v.metricsPath)] := by
  rw [contents_page (by decide +kernel), show contentsOf "kbd".toList pageA = [] by decide +kernel, show contentsOf "kbd".toList pageB = [] by decide +kernel,
    show contentsOf "kbd".toList pageC = [] by decide +kernel, show contentsOf "kbd".toList pageD = [] by decide +kernel, show contentsOf "kbd".toList (pageE ++ [.text ['\n']]) = [] by decide +kernel]
  simp only [contentsOf, if_true, List.nil_append, List.append_nil, List.cons_append]

/-- The text of the first list. -/
def pageKeys : Str := (contentsOf "pre".toList pageD).headD []
/-- The text of the second list. -/
def pageMetrics : Str := (contentsOf "pre".toList pageE).headD []

theorem pre_page (v : IndexVars) : contentsOf "pre".toList (pageTokens v) = [pageKeys, pageMetrics] := by
  rw [contents_page (by decide +kernel), show contentsOf "pre".toList pageA = [] by decide +kernel, show contentsOf "pre".toList pageB = [] by decide +kernel,
    show contentsOf "pre".toList pageC = [] by decide +kernel, show contentsOf "pre".toList pageD = [pageKeys] by decide +kernel, show contentsOf "pre".toList (pageE ++ [.text ['\n']]) = [pageMetrics] by decide +kernel]
  simp only [contentsOf, if_neg (show ¬ "kbd".toList = "pre".toList by decide +kernel), List.nil_append, List.cons_append]

theorem attrValue_lit {a : Str} (h : '&' ∉ a) (l : Str) : attrValue 0 (a ++ l) = a ++ attrValue 0 l := by
  induction a with
  | nil => rfl
  | cons c a ih =>
    have hc : c ≠ '&' := fun he => h (he ▸ List.mem_cons_self)
    have : references.find? (fun e => e.1.isPrefixOf (c :: (a ++ l))) = none := by
      rw [List.find?_eq_none]
      intro e he hp
      have hx : e.1.head? = some '&' := (by decide +kernel : ∀ e ∈ references, e.1.head? = some '&') e he
      cases hn : e.1 with
      | nil => rw [hn] at hx; cases hx
      | cons x r =>
        rw [hn] at hx hp
        simp only [List.head?_cons, Option.some.injEq] at hx
        subst hx
        simp only [List.isPrefixOf, Bool.and_eq_true, beq_iff_eq] at hp
        exact absurd hp.1.symm hc
    rw [List.cons_append, attrValue, this, List.cons_append, ih fun hm => h (List.mem_cons_of_mem _ hm)]

/-! ## C173 -/

/-- The settings as the command line can give them: without NUL. -/
structure Spec.NoNul (v : IndexVars) : Prop where
  metricsPath : Char.ofNat 0 ∉ v.metricsPath
  outFile : Char.ofNat 0 ∉ v.outFile
  addr : Char.ofNat 0 ∉ v.addr

theorem kbd_seen {v : IndexVars} (h : NoNul v) : contentsOf "kbd".toList (pageTokens v) = ['/' :: v.outFile, "http://[host]".toList ++ v.addr ++ v.metricsPath] := by
  rw [kbd_page, htmlText_plain h.outFile, htmlText_plain h.addr, htmlText_plain h.metricsPath]
  have h1 := attrValue_lit (a := ['/']) (by decide) (v.outFile.flatMap attrChar)
  have h2 := attrValue_lit (a := "http://[host]".toList) (by decide +kernel) (v.addr.flatMap attrChar ++ v.metricsPath.flatMap attrChar)
  rw [List.append_assoc, h2, attrValue_flat, attrValue_read, List.append_assoc]
  rw [attrValue_read] at h1
  exact congrArg (· :: _) h1

/-- **C173.** Whatever the settings: a browser sees the tags of the template and no others, with the links of C170, and the name of the difference, the address and the path as they were set. -/
theorem C173_page {v : IndexVars} (h : NoNul v) : ∃ l, readHtml (indexPage v) = some l ∧ tagsOf l = PageTags (indexLinks v.outFile v.metricsPath).1 (indexLinks v.outFile v.metricsPath).2 ∧
    contentsOf "kbd".toList l = ['/' :: v.outFile, "http://[host]".toList ++ v.addr ++ v.metricsPath] := by
  refine ⟨_, page_read v, ?_, kbd_seen h⟩
  have hA : tagsOf pageA = ["!DOCTYPE html", "html lang=\"en\"", "head", "meta charset=\"UTF-8\"", "title", "/title", "/head", "body", "h1", "a href=\"https://github.com/bgp/stayrtr\"", "/a", "/h1", "ul", "li"].map String.toList := by
    decide +kernel
  have hB : tagsOf pageB = ["/a", "/li", "li"].map String.toList := by decide +kernel
  have hC : tagsOf pageC ++ ("kbd".toList :: (tagsOf pageD ++ "kbd".toList :: tagsOf pageE)) =
      ["/a", "/li", "/ul", "h2", "/h2", "h3", "/h3", "kbd", "/kbd", "pre", "/pre", "h3", "/h3", "kbd", "/kbd", "pre", "/pre", "/body", "/html"].map String.toList := by decide +kernel
  unfold PageTags indexLinks
  rw [← hA, ← hB, ← hC]
  simp only [pageTokens, tagsOf, List.filterMap_append, List.filterMap_cons, List.filterMap_nil, List.append_assoc, List.cons_append, List.nil_append, List.append_nil]

/-- **C173.** The page lists the names of the difference: a body that is served has the names of the first list, in this order, and no others. -/
theorem C173_keys (v : IndexVars) {s : MonSys} {b : Bytes} (h : ServesDiff s b) :
    ∃ l text t o, readHtml (indexPage v) = some l ∧ (contentsOf "pre".toList l)[0]? = some text ∧ IsJsonFile b t o ∧ o.map (·.1) = described text := by
  obtain ⟨d1, d2, h1, h2, rfl⟩ := h
  refine ⟨_, pageKeys, _, _, page_read v, by rw [pre_page]; rfl, ⟨_, print_text _ _ (encDiff_printable _ _ d1 d2), rfl, utf8_str _, encDiff_noRepeats _ _ d1 d2⟩, ?_⟩
  rw [show described pageKeys = ["metadata-primary".toList, "metadata-secondary".toList, "only-primary".toList, "only-secondary".toList] by decide +kernel]
  simp only [List.map_cons, List.map_nil]

/-- **C173.** The metrics of the second list are all registered; and but for the number of records in the grace period these are all that there are. -/
theorem C173_metrics (v : IndexVars) :
    ∃ l text, readHtml (indexPage v) = some l ∧ (contentsOf "pre".toList l)[1]? = some text ∧
      ∀ n, n ∈ rtrmonMetrics.map MetricDesc.name ↔ n ∈ described text ∨ n = "rpki_grace_period_vrps".toList := by
  refine ⟨_, pageMetrics, page_read v, by rw [pre_page]; rfl, fun n => ?_⟩
  have h1 : ∀ n ∈ rtrmonMetrics.map MetricDesc.name, n ∈ described pageMetrics ∨ n = "rpki_grace_period_vrps".toList := by decide +kernel
  have h2 : ∀ n ∈ described pageMetrics, n ∈ rtrmonMetrics.map MetricDesc.name := by decide +kernel
  have h3 : "rpki_grace_period_vrps".toList ∈ rtrmonMetrics.map MetricDesc.name := by decide +kernel
  refine ⟨h1 n, ?_⟩
  rintro (h | rfl)
  · exact h2 n h
  · exact h3

/-- An instruction that begins `http://[host]`. -/
theorem withHost_page (host rest : Str) : withHost host ("http://[host]".toList ++ rest) = "http://".toList ++ host ++ rest := by
  rw [show "http://[host]".toList = ['h', 't', 't', 'p', ':', '/', '/', '[', 'h', 'o', 's', 't', ']'] by decide +kernel, show "http://".toList = ['h', 't', 't', 'p', ':', '/', '/'] by decide +kernel]
  have hb : "[host]".toList = ['[', 'h', 'o', 's', 't', ']'] := by decide +kernel
  simp [withHost, hb, List.isPrefixOf]

/-- **C173.** If the program listens on a port of all addresses, the URL on the page is that of the metrics, with any name of the machine. Missing: addresses with a host, see `C173_address_false`. -/
theorem C173_address_partial {v : IndexVars} (h : NoNul v) {port : Str} (hp : v.addr = ':' :: port) (hc : ':' ∉ port) :
    ∃ l text, readHtml (indexPage v) = some l ∧ (contentsOf "kbd".toList l)[1]? = some text ∧ ∀ host, MetricsUrl v.addr v.metricsPath host (withHost host text) := by
  refine ⟨_, _, page_read v, by rw [kbd_seen h]; rfl, fun host => ⟨[], port, hp, hc, ?_⟩⟩
  rw [List.append_assoc, withHost_page, if_pos rfl, hp]
  simp

/-- **C173, false.** If the program listens on one address, there is no name to be put in the place of `[host]` that makes the URL of the metrics of it: the address stands there already. -/
theorem C173_address_false : ∃ v : IndexVars, NoNul v ∧ v.addr = "127.0.0.1:9866".toList ∧ ∃ l text, readHtml (indexPage v) = some l ∧ (contentsOf "kbd".toList l)[1]? = some text ∧
    ∀ host, host ≠ [] → ¬ MetricsUrl v.addr v.metricsPath host (withHost host text) := by
  let v : IndexVars := ⟨"/metrics".toList, "diff.json".toList, "127.0.0.1:9866".toList⟩
  have hv : NoNul v := ⟨by decide +kernel, by decide +kernel, by decide +kernel⟩
  refine ⟨v, hv, rfl, _, _, page_read v, by rw [kbd_seen hv]; rfl, ?_⟩
  rintro host hne ⟨h, port, h1, h2, h3⟩
  rw [List.append_assoc, withHost_page] at h3
  have hh : h ≠ [] := by
    rintro rfl
    have := congrArg List.head? h1
    rw [show v.addr.head? = some '1' by decide +kernel] at this
    exact absurd this (by simp)
  rw [if_neg hh] at h3
  have := congrArg List.length h3
  have h1' := congrArg List.length h1
  simp only [List.length_append, List.length_cons] at this h1'
  have : host.length = 0 := by omega
  exact hne (List.length_eq_zero_iff.1 this)

/-- The default settings. -/
def exVars : IndexVars := ⟨"/metrics".toList, "diff.json".toList, ":9866".toList⟩

/-- The settings of `C173_page` and `C173_address_partial`: the defaults; and settings with markup in them, which are shown and not obeyed. -/
example : NoNul exVars ∧ exVars.addr = ':' :: "9866".toList ∧ ':' ∉ "9866".toList ∧
    NoNul ⟨"/<script>".toList, "\"><b>&lt;".toList, "'".toList⟩ ∧
    (readHtml (indexPage ⟨"/<script>".toList, "\"><b>&lt;".toList, "'".toList⟩)).map (contentsOf "kbd".toList) = some ["/\"><b>&lt;".toList, "http://[host]'/<script>".toList] :=
  ⟨⟨by decide +kernel, by decide +kernel, by decide +kernel⟩, by decide +kernel, by decide +kernel, ⟨by decide +kernel, by decide +kernel, by decide +kernel⟩, by decide +kernel⟩

/-- `C173_keys`: a page before the first comparison. -/
example : ServesDiff (MonSys.start exPath) (encodeFile (encDiff none none [] [])) := ⟨[], [], .refl _, .refl _, rfl⟩

end StayRTR
