import Verif.Model.Startup
import Verif.Model.JsonText

/-!
# The index page of rtrmon

`ServeIndex` (cmd/rtrmon/rtrmon.go:1024-1033) with its template (cmd/rtrmon/rtrmon.go:1027, cmd/rtrmon/index.html.tmpl:10-11): the two links, as html/template writes a text into `href="{{ … }}"`. The rest of the page is fixed text.
-/

namespace StayRTR

/-- `isSafeURL` of html/template (cmd/rtrmon/rtrmon.go:1027, cmd/rtrmon/index.html.tmpl:10): no protocol other than these. -/
def isSafeURL (s : Str) : Bool :=
  let protocol := s.takeWhile (· ≠ ':')
  !(s.contains ':' && !protocol.contains '/') || protocol.map Char.toLower == "http".toList || protocol.map Char.toLower == "https".toList || protocol.map Char.toLower == "mailto".toList

/-- `urlFilter` of html/template (cmd/rtrmon/rtrmon.go:1027, cmd/rtrmon/index.html.tmpl:10). -/
def urlFilter (s : Str) : Str := if isSafeURL s then s else "#ZgotmplZ".toList

/-- A digit of an escape, `%02x` in `processURLOnto` of html/template (cmd/rtrmon/rtrmon.go:1027, cmd/rtrmon/index.html.tmpl:10). -/
def escapeDigit (n : Nat) : Char := if n < 10 then Char.ofNat ('0'.toNat + n) else Char.ofNat ('a'.toNat + (n - 10))

/-- The bytes that `processURLOnto` of html/template copies: the reserved ones but quotes and parentheses, and the unreserved ones (cmd/rtrmon/rtrmon.go:1027, cmd/rtrmon/index.html.tmpl:10). -/
def urlKeeps (b : U8) : Bool :=
  "!#$&*+,/:;=?@[]-._~".toList.contains (Char.ofNat b.toNat) || (0x30 ≤ b.toNat && b.toNat ≤ 0x39) || (0x41 ≤ b.toNat && b.toNat ≤ 0x5a) || (0x61 ≤ b.toNat && b.toNat ≤ 0x7a)

/-- One byte in a URL, `processURLOnto` of html/template (cmd/rtrmon/rtrmon.go:1027, cmd/rtrmon/index.html.tmpl:10). -/
def urlByte (b : U8) : Str := if urlKeeps b then [Char.ofNat b.toNat] else ['%', escapeDigit (b.toNat / 16), escapeDigit (b.toNat % 16)]

/-- `isHex` of html/template (cmd/rtrmon/rtrmon.go:1027, cmd/rtrmon/index.html.tmpl:10). -/
def isHexByte (b : U8) : Bool := (0x30 ≤ b.toNat && b.toNat ≤ 0x39) || (0x41 ≤ b.toNat && b.toNat ≤ 0x46) || (0x61 ≤ b.toNat && b.toNat ≤ 0x66)

/-- `urlNormalizer` of html/template (cmd/rtrmon/rtrmon.go:1027, cmd/rtrmon/index.html.tmpl:10): escapes that are there already are kept. -/
def urlNormalize : Bytes → Str
  | [] => []
  | b :: l => (if b = 0x25 ∧ 2 ≤ l.length ∧ (l.take 2).all isHexByte then ['%'] else urlByte b) ++ urlNormalize l

/-- `attrEscaper` of html/template on one character (cmd/rtrmon/rtrmon.go:1027, cmd/rtrmon/index.html.tmpl:10). -/
def attrChar (c : Char) : Str :=
  if c = '"' then "&#34;".toList else if c = '&' then "&amp;".toList else if c = '\'' then "&#39;".toList else if c = '+' then "&#43;".toList else if c = '<' then "&lt;".toList
  else if c = '>' then "&gt;".toList else [c]

/-- What stands in `href="…"` for a text of the template (cmd/rtrmon/rtrmon.go:1027, cmd/rtrmon/index.html.tmpl:10-11). -/
def hrefText (s : Str) : Str := (urlNormalize (utf8Str (urlFilter s))).flatMap attrChar

/-- The two links of the page to the program itself, cmd/rtrmon/index.html.tmpl:10-11, cmd/rtrmon/rtrmon.go:1027: the metrics and the difference. -/
def indexLinks (outFile metricsPath : Str) : Str × Str := (hrefText metricsPath, hrefText outFile)

end StayRTR
