import Verif.Model.Index

/-!
# The page of rtrmon

The whole template of `ServeIndex` (cmd/rtrmon/rtrmon.go:1024-1033, cmd/rtrmon/index.html.tmpl:1-37) with the escapers that html/template chooses by the place of a field. That the template is well-formed, so that `Parse` and `Execute`
give no error but those of the connection, is read off the text; after an error of the connection nothing more is received. Settings are texts: bytes that are not UTF-8 are copied and are left out here.
-/

namespace StayRTR

/-- `IndexTemplateVars`, cmd/rtrmon/rtrmon.go:1018-1022. -/
structure IndexVars where
  metricsPath : Str
  outFile : Str
  addr : Str
  deriving DecidableEq, Repr

/-- The fields that the template names (cmd/rtrmon/rtrmon.go:1018-1022). -/
inductive IndexField where
  | metricsPath
  | outFile
  | addr
  deriving DecidableEq, Repr

/-- The value of a field, cmd/rtrmon/rtrmon.go:1027. -/
def IndexVars.field (v : IndexVars) : IndexField → Str
  | .metricsPath => v.metricsPath
  | .outFile => v.outFile
  | .addr => v.addr

/-- `htmlReplacer` with `htmlReplacementTable` of html/template on one character, between tags (cmd/rtrmon/rtrmon.go:1027, cmd/rtrmon/index.html.tmpl:16): as in attributes, and NUL is replaced. -/
def htmlChar (c : Char) : Str := if c = Char.ofNat 0 then [Char.ofNat 0xfffd] else attrChar c

/-- `htmlEscaper` of html/template (cmd/rtrmon/rtrmon.go:1027, cmd/rtrmon/index.html.tmpl:16). -/
def htmlText (s : Str) : Str := s.flatMap htmlChar

/-- A piece of the template (cmd/rtrmon/rtrmon.go:1025): a text, a field in `href="…"`, a field between tags. -/
inductive TplItem where
  | text (s : Str)
  | attr (f : IndexField)
  | html (f : IndexField)
  deriving DecidableEq, Repr

/-- `Execute` on one piece, cmd/rtrmon/rtrmon.go:1027. -/
def TplItem.exec (v : IndexVars) : TplItem → Str
  | .text s => s
  | .attr f => hrefText (v.field f)
  | .html f => htmlText (v.field f)

/-- cmd/rtrmon/index.html.tmpl:1-10, written at cmd/rtrmon/rtrmon.go:1027. -/
def indexText0 : Str := ["<!DOCTYPE html>\n<html lang=\"en\">\n<head>\n", "    <meta charset=\"UTF-8\">\n    <title>rt", "rmon</title>\n</head>\n<body>\n    <h1><a h", "ref=\"https://github.com/bgp/stayrtr\">rtr", "mon</a></h1>\n    <ul>\n        <li><a hre", "f=\""].flatMap String.toList

/-- cmd/rtrmon/index.html.tmpl:10-11, written at cmd/rtrmon/rtrmon.go:1027. -/
def indexText1 : Str := ["\">prometheus metrics</a></li>\n        <l", "i><a href=\""].flatMap String.toList

/-- cmd/rtrmon/index.html.tmpl:11-16, written at cmd/rtrmon/rtrmon.go:1027. -/
def indexText2 : Str := ["\">diff file</a></li>\n    </ul>\n\n    <h2>", "usage</h2>\n    <h3>diff:</h3>\n    The <k", "bd>/"].flatMap String.toList

/-- cmd/rtrmon/index.html.tmpl:16-26, written at cmd/rtrmon/rtrmon.go:1027. -/
def indexText3 : Str := ["</kbd> endpoint contains four keys:\n\n   ", " <pre>\n    metadata-primary: configurati", "on of the primary source\n    metadata-se", "condary: configuration of the secondary ", "source\n    only-primary: objects in the ", "primary source but not in the secondary ", "source.\n    only-secondary: objects in t", "he secondary source but not in the prima", "ry source.\n    </pre>\n\n    <h3>metrics:<", "/h3>\n    By default the Prometheus endpo", "int is on <kbd>http://[host]"].flatMap String.toList

/-- cmd/rtrmon/index.html.tmpl:26-37, written at cmd/rtrmon/rtrmon.go:1027. -/
def indexText4 : Str := ["</kbd>. Among others, this endpoint cont", "ains the following metrics:\n\n    <pre>\n ", "   rpki_vrps: Current number of VRPS and", " current difference between the primary ", "and secondary.\n    rtr_serial: Serial of", " the rtr session (when applicable).\n    ", "rtr_session: Session ID of the RTR sessi", "on.\n    rtr_state: State of the rtr sess", "ion (up/down).\n    update: Timestamp of ", "the last update.\n    vrp_diff: The numbe", "r of VRPs which were seen in lhs at leas", "t visibility_seconds ago not in rhs.\n   ", " </pre>\n</body>\n</html>\n"].flatMap String.toList

/-- The template, cmd/rtrmon/index.html.tmpl:1-37, parsed at cmd/rtrmon/rtrmon.go:1025. -/
def indexTemplate : List TplItem :=
  [.text indexText0, .attr .metricsPath, .text indexText1, .attr .outFile, .text indexText2, .html .outFile, .text indexText3, .html .addr, .html .metricsPath, .text indexText4]

/-- `ServeIndex`, cmd/rtrmon/rtrmon.go:1024-1033: what is written. -/
def indexPage (v : IndexVars) : Str := indexTemplate.flatMap (TplItem.exec v)

end StayRTR
