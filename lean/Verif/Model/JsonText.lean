import Verif.Model.Go

/-!
# JSON texts

The scanner of encoding/json (Go 1.23: scanner.go, stream.go) behind `json.NewDecoder(buf).Decode` in cmd/stayrtr/stayrtr.go:184-191, cmd/rtrmon/rtrmon.go:200-207 and prefixfile/slurm.go:82-91, as a
machine over characters that builds the value on its stack; UTF-8 as Go reads and writes it; and the texts that `json.NewEncoder(wr).Encode` writes (cmd/stayrtr/stayrtr.go:635-636, cmd/rtrdump/rtrdump.go:243-244).
Go scans first and builds values in a second pass over the same text, which cannot fail.
-/

namespace StayRTR

/-- A JSON value as `Decode` sees it (cmd/stayrtr/stayrtr.go:189): numbers are kept as written, members in the order of the text, repeated names included. -/
inductive Json where
  | null
  | bool (b : Bool)
  | num (lit : Str)
  | str (s : Str)
  | arr (l : List Json)
  | obj (l : List (Str × Json))
  deriving Repr

/-- A character from its code, which is one of a character in every use (cmd/stayrtr/stayrtr.go:186). -/
def runeOf (n : Nat) : Char := Char.ofNat n

/-- `utf8.RuneError`, U+FFFD (cmd/stayrtr/stayrtr.go:186). -/
def runeError : Char := '\uFFFD'

/-- A continuation byte: its six bits (cmd/stayrtr/stayrtr.go:186). -/
def contBits (lo hi : Nat) (b : U8) : Option Nat := if lo ≤ b.toNat ∧ b.toNat ≤ hi then some (b.toNat % 64) else none

/-- `utf8.DecodeRune` (cmd/stayrtr/stayrtr.go:186): the character and the number of bytes read beyond the first; an invalid byte is U+FFFD and one byte long. The bounds on the second byte are those of `acceptRanges`. -/
def decodeRune (b0 : U8) (rest : Bytes) : Char × Nat :=
  let n := b0.toNat
  if n < 0x80 then (runeOf n, 0)
  else if 0xC2 ≤ n ∧ n ≤ 0xDF then
    match rest with
    | b1 :: _ => match contBits 0x80 0xBF b1 with
      | some x => (runeOf ((n - 0xC0) * 64 + x), 1)
      | none => (runeError, 0)
    | [] => (runeError, 0)
  else if 0xE0 ≤ n ∧ n ≤ 0xEF then
    match rest with
    | b1 :: b2 :: _ => match contBits (if n = 0xE0 then 0xA0 else 0x80) (if n = 0xED then 0x9F else 0xBF) b1, contBits 0x80 0xBF b2 with
      | some x, some y => (runeOf (((n - 0xE0) * 64 + x) * 64 + y), 2)
      | _, _ => (runeError, 0)
    | _ => (runeError, 0)
  else if 0xF0 ≤ n ∧ n ≤ 0xF4 then
    match rest with
    | b1 :: b2 :: b3 :: _ => match contBits (if n = 0xF0 then 0x90 else 0x80) (if n = 0xF4 then 0x8F else 0xBF) b1, contBits 0x80 0xBF b2, contBits 0x80 0xBF b3 with
      | some x, some y, some z => (runeOf ((((n - 0xF0) * 64 + x) * 64 + y) * 64 + z), 3)
      | _, _, _ => (runeError, 0)
    | _ => (runeError, 0)
  else (runeError, 0)

/-- The characters of a byte string, as `unquote` of encoding/json reads them inside strings (cmd/stayrtr/stayrtr.go:186); outside strings a byte above 127 is an error, and so is every character above 127 below. `skip` counts the
bytes that belong to the character before. -/
def goRunes : Nat → Bytes → Str
  | _, [] => []
  | skip + 1, _ :: l => goRunes skip l
  | 0, b :: l => (decodeRune b l).1 :: goRunes (decodeRune b l).2 l

/-- `utf8.AppendRune` (cmd/stayrtr/stayrtr.go:636). -/
def utf8Bytes (c : Char) : Bytes :=
  let n := c.toNat
  if n < 0x80 then [BitVec.ofNat 8 n]
  else if n < 0x800 then [BitVec.ofNat 8 (0xC0 + n / 64), BitVec.ofNat 8 (0x80 + n % 64)]
  else if n < 0x10000 then [BitVec.ofNat 8 (0xE0 + n / 4096), BitVec.ofNat 8 (0x80 + n / 64 % 64), BitVec.ofNat 8 (0x80 + n % 64)]
  else [BitVec.ofNat 8 (0xF0 + n / 262144), BitVec.ofNat 8 (0x80 + n / 4096 % 64), BitVec.ofNat 8 (0x80 + n / 64 % 64), BitVec.ofNat 8 (0x80 + n % 64)]

/-- A string as bytes (cmd/stayrtr/stayrtr.go:636). -/
def utf8Str (s : Str) : Bytes := s.flatMap utf8Bytes

/-- `isSpace` of encoding/json (cmd/stayrtr/stayrtr.go:189). -/
def jsonSpace (c : Char) : Bool := c == ' ' || c == '\t' || c == '\r' || c == '\n'

/-- A decimal digit (cmd/stayrtr/stayrtr.go:189). -/
def jsonDigit (c : Char) : Bool := '0'.toNat ≤ c.toNat && c.toNat ≤ '9'.toNat

/-- The value of a hexadecimal digit, `stateInStringEscU` and `getu4` of encoding/json (cmd/stayrtr/stayrtr.go:189). -/
def jsonHex (c : Char) : Option Nat :=
  if '0'.toNat ≤ c.toNat ∧ c.toNat ≤ '9'.toNat then some (c.toNat - '0'.toNat)
  else if 'a'.toNat ≤ c.toNat ∧ c.toNat ≤ 'f'.toNat then some (c.toNat - 'a'.toNat + 10)
  else if 'A'.toNat ≤ c.toNat ∧ c.toNat ≤ 'F'.toNat then some (c.toNat - 'A'.toNat + 10)
  else none

/-- `getu4` on four digits (cmd/stayrtr/stayrtr.go:189). -/
def jsonU4 (a b c d : Char) : Nat := (((jsonHex a).getD 0 * 16 + (jsonHex b).getD 0) * 16 + (jsonHex c).getD 0) * 16 + (jsonHex d).getD 0

/-- The one-letter escapes, `stateInStringEsc` and `unquote` of encoding/json (cmd/stayrtr/stayrtr.go:189). -/
def jsonEscape (c : Char) : Option Char :=
  if c = '"' then some '"' else if c = '\\' then some '\\' else if c = '/' then some '/' else if c = 'b' then some '\x08' else if c = 'f' then some '\x0c'
  else if c = 'n' then some '\n' else if c = 'r' then some '\r' else if c = 't' then some '\t' else none

/-- `utf16.IsSurrogate` (cmd/stayrtr/stayrtr.go:189). -/
def isSurrogate (n : Nat) : Bool := 0xD800 ≤ n && n < 0xE000

/-- `utf16.DecodeRune` (cmd/stayrtr/stayrtr.go:189): the character of a surrogate pair. -/
def surrogatePair (hi lo : Nat) : Option Char :=
  if 0xD800 ≤ hi ∧ hi < 0xDC00 ∧ 0xDC00 ≤ lo ∧ lo < 0xE000 then some (runeOf ((hi - 0xD800) * 1024 + (lo - 0xDC00) + 0x10000)) else none

/-- The `\uXXXX` after an escape, as `getu4` looks for it (cmd/stayrtr/stayrtr.go:189). -/
def nextU4 : Str → Option Nat
  | '\\' :: 'u' :: a :: b :: c :: d :: _ => some (jsonU4 a b c d)
  | _ => none

/-- `unquote` of encoding/json on a text the scanner has accepted (cmd/stayrtr/stayrtr.go:189): `skip` counts the characters of a second `\uXXXX` already used. An unpaired surrogate becomes U+FFFD. -/
def jsonUnquote : Nat → Str → Str
  | _, [] => []
  | skip + 1, _ :: l => jsonUnquote skip l
  | 0, '\\' :: 'u' :: a :: b :: c :: d :: l =>
    let n := jsonU4 a b c d
    if isSurrogate n then
      match nextU4 l with
      | some m => match surrogatePair n m with
        | some r => r :: jsonUnquote 6 l
        | none => runeError :: jsonUnquote 0 l
      | none => runeError :: jsonUnquote 0 l
    else runeOf n :: jsonUnquote 0 l
  | 0, '\\' :: c :: l => (jsonEscape c).getD runeError :: jsonUnquote 0 l
  | 0, c :: l => c :: jsonUnquote 0 l

/-- The states inside a number: `stateNeg`, `state0`, `state1`, `stateDot`, `stateDot0`, `stateE`, `stateESign`, `stateE0` of encoding/json (cmd/stayrtr/stayrtr.go:189). -/
inductive NumState where
  | neg | zero | int | dot | frac | e | esign | exp
  deriving DecidableEq, Repr

/-- The next state, if the character continues the number (cmd/stayrtr/stayrtr.go:189). -/
def NumState.next (s : NumState) (c : Char) : Option NumState :=
  match s with
  | .neg => if c = '0' then some .zero else if jsonDigit c then some .int else none
  | .zero => if c = '.' then some .dot else if c = 'e' ∨ c = 'E' then some .e else none
  | .int => if jsonDigit c then some .int else if c = '.' then some .dot else if c = 'e' ∨ c = 'E' then some .e else none
  | .dot => if jsonDigit c then some .frac else none
  | .frac => if jsonDigit c then some .frac else if c = 'e' ∨ c = 'E' then some .e else none
  | .e => if c = '+' ∨ c = '-' then some .esign else if jsonDigit c then some .exp else none
  | .esign => if jsonDigit c then some .exp else none
  | .exp => if jsonDigit c then some .exp else none

/-- Whether the number may end here (cmd/stayrtr/stayrtr.go:189). -/
def NumState.ends : NumState → Bool
  | .zero => true
  | .int => true
  | .frac => true
  | .exp => true
  | _ => false

/-- `parseState` of encoding/json: what the scanner is inside of, with what it has read of it: `parseArrayValue`, `parseObjectKey`, `parseObjectValue` (cmd/stayrtr/stayrtr.go:189). -/
inductive JFrame where
  | arr (done : List Json)
  | key (done : List (Str × Json))
  | val (done : List (Str × Json)) (key : Str)

/-- `step` of encoding/json (cmd/stayrtr/stayrtr.go:189). -/
inductive JLex where
  | beginValue
  | beginValueOrEmpty
  | beginString
  | beginStringOrEmpty
  | inStr (raw : Str)
  | inEsc (raw : Str)
  | inEscU (n : Nat) (raw : Str)
  | num (s : NumState) (raw : Str)
  | lit (rest : Str) (v : Json)
  | endValue (v : Json)
  | done (v : Json)
  | bad

/-- `scanner` of encoding/json (cmd/stayrtr/stayrtr.go:189). -/
structure JScan where
  stack : List JFrame
  lex : JLex

namespace JScan

/-- `maxNestingDepth` of encoding/json (cmd/stayrtr/stayrtr.go:189). -/
def maxDepth : Nat := 10000

/-- The state before the first character (cmd/stayrtr/stayrtr.go:189). -/
def start : JScan := ⟨[], .beginValue⟩

/-- `error` of the scanner (cmd/stayrtr/stayrtr.go:189). -/
def fail : JScan := ⟨[], .bad⟩

/-- `pushParseState` (cmd/stayrtr/stayrtr.go:189). -/
def push (stack : List JFrame) (f : JFrame) (l : JLex) : JScan := if stack.length + 1 ≤ maxDepth then ⟨f :: stack, l⟩ else fail

/-- `popParseState`: an array or object at the top level ends the scan at once (cmd/stayrtr/stayrtr.go:189). -/
def close (stack : List JFrame) (v : Json) : JScan :=
  match stack with
  | [] => ⟨[], .done v⟩
  | f :: fs => ⟨f :: fs, .endValue v⟩

/-- `stateEndValue` (cmd/stayrtr/stayrtr.go:189): at the top level any character ends the scan, and is not read. -/
def endValue (stack : List JFrame) (v : Json) (c : Char) : JScan :=
  match stack with
  | [] => ⟨[], .done v⟩
  | f :: fs =>
    if jsonSpace c then ⟨f :: fs, .endValue v⟩
    else match f with
      | .key d => match v with
        | .str k => if c = ':' then ⟨.val d k :: fs, .beginValue⟩ else fail
        | _ => fail
      | .val d k => if c = ',' then ⟨.key (d ++ [(k, v)]) :: fs, .beginString⟩ else if c = '}' then close fs (.obj (d ++ [(k, v)])) else fail
      | .arr d => if c = ',' then ⟨.arr (d ++ [v]) :: fs, .beginValue⟩ else if c = ']' then close fs (.arr (d ++ [v])) else fail

/-- `stateBeginValue` (cmd/stayrtr/stayrtr.go:189). -/
def beginValue (stack : List JFrame) (c : Char) : JScan :=
  if jsonSpace c then ⟨stack, .beginValue⟩
  else if c = '{' then push stack (.key []) .beginStringOrEmpty
  else if c = '[' then push stack (.arr []) .beginValueOrEmpty
  else if c = '"' then ⟨stack, .inStr []⟩
  else if c = '-' then ⟨stack, .num .neg [c]⟩
  else if c = '0' then ⟨stack, .num .zero [c]⟩
  else if jsonDigit c then ⟨stack, .num .int [c]⟩
  else if c = 't' then ⟨stack, .lit ['r', 'u', 'e'] (.bool true)⟩
  else if c = 'f' then ⟨stack, .lit ['a', 'l', 's', 'e'] (.bool false)⟩
  else if c = 'n' then ⟨stack, .lit ['u', 'l', 'l'] .null⟩
  else fail

/-- `stateBeginString` (cmd/stayrtr/stayrtr.go:189). -/
def beginString (stack : List JFrame) (c : Char) : JScan :=
  if jsonSpace c then ⟨stack, .beginString⟩ else if c = '"' then ⟨stack, .inStr []⟩ else fail

/-- One character (cmd/stayrtr/stayrtr.go:189). -/
def step (s : JScan) (c : Char) : JScan :=
  match s.lex with
  | .beginValue => beginValue s.stack c
  | .beginValueOrEmpty =>
    if jsonSpace c then s
    else if c = ']' then
      match s.stack with
      | .arr _ :: fs => close fs (.arr [])
      | _ => fail
    else beginValue s.stack c
  | .beginStringOrEmpty =>
    if jsonSpace c then s
    else if c = '}' then
      match s.stack with
      | .key _ :: fs => close fs (.obj [])
      | _ => fail
    else beginString s.stack c
  | .beginString => beginString s.stack c
  | .inStr raw =>
    if c = '"' then ⟨s.stack, .endValue (.str (jsonUnquote 0 raw))⟩
    else if c = '\\' then ⟨s.stack, .inEsc raw⟩
    else if c.toNat < 0x20 then fail
    else ⟨s.stack, .inStr (raw ++ [c])⟩
  | .inEsc raw =>
    if c = 'u' then ⟨s.stack, .inEscU 0 (raw ++ ['\\', c])⟩
    else if (jsonEscape c).isSome then ⟨s.stack, .inStr (raw ++ ['\\', c])⟩
    else fail
  | .inEscU n raw =>
    if (jsonHex c).isSome then (if n = 3 then ⟨s.stack, .inStr (raw ++ [c])⟩ else ⟨s.stack, .inEscU (n + 1) (raw ++ [c])⟩)
    else fail
  | .num st raw =>
    match st.next c with
    | some st' => ⟨s.stack, .num st' (raw ++ [c])⟩
    | none => if st.ends then endValue s.stack (.num raw) c else fail
  | .lit rest v =>
    match rest with
    | [] => fail
    | [x] => if c = x then ⟨s.stack, .endValue v⟩ else fail
    | x :: y :: r => if c = x then ⟨s.stack, .lit (y :: r) v⟩ else fail
  | .endValue v => endValue s.stack v c
  | .done _ => s
  | .bad => s

/-- `Decoder.readValue` (cmd/stayrtr/stayrtr.go:189): up to the end of the first value, whatever follows; at the end of the input a space is tried. -/
def run : JScan → Str → Option Json
  | s, [] =>
    match (s.step ' ').lex with
    | .done v => some v
    | _ => none
  | s, c :: l =>
    match (s.step c).lex with
    | .done v => some v
    | .bad => none
    | _ => run (s.step c) l

end JScan

/-- The first JSON value of a text (cmd/stayrtr/stayrtr.go:189). -/
def readJson (s : Str) : Option Json := JScan.run JScan.start s

/-- One character of a string as `appendString` of encoding/json writes it, with HTML escaping, which is on by default (cmd/stayrtr/stayrtr.go:635-636). -/
def quoteChar (c : Char) : Str :=
  let hex (n : Nat) : Char := Nat.digitChar n
  if c = '"' then ['\\', '"'] else if c = '\\' then ['\\', '\\']
  else if c = '\x08' then ['\\', 'b'] else if c = '\x0c' then ['\\', 'f'] else if c = '\n' then ['\\', 'n'] else if c = '\r' then ['\\', 'r'] else if c = '\t' then ['\\', 't']
  else if c.toNat < 0x20 ∨ c = '<' ∨ c = '>' ∨ c = '&' then ['\\', 'u', '0', '0', hex (c.toNat / 16), hex (c.toNat % 16)]
  else if c = '\u2028' ∨ c = '\u2029' then ['\\', 'u', '2', '0', '2', hex (c.toNat % 16)]
  else [c]

/-- A string (cmd/stayrtr/stayrtr.go:636). -/
def quoteStr (s : Str) : Str := '"' :: s.flatMap quoteChar ++ ['"']

mutual

/-- The text of a value, without spaces (cmd/stayrtr/stayrtr.go:636). -/
def printJson : Json → Str
  | .null => ['n', 'u', 'l', 'l']
  | .bool true => ['t', 'r', 'u', 'e']
  | .bool false => ['f', 'a', 'l', 's', 'e']
  | .num lit => lit
  | .str s => quoteStr s
  | .arr l => '[' :: printElems l ++ [']']
  | .obj l => '{' :: printMembers l ++ ['}']

/-- The elements of an array (cmd/stayrtr/stayrtr.go:636). -/
def printElems : List Json → Str
  | [] => []
  | [v] => printJson v
  | v :: w :: l => printJson v ++ ',' :: printElems (w :: l)

/-- The members of an object (cmd/stayrtr/stayrtr.go:636). -/
def printMembers : List (Str × Json) → Str
  | [] => []
  | [(k, v)] => quoteStr k ++ ':' :: printJson v
  | (k, v) :: m :: l => quoteStr k ++ ':' :: (printJson v ++ ',' :: printMembers (m :: l))

end

end StayRTR
