import Verif.Model.JsonText
import Verif.Model.Client
import Verif.Model.Flags

/-!
# What is logged about received PDUs

`String` of the PDUs and of a client (lib/structs.go, lib/server.go:684-686), the messages that contain them, and the default formatter of logrus 1.9.3, which the three programs use as it is (no formatter is set;
cmd/stayrtr/stayrtr.go:748-749). The formatter is written down from knowledge of the packages logrus, fmt and strconv. Messages are byte strings, as the text of an Error Report can be anything.
-/

namespace StayRTR

/-- A text of ASCII as bytes (lib/structs.go:122). -/
def asciiBytes (s : Str) : Bytes := s.map fun c => BitVec.ofNat 8 c.toNat

/-- `String` of a prefix PDU, lib/structs.go:262-264, 305-307. -/
def prefixText (v flags : U8) (p : Prefix) (maxLen : U8) (asn : U32) : Str :=
  'v' :: (decStr v.toNat ++ ' ' :: (p.toStr ++ '(' :: ("->/".toList ++ decStr maxLen.toNat ++ ')' :: (", origin: AS".toList ++ decStr asn.toNat ++ ',' :: (" flags: ".toList ++ decStr flags.toNat)))))

/-- `String` of the PDUs without the text of an Error Report: lib/structs.go:121-123, 157-159, 191-193, 225-227, 262-264, 305-307, 350-353, 394-396, 431-433, 475-477. -/
def Pdu.head : Pdu → Str
  | .serialNotify v s n => "PDU Serial Notify v".toList ++ decStr v.toNat ++ ' ' :: ("(session: ".toList ++ decStr s.toNat ++ ')' :: (": serial: ".toList ++ decStr n.toNat))
  | .serialQuery v s n => "PDU Serial Query v".toList ++ decStr v.toNat ++ ' ' :: ("(session: ".toList ++ decStr s.toNat ++ ')' :: (": serial: ".toList ++ decStr n.toNat))
  | .resetQuery v => "PDU Reset Query v".toList ++ decStr v.toNat
  | .cacheResponse v s => "PDU Cache Response v".toList ++ decStr v.toNat ++ ' ' :: ("(session: ".toList ++ decStr s.toNat ++ ')' :: [])
  | .ipv4Prefix v f p m a => "PDU IPv4 Prefix ".toList ++ prefixText v f p m a
  | .ipv6Prefix v f p m a => "PDU IPv6 Prefix ".toList ++ prefixText v f p m a
  | .endOfData v s n refresh retry expire => "PDU End of Data v".toList ++ decStr v.toNat ++ ' ' :: ("(session: ".toList ++ decStr s.toNat ++ ')' :: (": serial: ".toList ++ decStr n.toNat ++ ',' ::
      (" refresh: ".toList ++ decStr refresh.toNat ++ ',' :: (" retry: ".toList ++ decStr retry.toNat ++ ',' :: (" expire: ".toList ++ decStr expire.toNat)))))
  | .cacheReset v => "PDU Cache Reset v".toList ++ decStr v.toNat
  | .routerKey .. => "PDU Router Key".toList
  | .errorReport v c copy _ => "PDU Error report v".toList ++ decStr v.toNat ++ ' ' :: ("(error code: ".toList ++ decStr c.toNat ++ ')' :: (": bytes PDU copy (".toList ++ decStr copy.length ++ ')' ::
      (": ".toList ++ hexBytes copy ++ '.' :: " Message: ".toList)))

/-- The text of an Error Report, which ends its `String` as it was received, lib/structs.go:476. -/
def Pdu.message : Pdu → Bytes
  | .errorReport _ _ _ msg => msg
  | _ => []

/-- `String` of the PDUs: lib/structs.go:121-123, 157-159, 191-193, 225-227, 262-264, 305-307, 350-353, 394-396, 431-433, 475-477. -/
def Pdu.text (p : Pdu) : Bytes := asciiBytes p.head ++ p.message

/-- `String` of a client, lib/server.go:684-686; `addr` is the text of its address. -/
def clientText (addr : Str) (c : Client) : Str := addr ++ " (v".toList ++ decStr c.version.toNat ++ ") / Serial: ".toList ++ decStr c.curserial.toNat

/-- What stayrtr logs about a received PDU, lib/server.go:790, at level debug. -/
def serverReceived (addr : Str) (c : Client) (p : Pdu) : Bytes := asciiBytes (clientText addr c ++ ": Received ".toList) ++ p.text

/-- What rtrmon logs about a received PDU other than a record, cmd/rtrmon/rtrmon.go:530, 557, 560, 562, 564, at level info. -/
def monReceived (id : Nat) (p : Pdu) : Bytes := asciiBytes (decStr id ++ ": Received: ".toList) ++ p.text

/-- What rtrdump logs about a received PDU, cmd/rtrdump/rtrdump.go:89, 101, 113, 119, 121, 123, at level debug. -/
def dumpReceived (p : Pdu) : Bytes := asciiBytes "Received: ".toList ++ p.text

/-- The characters of a string and the bytes at which none begins, `utf8.DecodeRuneInString` (used for lib/server.go:790). -/
def logRunes : Nat → Bytes → List (Char ⊕ U8)
  | _, [] => []
  | skip + 1, _ :: l => logRunes skip l
  | 0, b :: l => (if decodeRune b l = (runeError, 0) then .inr b else .inl (decodeRune b l).1) :: logRunes (decodeRune b l).2 l

/-- Hexadecimal digits, as many as asked for, `appendEscapedRune` of strconv (used for lib/server.go:790). -/
def hexFixed : Nat → Nat → Str
  | 0, _ => []
  | k + 1, n => Nat.digitChar (n / 16 ^ k % 16) :: hexFixed k n

/-- `appendEscapedRune` of strconv, for `%q` (used for lib/server.go:790); `isPrint` is `strconv.IsPrint` of characters outside ASCII. -/
def quoteRune (isPrint : Char → Bool) : Char ⊕ U8 → Str
  | .inr b => '\\' :: 'x' :: hexByte b
  | .inl c =>
    if c = '"' ∨ c = '\\' then ['\\', c]
    else if (if c.toNat < 0x80 then decide (0x20 ≤ c.toNat ∧ c.toNat ≤ 0x7e) else isPrint c) = true then [c]
    else if c = '\x07' then ['\\', 'a'] else if c = '\x08' then ['\\', 'b'] else if c = '\x0c' then ['\\', 'f'] else if c = '\n' then ['\\', 'n']
    else if c = '\r' then ['\\', 'r'] else if c = '\t' then ['\\', 't'] else if c = '\x0b' then ['\\', 'v']
    else if c.toNat < 0x80 then '\\' :: 'x' :: hexFixed 2 c.toNat
    else if c.toNat < 0x10000 then '\\' :: 'u' :: hexFixed 4 c.toNat
    else '\\' :: 'U' :: hexFixed 8 c.toNat

/-- A character that needs no quotes, `needsQuoting` of logrus (used for lib/server.go:790). -/
def plainRune : Char ⊕ U8 → Bool
  | .inr _ => false
  | .inl c => decide ('a'.toNat ≤ c.toNat ∧ c.toNat ≤ 'z'.toNat ∨ 'A'.toNat ≤ c.toNat ∧ c.toNat ≤ 'Z'.toNat ∨ '0'.toNat ≤ c.toNat ∧ c.toNat ≤ '9'.toNat) || c ∈ ['-', '.', '_', '/', '@', '^', '+']

/-- `appendValue` of logrus (used for lib/server.go:790): the value of a key, in quotes if it needs them. -/
def logValue (isPrint : Char → Bool) (b : Bytes) : Bytes :=
  if (logRunes 0 b).all plainRune then b else utf8Str ('"' :: ((logRunes 0 b).flatMap (quoteRune isPrint) ++ ['"']))

/-- The name of a level, `Level.String` of logrus (cmd/stayrtr/stayrtr.go:748). -/
def LogLevel.text : LogLevel → Str
  | .panic => "panic".toList
  | .fatal => "fatal".toList
  | .error => "error".toList
  | .warn => "warning".toList
  | .info => "info".toList
  | .debug => "debug".toList
  | .trace => "trace".toList

/-- `TextFormatter.Format` of logrus where the log is not a terminal (used for lib/server.go:790); `time` is the time as RFC 3339 says. -/
def logEntry (isPrint : Char → Bool) (time : Str) (level : LogLevel) (msg : Bytes) : Bytes :=
  asciiBytes "time=".toList ++ logValue isPrint (asciiBytes time) ++ asciiBytes " level=".toList ++ logValue isPrint (asciiBytes level.text) ++
  (if msg ≠ [] then asciiBytes " msg=".toList ++ logValue isPrint msg else []) ++ [10]

/-- The colour of a level, `printColored` of logrus (used for lib/server.go:790). -/
def LogLevel.colour : LogLevel → Nat
  | .debug | .trace => 37
  | .warn => 33
  | .error | .fatal | .panic => 31
  | .info => 36

/-- `strings.TrimSuffix(entry.Message, "\n")`, `printColored` of logrus (used for lib/server.go:790). -/
def trimLine (msg : Bytes) : Bytes := if msg.getLast? = some 10 then msg.dropLast else msg

/-- `%-44s` of fmt, which counts characters (used for lib/server.go:790). -/
def padRight (msg : Bytes) : Bytes := msg ++ List.replicate (44 - (logRunes 0 msg).length) 32

/-- What stands before the message on a terminal, `printColored` of logrus (used for lib/server.go:790): `seconds` since the start of the program, with at least four digits. -/
def colourHead (level : LogLevel) (seconds : Nat) : Bytes :=
  asciiBytes ('\x1b' :: '[' :: (decStr level.colour ++ 'm' :: (level.text.map Char.toUpper).take 4 ++ '\x1b' :: "[0m[".toList ++ List.replicate (4 - (decStr seconds).length) '0' ++ decStr seconds ++ "] ".toList))

/-- `TextFormatter.Format` of logrus on a terminal (used for lib/server.go:790). -/
def colourEntry (level : LogLevel) (seconds : Nat) (msg : Bytes) : Bytes := colourHead level seconds ++ padRight (trimLine msg) ++ [32, 10]

end StayRTR
