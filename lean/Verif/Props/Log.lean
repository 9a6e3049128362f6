import Verif.Proofs.Log
import Verif.Props.Wire

/-!
# C163: the log

What the three programs log about received PDUs, as the default formatter of logrus writes it. In a file every entry is one line and the entries can be read back, so that nobody who sends PDUs can write entries of their own. On a
terminal the text of an Error Report stands there as it was received, and this is false. The times are any texts of ASCII, and which characters outside ASCII can be printed is any function.
-/

namespace StayRTR
open Spec

/-- A time, a level and a message: what is logged (the arguments of the loggers, lib/server.go:790). -/
structure Spec.Said where
  time : Str
  level : LogLevel
  message : Bytes

/-- The log of what was said, in a file. -/
def Spec.logFile (isPrint : Char → Bool) (l : List Said) : Bytes := l.flatMap fun e => logEntry isPrint e.time e.level e.message

theorem level_text_inj {l l' : LogLevel} (h : l.text = l'.text) : l = l' := by
  cases l <;> cases l' <;> first | rfl | exact absurd h (by decide +kernel)

theorem level_ascii (l : LogLevel) : Ascii l.text := by cases l <;> decide +kernel

theorem entry_read (isPrint : Char → Bool) {t t' : Str} (ht : Ascii t) (ht' : Ascii t') {l l' : LogLevel} {m m' : Bytes} {s s' : Bytes}
    (h : logEntry isPrint t l m ++ s = logEntry isPrint t' l' m' ++ s') : t = t' ∧ l = l' ∧ m = m' ∧ s = s' := by
  have lv : asciiBytes " level=".toList = 32 :: asciiBytes "level=".toList := by decide +kernel
  have ms : asciiBytes " msg=".toList = 32 :: asciiBytes "msg=".toList := by decide +kernel
  unfold logEntry at h
  rw [lv, ms] at h
  simp only [List.append_assoc] at h
  obtain ⟨h1, -, h⟩ := logValue_sep isPrint (.inr rfl) (.inr rfl) (List.append_cancel_left h)
  replace h := List.append_cancel_left h
  have rest : ∀ (m s : Bytes), (if m ≠ [] then 32 :: asciiBytes "msg=".toList ++ logValue isPrint m else []) ++ ([10] ++ s) =
      (if m ≠ [] then 32 else 10) :: (if m ≠ [] then asciiBytes "msg=".toList ++ (logValue isPrint m ++ 10 :: s) else s) := by
    intro m s
    by_cases hm : m = []
    · simp [hm]
    · simp [hm]
  rw [rest, rest] at h
  have en : ∀ m : Bytes, Ends (if m ≠ [] then 32 else 10) := fun m => by
    by_cases hm : m = []
    · simp [hm, Ends]
    · simp [hm, Ends]
  obtain ⟨h2, h3, h⟩ := logValue_sep isPrint (en m) (en m') h
  refine ⟨asciiBytes_inj ht ht' h1, level_text_inj (asciiBytes_inj (level_ascii _) (level_ascii _) h2), ?_⟩
  by_cases hm : m = []
  · by_cases hm' : m' = []
    · simp only [hm, hm', ne_eq, not_true, if_false] at h
      exact ⟨by rw [hm, hm'], h⟩
    · simp [hm, hm'] at h3
  · by_cases hm' : m' = []
    · simp [hm, hm'] at h3
    · simp only [hm, hm', ne_eq, not_false_iff, if_true] at h
      obtain ⟨h4, -, h5⟩ := logValue_sep isPrint (.inl rfl) (.inl rfl) (List.append_cancel_left h)
      exact ⟨h4, h5⟩

/-- C163. An entry is one line. -/
theorem C163_line (isPrint : Char → Bool) (t : Str) (l : LogLevel) (m : Bytes) : OneLine (logEntry isPrint t l m) := by
  refine ⟨_, rfl, ?_⟩
  intro h
  have v := logValue_no_lf isPrint
  simp only [List.mem_append] at h
  rcases h with (((h | h) | h) | h) | h
  · exact absurd h (by decide +kernel)
  · exact v _ h
  · exact absurd h (by decide +kernel)
  · exact v _ h
  · by_cases hm : m = []
    · simp [hm] at h
    · rw [if_pos hm] at h
      rcases List.mem_append.mp h with h | h
      · exact absurd h (by decide +kernel)
      · exact v _ h

/-- C163. Nothing that is said can be read as something else: logs that are equal were written by the same calls, whatever the messages are. -/
theorem C163_read (isPrint : Char → Bool) : ∀ (l l' : List Said), (∀ e ∈ l, Ascii e.time) → (∀ e ∈ l', Ascii e.time) → logFile isPrint l = logFile isPrint l' → l = l'
  | [], [], _, _, _ => rfl
  | [], e :: l', _, _, h => by
    have := congrArg List.length h
    simp [logFile, logEntry] at this
  | e :: l, [], _, _, h => by
    have := congrArg List.length h
    simp [logFile, logEntry] at this
  | e :: l, e' :: l', he, he', h => by
    have h' : logEntry isPrint e.time e.level e.message ++ logFile isPrint l = logEntry isPrint e'.time e'.level e'.message ++ logFile isPrint l' := h
    obtain ⟨h1, h2, h3, h4⟩ := entry_read isPrint (he e (List.mem_cons_self ..)) (he' e' (List.mem_cons_self ..)) h'
    rw [C163_read isPrint l l' (fun x hx => he x (List.mem_cons_of_mem _ hx)) (fun x hx => he' x (List.mem_cons_of_mem _ hx)) h4]
    cases e; cases e'
    simp only at h1 h2 h3
    rw [h1, h2, h3]

/-- C163. The entries name the PDU: PDUs with the same entry are the same, in each of the programs, whatever the text of an Error Report. Router Keys and prefixes with impossible lengths are missing: `C163_key_false`. -/
theorem C163_pdu_partial (isPrint : Char → Bool) (t : Str) (ht : Ascii t) (l : LogLevel) {p q : Pdu} (hp : Named p) (hq : Named q) :
    (∀ (addr : Str) (c : Client), logEntry isPrint t l (serverReceived addr c p) = logEntry isPrint t l (serverReceived addr c q) → p = q) ∧
    (∀ i : Nat, logEntry isPrint t l (monReceived i p) = logEntry isPrint t l (monReceived i q) → p = q) ∧
    (logEntry isPrint t l (dumpReceived p) = logEntry isPrint t l (dumpReceived q) → p = q) := by
  have key : ∀ a : Bytes, logEntry isPrint t l (a ++ p.text) = logEntry isPrint t l (a ++ q.text) → p = q := by
    intro a h
    have := entry_read isPrint ht ht (s := []) (s' := []) (congrArg (· ++ []) h)
    exact text_inj hp hq (List.append_cancel_left this.2.2.1)
  exact ⟨fun _ _ => key _, fun _ => key _, key _⟩

theorem sep_first {x : Char} {a b s t : Str} (ha : x ∉ a) (hb : x ∉ b) (h : a ++ x :: s = b ++ x :: t) : a = b ∧ s = t := by
  induction a generalizing b with
  | nil =>
    cases b with
    | nil => exact ⟨rfl, (List.cons.inj h).2⟩
    | cons y b => exact absurd (by rw [(List.cons.inj h).1]; exact List.mem_cons_self) hb
  | cons y a ih =>
    cases b with
    | nil => exact absurd (by rw [← (List.cons.inj h).1]; exact List.mem_cons_self) ha
    | cons z b =>
      obtain ⟨h1, h2⟩ := List.cons.inj h
      obtain ⟨h3, h4⟩ := ih (fun hm => ha (List.mem_cons_of_mem _ hm)) (fun hm => hb (List.mem_cons_of_mem _ hm)) h2
      exact ⟨by rw [h1, h3], h4⟩

theorem ascii_lit_client : Ascii " (v".toList ∧ Ascii ") / Serial: ".toList ∧ Ascii ": Received ".toList ∧ Ascii ": Received: ".toList := by
  refine ⟨?_, ?_, ?_, ?_⟩ <;> unfold Ascii <;> decide +kernel

/-- **C163.** The entries also say from whom the PDU is: those of stayrtr with the address (which has no blanks), the version and the serial number of the connection, those of rtrmon with the number of the source. Router Keys and prefixes with impossible
lengths are missing as before. -/
theorem C163_from_partial (isPrint : Char → Bool) (t : Str) (ht : Ascii t) (l : LogLevel) {p q : Pdu} (hp : Named p) (hq : Named q) :
    (∀ (addr addr' : Str) (c c' : Client), Ascii addr → Ascii addr' → ' ' ∉ addr → ' ' ∉ addr' → logEntry isPrint t l (serverReceived addr c p) = logEntry isPrint t l (serverReceived addr' c' q) →
      addr = addr' ∧ c.version = c'.version ∧ c.curserial = c'.curserial ∧ p = q) ∧
    ∀ i j : Nat, logEntry isPrint t l (monReceived i p) = logEntry isPrint t l (monReceived j q) → i = j ∧ p = q := by
  obtain ⟨a1, a2, a3, a4⟩ := ascii_lit_client
  have app : ∀ {x y : Str}, Ascii x → Ascii y → Ascii (x ++ y) := fun hx hy c hc => (List.mem_append.1 hc).elim (hx c) (hy c)
  have back : ∀ {x y : Bytes}, x.map charOf = y.map charOf → x = y := fun h => List.map_injective_iff.2 (fun _ _ => charOf_inj) h
  refine ⟨fun addr addr' c c' ha ha' hb hb' h => ?_, fun i j h => ?_⟩
  · have h := (entry_read isPrint ht ht (s := []) (s' := []) (congrArg (· ++ []) h)).2.2.1
    unfold serverReceived at h
    have asc : ∀ {x : Str} (c : Client), Ascii x → Ascii (clientText x c ++ ": Received ".toList) := fun c hx => app (app (app (app (app hx a1) (ascii_dec _)) a2) (ascii_dec _)) a3
    have h := head_pref (asc c ha) (asc c' ha') h
    unfold clientText at h
    simp only [List.append_assoc] at h
    have e1 : " (v".toList = ' ' :: "(v".toList := by decide +kernel
    have e2 : ") / Serial: ".toList = ')' :: " / Serial: ".toList := by decide +kernel
    have e3 : ": Received ".toList = ':' :: " Received ".toList := by decide +kernel
    rw [e1, e2, e3] at h
    simp only [List.cons_append] at h
    obtain ⟨h1, h⟩ := sep_first hb hb' h
    have h := List.append_cancel_left h
    obtain ⟨h2, h⟩ := sep_first (not_mem_of_digits (decStr_digits _) (by decide)) (not_mem_of_digits (decStr_digits _) (by decide)) h
    have h := List.append_cancel_left h
    obtain ⟨h3, h⟩ := sep_first (not_mem_of_digits (decStr_digits _) (by decide)) (not_mem_of_digits (decStr_digits _) (by decide)) h
    have h := List.append_cancel_left h
    exact ⟨h1, BitVec.eq_of_toNat_eq (decStr_inj h2), BitVec.eq_of_toNat_eq (decStr_inj h3), text_inj hp hq (back h)⟩
  · have h := (entry_read isPrint ht ht (s := []) (s' := []) (congrArg (· ++ []) h)).2.2.1
    unfold monReceived at h
    have h := head_pref (app (ascii_dec i) a4) (app (ascii_dec j) a4) h
    have e3 : ": Received: ".toList = ':' :: " Received: ".toList := by decide +kernel
    rw [e3] at h
    simp only [List.append_assoc, List.cons_append] at h
    obtain ⟨h1, h⟩ := sep_first (not_mem_of_digits (decStr_digits _) (by decide)) (not_mem_of_digits (decStr_digits _) (by decide)) h
    exact ⟨decStr_inj h1, text_inj hp hq (back (List.append_cancel_left h))⟩

/-- C163 for all PDUs is false: the text of a Router Key says nothing about it, and all prefixes with impossible lengths are "invalid Prefix". -/
theorem C163_key_false : (∀ (v v' f f' : U8) (ski ski' : Bytes) (asn asn' : U32) (spki spki' : Bytes), (Pdu.routerKey v f ski asn spki).text = (Pdu.routerKey v' f' ski' asn' spki').text) ∧
    ∃ p q : Pdu, p ≠ q ∧ p.text = q.text ∧ (∃ b, decode b = .ok (p, [])) ∧ ∃ b, decode b = .ok (q, []) := by
  refine ⟨fun _ _ _ _ _ _ _ _ _ _ => rfl, ?_⟩
  refine ⟨.ipv4Prefix 1 1 ⟨.v4 0, 0⟩ 24 1, .ipv4Prefix 1 1 ⟨.v4 1, 0⟩ 24 1, by decide, by decide +kernel,
    ⟨[1, 4, 0, 0, 0, 0, 0, 20, 1, 33, 24, 0, 0, 0, 0, 0, 0, 0, 0, 1], by decide +kernel⟩, ⟨[1, 4, 0, 0, 0, 0, 0, 20, 1, 33, 24, 0, 0, 0, 0, 1, 0, 0, 0, 1], by decide +kernel⟩⟩

theorem mon_error (i : Nat) (v : U8) (c : U16) (cp m m' : Bytes) : monReceived i (.errorReport v c cp (m ++ m')) = monReceived i (.errorReport v c cp m) ++ m' := by
  unfold monReceived Pdu.text Pdu.message
  rw [List.append_assoc, List.append_assoc]
  rfl

theorem padRight_long {m : Bytes} (h : 176 ≤ m.length) : padRight m = m := by
  have := logRunes_length m
  unfold padRight
  rw [show 44 - (logRunes 0 m).length = 0 by omega]
  simp

theorem trimLine_nul (m : Bytes) : trimLine (m ++ [0]) = m ++ [0] := by
  unfold trimLine
  rw [List.getLast?_append]
  rfl

/-- C163 on a terminal is false: a server can write any entry into the log of rtrmon. One Error Report, which its wire format can carry, looks like one with the message `m` and an entry `f` of any level, at any time. (The entries
that rtrmon itself writes about Error Reports are of level info, which is the default, cmd/rtrmon/rtrmon.go:564, 110.) -/
theorem C163_terminal_false (i : Nat) (v : U8) (c : U16) (m f : Bytes) (hm : 176 ≤ m.length) (hf : 176 ≤ f.length) (forged : LogLevel) (secs secs' : Nat)
    (hs : 200 + (colourHead forged secs').length + m.length + f.length ≤ 262168) :
    ∃ b, decode b = .ok (.errorReport v c [] (m ++ [0] ++ [32, 10] ++ colourHead forged secs' ++ f ++ [0]), []) ∧
      colourEntry .info secs (monReceived i (.errorReport v c [] (m ++ [0] ++ [32, 10] ++ colourHead forged secs' ++ f ++ [0]))) =
        colourEntry .info secs (monReceived i (.errorReport v c [] (m ++ [0]))) ++ colourEntry forged secs' (f ++ [0]) := by
  have rep : Representable (.errorReport v c [] (m ++ [0] ++ [32, 10] ++ colourHead forged secs' ++ f)) := by
    show 17 + 0 + (m ++ [0] ++ [32, 10] ++ colourHead forged secs' ++ f).length ≤ 262168
    simp only [List.length_append, List.length_cons, List.length_nil]
    omega
  obtain ⟨b, -, hb⟩ := C02_decode_encode _ rep []
  have hne : m ++ [0] ++ [32, 10] ++ colourHead forged secs' ++ f ≠ [] := by simp
  rw [received, if_neg hne, List.append_nil] at hb
  refine ⟨b, hb, ?_⟩
  have nul : ∀ x : Bytes, 176 ≤ x.length → colourEntry .info secs (x ++ [0]) = colourHead .info secs ++ (x ++ [0]) ++ [32, 10] ∧ colourEntry forged secs' (x ++ [0]) = colourHead forged secs' ++ (x ++ [0]) ++ [32, 10] := by
    intro x hx
    unfold colourEntry
    rw [trimLine_nul, padRight_long (by rw [List.length_append]; omega)]
    exact ⟨rfl, rfl⟩
  have len : ∀ x : Bytes, x.length ≤ (monReceived i (.errorReport v c [] x)).length := by
    intro x
    unfold monReceived Pdu.text Pdu.message
    simp only [List.length_append]
    omega
  rw [mon_error, mon_error _ _ _ _ m, (nul _ (Nat.le_trans hm (len m))).1, (nul f hf).2, (nul _ (Nat.le_trans (by simp; omega) (len _))).1]
  simp only [mon_error, List.append_assoc]

/-- C163 on a terminal, what remains: the entry about a PDU without a line feed in its text is one line, and this holds of all that have no text. -/
theorem C163_terminal_partial (level : LogLevel) (secs i : Nat) {p : Pdu} (hp : Named p) (hm : (10 : U8) ∉ p.message) : OneLine (colourEntry level secs (monReceived i p)) ∧ OneLine (colourEntry level secs (dumpReceived p)) := by
  have pt : (10 : U8) ∉ p.text := fun h => (List.mem_append.mp h).elim (noLf_bytes (ascii_head hp) (noLf_head hp)) hm
  have hd : (10 : U8) ∉ colourHead level secs := by
    refine noLf_bytes ?_ ?_
    · repeat first
        | exact ascii_dec _
        | exact fun c hc => by rw [(List.mem_replicate.mp hc).2]; decide
        | decide
        | apply ascii_append
        | apply ascii_cons
        | (cases level <;> decide +kernel)
    · repeat first
        | exact noLf_dec _
        | exact fun hc => absurd (List.mem_replicate.mp hc).2 (by decide)
        | decide
        | apply noLf_append
        | apply noLf_cons
        | (cases level <;> decide +kernel)
  have key : ∀ a : Bytes, (10 : U8) ∉ a → OneLine (colourEntry level secs a) := by
    intro a ha
    refine ⟨colourHead level secs ++ padRight (trimLine a) ++ [32], by unfold colourEntry; simp, ?_⟩
    have ht : trimLine a = a := by
      unfold trimLine
      rw [if_neg (fun h => ha (List.mem_of_getLast? h))]
    rw [ht]
    intro h
    rcases List.mem_append.mp h with h | h
    · rcases List.mem_append.mp h with h | h
      · exact hd h
      · rcases List.mem_append.mp h with h | h
        · exact ha h
        · exact absurd (List.mem_replicate.mp h).2 (by decide)
    · exact absurd h (by decide)
  refine ⟨key _ fun h => ?_, key _ fun h => ?_⟩
  · rcases List.mem_append.mp h with h | h
    · exact noLf_bytes (ascii_append (ascii_dec i) (by decide +kernel)) (noLf_append (noLf_dec i) (by decide +kernel)) h
    · exact pt h
  · rcases List.mem_append.mp h with h | h
    · exact absurd h (by decide +kernel)
    · exact pt h

/-! ### Examples -/

/-- An Error Report with a line feed and quotes in its text, in a file. -/
example : logEntry (fun _ => true) "2026-11-17T20:00:00Z".toList .info (monReceived 1 (.errorReport 1 2 [] [97, 10, 34, 0x80, 0xC3, 0xA9])) =
    asciiBytes (["time=\"2026-11-17T20:00:00Z\" level=info ", "msg=\"1: Received: PDU Error report v1 ", "(error code: 2): bytes PDU copy (0): . ", "Message: a\\n\\\"\\x80"].flatMap String.toList) ++ [0xC3, 0xA9, 34, 10] := by
  decide +kernel

/-- A Serial Query in the log of stayrtr. -/
example (c : Client) (h : c.version = 1 ∧ c.curserial = 0) : serverReceived "192.0.2.1:1024".toList c (.serialQuery 1 7 9) =
    asciiBytes (["192.0.2.1:1024 (v1) / Serial: 0: Received", " PDU Serial Query v1 (session: 7)", ": serial: 9"].flatMap String.toList) := by
  unfold serverReceived clientText
  rw [h.1, h.2]
  decide +kernel

/-- An entry on a terminal. -/
example : colourEntry .warn 7 (asciiBytes "hi".toList) = asciiBytes ("\x1b[33mWARN\x1b[0m[0007] hi".toList ++ List.replicate 42 ' ' ++ " \n".toList) := by decide +kernel

/-- The hypotheses of `C163_terminal_false` can be met. -/
example : ∃ b p, decode b = .ok (p, []) ∧ colourEntry .info 5 (monReceived 1 p) =
    colourEntry .info 5 (monReceived 1 (.errorReport 1 0 [] (List.replicate 200 97 ++ [0]))) ++ colourEntry .fatal 5 (List.replicate 200 98 ++ [0]) := by
  obtain ⟨b, hb, h⟩ := C163_terminal_false 1 1 0 (List.replicate 200 97) (List.replicate 200 98) (by decide +kernel) (by decide +kernel) .fatal 5 5 (by decide +kernel)
  exact ⟨b, _, hb, h⟩

/-- An address as `C163_from_partial` has them. -/
example : Ascii "[2001:db8::1%eth0]:1024".toList ∧ ' ' ∉ "[2001:db8::1%eth0]:1024".toList := ⟨by unfold Ascii; decide +kernel, by decide +kernel⟩

example : Named (.ipv4Prefix 1 1 ⟨.v4 0x0A000000, 9⟩ 24 65000) := ⟨by decide, by decide⟩

end StayRTR
