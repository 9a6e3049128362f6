import Verif.Model.Hub

/-!
# Metrics of the server

`metricsEvent` (cmd/stayrtr/stayrtr.go:691-710): the counter `rtr_pdus` of received PDUs, and the gauge `rtr_clients` of connected clients. (`UpdateMetrics` is in Model/Update.lean.)
The counter is kept as the list of labels that were counted, in order.
-/

namespace StayRTR

/-- `TypeToString`, lib/structs.go:73-98. -/
def typeToString (t : U8) : Str :=
  if t = 0 then "Serial Notify".toList
  else if t = 1 then "Serial Query".toList
  else if t = 2 then "Reset Query".toList
  else if t = 3 then "Cache Response".toList
  else if t = 4 then "IPv4 Prefix".toList
  else if t = 6 then "IPv6 Prefix".toList
  else if t = 7 then "End of Data".toList
  else if t = 8 then "Cache Reset".toList
  else if t = 9 then "Router Key".toList
  else if t = 10 then "Error Report".toList
  else "Unknown type ".toList ++ decStr t.toNat

/-- The label of a PDU: `strings.ToLower(strings.Replace(.., " ", "_", -1))`, cmd/stayrtr/stayrtr.go:703-709; all characters are ASCII. -/
def pduLabel (t : U8) : Str := ((typeToString t).map (fun c => if c = ' ' then '_' else c)).map Char.toLower

namespace Server

/-- One read with what it counts: `HandlePDU` is called for every PDU that is decoded, lib/server.go:808-810, also after errors of version (461-467, 796-801). -/
def meteredRead (s : Server) (st1 st2 : Store) (c : Client) (pkt : Bytes) : GoRes (Client × List Effect × List Str) := do
  let (c', e) ← s.processRead st1 st2 c pkt
  return (c', e, if pkt = [] then [] else match decodeBytes pkt with
    | .ok dec => [pduLabel dec.getType]
    | _ => [])

/-- The read loop with what it counts, lib/server.go:765-813. -/
def meteredLoop (s : Server) (c : Client) : List (Store × Store × Bytes) → GoRes (Client × List Effect × List Str)
  | [] => .ok (c, [], [])
  | (st1, st2, pkt) :: rest =>
    if c.connected = false then .ok (c, [], []) else do
      let (c', e, l) ← s.meteredRead st1 st2 c pkt
      let (c'', e', l') ← meteredLoop s c' rest
      return (c'', e ++ e', l ++ l')

end Server

/-- The connections with the gauge `rtr_clients` for each local address, cmd/stayrtr/stayrtr.go:694-700. -/
structure MHub where
  hub : Hub
  gauge : Str → Int

namespace MHub

/-- `NewServer` with `metricsEvent` as handler, lib/server.go:192-216, cmd/stayrtr/stayrtr.go:770-776. -/
def init (max : Int) : MHub := ⟨Hub.init max, fun _ => 0⟩

/-- `ClientConnected` of the server and of the handler, lib/server.go:422-431, cmd/stayrtr/stayrtr.go:694-696. -/
def clientConnected (addr : Nat → Str) (h : MHub) (i : Nat) : MHub :=
  ⟨h.hub.clientConnected i, fun a => if a = addr i then h.gauge a + 1 else h.gauge a⟩

/-- `ClientDisconnected` of the server and of the handler, lib/server.go:433-448, cmd/stayrtr/stayrtr.go:698-700. -/
def clientDisconnected (addr : Nat → Str) (h : MHub) (i : Nat) : MHub :=
  ⟨h.hub.clientDisconnected i, fun a => if a = addr i then h.gauge a - 1 else h.gauge a⟩

/-- One event; `addr` gives the local address of each connection (lib/server.go:402-448, 489-604). -/
def step (addr : Nat → Str) (h : MHub) : HubEvent → MHub
  | .accept i => ⟨h.hub.step (.accept i), h.gauge⟩
  | .start i => if i ∈ h.hub.starting then
      let h' := h.clientConnected addr i
      ⟨{ h'.hub with starting := h.hub.starting.erase i }, h'.gauge⟩
    else h
  | .disconnect i => h.clientDisconnected addr i
  | .sshOpen => ⟨h.hub.step .sshOpen, h.gauge⟩
  | .sshClose => ⟨h.hub.step .sshClose, h.gauge⟩
  | .setMax m =>
    let h' := if h.hub.counter > m then (h.hub.clients.take (h.hub.counter - m).toNat).foldl (clientDisconnected addr) h else h
    ⟨{ h'.hub with max := m }, h'.gauge⟩

/-- A sequence of events (lib/server.go:402-448, 489-604). -/
def run (addr : Nat → Str) (h : MHub) (l : List HubEvent) : MHub := l.foldl (step addr) h

end MHub

end StayRTR
