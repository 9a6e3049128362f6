import Verif.Spec.Session
import Verif.Spec.History

/-!
# A router

What a router does with the answers of a cache (RFC 8210, sections 5 and 8), and a router in contact with stayrtr over any time: the store changes, the router asks, connections are lost in the middle of an answer and made again.
-/

namespace StayRTR.Spec

/-- A router: what it holds, session and serial number of the last End of Data it got (unless it has to start over), and what it will hold at the end of the answer being received. -/
structure Router where
  held : List Rec
  synced : Option (U16 × U32)
  coming : Option (List Rec)
  deriving DecidableEq, Repr

namespace Router

/-- A router that has just started. -/
def new : Router := ⟨[], none, none⟩

/-- What it asks (RFC 8210, sections 8.1, 8.2). -/
def query (v : U8) (r : Router) : Pdu :=
  match r.synced with
  | none => .resetQuery v
  | some (s, n) => .serialQuery v s n

/-- An announcement or a withdrawal (RFC 8210, sections 5.6, 5.7, 5.10). -/
def note (p : Pdu) (l : List Rec) : List Rec :=
  match pduRecord p, pduFlag p with
  | some x, some f => if f = 1 then x :: l.filter (· ≠ x) else l.filter (· ≠ x)
  | _, _ => l

/-- One PDU of an answer. What was held counts until the End of Data; after a Reset Query the answer replaces it. A Cache Reset makes the router start over (section 8.3). Error Reports (no data, section 8.4) and notifications change nothing. -/
def receive (r : Router) (p : Pdu) : Router :=
  match p with
  | .cacheResponse .. => { r with coming := some (if r.synced.isSome then r.held else []) }
  | .endOfData _ s n _ _ _ => match r.coming with
    | some l => ⟨l, some (s, n), none⟩
    | none => r
  | .cacheReset .. => { r with synced := none }
  | p => { r with coming := r.coming.map (note p) }

/-- The connection is lost; what has arrived of an unfinished answer is thrown away. -/
def lost (r : Router) : Router := { r with coming := none }

end Router

/-- A router and stayrtr. `behind` counts the changes of the store since the last End of Data that the router got. -/
structure Contact where
  store : Store
  conn : Client
  router : Router
  behind : Nat
  deriving DecidableEq, Repr

/-- What happens. -/
inductive ContactEvent where
  /-- New data. -/
  | update (new : List SD)
  /-- The router asks. New data may come between the two reads of the store that the answer takes (`between`). Of the answer everything arrives, or only the first PDUs and then the connection is lost. -/
  | poll (between : List (List SD)) (arrives : Option Nat)
  deriving DecidableEq, Repr

namespace Contact

/-- The router connects to a server that has no data yet. -/
def start (k : Int) (c0 : Client) : Contact := ⟨Store.init k, c0, .new, 0⟩

/-- New data. -/
def update (s : Contact) (new : List SD) : Contact :=
  { s with store := (s.store.addData new).1, behind := if (s.store.addData new).2 then s.behind + 1 else s.behind }

/-- The bytes of a query. -/
def packet (p : Pdu) : Bytes :=
  match p.encode with
  | .ok b => b
  | _ => []

/-- Is it an End of Data? -/
def isEnd : Pdu → Bool
  | .endOfData .. => true
  | _ => false

/-- One event; `c0` is a new connection. -/
def step (srv : Server) (c0 : Client) (v : U8) (s : Contact) : ContactEvent → Contact
  | .update new => s.update new
  | .poll between arrives =>
    let s' := between.foldl update s
    match srv.processRead s.store s'.store s.conn (packet (s.router.query v)) with
    | .ok (c', e) =>
      let got := match arrives with
        | none => sent e
        | some n => (sent e).take n
      let r := got.foldl Router.receive s.router
      let b := if got.any isEnd then s'.behind - s.behind else s'.behind
      if arrives = none ∧ c'.connected = true then ⟨s'.store, c', r, b⟩ else ⟨s'.store, c0, r.lost, b⟩
    | _ => s'

/-- The states that come about by events that are `ok`. -/
inductive Run (srv : Server) (k : Int) (c0 : Client) (v : U8) (ok : Contact → ContactEvent → Prop) : Contact → Prop
  | start : Run srv k c0 v ok (start k c0)
  | step {s : Contact} (h : Run srv k c0 v ok s) (e : ContactEvent) (he : ok s e) : Run srv k c0 v ok (s.step srv c0 v e)

/-- Further events. -/
inductive Later (srv : Server) (c0 : Client) (v : U8) (ok : Contact → ContactEvent → Prop) (s0 : Contact) : Contact → Prop
  | here : Later srv c0 v ok s0 s0
  | step {s : Contact} (h : Later srv c0 v ok s0 s) (e : ContactEvent) (he : ok s e) : Later srv c0 v ok s0 (s.step srv c0 v e)

/-- Only real prefixes. -/
def Sane : ContactEvent → Prop
  | .update new => AllValid new
  | .poll between _ => ∀ new ∈ between, AllValid new

/-- The router keeps up: nothing is emptied while it holds data, no new data in the middle of an answer, and it asks before a second change, or only after more changes than are kept (`k`, if that is a number). -/
def Keeps (k : Int) (s : Contact) (e : ContactEvent) : Prop :=
  match e with
  | .update new => s.router.synced.isSome → (s.update new).store.current ≠ []
  | .poll between _ => between = [] ∧ (s.router.synced.isSome → s.behind ≤ 1 ∨ (0 < k ∧ k < s.behind ∧ s.behind < 2 ^ 32))

/-- The record `x` is always served, and the router asks before more changes than are kept (`k`, if that is a number) and before the serial number starts again. -/
def Asks (k : Int) (x : Rec) (s : Contact) (e : ContactEvent) : Prop :=
  match e with
  | .update new => x ∈ records new
  | .poll between _ => (∀ new ∈ between, x ∈ records new) ∧ (k ≤ 0 ∨ (between.foldl update s).behind ≤ k) ∧
      ∀ ss n, s.router.synced = some (ss, n) → n.toNat ≤ (between.foldl update s).store.serial.toNat

end Contact

/-- The records that a connection of version `v` carries: router keys from version 1 on, and only if enabled. -/
def wanted (v : U8) (keys : Bool) : Rec → Bool
  | .vrp .. => true
  | .brk .. => keys && v != 0

/-- The router holds exactly what is served. -/
def HoldsServed (v : U8) (keys : Bool) (l : List SD) (r : Router) : Prop := ∀ x, x ∈ r.held ↔ x ∈ records l ∧ wanted v keys x = true

end StayRTR.Spec
