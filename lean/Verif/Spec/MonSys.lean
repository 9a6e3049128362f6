import Verif.Model.MonSys
import Verif.Spec.Json

/-!
# What the monitor is meant to publish

The difference of what two sources show, and a JSON text that says it. Nothing of `Diff`, the comparator or the encoder is used.
-/

namespace StayRTR.Spec

/-- What a source shows: its map with the entries as they are now. -/
def shown (s : MonSys) (i : Bool) : MonMap := (s.src i).vrps.deref s.heap

/-- Nobody is in the middle of something: both sources have told their last update, and the comparator waits. -/
def Quiet (s : MonSys) : Prop := s.phase false = .idle ∧ s.phase true = .idle ∧ s.comp = .waiting

/-- The entry of that name is visible in `a` and there is no visible entry of that name in `b`. -/
def OnlyIn (a b : MonMap) (k : Str) (e : MonEntry) : Prop := a.get k = some e ∧ e.visible = true ∧ ∀ e', b.get k = some e' → e'.visible = false

/-- The metadata says where the source is from and what it has. -/
def MetaSays (m : DiffMeta) (c : MonSrc) : Prop :=
  m.url = c.path ∧ m.serial = c.serial ∧ m.sessionID = c.sessionID ∧ m.count = c.vrps.length ∧ m.rtrRefresh = c.rtrRefresh ∧ m.rtrRetry = c.rtrRetry ∧ m.rtrExpire = c.rtrExpire

/-- The entry is as before, or it was hidden and nothing else. -/
def SameOrHidden (x y : Str × MonEntry) : Prop := y = x ∨ y = (x.1, { x.2 with visible := false })

/-- The member of exactly that name. -/
def Given {α : Type} (o : List (Str × Json)) (name : String) (R : Json → α → Prop) (x : α) : Prop := ∃ j, (name.toList, j) ∈ o ∧ R j x

/-- An integer. -/
def NumIs (j : Json) (x : Int) : Prop := ∃ lit, j = .num lit ∧ IntText lit x

/-- A truth value. -/
def BoolIs (j : Json) (x : Bool) : Prop := j = .bool x

/-- No member of that name. -/
def NotGiven (o : List (Str × Json)) (name : String) : Prop := ∀ j, (name.toList, j) ∉ o

/-- A router key, in full. -/
def PageKey (j : Json) (k : BgpSecKeyJson) : Prop :=
  ∃ o, j = .obj o ∧ Given o "asn" NumIs k.asn.toNat ∧ (match k.expires with | none => NotGiven o "expires" | some t => Given o "expires" NumIs t) ∧
    (if k.ta = [] then NotGiven o "ta" else Given o "ta" TextIs k.ta) ∧ Given o "pubkey" BytesIs k.pubkey ∧ Given o "ski" TextIs k.ski

/-- An entry of a difference. -/
def PageEntry (j : Json) (e : MonEntry) : Prop :=
  ∃ o, j = .obj o ∧ Given o "asn" NumIs e.asn.toNat ∧ Given o "max-length" NumIs e.length.toNat ∧ Given o "prefix" TextIs e.pfx ∧ Given o "first-seen" NumIs e.firstSeen ∧
    Given o "last-seen" NumIs e.lastSeen ∧ Given o "visible" BoolIs e.visible ∧ (match e.bgpsec with | none => NotGiven o "bgpsec" | some k => Given o "bgpsec" PageKey k)

/-- The metadata of a source. -/
def PageMeta (j : Json) (m : DiffMeta) : Prop :=
  ∃ o, j = .obj o ∧ Given o "last-fetch" NumIs m.lastFetch ∧ Given o "url" TextIs m.url ∧ Given o "serial" NumIs m.serial.toNat ∧ Given o "session-id" NumIs m.sessionID.toNat ∧ Given o "count" NumIs m.count ∧
    Given o "rtr-refresh" NumIs m.rtrRefresh.toNat ∧ Given o "rtr-retry" NumIs m.rtrRetry.toNat ∧ Given o "rtr-expire" NumIs m.rtrExpire.toNat

/-- The metadata, or `null` before the first comparison. -/
def PageMetaPtr (j : Json) (m : Option DiffMeta) : Prop := (m = none ∧ j = .null) ∨ ∃ x, m = some x ∧ PageMeta j x

/-- An array that has the entries of a map, each once, in some order. -/
def PageList (j : Json) (m : MonMap) : Prop := ∃ js es, j = .arr js ∧ List.Forall₂ PageEntry js es ∧ es.Perm (m.map (·.2))

end StayRTR.Spec
