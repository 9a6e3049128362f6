import Verif.Spec.Process
import Verif.Spec.Records
import Verif.Model.Update

/-!
# Specification of what a refresh should do
-/

namespace StayRTR.Spec

/-- Unix time, in seconds, of an instant in nanoseconds since 1970: whole seconds, rounded down. -/
def seconds (t : Int) : Int := t / 1000000000

/-- The records asked for at time `now` (seconds) by a list of VRPs and router keys. For a VRP this is `Serves` (`wanted_serves`), except that a number out of the range of ASNs
stands for what the machine makes of it (`C43_range_false`). -/
def Wanted (wide : WideFloat) (now : Int) (vs : List VRPJson) (ks : List BgpSecKeyJson) : Rec → Prop
  | .vrp p m a => ∃ v ∈ vs, PrefixText v.pfx p ∧ AsnReads wide v.asn a ∧ v.length = m ∧ 1 ≤ p.bits ∧ p.bits ≤ (m.toNat : Int) ∧ m.toNat ≤ p.ip.bitLen ∧
      ∀ e, v.expires = some e → now ≤ e
  | .brk a ski key => ∃ k ∈ ks, ServesKey now k (a, ski, key)

/-- The entries of a file after the local exceptions (C38-C42 say what these do). -/
def withExceptions (wide : WideFloat) (slurm : Option Slurm) (l : RPKIList) : List VRPJson × List BgpSecKeyJson :=
  match slurm with
  | none => (l.roas.getD [], l.keys.getD [])
  | some c => c.filterAssert wide (l.roas.getD []) (l.keys.getD [])

/-- The records asked for by a file with local exceptions. -/
def FileWants (wide : WideFloat) (now : Int) (slurm : Option Slurm) (l : RPKIList) : Rec → Prop :=
  Wanted wide now (withExceptions wide slurm l).1 (withExceptions wide slurm l).2

/-- The served set. -/
def Served (s : UState) (r : Rec) : Prop := r ∈ records s.store.current

/-- The time (nanoseconds) at which a file says it was built: `generated` if present, else the text. -/
inductive BuiltAt (e : Env) (l : RPKIList) : Int → Prop
  | generated (g : Int) (h : l.metadata.generated = some g) : BuiltAt e l (g * 1000000000)
  | text (b : Int) (h : l.metadata.generated = none) (hp : e.parseTime l.metadata.buildtime = some b) : BuiltAt e l b

/-- At `now` the file is known to be at most 24 hours old. -/
def Fresh (e : Env) (l : RPKIList) (now : Int) : Prop := ∃ b, BuiltAt e l b ∧ now ≤ b + 24 * 3600 * 1000000000

/-- What an attempt to fetch delivers, if anything. -/
def delivered (c : FetchConfig) (file : Str) (o : Outcome) : Option Bytes :=
  if (c.fetchFile file o).2.err = none then some (c.fetchFile file o).2.data else none

/-- A set of records has `n` elements. -/
def Card (P : Rec → Prop) (n : Nat) : Prop := ∃ l : List Rec, l.Nodup ∧ (∀ r, r ∈ l ↔ P r) ∧ l.length = n

/-- The states of the running program: the initial one, the one after the first load, and those after refreshes. -/
inductive Reached (e : Env) : UState → Prop
  | init (etags lastModified : Bool) : Reached e (UState.init etags lastModified)
  | startup (s : UState) (t : Times) (f : Fetched) (h : Reached e s) : Reached e (startup e t f s)
  | refresh (s : UState) (t : Times) (f : Fetched) (h : Reached e s) : Reached e (refresh e t f s)

end StayRTR.Spec
