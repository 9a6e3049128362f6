import Verif.Model.SD

/-!
# Specification vocabulary for records

Independent of the hash keys and maps of the code: a record is what a router sees of it.
-/

namespace StayRTR

/-- What identifies a record (RFC 8210 section 5.6, 5.10): prefix, max length and ASN, or ASN, key identifier and key. -/
inductive Rec where
  | vrp (pfx : Prefix) (maxLen : U8) (asn : U32)
  | brk (asn : U32) (ski pubkey : Bytes)
  deriving DecidableEq, Repr

/-- The record a value stands for, without its flag. -/
def SD.record : SD → Rec
  | .vrp v => .vrp v.pfx v.maxLen v.asn
  | .brk k => .brk k.asn k.ski k.pubkey

/-- A VRP for a real prefix; any router key. -/
def SD.Valid : SD → Prop
  | .vrp v => v.pfx.WF ∧ v.pfx.isValid = true
  | .brk _ => True

instance SD.decValid (x : SD) : Decidable x.Valid := by cases x <;> unfold SD.Valid <;> infer_instance

/-- All records of a list are valid. -/
def AllValid (l : List SD) : Prop := ∀ x ∈ l, x.Valid

instance AllValid.dec (l : List SD) : Decidable (AllValid l) := by unfold AllValid; infer_instance

/-- The records of a list. -/
def records (l : List SD) : List Rec := l.map SD.record

/-- Two lists stand for the same set of records. -/
def SameSet (a b : List SD) : Prop := ∀ r, r ∈ records a ↔ r ∈ records b

/-- What a router does with one update (RFC 8210 section 5.6: flag 1 announces, flag 0 withdraws). -/
def routerStep (held : Rec → Prop) (x : SD) : Rec → Prop := fun r =>
  if x.record = r then x.getFlag = 1 else held r

/-- What a router holds after a list of updates. -/
def routerApply (held : Rec → Prop) (l : List SD) : Rec → Prop := l.foldl routerStep held

end StayRTR
